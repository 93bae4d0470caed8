import Verif.Props.PerfectCna

/-! Atoms displaced by a small amount: helper lemmas for C98. -/

namespace Pyscal

open Spec (diagBox ofFrac latticeVec IsImage crystal InBox)

/-- Specification: `l'` holds the atoms of `l`, in order, each moved by at most `d` and otherwise unchanged. -/
def Spec.Displaced (d : ℝ) (l l' : List Atom) : Prop :=
  List.Forall₂ (fun a a' : Atom => a' = { a with pos := a'.pos } ∧ V3.norm (a'.pos - a.pos) ≤ d) l l'

/-- Specification: any two atoms are at most one and a half edges of the box apart along every axis. -/
def Spec.Spread (lx ly lz : ℝ) (l : List Atom) : Prop :=
  ∀ a ∈ l, ∀ a' ∈ l, |a'.pos.x - a.pos.x| ≤ 3 / 2 * lx ∧ |a'.pos.y - a.pos.y| ≤ 3 / 2 * ly ∧ |a'.pos.z - a.pos.z| ≤ 3 / 2 * lz

theorem norm_triangle (u v : V3) : V3.norm (u + v) ≤ V3.norm u + V3.norm v := by
  have hu := V3.norm_nonneg u
  have hv := V3.norm_nonneg v
  have su : V3.norm u * V3.norm u = V3.normSq u := V3.norm_sq _
  have sv : V3.norm v * V3.norm v = V3.normSq v := V3.norm_sq _
  have hcs : u.x * v.x + u.y * v.y + u.z * v.z ≤ V3.norm u * V3.norm v := by
    refine abs_le_of_sq_le_sq' ?_ (by positivity) |>.2
    have e : (V3.norm u * V3.norm v) ^ 2 = V3.normSq u * V3.normSq v := by rw [← su, ← sv]; ring
    rw [e]
    unfold V3.normSq
    nlinarith [sq_nonneg (u.x * v.y - u.y * v.x), sq_nonneg (u.x * v.z - u.z * v.x), sq_nonneg (u.y * v.z - u.z * v.y)]
  have : V3.norm (u + v) = Real.sqrt (V3.normSq (u + v)) := rfl
  rw [this, Real.sqrt_le_left (by positivity)]
  have e : V3.normSq (u + v) = V3.normSq u + 2 * (u.x * v.x + u.y * v.y + u.z * v.z) + V3.normSq v := by
    unfold V3.normSq; simp; ring
  rw [e, ← su, ← sv]
  nlinarith

/-- Two systems with the same orthogonal box, in which the stored atoms differ by at most `d`. -/
structure Shifted (s g : System) (d : ℝ) : Prop where
  len : g.atoms.length = s.atoms.length
  type : ∀ k, g.typeOf k = s.typeOf k
  close : ∀ k < s.atoms.length, V3.norm (g.posOf k - s.posOf k) ≤ d
  box : ∃ lx ly lz, 0 < lx ∧ 0 < ly ∧ 0 < lz ∧ s.box = diagBox lx ly lz ∧ g.box = diagBox lx ly lz ∧ s.triclinic = false ∧ g.triclinic = false ∧
    Spec.Spread lx ly lz s.atoms ∧ Spec.Spread lx ly lz g.atoms

theorem dist_le {s g : System} {lx ly lz d : ℝ} (hx : 0 < lx) (hy : 0 < ly) (hz : 0 < lz) (hs : s.box = diagBox lx ly lz) (hg : g.box = diagBox lx ly lz)
    (ts : s.triclinic = false) (tg : g.triclinic = false) (hc : Spec.Spread lx ly lz s.atoms) (hc' : Spec.Spread lx ly lz g.atoms) {i j : ℕ}
    (hi : i < s.atoms.length) (hj : j < s.atoms.length) (hlen : g.atoms.length = s.atoms.length) (di : V3.norm (g.posOf i - s.posOf i) ≤ d)
    (dj : V3.norm (g.posOf j - s.posOf j) ≤ d) : g.distOf j i ≤ s.distOf j i + 2 * d := by
  have e1 : s.distOf j i = V3.norm (s.image (s.posOf i - s.posOf j)) := rfl
  have e2 : g.distOf j i = V3.norm (g.image (g.posOf i - g.posOf j)) := rfl
  have ps : ∀ k, (hk : k < s.atoms.length) → s.posOf k = s.atoms[k].pos := fun k hk => by unfold System.posOf; rw [mem_eq_getElem _ _ hk]
  have pg : ∀ k, (hk : k < g.atoms.length) → g.posOf k = g.atoms[k].pos := fun k hk => by unfold System.posOf; rw [mem_eq_getElem _ _ hk]
  obtain ⟨b1, b2, b3⟩ := hc _ (List.getElem_mem hj) _ (List.getElem_mem hi)
  obtain ⟨c1, c2, c3⟩ := hc' _ (List.getElem_mem (hlen ▸ hj)) _ (List.getElem_mem (hlen ▸ hi))
  have h1 := image_diag_shortest s lx ly lz hx.le hy.le hz.le ts hs (s.posOf i - s.posOf j) (by rw [ps i hi, ps j hj]; exact b1)
    (by rw [ps i hi, ps j hj]; exact b2) (by rw [ps i hi, ps j hj]; exact b3)
  have h2 := image_diag_shortest g lx ly lz hx.le hy.le hz.le tg hg (g.posOf i - g.posOf j) (by rw [pg i (hlen ▸ hi), pg j (hlen ▸ hj)]; exact c1)
    (by rw [pg i (hlen ▸ hi), pg j (hlen ▸ hj)]; exact c2) (by rw [pg i (hlen ▸ hi), pg j (hlen ▸ hj)]; exact c3)
  obtain ⟨⟨n1, n2, n3, e⟩, -⟩ := h1
  have h3 := h2.2 (g.posOf i - g.posOf j + latticeVec g.box n1 n2 n3) ⟨n1, n2, n3, rfl⟩
  rw [e1, e2]
  refine h3.trans ?_
  have e3 : g.posOf i - g.posOf j + latticeVec g.box n1 n2 n3 = s.image (s.posOf i - s.posOf j) + ((g.posOf i - s.posOf i) + -(g.posOf j - s.posOf j)) := by
    rw [e, hs, hg]
    ext <;> simp <;> ring
  rw [e3]
  have t1 := norm_triangle (s.image (s.posOf i - s.posOf j)) ((g.posOf i - s.posOf i) + -(g.posOf j - s.posOf j))
  have t2 := norm_triangle (g.posOf i - s.posOf i) (-(g.posOf j - s.posOf j))
  rw [V3.norm_neg] at t2
  linarith

namespace Shifted

variable {s g : System} {d : ℝ}

/-- Distances change by at most `2 d`. -/
theorem dist (h : Shifted s g d) {i j : ℕ} (hi : i < s.atoms.length) (hj : j < s.atoms.length) : |g.distOf i j - s.distOf i j| ≤ 2 * d := by
  obtain ⟨lx, ly, lz, hx, hy, hz, hs, hg, ts, tg, hc, hc'⟩ := h.box
  have swap : ∀ k < s.atoms.length, V3.norm (s.posOf k - g.posOf k) ≤ d := by
    intro k hk
    have : s.posOf k - g.posOf k = -(g.posOf k - s.posOf k) := by ext <;> simp
    rw [this, V3.norm_neg]
    exact h.close k hk
  have h1 := dist_le hx hy hz hs hg ts tg hc hc' hj hi h.len (h.close j hj) (h.close i hi)
  have h2 := dist_le hx hy hz hg hs tg ts hc' hc (h.len ▸ hj) (h.len ▸ hi) h.len.symm (swap j hj) (swap i hi)
  rw [abs_le]
  constructor <;> linarith

/-- The same atoms are found up to two radii, if no atom lies in the gap. -/
theorem ball (h : Shifted s g d) {i f : ℕ} {r r' : ℝ}
    (hgap : ∀ j < s.atoms.length, j ≠ i → (s.distOf i j < r ↔ g.distOf i j < r')) : (cutoffNbs g r' f i).map Nb.idx = (cutoffNbs s r f i).map Nb.idx := by
  classical
  unfold cutoffNbs
  rw [List.map_map, List.map_map]
  have e1 : (Nb.idx ∘ g.mkNb i) = id := rfl
  have e2 : (Nb.idx ∘ s.mkNb i) = id := rfl
  rw [e1, e2, List.map_id, List.map_id, h.len]
  refine List.filter_congr fun j hj => ?_
  rw [decide_eq_decide]
  refine and_congr_right fun hne => ?_
  rw [h.type, h.type, hgap j (List.mem_range.1 hj) hne]

end Shifted

/-! ### Building the systems -/

/-- How many periodic copies in every direction are stored for `N` atoms. -/
def copies (N : ℕ) : ℕ := if N < 200 then padReps N else 0

theorem repNew_zero (b : Mat3) (g : Bool) (l : List Atom) : repNew b g 0 0 0 l = [] := by
  rw [← List.length_eq_zero_iff, repNew_length]
  have : (repCells 0 0 0).length = 0 := by decide
  rw [this, zero_mul]

/-- What is stored when real atoms are assigned to a system with an orthogonal box. -/
theorem stored_form {lx ly lz : ℝ} (hx : 0 < lx) (hy : 0 < ly) (hz : 0 < lz) {l : List Atom} (hne : l ≠ []) (hreal : ∀ a ∈ l, a.ghost = false) :
    ∃ s, buildSystem (diagBox lx ly lz) l = .ok s ∧ s.atoms = l ++ repNew (diagBox lx ly lz) true (copies l.length) (copies l.length) (copies l.length) l ∧
      s.box = diagBox ((2 * copies l.length + 1) * lx) ((2 * copies l.length + 1) * ly) ((2 * copies l.length + 1) * lz) ∧ s.triclinic = false ∧ s.usecells = false ∧
      s.realNop = l.length := by
  have hlen : 0 < l.length := List.length_pos_iff.2 hne
  unfold buildSystem
  rw [setBox_diag]
  simp only [bind, Except.bind]
  unfold System.assignAtoms copies
  by_cases h200 : l.length < 200
  · rw [if_pos h200, if_neg (by omega), if_pos h200]
    have hgb : ({ System.init with box := diagBox lx ly lz } : System).getBox = diagBox lx ly lz := rfl
    rw [hgb, if_neg (by simp [boxSum, diagBox]; positivity)]
    set n := padReps l.length with hn
    unfold System.repeatAtoms
    simp only [if_true, hgb]
    have hsc : scaleBox (diagBox lx ly lz) n n n = diagBox ((2 * n + 1) * lx) ((2 * n + 1) * ly) ((2 * n + 1) * lz) := by
      simp [scaleBox, diagBox, V3.ext_iff]
    rw [hsc, setBox_diag]
    refine ⟨_, rfl, rfl, rfl, rfl, rfl, ?_⟩
    show countReal _ = _
    rw [countReal_append, countReal_of_real hreal, countReal_of_ghost repNew_ghost, add_zero]
  · rw [if_neg h200, if_neg h200]
    refine ⟨_, rfl, ?_, ?_, rfl, rfl, countReal_of_real hreal⟩
    · show l = _
      rw [repNew_zero, List.append_nil]
    · show diagBox lx ly lz = _
      simp

/-- Position and type of a stored atom. -/
theorem stored_geo {b : Mat3} {m : ℕ} {l : List Atom} {s : System} (hs : s.atoms = l ++ repNew b true m m m l) (hn : 0 < l.length) {k : ℕ} (hk : k < s.atoms.length) :
    ∃ c ∈ padCells m, (padCells m)[k / l.length]? = some c ∧ s.posOf k = (l[k % l.length]'(Nat.mod_lt _ hn)).pos + latticeVec b c.1 c.2.1 c.2.2 ∧
      s.typeOf k = (l[k % l.length]'(Nat.mod_lt _ hn)).type := by
  obtain ⟨c, h1, h2, h3⟩ := padded_mem hs hn hk
  refine ⟨c, h1, h2, ?_, ?_⟩
  · refine (congrArg Prod.fst h3).trans ?_
    simp only [geo, repAtom, latticeVec]
    ext <;> simp <;> ring
  · exact congrArg Prod.snd h3

/-- The stored atoms are spread no more than the given ones. -/
theorem stored_spread {lx ly lz : ℝ} (hx : 0 < lx) (hy : 0 < ly) (hz : 0 < lz) {m : ℕ} {l : List Atom} {s : System}
    (hs : s.atoms = l ++ repNew (diagBox lx ly lz) true m m m l) (hn : 0 < l.length) (hc : Spec.Spread lx ly lz l) :
    Spec.Spread ((2 * m + 1) * lx) ((2 * m + 1) * ly) ((2 * m + 1) * lz) s.atoms := by
  intro a ha a' ha'
  obtain ⟨k, hk, rfl⟩ := List.getElem_of_mem ha
  obtain ⟨k', hk', rfl⟩ := List.getElem_of_mem ha'
  obtain ⟨c, hcm, -, e, -⟩ := stored_geo hs hn hk
  obtain ⟨c', hcm', -, e', -⟩ := stored_geo hs hn hk'
  have p : s.posOf k = s.atoms[k].pos := by unfold System.posOf; rw [mem_eq_getElem _ _ hk]
  have p' : s.posOf k' = s.atoms[k'].pos := by unfold System.posOf; rw [mem_eq_getElem _ _ hk']
  rw [p] at e
  rw [p'] at e'
  obtain ⟨b1, b2, b3⟩ := hc _ (List.getElem_mem (Nat.mod_lt k hn)) _ (List.getElem_mem (Nat.mod_lt k' hn))
  obtain ⟨⟨q1, q2⟩, ⟨q3, q4⟩, q5, q6⟩ := mem_padCells.1 hcm
  obtain ⟨⟨r1, r2⟩, ⟨r3, r4⟩, r5, r6⟩ := mem_padCells.1 hcm'
  have key : ∀ (L x y : ℝ) (u v : ℤ), 0 < L → |y - x| ≤ 3 / 2 * L → -(m : ℤ) ≤ u → u ≤ m → -(m : ℤ) ≤ v → v ≤ m → |(y + v * L) - (x + u * L)| ≤ 3 / 2 * ((2 * m + 1) * L) := by
    intro L x y u v hL h1 h2 h3 h4 h5
    have h2' : -(m : ℝ) ≤ u := by exact_mod_cast h2
    have h3' : (u : ℝ) ≤ m := by exact_mod_cast h3
    have h4' : -(m : ℝ) ≤ v := by exact_mod_cast h4
    have h5' : (v : ℝ) ≤ m := by exact_mod_cast h5
    have hm : (0 : ℝ) ≤ m := Nat.cast_nonneg m
    rw [abs_le] at h1 ⊢
    have : 0 ≤ (m : ℝ) * L := by positivity
    constructor <;> nlinarith
  rw [e, e']
  refine ⟨?_, ?_, ?_⟩
  · simpa [latticeVec, diagBox] using key lx _ _ c.1 c'.1 hx b1 q1 q2 r1 r2
  · simpa [latticeVec, diagBox] using key ly _ _ c.2.1 c'.2.1 hy b2 q3 q4 r3 r4
  · simpa [latticeVec, diagBox] using key lz _ _ c.2.2 c'.2.2 hz b3 q5 q6 r5 r6

/-- Two systems built from atoms that differ by at most `d`. -/
theorem shifted_build {lx ly lz d : ℝ} (hx : 0 < lx) (hy : 0 < ly) (hz : 0 < lz) {l l' : List Atom} (hne : l ≠ []) (hreal : ∀ a ∈ l, a.ghost = false)
    (hd : Spec.Displaced d l l') (hc : Spec.Spread lx ly lz l) (hc' : Spec.Spread lx ly lz l') {s g : System} (hs : buildSystem (diagBox lx ly lz) l = .ok s)
    (hg : buildSystem (diagBox lx ly lz) l' = .ok g) : Shifted s g d := by
  have hlen : l'.length = l.length := hd.length_eq.symm
  have hpt : ∀ k (hk : k < l.length), (l'[k]'(hlen ▸ hk)).type = l[k].type ∧ (l'[k]'(hlen ▸ hk)).ghost = l[k].ghost ∧ V3.norm ((l'[k]'(hlen ▸ hk)).pos - l[k].pos) ≤ d := by
    intro k hk
    obtain ⟨h1, h2⟩ := List.forall₂_iff_get.1 hd |>.2 k hk (hlen ▸ hk)
    simp only [List.get_eq_getElem] at h1 h2
    exact ⟨by rw [h1], by rw [h1], h2⟩
  have hne' : l' ≠ [] := by
    intro h
    rw [h, List.length_nil] at hlen
    exact hne (List.length_eq_zero_iff.1 hlen.symm)
  have hreal' : ∀ a ∈ l', a.ghost = false := by
    intro a ha
    obtain ⟨k, hk, rfl⟩ := List.getElem_of_mem ha
    rw [(hpt k (hlen ▸ hk)).2.1]
    exact hreal _ (List.getElem_mem _)
  have hn : 0 < l.length := List.length_pos_iff.2 hne
  obtain ⟨s', h1, a1, b1, t1, -⟩ := stored_form hx hy hz hne hreal
  obtain ⟨g', h2, a2, b2, t2, -⟩ := stored_form hx hy hz hne' hreal'
  rw [hs] at h1
  rw [hg] at h2
  cases h1
  cases h2
  have hlen2 : g.atoms.length = s.atoms.length := by
    rw [a1, a2, List.length_append, List.length_append, repNew_length, repNew_length, hlen]
  have hgeo : ∀ k < s.atoms.length, g.typeOf k = s.typeOf k ∧ V3.norm (g.posOf k - s.posOf k) ≤ d := by
    intro k hk
    obtain ⟨c, -, e1, e2, e3⟩ := stored_geo a1 hn hk
    obtain ⟨c', -, e1', e2', e3'⟩ := stored_geo a2 (hlen ▸ hn) (hlen2 ▸ hk)
    simp only [hlen] at e1' e2' e3'
    rw [e1] at e1'
    obtain rfl := Option.some.inj e1'
    obtain ⟨p1, -, p3⟩ := hpt (k % l.length) (Nat.mod_lt _ hn)
    refine ⟨by rw [e3, e3', p1], ?_⟩
    rw [e2, e2']
    convert p3 using 2
    ext <;> simp
  refine ⟨hlen2, fun k => ?_, fun k hk => (hgeo k hk).2, ?_⟩
  · by_cases hk : k < s.atoms.length
    · exact (hgeo k hk).1
    · unfold System.typeOf System.mem
      simp only [List.getD_eq_getElem?_getD]
      rw [List.getElem?_eq_none (not_lt.1 hk), List.getElem?_eq_none (hlen2 ▸ not_lt.1 hk)]
  · rw [hlen] at a2 b2
    have sg := stored_spread hx hy hz a2 (hlen ▸ hn) hc'
    exact ⟨_, _, _, by positivity, by positivity, by positivity, b1, b2, t1, t2, stored_spread hx hy hz a1 hn hc, sg⟩

theorem repNew_temp {b : Mat3} {g : Bool} {n1 n2 n3 : ℕ} {l : List Atom} : ∀ a ∈ repNew b g n1 n2 n3 l, a.temp = [] := by
  intro a h
  unfold repNew at h
  rw [List.mem_mapIdx] at h
  obtain ⟨i, hi, rfl⟩ := h
  have := List.getElem_mem hi
  rw [List.mem_flatMap] at this
  obtain ⟨c, -, hc⟩ := this
  obtain ⟨b, -, hb⟩ := List.mem_map.1 hc
  rw [← hb]
  rfl

/-! ### Lists of nearest atoms -/

section
variable {s g : System} {d : ℝ}

theorem cutoffNbs_idx (s : System) (r : ℝ) (f i : ℕ) : cutoffNbs s r f i = ((cutoffNbs s r f i).map Nb.idx).map (s.mkNb i) := by
  unfold cutoffNbs
  rw [List.map_map (f := s.mkNb i) (g := Nb.idx)]
  have : (Nb.idx ∘ s.mkNb i) = id := rfl
  rw [this, List.map_id]

/-- The nearest atoms up to a gap are the same. -/
theorem nearest_same (h : Shifted s g d) {i n : ℕ} {x : Atom} (hi : g.atoms[i]? = some x) {N : List Nb} (hN : Spec.NearestList g i x n N) {lo hi' : ℝ}
    (hgap : ∀ y ∈ cutoffNbs s hi' 0 i, y.dist ≤ lo) (hlt : lo + 4 * d < hi') {m : ℕ} (hm : (cutoffNbs s hi' 0 i).length = m) (hmn : m ≤ n) :
    ((N.take m).map fun y => s.mkNb i y.idx).Perm (cutoffNbs s hi' 0 i) := by
  classical
  have hil : i < s.atoms.length := by rw [← h.len]; exact (List.getElem?_eq_some_iff.1 hi).1
  have hgap' : ∀ j < s.atoms.length, j ≠ i → s.distOf i j < hi' → s.distOf i j ≤ lo := by
    intro j hj hne hd
    refine hgap (s.mkNb i j) ?_
    unfold cutoffNbs
    exact List.mem_map.2 ⟨j, List.mem_filter.2 ⟨List.mem_range.2 hj, decide_eq_true ⟨hne, hd, rfl⟩⟩, rfl⟩
  have hball := h.ball (i := i) (f := 0) (r := hi') (r' := hi' - 2 * d) (by
    intro j hj hne
    have hb := abs_le.1 (h.dist hil hj)
    constructor
    · intro hd
      have := hgap' j hj hne hd
      linarith
    · intro hd
      linarith)
  have hfil : (cutoffNbs g (hi' - 2 * d) 0 i).filter (fun y => decide (y.dist ≤ lo + 2 * d)) = cutoffNbs g (hi' - 2 * d) 0 i := by
    refine List.filter_eq_self.2 fun y hy => decide_eq_true ?_
    obtain ⟨hg, hd⟩ := (mem_ball hi).1 hy
    obtain ⟨e, hl, hne⟩ := goodEntry_eq hi hg
    rw [h.len] at hl
    have e' : y.dist = g.distOf i y.idx := congrArg Nb.dist e
    have hb := abs_le.1 (h.dist hil hl)
    rw [e'] at hd ⊢
    have := hgap' _ hl hne (by linarith)
    linarith
  have hlen : (cutoffNbs g (hi' - 2 * d) 0 i).length = m := by
    have := congrArg List.length hball
    rw [List.length_map, List.length_map] at this
    rw [this, hm]
  have hp := nearest_take hN hi (ρ := hi' - 2 * d) (d := lo + 2 * d) (by linarith) (m := m) (by rw [hfil, hlen]) hmn
  rw [hfil] at hp
  have := (hp.map Nb.idx).map (s.mkNb i)
  rw [hball, ← cutoffNbs_idx, List.map_map] at this
  exact this

/-- The distance of a listed atom and its distance in the other system. -/
theorem entry_dist (h : Shifted s g d) {i : ℕ} {x : Atom} (hi : g.atoms[i]? = some x) {y : Nb} (hy : Spec.GoodEntry g i x y) : |y.dist - (s.mkNb i y.idx).dist| ≤ 2 * d := by
  obtain ⟨e, hl, -⟩ := goodEntry_eq hi hy
  have e' : y.dist = g.distOf i y.idx := congrArg Nb.dist e
  rw [e']
  exact h.dist (by rw [← h.len]; exact (List.getElem?_eq_some_iff.1 hi).1) (by rw [← h.len]; exact hl)

theorem sum_close {l : List Nb} {f : Nb → ℝ} {e : ℝ} (h : ∀ y ∈ l, |y.dist - f y| ≤ e) : |(l.map Nb.dist).sum - (l.map f).sum| ≤ l.length * e := by
  induction l with
  | nil => simp
  | cons y l ih =>
    have h1 := abs_le.1 (h y (by simp))
    have h2 := abs_le.1 (ih fun z hz => h z (by simp [hz]))
    simp only [List.map_cons, List.sum_cons, List.length_cons]
    push_cast
    rw [abs_le]
    constructor <;> linarith

theorem within_iff (s : System) (c : ℝ) {p q : ℕ} (hp : p < s.atoms.length) (hq : q < s.atoms.length) : Spec.Within s c p q ↔ s.distOf q p ≤ c := by
  have e := (distOf_eq (s := s) (List.getElem?_eq_getElem hq) (List.getElem?_eq_getElem hp)).1
  constructor
  · rintro ⟨p', q', hp', hq', h⟩
    rw [List.getElem?_eq_getElem hp] at hp'
    rw [List.getElem?_eq_getElem hq] at hq'
    cases hp'; cases hq'
    rwa [e]
  · intro h
    rw [e] at h
    exact ⟨_, _, List.getElem?_eq_getElem hp, List.getElem?_eq_getElem hq, h⟩

/-- Two atoms are within a cutoff before and after, when their distance is not near it. -/
theorem within_same (h : Shifted s g d) {p q : ℕ} (hp : p < s.atoms.length) (hq : q < s.atoms.length) {lo hi c c' : ℝ} (hpq : s.distOf q p ≤ lo ∨ hi ≤ s.distOf q p)
    (h1 : lo + 2 * d ≤ c) (h2 : c + 2 * d < hi) (h3 : lo ≤ c') (h4 : c' < hi) : Spec.Within g c p q ↔ Spec.Within s c' p q := by
  rw [within_iff s c' hp hq, within_iff g c (h.len ▸ hp) (h.len ▸ hq)]
  have hb := abs_le.1 (h.dist hq hp)
  rcases hpq with e | e <;> constructor <;> intro e' <;> linarith

/-- The distance of two neighbours of an atom. -/
theorem pair_dist {i : ℕ} {a : Atom} {r : ℝ} (hF : Spec.Faithful s r) (hi : s.atoms[i]? = some a) {x y : Nb} (hx : Spec.GoodEntry s i a x) (hy : Spec.GoodEntry s i a y)
    (hr : V3.norm (x.vec - y.vec) < r) : s.distOf y.idx x.idx = V3.norm (x.vec - y.vec) := by
  have hxl := (goodEntry_eq hi hx).2.1
  have hyl := (goodEntry_eq hi hy).2.1
  have key := fun c => (within_iff s c hxl hyl).symm.trans (within_vec hF hi hx hy (c := c) hr)
  exact le_antisymm ((key _).2 le_rfl) ((key _).1 le_rfl)
end

/-! ### Signatures -/

theorem common_pos_congr {R R' : ℕ → ℕ → Prop} {nb : List ℕ} (h : ∀ i < nb.length, ∀ j < nb.length, i ≠ j → (R (nb.getD i 0) (nb.getD j 0) ↔ R' (nb.getD i 0) (nb.getD j 0)))
    {k : ℕ} (hk : k < nb.length) : Spec.commonWith R nb k = Spec.commonWith R' nb k := by
  classical
  unfold Spec.commonWith
  refine Finset.filter_congr fun j hj => ?_
  exact and_congr_right fun hne => h k hk j (Finset.mem_range.1 hj) (Ne.symm hne)

theorem sig_pos_congr {R R' : ℕ → ℕ → Prop} {nb : List ℕ} (h : ∀ i < nb.length, ∀ j < nb.length, i ≠ j → (R (nb.getD i 0) (nb.getD j 0) ↔ R' (nb.getD i 0) (nb.getD j 0)))
    {k : ℕ} (hk : k < nb.length) {x : ℕ × ℕ × ℕ × ℕ} (hx : Spec.IsSignature R nb k x) : Spec.IsSignature R' nb k x := by
  classical
  have e := common_pos_congr h hk
  have hlt : ∀ j ∈ Spec.commonWith R nb k, j < nb.length := fun j hj => mem_commonWith_lt hj
  have e1 : ∀ j ∈ Spec.commonWith R nb k, Spec.bondsOf R nb k j = Spec.bondsOf R' nb k j := by
    intro j hj
    unfold Spec.bondsOf
    rw [← e]
    congr 1
    refine Finset.filter_congr fun m hm => ?_
    exact and_congr_right fun hne => h j (hlt j hj) m (hlt m hm) (Ne.symm hne)
  have e2 : Spec.bondPairs R nb k = Spec.bondPairs R' nb k := by
    unfold Spec.bondPairs
    rw [← e]
    congr 1
    refine Finset.filter_congr fun p hp => ?_
    obtain ⟨h1, h2⟩ := Finset.mem_product.1 hp
    exact and_congr_right fun hlt' => h _ (hlt _ h1) _ (hlt _ h2) hlt'.ne
  have e3 : {n | ∃ j ∈ Spec.commonWith R nb k, n = Spec.bondsOf R nb k j} = {n | ∃ j ∈ Spec.commonWith R' nb k, n = Spec.bondsOf R' nb k j} := by
    ext n
    simp only [Set.mem_ofPred_eq]
    rw [← e]
    constructor
    · rintro ⟨j, hj, rfl⟩; exact ⟨j, hj, e1 j hj⟩
    · rintro ⟨j, hj, rfl⟩; exact ⟨j, hj, (e1 j hj).symm⟩
  unfold Spec.IsSignature at hx ⊢
  rw [← e3, ← e2, ← e]
  exact hx

/-- Signatures of the same atoms in two systems. -/
theorem signatures_transfer {s g : System} {c c' : ℝ} {N P : List Nb} (hidx : P.map Nb.idx = N.map Nb.idx) (hnd : (N.map Nb.idx).Nodup)
    (hw : ∀ p ∈ N.map Nb.idx, ∀ q ∈ N.map Nb.idx, p ≠ q → (Spec.Within g c p q ↔ Spec.Within s c' p q)) {sig : List (ℕ × ℕ × ℕ × ℕ)} (h : Spec.Signatures g c N sig) :
    Spec.Signatures s c' P sig := by
  have hl : P.length = N.length := by
    have := congrArg List.length hidx
    rwa [List.length_map, List.length_map] at this
  have hR : ∀ i < (N.map Nb.idx).length, ∀ j < (N.map Nb.idx).length, i ≠ j →
      (Spec.Within g c ((N.map Nb.idx).getD i 0) ((N.map Nb.idx).getD j 0) ↔ Spec.Within s c' ((N.map Nb.idx).getD i 0) ((N.map Nb.idx).getD j 0)) := by
    intro i hi j hj hij
    have g1 : (N.map Nb.idx).getD i 0 = (N.map Nb.idx)[i] := by rw [List.getD_eq_getElem?_getD, List.getElem?_eq_getElem hi]; rfl
    have g2 : (N.map Nb.idx).getD j 0 = (N.map Nb.idx)[j] := by rw [List.getD_eq_getElem?_getD, List.getElem?_eq_getElem hj]; rfl
    rw [g1, g2]
    exact hw _ (List.getElem_mem _) _ (List.getElem_mem _) fun e => hij (hnd.getElem_inj_iff.1 e)
  refine ⟨h.1.trans hl.symm, fun k x hk => ?_⟩
  rw [hidx]
  have hkl : k < (N.map Nb.idx).length := by
    rw [List.length_map, ← h.1]; exact (List.getElem?_eq_some_iff.1 hk).1
  rcases h.2 k x hk with q | ⟨q1, q2⟩ | ⟨n, q1, q2⟩
  · exact .inl (sig_pos_congr hR hkl q)
  · exact .inr (.inl ⟨by rw [← common_pos_congr hR hkl]; exact q1, q2⟩)
  · exact .inr (.inr ⟨n, sig_pos_congr hR hkl q1, q2⟩)

end Pyscal
