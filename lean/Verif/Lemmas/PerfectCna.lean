import Verif.Lemmas.ShellSig
import Verif.Props.Perfect
import Verif.Props.Cna

/-! Nearest neighbours and signatures in perfect crystals: helper lemmas for C96. -/

namespace Pyscal

open Spec (diagBox ofFrac latticeVec IsImage FracBound crystal cross volume InBox)

/-- Specification: how much longer than the given ones the edges of the stored box are at least, for `N` atoms. -/
def Spec.stretch (N : ℕ) : ℝ := if N < 8 then 5 else if N < 200 then 3 else 1

/-- Specification: `r` is at most half of every edge of the box in which `N` atoms are stored. -/
def Spec.HalfFits (N : ℕ) (lx ly lz r : ℝ) : Prop := 2 * r ≤ Spec.stretch N * lx ∧ 2 * r ≤ Spec.stretch N * ly ∧ 2 * r ≤ Spec.stretch N * lz

/-- What is stored when atoms inside an orthogonal box are assigned. -/
theorem inBox_stored {lx ly lz : ℝ} (hx : 0 < lx) (hy : 0 < ly) (hz : 0 < lz) {l : List Atom} (hne : l ≠ []) (hreal : ∀ a ∈ l, a.ghost = false)
    (hin : ∀ a ∈ l, InBox lx ly lz a.pos) (hnd : (l.map Atom.pos).Nodup) (htemp : ∀ a ∈ l, a.temp = []) {r : ℝ} (hfit : Spec.HalfFits l.length lx ly lz r) :
    ∃ s, buildSystem (diagBox lx ly lz) l = .ok s ∧ Spec.Faithful s r ∧ s.realNop = l.length ∧ s.realNop ≤ s.atoms.length ∧
      crystal s.box s.atoms = crystal (diagBox lx ly lz) l ∧ (∀ a ∈ s.atoms, a.temp = []) ∧ s.usecells = false ∧
      Spec.searchVolume s / s.atoms.length = lx * ly * lz / l.length ∧ (200 ≤ l.length → s.box = diagBox lx ly lz ∧ s.triclinic = false ∧ s.atoms = l) := by
  obtain ⟨hc, hd⟩ := inBox_props hx hy hz hin hnd
  have hlen : 0 < l.length := List.length_pos_iff.2 hne
  have hb : Spec.Skew (diagBox lx ly lz) ∨ ∃ lx' ly' lz', 0 < lx' ∧ 0 < ly' ∧ 0 < lz' ∧ diagBox lx ly lz = diagBox lx' ly' lz' :=
    .inr ⟨lx, ly, lz, hx, hy, hz, rfl⟩
  have edge : ∀ L : ℝ, 0 < L → (⟨L, 0, 0⟩ : V3).norm = L ∧ (⟨0, L, 0⟩ : V3).norm = L ∧ (⟨0, 0, L⟩ : V3).norm = L := by
    intro L hL
    refine ⟨?_, ?_, ?_⟩ <;> unfold V3.norm <;> rw [Real.sqrt_eq_iff_mul_self_eq_of_pos hL] <;> simp [V3.normSq]
  have hvol : ∀ {s : System} {a b c : ℝ}, s.box = diagBox a b c → s.triclinic = false → 0 < a → 0 < b → 0 < c → Spec.searchVolume s = a * b * c := by
    intro s a b c h1 h2 ha hb hc
    unfold Spec.searchVolume
    rw [if_neg (by rw [h2]; simp), h1]
    simp only [diagBox]
    rw [(edge a ha).1, (edge b hb).2.1, (edge c hc).2.2]
  obtain ⟨f1, f2, f3⟩ := hfit
  have hok : ∃ s, buildSystem (diagBox lx ly lz) l = .ok s ∧ Spec.HalfHeights s.box r ∧ (∀ a ∈ s.atoms, a.temp = []) ∧ s.usecells = false ∧
      Spec.searchVolume s / s.atoms.length = lx * ly * lz / l.length ∧ (200 ≤ l.length → s.box = diagBox lx ly lz ∧ s.triclinic = false ∧ s.atoms = l) := by
    unfold buildSystem
    rw [setBox_diag]
    simp only [bind, Except.bind]
    unfold System.assignAtoms
    by_cases h200 : l.length < 200
    · rw [if_pos h200, if_neg (by omega)]
      have hgb : ({ System.init with box := diagBox lx ly lz } : System).getBox = diagBox lx ly lz := rfl
      rw [hgb, if_neg (by simp [boxSum, diagBox]; positivity)]
      have htot := padReps_total hlen h200
      set n := padReps l.length with hn
      unfold System.repeatAtoms
      simp only [if_true, hgb]
      have hsc : scaleBox (diagBox lx ly lz) n n n = diagBox ((2 * n + 1) * lx) ((2 * n + 1) * ly) ((2 * n + 1) * lz) := by
        simp [scaleBox, diagBox, V3.ext_iff]
      rw [hsc, setBox_diag]
      have hst : Spec.stretch l.length ≤ 2 * n + 1 := by
        unfold Spec.stretch
        have hn1 : 1 ≤ n := by
          rcases Nat.eq_zero_or_pos n with h | h
          · rw [h] at htot
            omega
          · exact h
        split_ifs with h8
        · have hn2 : 2 ≤ n := by
            by_contra h
            have : n = 1 := by omega
            rw [this] at htot
            omega
          have : (2 : ℝ) ≤ n := by exact_mod_cast hn2
          linarith
        · have : (1 : ℝ) ≤ n := by exact_mod_cast hn1
          linarith
      refine ⟨_, rfl, ?_, ?_, rfl, ?_, fun h => absurd h (by omega)⟩
      · show Spec.HalfHeights (diagBox _ _ _) r
        exact diag_half (by positivity) (by positivity) (by positivity) (by nlinarith) (by nlinarith) (by nlinarith)
      · intro a ha
        rcases List.mem_append.1 ha with h | h
        · exact htemp a h
        · unfold repNew at h
          rw [List.mem_mapIdx] at h
          obtain ⟨i, hi, rfl⟩ := h
          have := List.getElem_mem hi
          rw [List.mem_flatMap] at this
          obtain ⟨c, -, hc⟩ := this
          obtain ⟨b, -, hb⟩ := List.mem_map.1 hc
          rw [← hb]
          rfl
      · rw [hvol (a := (2 * n + 1) * lx) (b := (2 * n + 1) * ly) (c := (2 * n + 1) * lz) rfl rfl (by positivity) (by positivity) (by positivity)]
        have hl : (l ++ repNew (diagBox lx ly lz) true n n n l).length = l.length * ((2 * n + 1) * ((2 * n + 1) * (2 * n + 1))) := by
          rw [List.length_append, repNew_length, ← repCells_length]; ring
        show _ / (((l ++ repNew (diagBox lx ly lz) true n n n l).length : ℕ) : ℝ) = _
        rw [hl]
        push_cast
        have h1 : (l.length : ℝ) ≠ 0 := by exact_mod_cast hlen.ne'
        have h2 : (2 * (n : ℝ) + 1) ≠ 0 := by positivity
        field_simp
    · rw [if_neg h200]
      have hst : Spec.stretch l.length = 1 := by
        unfold Spec.stretch
        rw [if_neg (by omega), if_neg h200]
      rw [hst, one_mul] at f1 f2 f3
      refine ⟨_, rfl, diag_half hx hy hz f1 f2 f3, htemp, rfl, ?_, fun _ => ⟨rfl, rfl, rfl⟩⟩
      rw [hvol (a := lx) (b := ly) (c := lz) rfl rfl hx hy hz]
      rfl
  obtain ⟨s, hs, hh, ht, hu, hv, h200⟩ := hok
  obtain ⟨p1, p2, p3, p4, p5, p6⟩ := build_props hb hreal hc hd hs
  refine ⟨s, hs, p1.faithful p2 p3 hh, p5, ?_, p4, ht, hu, hv, h200⟩
  rw [p5]
  by_contra hlt
  have := p6 s.atoms.length (not_le.1 hlt)
  rw [List.getElem?_eq_none le_rfl, List.getElem?_eq_getElem (not_le.1 hlt)] at this
  cases this

theorem makeCrystal_fresh {name : String} {a ca : ℝ} {nx ny nz : ℕ} {atoms : List Atom} {box : Mat3} (h : makeCrystal name a nx ny nz ca = .ok (atoms, box)) :
    ∀ x ∈ atoms, x.temp = [] := by
  unfold makeCrystal at h
  cases hu : unitCell a ca name with
  | none => rw [hu] at h; cases h
  | some u =>
    rw [hu] at h
    simp only [Except.ok.injEq, Prod.mk.injEq] at h
    obtain ⟨rfl, -⟩ := h
    intro x hx
    rw [List.mem_mapIdx] at hx
    obtain ⟨i, hi, rfl⟩ := hx
    have := List.getElem_mem hi
    rw [List.mem_flatMap] at this
    obtain ⟨c, -, hc⟩ := this
    obtain ⟨b, -, hb⟩ := List.mem_map.1 hc
    show (_ : Atom).temp = []
    rw [← hb]

/-! ### Lists of nearest atoms -/

theorem goodEntry_eq {s : System} {i : ℕ} {a : Atom} (hi : s.atoms[i]? = some a) {x : Nb} (h : Spec.GoodEntry s i a x) :
    x = s.mkNb i x.idx ∧ x.idx < s.atoms.length ∧ x.idx ≠ i := by
  obtain ⟨c, hc, hne, h1, h2, h3⟩ := h
  obtain ⟨d1, d2⟩ := distOf_eq hi hc
  refine ⟨?_, (List.getElem?_eq_some_iff.1 hc).1, hne⟩
  unfold System.mkNb
  rw [d1, d2, ← h1, ← h2, ← h3]

theorem mem_ball {s : System} {i : ℕ} {a : Atom} (hi : s.atoms[i]? = some a) {ρ : ℝ} {x : Nb} :
    x ∈ cutoffNbs s ρ 0 i ↔ Spec.GoodEntry s i a x ∧ x.dist < ρ := by
  classical
  unfold cutoffNbs
  constructor
  · intro hx
    obtain ⟨j, hj, rfl⟩ := List.mem_map.1 hx
    obtain ⟨hjr, hj'⟩ := List.mem_filter.1 hj
    obtain ⟨hne, hd, -⟩ := of_decide_eq_true hj'
    have hc := List.getElem?_eq_getElem (List.mem_range.1 hjr)
    obtain ⟨d1, d2⟩ := distOf_eq hi hc
    exact ⟨⟨_, hc, hne, d1, rfl, d2⟩, hd⟩
  · rintro ⟨hg, hd⟩
    obtain ⟨e, hl, hne⟩ := goodEntry_eq hi hg
    refine List.mem_map.2 ⟨x.idx, List.mem_filter.2 ⟨List.mem_range.2 hl, decide_eq_true ⟨hne, ?_, rfl⟩⟩, e.symm⟩
    rw [e] at hd
    exact hd

theorem ball_idx_nodup (s : System) (ρ : ℝ) (f i : ℕ) : ((cutoffNbs s ρ f i).map Nb.idx).Nodup := by
  classical
  unfold cutoffNbs
  rw [List.map_map]
  have : (Nb.idx ∘ s.mkNb i) = id := rfl
  rw [this, List.map_id]
  exact List.nodup_range.filter _

section
variable {s : System} {i n : ℕ} {a : Atom} {N : List Nb}

/-- An atom within the ball that is not listed. -/
theorem not_listed (hN : Spec.NearestList s i a n N) {ρ : ℝ} (hi : s.atoms[i]? = some a) {x : Nb} (hx : x ∈ cutoffNbs s ρ 0 i) (hnot : x ∉ N) :
    ∀ y ∈ N, y.dist ≤ x.dist := by
  obtain ⟨-, -, hg, -, hrest⟩ := hN
  obtain ⟨hgx, -⟩ := (mem_ball hi).1 hx
  obtain ⟨c, hc, hne, h1, -, -⟩ := id hgx
  have := hrest x.idx c hc hne fun y hy he => hnot (by
    have e1 := (goodEntry_eq hi (hg y hy)).1
    have e2 := (goodEntry_eq hi hgx).1
    rw [he, ← e2] at e1
    rwa [← e1])
  intro y hy
  rw [h1]
  exact this y hy

/-- The list contains all atoms up to a distance `d`, if there are not too many. -/
theorem nearest_filter (hN : Spec.NearestList s i a n N) (hi : s.atoms[i]? = some a) {ρ d : ℝ} (hd : d < ρ)
    (hcount : ((cutoffNbs s ρ 0 i).filter fun x => decide (x.dist ≤ d)).length ≤ n) :
    (N.filter fun x => decide (x.dist ≤ d)).Perm ((cutoffNbs s ρ 0 i).filter fun x => decide (x.dist ≤ d)) := by
  obtain ⟨hlen, hnd, hg, -, -⟩ := id hN
  have nd1 : (N.filter fun x => decide (x.dist ≤ d)).Nodup := (List.Nodup.of_map _ hnd).filter _
  have nd2 : ((cutoffNbs s ρ 0 i).filter fun x => decide (x.dist ≤ d)).Nodup := (List.Nodup.of_map _ (ball_idx_nodup s ρ 0 i)).filter _
  have sub1 : ∀ x ∈ N.filter fun x => decide (x.dist ≤ d), x ∈ (cutoffNbs s ρ 0 i).filter fun x => decide (x.dist ≤ d) := by
    intro x hx
    obtain ⟨h1, h2⟩ := List.mem_filter.1 hx
    exact List.mem_filter.2 ⟨(mem_ball hi).2 ⟨hg x h1, lt_of_le_of_lt (of_decide_eq_true h2) hd⟩, h2⟩
  rw [List.perm_ext_iff_of_nodup nd1 nd2]
  intro x
  refine ⟨sub1 x, fun hx => ?_⟩
  obtain ⟨h1, h2⟩ := List.mem_filter.1 hx
  refine List.mem_filter.2 ⟨?_, h2⟩
  by_contra hnot
  have hall := not_listed hN hi h1 hnot
  have hself : N.filter (fun x => decide (x.dist ≤ d)) = N :=
    List.filter_eq_self.2 fun y hy => decide_eq_true ((hall y hy).trans (of_decide_eq_true h2))
  have hsub : (x :: N).Subperm ((cutoffNbs s ρ 0 i).filter fun x => decide (x.dist ≤ d)) := by
    refine List.Nodup.subperm (List.nodup_cons.2 ⟨hnot, List.Nodup.of_map _ hnd⟩) ?_
    intro y hy
    rcases List.mem_cons.1 hy with rfl | hy
    · exact hx
    · exact sub1 y (by rw [hself]; exact hy)
  have := hsub.length_le
  rw [List.length_cons, hlen] at this
  omega

theorem take_sorted {l : List Nb} (h : l.Pairwise fun x y => x.dist ≤ y.dist) (d : ℝ) :
    l.take (l.filter fun x => decide (x.dist ≤ d)).length = l.filter fun x => decide (x.dist ≤ d) := by
  induction l with
  | nil => rfl
  | cons x l ih =>
    obtain ⟨h1, h2⟩ := List.pairwise_cons.1 h
    by_cases hx : x.dist ≤ d
    · rw [List.filter_cons_of_pos (by simpa using hx), List.length_cons, List.take_succ_cons, ih h2]
    · rw [List.filter_cons_of_neg (by simpa using hx)]
      have : l.filter (fun x => decide (x.dist ≤ d)) = [] := by
        refine List.filter_eq_nil_iff.2 fun y hy => ?_
        have := h1 y hy
        simp only [decide_eq_true_eq]
        linarith
      rw [this]
      rfl

/-- The first entries are the atoms up to the distance `d`. -/
theorem nearest_take (hN : Spec.NearestList s i a n N) (hi : s.atoms[i]? = some a) {ρ d : ℝ} (hd : d < ρ) {m : ℕ}
    (hm : ((cutoffNbs s ρ 0 i).filter fun x => decide (x.dist ≤ d)).length = m) (hmn : m ≤ n) :
    (N.take m).Perm ((cutoffNbs s ρ 0 i).filter fun x => decide (x.dist ≤ d)) := by
  have hp := nearest_filter hN hi hd (hm.trans_le hmn)
  have := take_sorted hN.2.2.2.1 d
  rw [hp.length_eq, hm] at this
  rw [this]
  exact hp

/-- With enough atoms in the ball all entries are among them. -/
theorem nearest_ball (hN : Spec.NearestList s i a n N) (hi : s.atoms[i]? = some a) {ρ : ℝ} (hn : n ≤ (cutoffNbs s ρ 0 i).length) :
    ∀ x ∈ N, x ∈ cutoffNbs s ρ 0 i := by
  obtain ⟨hlen, hnd, hg, -, -⟩ := id hN
  intro x hx
  by_contra hnot
  have hxd : ρ ≤ x.dist := by
    by_contra h
    exact hnot ((mem_ball hi).2 ⟨hg x hx, not_le.1 h⟩)
  have hsub : ∀ y ∈ cutoffNbs s ρ 0 i, y ∈ N := by
    intro y hy
    by_contra hy'
    have h1 := not_listed hN hi hy hy' x hx
    have h2 := ((mem_ball hi).1 hy).2
    linarith
  have hsp : (x :: cutoffNbs s ρ 0 i).Subperm N := by
    refine List.Nodup.subperm (List.nodup_cons.2 ⟨hnot, List.Nodup.of_map _ (ball_idx_nodup s ρ 0 i)⟩) ?_
    intro y hy
    rcases List.mem_cons.1 hy with rfl | hy
    · exact hx
    · exact hsub y hy
  have := hsp.length_le
  rw [List.length_cons, hlen] at this
  omega

/-- Two neighbours are within a distance as their vectors are. -/
theorem within_vec {r c : ℝ} (hF : Spec.Faithful s r) (hi : s.atoms[i]? = some a) {x y : Nb} (hx : Spec.GoodEntry s i a x) (hy : Spec.GoodEntry s i a y)
    (hr : V3.norm (x.vec - y.vec) < r) : Spec.Within s c x.idx y.idx ↔ V3.norm (x.vec - y.vec) ≤ c := by
  obtain ⟨p, hp, -, -, -, vp⟩ := hx
  obtain ⟨q, hq, -, -, -, vq⟩ := hy
  have hpm := List.mem_of_getElem? hp
  have hqm := List.mem_of_getElem? hq
  have ham := List.mem_of_getElem? hi
  obtain ⟨n1, n2, n3, e1⟩ := hF.image a ham p hpm
  obtain ⟨m1, m2, m3, e2⟩ := hF.image a ham q hqm
  have him : IsImage s.box (p.pos - q.pos) (x.vec - y.vec) := by
    refine ⟨n1 - m1, n2 - m2, n3 - m3, ?_⟩
    rw [vp, vq, e1, e2]
    ext <;> simp [latticeVec] <;> ring
  have hd := hF.short q hqm p hpm _ him hr
  have hdist : s.getDistance p q = V3.norm (x.vec - y.vec) := by
    rw [← hd]; rfl
  constructor
  · rintro ⟨p', q', hp', hq', h⟩
    rw [hp] at hp'
    rw [hq] at hq'
    cases hp'; cases hq'
    rwa [hdist] at h
  · intro h
    exact ⟨p, q, hp, hq, by rw [hdist]; exact h⟩
end

/-- The points behind a list of vectors. -/
theorem exists_points {e : ℤ × ℤ × ℤ → V3} (he : Function.Injective e) {N : List Nb} {L : List (ℤ × ℤ × ℤ)} (h : (N.map Nb.vec).Perm (L.map e)) :
    ∃ K : List (ℤ × ℤ × ℤ), K.Perm L ∧ N.map Nb.vec = K.map e := by
  have hex : ∀ x : Nb, ∃ k, x ∈ N → x.vec = e k := by
    intro x
    by_cases hx : x ∈ N
    · obtain ⟨k, -, hk⟩ := List.mem_map.1 (h.subset (List.mem_map.2 ⟨x, hx, rfl⟩))
      exact ⟨k, fun _ => hk.symm⟩
    · exact ⟨default, fun h => absurd h hx⟩
  choose g hg using hex
  have e1 : N.map Nb.vec = (N.map g).map e := by
    rw [List.map_map]
    exact List.map_congr_left fun x hx => hg x hx
  refine ⟨N.map g, ?_, e1⟩
  rw [e1] at h
  exact (List.map_perm_map_iff he).1 h

/-- All signatures of a list of neighbours at known points. -/
theorem signatures_points {s : System} {i : ℕ} {a : Atom} {r c : ℝ} (hF : Spec.Faithful s r) (hi : s.atoms[i]? = some a) {e : ℤ × ℤ × ℤ → V3}
    (near : ℤ × ℤ × ℤ → ℤ × ℤ × ℤ → Bool) (hs : ∀ v w, near v w = near w v) {N : List Nb} {K : List (ℤ × ℤ × ℤ)} (hK : K.Nodup)
    (hN : ∀ x ∈ N, Spec.GoodEntry s i a x) (hv : N.map Nb.vec = K.map e)
    (hr : ∀ v ∈ K, ∀ w ∈ K, v ≠ w → V3.norm (e v - e w) < r ∧ (V3.norm (e v - e w) ≤ c ↔ near v w = true)) {sig : List (ℕ × ℕ × ℕ × ℕ)}
    (hsig : Spec.Signatures s c N sig) {k : ℕ} {y : ℕ × ℕ × ℕ × ℕ} (hk : sig[k]? = some y) :
    ∃ v, K[k]? = some v ∧ y.1 = (shellCommon near K v).length ∧ ∀ x, x.1 ≠ 0 → x.2.2.2 ≤ 8 → ShellSig near K v x → y = x := by
  have hlen : N.length = K.length := by
    have := congrArg List.length hv
    rwa [List.length_map, List.length_map] at this
  have hkl : k < K.length := by
    rw [← hlen, ← hsig.1]; exact (List.getElem?_eq_some_iff.1 hk).1
  refine ⟨K[k], List.getElem?_eq_getElem hkl, ?_⟩
  have hvec : ∀ j (hj : j < K.length), (N[j]'(hlen ▸ hj)).vec = e K[j] := by
    intro j hj
    have h1 : (N.map Nb.vec)[j]'(by rw [List.length_map, hlen]; exact hj) = (K.map e)[j]'(by rw [List.length_map]; exact hj) := by
      simp only [hv]
    rwa [List.getElem_map, List.getElem_map] at h1
  have hR : ∀ i' < K.length, ∀ j < K.length, i' ≠ j → (Spec.Within s c ((N.map Nb.idx).getD i' 0) ((N.map Nb.idx).getD j 0) ↔
      near (K.getD i' default) (K.getD j default) = true) := by
    intro p hp q hq hpq
    have g1 : (N.map Nb.idx).getD p 0 = (N[p]'(hlen ▸ hp)).idx := by
      rw [List.getD_eq_getElem?_getD, List.getElem?_map, List.getElem?_eq_getElem (hlen ▸ hp)]; rfl
    have g2 : (N.map Nb.idx).getD q 0 = (N[q]'(hlen ▸ hq)).idx := by
      rw [List.getD_eq_getElem?_getD, List.getElem?_map, List.getElem?_eq_getElem (hlen ▸ hq)]; rfl
    have g3 : K.getD p default = K[p] := by rw [List.getD_eq_getElem?_getD, List.getElem?_eq_getElem hp]; rfl
    have g4 : K.getD q default = K[q] := by rw [List.getD_eq_getElem?_getD, List.getElem?_eq_getElem hq]; rfl
    obtain ⟨r1, r2⟩ := hr K[p] (List.getElem_mem hp) K[q] (List.getElem_mem hq) (fun h => hpq (hK.getElem_inj_iff.1 h))
    rw [g1, g2, g3, g4, ← r2, ← hvec p hp, ← hvec q hq]
    rw [← hvec p hp, ← hvec q hq] at r1
    exact within_vec hF hi (hN _ (List.getElem_mem _)) (hN _ (List.getElem_mem _)) r1
  have hg : K.getD k default = K[k] := by rw [List.getD_eq_getElem?_getD, List.getElem?_eq_getElem hkl]; rfl
  obtain ⟨hcard, key⟩ := signature_shell hs hK (by rw [List.length_map]; exact hlen) hR hkl
  rw [hg] at hcard key
  refine ⟨?_, fun x hx0 hx8 hx => ?_⟩
  · rw [← hcard]
    rcases hsig.2 k y hk with h | ⟨h, h'⟩ | ⟨n, h, -, -⟩
    · exact h.1
    · rw [h, h']; rfl
    · exact h.1
  rcases hsig.2 k y hk with h | ⟨h, -⟩ | ⟨n, h, h8, -⟩
  · exact key x y hx h
  · rw [h] at hcard
    exact absurd (hx.1.symm.trans hcard.symm) hx0
  · have := key x _ hx h
    have h4 : n = x.2.2.2 := by rw [← this]
    omega

/-- The signatures of all neighbours. -/
theorem signatures_map {s : System} {i : ℕ} {a : Atom} {r c : ℝ} (hF : Spec.Faithful s r) (hi : s.atoms[i]? = some a) {e : ℤ × ℤ × ℤ → V3}
    (near : ℤ × ℤ × ℤ → ℤ × ℤ × ℤ → Bool) (hs : ∀ v w, near v w = near w v) {N : List Nb} {K : List (ℤ × ℤ × ℤ)} (hK : K.Nodup)
    (hN : ∀ x ∈ N, Spec.GoodEntry s i a x) (hv : N.map Nb.vec = K.map e)
    (hr : ∀ v ∈ K, ∀ w ∈ K, v ≠ w → V3.norm (e v - e w) < r ∧ (V3.norm (e v - e w) ≤ c ↔ near v w = true)) {sig : List (ℕ × ℕ × ℕ × ℕ)}
    (hsig : Spec.Signatures s c N sig) (f : ℤ × ℤ × ℤ → ℕ × ℕ × ℕ × ℕ) (hf : ∀ v ∈ K, (f v).1 ≠ 0 ∧ (f v).2.2.2 ≤ 8 ∧ ShellSig near K v (f v)) : sig = K.map f := by
  have hlen : sig.length = K.length := by
    have := congrArg List.length hv
    rw [List.length_map, List.length_map] at this
    rw [hsig.1, this]
  refine List.ext_getElem (by rw [hlen, List.length_map]) fun k h1 h2 => ?_
  obtain ⟨v, hv', -, h⟩ := signatures_points hF hi near hs hK hN hv hr hsig (List.getElem?_eq_getElem h1)
  have hvm := List.mem_of_getElem? hv'
  obtain ⟨f1, f2, f3⟩ := hf v hvm
  rw [h _ f1 f2 f3, List.getElem_map]
  rw [List.getElem?_eq_getElem (by rw [← hlen]; exact h1)] at hv'
  rw [Option.some.inj hv']

/-- Enough neighbours within the search radius. -/
theorem enough_ball {s : System} {ρ R : ℝ} (h : ρ ≤ R) {n : ℕ} (hn : ∀ i < s.atoms.length, n ≤ (cutoffNbs s ρ 0 i).length) : Spec.EnoughWithin s R n := by
  intro k a hk
  refine ⟨((cutoffNbs s ρ 0 k).map Nb.idx).toFinset, ?_, fun j hj => ?_⟩
  · rw [List.toFinset_card_of_nodup (ball_idx_nodup s ρ 0 k), List.length_map]
    exact hn k (List.getElem?_eq_some_iff.1 hk).1
  · obtain ⟨x, hx, rfl⟩ := List.mem_map.1 (List.mem_toFinset.1 hj)
    obtain ⟨⟨c, hc, hne, h1, -, -⟩, h2⟩ := (mem_ball hk).1 hx
    exact ⟨hne, c, hc, by rw [← h1]; linarith⟩

theorem Spec.Faithful.anti {s : System} {r r' : ℝ} (h : Spec.Faithful s r) (hr : r' ≤ r) : Spec.Faithful s r' :=
  ⟨h.image, fun a ha c hc w hw hn => h.short a ha c hc w hw (hn.trans_le hr), h.distinct⟩

end Pyscal
