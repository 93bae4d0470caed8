import Verif.Lemmas.QClose
import Verif.Props.Noise

/-! C100: bond-orientational parameters depend continuously on the positions. -/

namespace Pyscal

open Spec (diagBox InBox)

/-- Neighbour vectors of displaced atoms, while the distance stays below half of every edge of the stored box. -/
theorem Shifted.vec {s g : System} {d r lx ly lz : ℝ} (h : Shifted s g d) (hx : 0 < lx) (hy : 0 < ly) (hz : 0 < lz) (hs : s.box = diagBox lx ly lz)
    (rx : 2 * r ≤ lx) (ry : 2 * r ≤ ly) (rz : 2 * r ≤ lz) {i j : ℕ} (hi : i < s.atoms.length) (hj : j < s.atoms.length) (hr : s.distOf i j < r - 2 * d) :
    V3.norm (g.diffOf i j - s.diffOf i j) ≤ 2 * d := by
  obtain ⟨lx', ly', lz', px, py, pz, bs, bg, ts, tg, -, -⟩ := h.box
  have hb : lx' = lx ∧ ly' = ly ∧ lz' = lz := by
    rw [hs] at bs
    simp only [diagBox, Mat3.mk.injEq, V3.mk.injEq] at bs
    exact ⟨bs.1.1.symm, bs.2.1.2.1.symm, bs.2.2.2.2.symm⟩
  obtain ⟨rfl, rfl, rfl⟩ := hb
  have e1 : s.diffOf i j = s.image (s.posOf j - s.posOf i) := rfl
  have e2 : g.diffOf i j = g.image (g.posOf j - g.posOf i) := rfl
  have e3 : s.distOf i j = V3.norm (s.diffOf i j) := rfl
  have hm : V3.norm ((g.posOf j - s.posOf j) + -(g.posOf i - s.posOf i)) ≤ 2 * d := by
    have := norm_triangle (g.posOf j - s.posOf j) (-(g.posOf i - s.posOf i))
    rw [V3.norm_neg] at this
    linarith [h.close i hi, h.close j hj]
  obtain ⟨m1, m2, m3⟩ := comp_le_norm ((g.posOf j - s.posOf j) + -(g.posOf i - s.posOf i))
  rw [e3] at hr
  obtain ⟨c1, c2, c3⟩ := comp_le_norm (s.diffOf i j)
  rw [e1, image_diag s lx' ly' lz' hx.le hy.le hz.le ts bs] at c1 c2 c3 hr
  simp only [V3.sub_x, V3.sub_y, V3.sub_z, V3.add_x, V3.add_y, V3.add_z, V3.neg_x, V3.neg_y, V3.neg_z] at m1 m2 m3 c1 c2 c3 hr
  have w1 := wrap_close (d' := (g.posOf j).x - (g.posOf i).x) c1 (show |_| ≤ 2 * d by
    refine le_trans (le_of_eq ?_) (m1.trans hm); congr 1; ring) (by linarith)
  have w2 := wrap_close (d' := (g.posOf j).y - (g.posOf i).y) c2 (show |_| ≤ 2 * d by
    refine le_trans (le_of_eq ?_) (m2.trans hm); congr 1; ring) (by linarith)
  have w3 := wrap_close (d' := (g.posOf j).z - (g.posOf i).z) c3 (show |_| ≤ 2 * d by
    refine le_trans (le_of_eq ?_) (m3.trans hm); congr 1; ring) (by linarith)
  have e : g.diffOf i j - s.diffOf i j = (g.posOf j - s.posOf j) + -(g.posOf i - s.posOf i) := by
    rw [e1, e2, image_diag s lx' ly' lz' hx.le hy.le hz.le ts bs, image_diag g lx' ly' lz' hx.le hy.le hz.le tg bg]
    simp only [V3.sub_x, V3.sub_y, V3.sub_z, w1, w2, w3]
    ext <;> simp <;> ring
  rw [e]
  exact hm

/-- The lists of neighbours of displaced atoms: the same atoms, with vectors that differ by at most `2 d`. -/
theorem displaced_lists (f : ℕ) {r d ρ : ℝ} {lx ly lz : ℝ} (hx : 0 < lx) (hy : 0 < ly) (hz : 0 < lz) {l l' : List Atom} (hne : l ≠ [])
    (hreal : ∀ a ∈ l, a.ghost = false) (hin : ∀ a ∈ l, InBox lx ly lz a.pos) (hd : Spec.Displaced d l l') (dx : 4 * d ≤ lx) (dy : 4 * d ≤ ly) (dz : 4 * d ≤ lz)
    (hfit : Spec.HalfFits l.length lx ly lz r) {s g : System} (hs : buildSystem (diagBox lx ly lz) l = .ok s) (hg : buildSystem (diagBox lx ly lz) l' = .ok g)
    (hgap : ∀ (i j : ℕ) (x y : Atom), s.atoms[i]? = some x → s.atoms[j]? = some y → i ≠ j →
      ρ + 2 * d ≤ s.getDistance x y ∧ (s.getDistance x y < r - 2 * d ∨ r + 2 * d ≤ s.getDistance x y)) :
    Shifted s g d ∧ (∀ i < s.atoms.length, (cutoffNbs g r f i).map Nb.idx = (cutoffNbs s r f i).map Nb.idx) ∧
    ∀ i < s.atoms.length, List.Forall₂ (fun x y : Nb => x.weight = 1 ∧ y.weight = 1 ∧ ρ ≤ x.vec.norm ∧ ρ ≤ y.vec.norm ∧ V3.norm (y.vec - x.vec) ≤ 2 * d)
      (cutoffNbs s r f i) (cutoffNbs g r f i) := by
  have hsh : Shifted s g d := shifted_build hx hy hz hne hreal hd (spread_inBox hx hy hz hin) (spread_displaced hin hd dx dy dz) hs hg
  obtain ⟨s', hs', -, bs, -⟩ := stored_form hx hy hz hne hreal
  rw [hs] at hs'
  cases hs'
  have hst : Spec.stretch l.length ≤ 2 * (copies l.length : ℝ) + 1 := by
    have hpos : 0 < l.length := List.length_pos_iff.2 hne
    unfold copies Spec.stretch
    split_ifs with h1 h2 h2
    · have h3 := padReps_total hpos (by omega)
      have : 2 ≤ padReps l.length := by
        by_contra hlt
        have h4 : padReps l.length ≤ 1 := by omega
        interval_cases padReps l.length <;> omega
      have : (2 : ℝ) ≤ padReps l.length := by exact_mod_cast this
      linarith
    · omega
    · have h3 := padReps_total hpos (by omega)
      have : 1 ≤ padReps l.length := by
        by_contra hlt
        have h4 : padReps l.length = 0 := by omega
        rw [h4] at h3
        omega
      have : (1 : ℝ) ≤ padReps l.length := by exact_mod_cast this
      linarith
    · norm_num
  obtain ⟨t1, t2, t3⟩ := hfit
  have hst0 : 0 < 2 * (copies l.length : ℝ) + 1 := by positivity
  replace t1 := t1.trans (mul_le_mul_of_nonneg_right hst hx.le)
  replace t2 := t2.trans (mul_le_mul_of_nonneg_right hst hy.le)
  replace t3 := t3.trans (mul_le_mul_of_nonneg_right hst hz.le)
  have hpair : ∀ i < s.atoms.length, ∀ j < s.atoms.length, j ≠ i → ρ + 2 * d ≤ s.distOf i j ∧ (s.distOf i j < r - 2 * d ∨ r + 2 * d ≤ s.distOf i j) := by
    intro i hi j hj hne
    have e := (distOf_eq (s := s) (List.getElem?_eq_getElem hi) (List.getElem?_eq_getElem hj)).1
    rw [e]
    exact hgap j i _ _ (List.getElem?_eq_getElem hj) (List.getElem?_eq_getElem hi) hne
  -- the lists of neighbours
  have hidx : ∀ i < s.atoms.length, (cutoffNbs g r f i).map Nb.idx = (cutoffNbs s r f i).map Nb.idx := by
    intro i hi
    refine hsh.ball fun j hj hne => ?_
    have hb := abs_le.1 (hsh.dist hi hj)
    have := (hpair i hi j hj hne).2
    constructor <;> intro h3 <;> rcases this with h | h <;> linarith
  have hF : ∀ i < s.atoms.length, List.Forall₂ (fun x y : Nb => x.weight = 1 ∧ y.weight = 1 ∧ ρ ≤ x.vec.norm ∧ ρ ≤ y.vec.norm ∧ V3.norm (y.vec - x.vec) ≤ 2 * d)
      (cutoffNbs s r f i) (cutoffNbs g r f i) := by
    intro i hi
    rw [cutoffNbs_idx s, cutoffNbs_idx g, hidx i hi, List.forall₂_map_left_iff, List.forall₂_map_right_iff]
    refine List.forall₂_same.2 fun j hj => ?_
    obtain ⟨x, hx', rfl⟩ := List.mem_map.1 hj
    obtain ⟨j, hj0, rfl⟩ := List.mem_map.1 (show x ∈ cutoffNbs s r f i from hx')
    obtain ⟨hj1, hj2⟩ := List.mem_filter.1 hj0
    have hj2 := of_decide_eq_true hj2
    have hjl := List.mem_range.1 hj1
    obtain ⟨p1, p2⟩ := hpair i hi j hjl hj2.1
    have hdist := abs_le.1 (hsh.dist hi hjl)
    have hd0 : 0 ≤ d := (V3.norm_nonneg _).trans (hsh.close i hi)
    have hlt : s.distOf i j < r - 2 * d := by
      rcases p2 with h | h
      · exact h
      · linarith [hj2.2.1]
    have hv := hsh.vec (mul_pos hst0 hx) (mul_pos hst0 hy) (mul_pos hst0 hz) bs t1 t2 t3 hi hjl hlt
    have es : (s.mkNb i j).vec.norm = s.distOf i j := rfl
    have eg : (g.mkNb i j).vec.norm = g.distOf i j := rfl
    exact ⟨rfl, rfl, by show ρ ≤ (s.mkNb i j).vec.norm; rw [es]; linarith, by show ρ ≤ (g.mkNb i j).vec.norm; rw [eg]; linarith [hdist.1], hv⟩
  exact ⟨hsh, hidx, hF⟩

/-- **C100**: move every atom by up to `d`.  If the cutoff `r` is at most half of every edge of the stored box, no two stored atoms are at a distance between `r - 2 d` and
`r + 2 d`, and none closer than `ρ + 2 d`, then after `find_neighbors` with this cutoff and `calculate_q` every `q_l`, plain and averaged, differs from its value
before by at most `sqrt(l (l + 1) / 2) * 2 d / ρ`; it is NaN afterwards only if it was NaN before, and conversely. -/
theorem C100_q (σ : StdSort) (f : ℕ) {r d ρ : ℝ} (hr : r ≠ 0) (hρ : 0 < ρ) {lx ly lz : ℝ} (hx : 0 < lx) (hy : 0 < ly) (hz : 0 < lz) {l l' : List Atom} (hne : l ≠ [])
    (hreal : ∀ a ∈ l, a.ghost = false) (hin : ∀ a ∈ l, InBox lx ly lz a.pos) (hd : Spec.Displaced d l l') (dx : 4 * d ≤ lx) (dy : 4 * d ≤ ly) (dz : 4 * d ≤ lz)
    (hfit : Spec.HalfFits l.length lx ly lz r) {s g s1 g1 s2 g2 : System} (hs : buildSystem (diagBox lx ly lz) l = .ok s) (hg : buildSystem (diagBox lx ly lz) l' = .ok g)
    (hgap : ∀ (i j : ℕ) (x y : Atom), s.atoms[i]? = some x → s.atoms[j]? = some y → i ≠ j →
      ρ + 2 * d ≤ s.getDistance x y ∧ (s.getDistance x y < r - 2 * d ∨ r + 2 * d ≤ s.getDistance x y))
    (hps : Spec.PairsExact s r) (hpg : Spec.PairsExact g r) (h1 : s.findNeighbors σ f (.cutoff r) = .ok s1) (h2 : g.findNeighbors σ f (.cutoff r) = .ok g1)
    (ls : List ℤ) (av : Bool) (h3 : s1.calculateQ ls av = .ok s2) (h4 : g1.calculateQ ls av = .ok g2) :
    g2.atoms.length = s2.atoms.length ∧ ∀ (k : ℕ) (a b : Atom), s2.atoms[k]? = some a → g2.atoms[k]? = some b → ∀ m : ℕ, (m : ℤ) ∈ ls →
      Spec.CloseTo (Real.sqrt ((m : ℝ) * (m + 1) / 2) * (2 * d / ρ)) (a.q m) (b.q m) ∧
      (av = true → Spec.CloseTo (Real.sqrt ((m : ℝ) * (m + 1) / 2) * (2 * d / ρ)) (a.aq m) (b.aq m)) := by
  obtain ⟨hsh, hidx, hF⟩ := displaced_lists f hx hy hz hne hreal hin hd dx dy dz hfit hs hg hgap
  obtain ⟨e1, a2, a3⟩ := cutoff_any hr hps h1
  obtain ⟨e2, b2, b3⟩ := cutoff_any hr hpg h2
  have P1 := cutoff_plain hr hps h1
  have P2 := cutoff_plain hr hpg h2
  obtain ⟨hr1, -, es1⟩ := calculateQ_ok h3
  obtain ⟨-, -, es2⟩ := calculateQ_ok h4
  have hlen1 : s2.atoms.length = s1.atoms.length := by rw [es1]; cases av <;> simp [System.afterQ]
  have hlen2 : g2.atoms.length = g1.atoms.length := by rw [es2]; cases av <;> simp [System.afterQ]
  have hlen : g1.atoms.length = s1.atoms.length := by rw [a2, b2, hsh.len]
  refine ⟨by rw [hlen1, hlen2, hlen], fun k a b ha hb m hm => ?_⟩
  have hm2 : 2 ≤ m := by have := (hr1 _ hm).1; omega
  have hm12 : m ≤ 12 := by have := (hr1 _ hm).2; omega
  have hq : ∀ i < s1.atoms.length, CloseVec m (Real.sqrt ((m : ℝ) * (m + 1) / 2) * (2 * d / ρ)) (s1.calcQlm m (s1.mem i)) (g1.calcQlm m (g1.mem i)) ∧
      ((g1.qNbrs (g1.mem i)).map Nb.idx).Perm ((s1.qNbrs (s1.mem i)).map Nb.idx) := by
    intro i hi
    have hi' : i < g1.atoms.length := hlen ▸ hi
    have q1 : s1.qNbrs (s1.mem i) = (s1.mem i).nbrs := P1.qNbrs (by rw [mem_eq_getElem _ _ hi]; exact List.getElem_mem hi)
    have q2 : g1.qNbrs (g1.mem i) = (g1.mem i).nbrs := P2.qNbrs (by rw [mem_eq_getElem _ _ hi']; exact List.getElem_mem hi')
    obtain ⟨c1, c2, -⟩ := a3 i _ (List.getElem?_eq_getElem hi)
    obtain ⟨-, c3, -⟩ := b3 i _ (List.getElem?_eq_getElem hi')
    rw [← mem_eq_getElem] at c2 c3
    refine ⟨calcQlm_close hm2 hm12 P1.vor P2.vor hρ (q1 ▸ c2) (q2 ▸ c3) (hF i c1), ?_⟩
    rw [q1, q2]
    exact ((c3.map Nb.idx).trans (List.Perm.of_eq (hidx i c1))).trans (c2.map Nb.idx).symm
  have hk1 : k < s1.atoms.length := by rw [← hlen1]; exact (List.getElem?_eq_some_iff.1 ha).1
  have hk2 : k < g1.atoms.length := hlen ▸ hk1
  have r1 := (calculateQ_q h3 (List.getElem?_eq_getElem hk1) ha m).1
  have r2 := (calculateQ_q h4 (List.getElem?_eq_getElem hk2) hb m).1
  rw [if_pos hm, ← mem_eq_getElem] at r1 r2
  refine ⟨?_, ?_⟩
  · rw [r1, r2]
    exact (hq k hk1).1.closeTo
  · rintro rfl
    obtain ⟨-, -, -, -, -, x1, x2⟩ := calculateQ_av h3 m hm ha
    obtain ⟨-, -, -, -, -, y1, y2⟩ := calculateQ_av h4 m hm hb
    rw [x2, x1, y2, y1]
    exact (calcAqlm_close (toNat_mem hm) P1.range P2.range hlen hk1 (hq k hk1).2 fun i hi => (hq i hi).1).closeTo

theorem exists_gap {α : Type} (L : List α) (F : α → ℝ) (h : ∀ x ∈ L, 0 < F x) : ∃ η, 0 < η ∧ ∀ x ∈ L, η ≤ F x := by
  induction L with
  | nil => exact ⟨1, one_pos, fun x hx => absurd hx List.not_mem_nil⟩
  | cons x L ih =>
    obtain ⟨η, h0, h1⟩ := ih fun y hy => h y (List.mem_cons_of_mem _ hy)
    refine ⟨min η (F x), lt_min h0 (h x List.mem_cons_self), fun y hy => ?_⟩
    rcases List.mem_cons.1 hy with rfl | hy
    · exact min_le_right _ _
    · exact (min_le_left _ _).trans (h1 y hy)

theorem Spec.CloseTo.mono {K K' : ℝ} {o o' : Option ℝ} (h : Spec.CloseTo K o o') (hK : K ≤ K') : Spec.CloseTo K' o o' := by
  rcases h with h | ⟨q, q', h1, h2, h3⟩
  · exact .inl h
  · exact .inr ⟨q, q', h1, h2, h3.trans hK⟩

/-- **C100, continuity**: if no two stored atoms coincide and none are exactly the cutoff apart, then for every tolerance `ε` there is a `δ` such that moving all atoms by up to
`δ` changes no plain or averaged `q_l` by more than `ε` and does not make or remove NaNs. -/
theorem C100_continuous (σ : StdSort) (f : ℕ) {r : ℝ} (hr : r ≠ 0) {lx ly lz : ℝ} (hx : 0 < lx) (hy : 0 < ly) (hz : 0 < lz) {l : List Atom} (hne : l ≠ [])
    (hreal : ∀ a ∈ l, a.ghost = false) (hin : ∀ a ∈ l, InBox lx ly lz a.pos) (hfit : Spec.HalfFits l.length lx ly lz r) {s s1 s2 : System}
    (hs : buildSystem (diagBox lx ly lz) l = .ok s)
    (hdist : ∀ (i j : ℕ) (x y : Atom), s.atoms[i]? = some x → s.atoms[j]? = some y → i ≠ j → 0 < s.getDistance x y ∧ s.getDistance x y ≠ r)
    (hps : Spec.PairsExact s r) (h1 : s.findNeighbors σ f (.cutoff r) = .ok s1) (ls : List ℤ) (av : Bool) (h3 : s1.calculateQ ls av = .ok s2) :
    ∀ ε > 0, ∃ δ > 0, ∀ (l' : List Atom) (g g1 g2 : System), Spec.Displaced δ l l' → buildSystem (diagBox lx ly lz) l' = .ok g → Spec.PairsExact g r →
      g.findNeighbors σ f (.cutoff r) = .ok g1 → g1.calculateQ ls av = .ok g2 →
      ∀ (k : ℕ) (a b : Atom), s2.atoms[k]? = some a → g2.atoms[k]? = some b → ∀ m : ℕ, (m : ℤ) ∈ ls →
        Spec.CloseTo ε (a.q m) (b.q m) ∧ (av = true → Spec.CloseTo ε (a.aq m) (b.aq m)) := by
  intro ε hε
  let n := s.atoms.length
  let P : List (ℕ × ℕ) := ((List.range n).flatMap fun i => (List.range n).map fun j => (i, j)).filter fun p => p.1 ≠ p.2
  have hP : ∀ i j, (i, j) ∈ P ↔ (i < n ∧ j < n) ∧ i ≠ j := by
    intro i j
    simp only [P, List.mem_filter, List.mem_flatMap, List.mem_map, List.mem_range, Prod.mk.injEq, decide_eq_true_eq]
    constructor
    · rintro ⟨⟨i', h1, j', h2, rfl, rfl⟩, h3⟩
      exact ⟨⟨h1, h2⟩, h3⟩
    · rintro ⟨⟨h1, h2⟩, h3⟩
      exact ⟨⟨i, h1, j, h2, rfl, rfl⟩, h3⟩
  have hpos : ∀ p ∈ P, 0 < min (s.getDistance (s.mem p.1) (s.mem p.2)) |s.getDistance (s.mem p.1) (s.mem p.2) - r| := by
    rintro ⟨i, j⟩ hp
    obtain ⟨⟨hi, hj⟩, hij⟩ := (hP i j).1 hp
    obtain ⟨d1, d2⟩ := hdist i j (s.mem i) (s.mem j) (by rw [mem_eq_getElem _ _ hi, List.getElem?_eq_getElem hi]) (by rw [mem_eq_getElem _ _ hj, List.getElem?_eq_getElem hj]) hij
    exact lt_min d1 (abs_pos.2 (sub_ne_zero.2 d2))
  obtain ⟨η, η0, hη⟩ := exists_gap P _ hpos
  obtain ⟨d, d0, hd⟩ : ∃ d : ℝ, 0 < d ∧ 4 * d ≤ lx ∧ 4 * d ≤ ly ∧ 4 * d ≤ lz ∧ 4 * d ≤ η ∧ 36 * d ≤ ε * η := by
    refine ⟨min (lx / 4) (min (ly / 4) (min (lz / 4) (min (η / 4) (ε * η / 36)))), by positivity, ?_, ?_, ?_, ?_, ?_⟩
    · linarith [min_le_left (lx / 4) (min (ly / 4) (min (lz / 4) (min (η / 4) (ε * η / 36))))]
    · linarith [min_le_right (lx / 4) (min (ly / 4) (min (lz / 4) (min (η / 4) (ε * η / 36)))), min_le_left (ly / 4) (min (lz / 4) (min (η / 4) (ε * η / 36)))]
    · linarith [min_le_right (lx / 4) (min (ly / 4) (min (lz / 4) (min (η / 4) (ε * η / 36)))), min_le_right (ly / 4) (min (lz / 4) (min (η / 4) (ε * η / 36))),
        min_le_left (lz / 4) (min (η / 4) (ε * η / 36))]
    · linarith [min_le_right (lx / 4) (min (ly / 4) (min (lz / 4) (min (η / 4) (ε * η / 36)))), min_le_right (ly / 4) (min (lz / 4) (min (η / 4) (ε * η / 36))),
        min_le_right (lz / 4) (min (η / 4) (ε * η / 36)), min_le_left (η / 4) (ε * η / 36)]
    · linarith [min_le_right (lx / 4) (min (ly / 4) (min (lz / 4) (min (η / 4) (ε * η / 36)))), min_le_right (ly / 4) (min (lz / 4) (min (η / 4) (ε * η / 36))),
        min_le_right (lz / 4) (min (η / 4) (ε * η / 36)), min_le_right (η / 4) (ε * η / 36)]
  obtain ⟨dx, dy, dz, dη, dε⟩ := hd
  refine ⟨d, d0, fun l' g g1 g2 hD hg hpg h2 h4 k a b ha hb m hm => ?_⟩
  obtain ⟨hr1, -, -⟩ := calculateQ_ok h3
  have hm12 : m ≤ 12 := by have := (hr1 _ hm).2; omega
  have hK : Real.sqrt ((m : ℝ) * (m + 1) / 2) * (2 * d / (η / 2)) ≤ ε := by
    have hm' : (m : ℝ) ≤ 12 := by exact_mod_cast hm12
    have h9 : Real.sqrt ((m : ℝ) * (m + 1) / 2) ≤ 9 := by
      rw [Real.sqrt_le_left (by norm_num)]
      nlinarith [(Nat.cast_nonneg m : (0 : ℝ) ≤ m)]
    have h36 : 9 * (2 * d / (η / 2)) ≤ ε := by
      rw [← mul_div_assoc, div_le_iff₀ (by positivity)]
      linarith
    exact (mul_le_mul_of_nonneg_right h9 (by positivity)).trans h36
  have hgap : ∀ (i j : ℕ) (x y : Atom), s.atoms[i]? = some x → s.atoms[j]? = some y → i ≠ j →
      η / 2 + 2 * d ≤ s.getDistance x y ∧ (s.getDistance x y < r - 2 * d ∨ r + 2 * d ≤ s.getDistance x y) := by
    intro i j x y hi hj hij
    obtain ⟨hi1, hi2⟩ := mem_of_getElem? hi
    obtain ⟨hj1, hj2⟩ := mem_of_getElem? hj
    have := hη (i, j) ((hP i j).2 ⟨⟨hi1, hj1⟩, hij⟩)
    simp only [hi2, hj2] at this
    have e1 := this.trans (min_le_left _ _)
    have e2 := this.trans (min_le_right _ _)
    refine ⟨by linarith, ?_⟩
    rcases le_abs.1 e2 with h | h
    · exact .inr (by linarith)
    · exact .inl (by linarith)
  have key := (C100_q σ f hr (ρ := η / 2) (by positivity) hx hy hz hne hreal hin hD dx dy dz hfit hs hg hgap hps hpg h1 h2 ls av h3 h4).2 k a b ha hb m hm
  exact ⟨key.1.mono hK, fun h => (key.2 h).mono hK⟩

/-! ### Perfect crystals with noise -/

theorem near_min : ∀ name ∈ Spec.cubic, name ≠ "a15" → ∀ b ∈ quarters name, ∀ p ∈ near name b.1, ((Spec.limits name).1 : ℤ) ≤ nsq p.1 := by decide +kernel

/-- No two atoms of a perfect crystal are closer than the first shell. -/
theorem shell_min {name : String} (hn : name ∈ Spec.cubic) (h15 : name ≠ "a15") {a v : ℝ} (ha : 0 < a) {s : System} (hF : Spec.Faithful s v)
    (hcr : Spec.crystal s.box s.atoms = Spec.idealCrystal ⟨a, a, a⟩ (Spec.basis name)) (hv : Spec.FirstShell name a v) :
    ∀ (i j : ℕ) (x y : Atom), s.atoms[i]? = some x → s.atoms[j]? = some y → i ≠ j → (a / 4) * Real.sqrt (Spec.limits name).1 ≤ s.getDistance x y := by
  intro i j x y hi hj hij
  by_contra hcon
  have hlt := not_le.1 hcon
  obtain ⟨b, hb, -, hp⟩ := near_all hn ha hcr 0 j _ hj
  have hd := (distOf_eq (s := s) hj hi).1
  have hmem : s.mkNb j i ∈ cutoffNbs s v 0 j := by
    refine List.mem_map.2 ⟨i, List.mem_filter.2 ⟨List.mem_range.2 (List.getElem?_eq_some_iff.1 hi).1, ?_⟩, rfl⟩
    rw [decide_eq_true_eq]
    exact ⟨hij, by rw [hd]; linarith [hv.1], rfl⟩
  obtain ⟨q, hq, e⟩ := List.mem_map.1 ((hp v hv hF).mem_iff.1 (List.mem_map_of_mem hmem))
  have hnear := List.mem_of_mem_filter hq
  have e1 : Spec.quarter a q.1 = (s.mkNb j i).vec := congrArg Prod.fst e
  have e2 : (s.mkNb j i).vec.norm = s.distOf j i := rfl
  rw [← hd, ← e2, ← e1, norm_quarter a ha] at hlt
  have h3 : Real.sqrt (((Spec.limits name).1 : ℕ) : ℝ) ≤ Real.sqrt (nsq q.1 : ℝ) := Real.sqrt_le_sqrt (by exact_mod_cast near_min name hn h15 b hb q hnear)
  have h4 : 0 ≤ a / 4 := by positivity
  exact absurd (mul_le_mul_of_nonneg_left h3 h4) (not_le.2 hlt)

/-- **C100, crystals**: in a crystal of structure sc, bcc, fcc, diamond, b2 or l12 made with `make_crystal`, whose atoms are then moved by up to `d` (not to coordinates
less than 1e-6 below zero if there are more than 2300 atoms),
every `q_l` from a cutoff that stays clear of the first and second shells by `2 d` is within `sqrt(l (l + 1) / 2) * 2 d / (b - 2 d)` of the value of the perfect
structure, where `b` is the distance of nearest neighbours; so is every averaged `q_l`, except in diamond. -/
theorem C100_crystal (σ : StdSort) (name : String) (hn : name ∈ Spec.cubic) (h15 : name ≠ "a15") {a ca r d : ℝ} (ha : 0 < a) (hca : 0 < ca) {nx ny nz : ℕ} (hx : 1 ≤ nx) (hy : 1 ≤ ny)
    (hz : 1 ≤ nz) (hr : Spec.FirstShell name a (r - 2 * d)) (hr' : Spec.FirstShell name a (r + 2 * d)) (hda : 4 * d ≤ a) (hdb : 2 * d < (a / 4) * Real.sqrt (Spec.limits name).1)
    {atoms l' : List Atom} (hfit : Spec.RangeFits ((Spec.basis name).length * nx * ny * nz) (nx * a) (ny * a) (nz * a) (r + 2 * d)) (hN : (Spec.basis name).length * nx * ny * nz ≤ 2300 ∨ 1e-6 ≤ r ∧ Spec.Binnable l')
    {box : Mat3} (hm : makeCrystal name a nx ny nz ca = .ok (atoms, box)) (hd : Spec.Displaced d atoms l')
    (ls : List ℤ) (hls : ∀ l ∈ ls, 2 ≤ l ∧ l ≤ 12) (av : Bool) :
    ∃ as, analyse σ box l' 0 (.cutoff r) ls av = .ok as ∧ as.length = (Spec.basis name).length * nx * ny * nz ∧
      ∀ x ∈ as, ∀ l : ℕ, (l : ℤ) ∈ ls → ∃ v : ℚ, (Spec.qTable name)[l - 2]? = some v ∧
        (∃ q, x.q l = some q ∧ |q - Real.sqrt v| ≤ Real.sqrt ((l : ℝ) * (l + 1) / 2) * (2 * d / ((a / 4) * Real.sqrt (Spec.limits name).1 - 2 * d))) ∧
        (av = true → name ≠ "diamond" →
          ∃ q, x.aq l = some q ∧ |q - Real.sqrt v| ≤ Real.sqrt ((l : ℝ) * (l + 1) / 2) * (2 * d / ((a / 4) * Real.sqrt (Spec.limits name).1 - 2 * d))) := by
  have hs : name ∈ Spec.structures := by
    simp only [Spec.cubic, List.mem_cons, List.not_mem_nil, or_false] at hn
    rcases hn with rfl | rfl | rfl | rfl | rfl | rfl | rfl <;> decide
  have hh : name ≠ "hcp" := by
    rintro rfl
    revert hn; decide
  have hE : Spec.cellEdges name a ca = ⟨a, a, a⟩ := by rw [Spec.cellEdges, if_neg hh]
  obtain ⟨atoms', lx, ly, lz, hm', ex, ey, ez, hlen, hat, hnd, hcr⟩ := C40_make_crystal name hs ha hca hx hy hz
  rw [hm] at hm'
  cases hm'
  rw [hE] at ex ey ez hcr
  dsimp only at ex ey ez
  have x1 : (1 : ℝ) ≤ nx := by exact_mod_cast hx
  have y1 : (1 : ℝ) ≤ ny := by exact_mod_cast hy
  have z1 : (1 : ℝ) ≤ nz := by exact_mod_cast hz
  have hall : ∀ c ∈ atoms, c.ghost = false ∧ InBox lx ly lz c.pos := by
    intro c hc
    obtain ⟨k, hk⟩ := List.mem_iff_getElem?.1 hc
    exact (hat k c hk).2.2
  have hB : 0 < (Spec.basis name).length := by
    have : ∀ name ∈ Spec.structures, 0 < (Spec.basis name).length := by decide
    exact this name hs
  have hpos : 0 < atoms.length := by rw [hlen]; positivity
  have hne : atoms ≠ [] := List.length_pos_iff.1 hpos
  have hd0 : 0 ≤ d := (V3.norm_nonneg _).trans (List.forall₂_iff_get.1 hd |>.2 0 hpos (hd.length_eq ▸ hpos)).2
  have lx0 : 0 < lx := by rw [ex]; positivity
  have ly0 : 0 < ly := by rw [ey]; positivity
  have lz0 : 0 < lz := by rw [ez]; positivity
  have hr0 : 0 < r - 2 * d := lt_of_le_of_lt (by positivity) hr.1
  have hfitr : Spec.RangeFits ((Spec.basis name).length * nx * ny * nz) (nx * a) (ny * a) (nz * a) r := by
    obtain ⟨f1, f2, f3⟩ := hfit
    refine ⟨fun h => ?_, fun h => ?_, fun h => ?_⟩
    · obtain ⟨g1, g2, g3⟩ := f1 h
      exact ⟨by linarith, by linarith, by linarith⟩
    · obtain ⟨g1, g2, g3⟩ := f2 h
      exact ⟨by linarith, by linarith, by linarith⟩
    · obtain ⟨g0, g1, g2, g3⟩ := f3 h
      exact ⟨(hN.resolve_left (not_le.2 h)).1, by linarith, by linarith, by linarith⟩
  have hfr : Spec.FirstShell name a r := ⟨by linarith [hr.1], by linarith [hr'.2]⟩
  obtain ⟨s, hb, hF, hps', hsr, -, hcr', -⟩ := inBox_build lx0 ly0 lz0 hne (fun c hc => (hall c hc).1) (fun c hc => (hall c hc).2) hnd (by linarith : 0 ≤ r + 2 * d)
    (by rw [hlen, ex, ey, ez]; exact hfit)
  have hps : Spec.PairsExact s r := by
    obtain ⟨s', hb', -, h, -⟩ := inBox_build lx0 ly0 lz0 hne (fun c hc => (hall c hc).1) (fun c hc => (hall c hc).2) hnd (by linarith : 0 ≤ r)
      (by rw [hlen, ex, ey, ez]; exact hfitr)
    rw [hb] at hb'
    cases hb'
    exact h
  -- the perfect crystal
  obtain ⟨atoms', box', as0, hm0, han, hl0, hq0⟩ := C95_q σ name hn h15 ha hca hx hy hz hfr hfitr ls hls av
  rw [hm] at hm0
  cases hm0
  have han := han
  unfold analyse at han
  rw [hb] at han
  simp only [bind, Except.bind] at han
  rcases h1 : s.findNeighbors σ 0 (.cutoff r) with e | s1
  · rw [h1] at han; cases han
  rw [h1] at han
  simp only at han
  rcases h3 : s1.calculateQ ls av with e | s2
  · rw [h3] at han; cases han
  rw [h3] at han
  simp only [System.getAtoms] at han
  split_ifs at han with hle
  cases han
  -- the displaced one
  obtain ⟨g, g1, as1, hg, h2, hg1, has1, -⟩ := C98_coordination σ name hn ha hca hx hy hz hr hr' hda hfit hN 0 (by norm_num) hm hd
  have hgr : g.realNop = atoms.length := by
    have hlen' : l'.length = atoms.length := hd.length_eq.symm
    obtain ⟨g', q1, -, -, -, -, q2⟩ := stored_form lx0 ly0 lz0 (l := l') (List.length_pos_iff.1 (hlen' ▸ hpos)) (by
      intro y hy
      obtain ⟨k, hk, rfl⟩ := List.getElem_of_mem hy
      have := (List.forall₂_iff_get.1 hd |>.2 k (hlen' ▸ hk) hk).1
      simp only [List.get_eq_getElem] at this
      rw [this]
      exact (hall _ (List.getElem_mem (hlen' ▸ hk))).1)
    rw [hg] at q1
    cases q1
    rw [q2, hlen']
  have hpg : Spec.PairsExact g r := displaced_exact lx0 ly0 lz0 hne (fun c hc => (hall c hc).1) (fun c hc => (hall c hc).2) hd (by rw [ex]; nlinarith) (by rw [ey]; nlinarith)
    (by rw [ez]; nlinarith) (fun h => by
      obtain ⟨-, f2, f3, f4⟩ := hfit.2.2 (by rw [← hlen]; exact h)
      rw [ex, ey, ez]
      exact ⟨by linarith, by linarith, by linarith⟩) (by rw [hlen]; exact hN) hg
  have hrne : r ≠ 0 := by linarith
  obtain ⟨g2, h4⟩ := calculateQ_succeeds (ls := ls) av false hls (cutoff_plain hrne hpg h2).range
  obtain ⟨-, -, eg⟩ := calculateQ_ok h4
  obtain ⟨-, -, es⟩ := calculateQ_ok h3
  obtain ⟨u1, u2, -⟩ := cutoff_any hrne hps h1
  obtain ⟨w1, w2, -⟩ := cutoff_any hrne hpg h2
  have rs : s2.realNop = atoms.length := by
    have e : s2.realNop = s1.realNop := by rw [es]; split_ifs <;> rfl
    rw [e, u1]; exact hsr
  have rg : g2.realNop = atoms.length := by
    have e : g2.realNop = g1.realNop := by rw [eg]; split_ifs <;> rfl
    rw [e, w1]; exact hgr
  have key := C100_q σ 0 hrne (ρ := (a / 4) * Real.sqrt (Spec.limits name).1 - 2 * d) (by linarith) lx0 ly0 lz0 hne (fun c hc => (hall c hc).1) (fun c hc => (hall c hc).2) hd
    (by rw [ex]; nlinarith) (by rw [ey]; nlinarith) (by rw [ez]; nlinarith) (by
      obtain ⟨f1, f2, -⟩ := hfitr
      rw [← hlen] at f1 f2
      rw [ex, ey, ez]
      unfold Spec.HalfFits Spec.stretch
      split_ifs with c1 c2
      · obtain ⟨g1, g2, g3⟩ := f1 (by omega)
        exact ⟨by nlinarith, by nlinarith, by nlinarith⟩
      · obtain ⟨g1, g2, g3⟩ := f1 (by omega)
        exact ⟨by linarith, by linarith, by linarith⟩
      · obtain ⟨g1, g2, g3⟩ := f2 (by omega)
        exact ⟨by linarith, by linarith, by linarith⟩) hb hg
    (fun i j x y hi hj hij => ⟨by rw [sub_add_cancel]; exact shell_min hn h15 ha hF (hcr'.trans hcr) hr' i j x y hi hj hij,
      shell_gap hn ha hF (hcr'.trans hcr) (by linarith) hr hr' i j x y hi hj hij⟩) hps hpg h1 h2 ls av h3 h4
  obtain ⟨hlen2, hclose⟩ := key
  have hleg : g2.realNop ≤ g2.atoms.length := by rw [hlen2, rg, ← rs]; exact hle
  refine ⟨g2.atoms.take g2.realNop, ?_, ?_, ?_⟩
  · unfold analyse
    rw [hg]
    simp only [bind, Except.bind, h2, h4, System.getAtoms]
    rw [if_pos hleg]
  · rw [List.length_take, min_eq_left hleg, rg, hlen]
  · intro y hy l hl
    obtain ⟨k, hk⟩ := List.mem_iff_getElem?.1 hy
    have hkr : k < atoms.length := by
      have := (List.getElem?_eq_some_iff.1 hk).1
      rw [List.length_take, min_eq_left hleg, rg] at this
      exact this
    have hkg : g2.atoms[k]? = some y := by
      rw [List.getElem?_take, if_pos (by rw [rg]; exact hkr)] at hk
      exact hk
    have hks : k < s2.atoms.length := lt_of_lt_of_le (by rw [rs]; exact hkr) hle
    have hxs : s2.atoms[k] ∈ s2.atoms.take s2.realNop := by
      refine List.mem_iff_getElem?.2 ⟨k, ?_⟩
      rw [List.getElem?_take, if_pos (by rw [rs]; exact hkr), List.getElem?_eq_getElem hks]
    obtain ⟨v, hv, q1, q2⟩ := hq0 _ hxs l hl
    obtain ⟨c1, c2⟩ := hclose k _ y (List.getElem?_eq_getElem hks) hkg l hl
    refine ⟨v, hv, ?_, fun hav hdia => ?_⟩
    · rcases c1 with ⟨c, -⟩ | ⟨q, q', e1, e2, e3⟩
      · rw [q1] at c; cases c
      · rw [q1] at e1
        cases e1
        exact ⟨q', e2, e3⟩
    · rcases c2 hav with ⟨c, -⟩ | ⟨q, q', e1, e2, e3⟩
      · rw [q2 hav hdia] at c; cases c
      · rw [q2 hav hdia] at e1
        cases e1
        exact ⟨q', e2, e3⟩

/-- The hypotheses are met: 4 x 4 x 4 fcc cells with every atom moved by up to 0.01; `q_6` stays within 0.04 of 0.5745. -/
example (σ : StdSort) (gauss : ℕ → V3) (hg : ∀ k, (gauss k).norm ≤ 1) : ∃ l' box as, makeCrystalNoise "fcc" 4 4 4 4 1 0.01 gauss = .ok (l', box) ∧
    analyse σ box l' 0 (.cutoff 3.4) [6] true = .ok as ∧ as.length = 256 ∧ ∀ x ∈ as, ∃ q, x.q 6 = some q ∧ |q - Real.sqrt (169 / 512)| ≤ 0.04 := by
  obtain ⟨atoms, lx, ly, lz, hm, -⟩ := C40_make_crystal "fcc" (by decide) (a := 4) (ca := 1) (by norm_num) (by norm_num) (nx := 4) (ny := 4) (nz := 4) (by norm_num) (by norm_num) (by norm_num)
  obtain ⟨l', h1, -, -, h2⟩ := (C98_noise "fcc" 4 4 4 4 1 0.01 gauss).2 _ _ hm
  have h3 := h2 0.01 (by norm_num) fun k _ => by nlinarith [hg k]
  have t8 : (2.8 : ℝ) < Real.sqrt 8 := by rw [Real.lt_sqrt (by norm_num)]; norm_num
  have t8' : Real.sqrt 8 < 2.9 := by rw [Real.sqrt_lt' (by norm_num)]; norm_num
  have s16 : Real.sqrt 16 = 4 := by rw [Real.sqrt_eq_iff_mul_self_eq_of_pos (by norm_num)]; norm_num
  have s21 : Real.sqrt 21 < 4.6 := by rw [Real.sqrt_lt' (by norm_num)]; norm_num
  obtain ⟨as, e1, e2, e3⟩ := C100_crystal σ "fcc" (by decide) (by decide) (a := 4) (ca := 1) (r := 3.4) (d := 0.01) (by norm_num) (by norm_num) (nx := 4) (ny := 4) (nz := 4) (by norm_num)
    (by norm_num) (by norm_num) (by constructor <;> norm_num [Spec.limits, s16] <;> linarith) (by constructor <;> norm_num [Spec.limits, s16] <;> linarith) (by norm_num)
    (by norm_num [Spec.limits]; linarith)
    (by simp only [Spec.RangeFits, Spec.basis, List.length_cons, List.length_nil]; refine ⟨?_, ?_, ?_⟩ <;> norm_num) (.inl (by decide)) hm h3 [6] (by simp) true
  refine ⟨l', _, as, h1, e1, by rw [e2]; decide, fun x hx => ?_⟩
  obtain ⟨v, hv, ⟨q, hq, hb⟩, -⟩ := e3 x hx 6 (by simp)
  have hv' : v = 169 / 512 := by
    have : (Spec.qTable "fcc")[6 - 2]? = some (169 / 512) := by decide +kernel
    rw [this] at hv
    exact (Option.some.inj hv).symm
  refine ⟨q, hq, ?_⟩
  rw [hv'] at hb
  push_cast at hb
  refine hb.trans ?_
  have hlim : (Spec.limits "fcc").1 = 8 := rfl
  rw [hlim]
  norm_num
  rw [mul_div_assoc', div_le_iff₀ (by linarith)]
  nlinarith

end Pyscal
