import Verif.Lemmas.QEquiv
import Verif.Props.Cutoff

/-! C17-C20, C52, C53, C61, C62: Steinhardt parameters. -/

namespace Pyscal

/-! ### C61: the value -/

/-- **C61**: for every `l` in 2..12, the value computed by `calculate_q` is
`sqrt(Σ_ij w_i w_j P_l(cos θ_ij)) / Σ w` over the neighbours of equal condition (without the
denominator after a Voronoi search), where `θ_ij` is the angle between neighbour vectors `i` and
`j`; it is NaN exactly when a neighbour vector is zero or the weights add up to zero. -/
theorem C61_legendre (s s' : System) (ls : List ℤ) (av : Bool) (h : s.calculateQ ls av = .ok s') (l : ℕ) (hl : (l : ℤ) ∈ ls)
    (k : ℕ) (a a' : Atom) (hk : s.atoms[k]? = some a) (hk' : s'.atoms[k]? = some a') :
    ((∃ p ∈ Spec.participants s a, p.2 = 0) → a'.q l = none) ∧
    ((∀ p ∈ Spec.participants s a, p.2 ≠ 0) →
      (s.voronoiused = true → a'.q l = some (Real.sqrt (Spec.pairSum l (Spec.participants s a)))) ∧
      (s.voronoiused = false → ((Spec.participants s a).map Prod.fst).sum = 0 → a'.q l = none) ∧
      (s.voronoiused = false → ((Spec.participants s a).map Prod.fst).sum ≠ 0 →
        a'.q l = some (Real.sqrt (Spec.pairSum l (Spec.participants s a)) / |((Spec.participants s a).map Prod.fst).sum|))) := by
  obtain ⟨hr, hs, -⟩ := calculateQ_ok h
  have hl2 : 2 ≤ l := by have := (hr _ hl).1; omega
  have hl12 : l ≤ 12 := by have := (hr _ hl).2; omega
  rw [participants_eq hs (List.mem_of_getElem? hk), (calculateQ_q h hk hk' l).1, if_pos hl]
  have hz : (∃ p ∈ wv (s.qNbrs a), p.2 = 0) ↔ ∃ x ∈ s.qNbrs a, x.vec = 0 := by simp [wv]
  have hz' : (∀ p ∈ wv (s.qNbrs a), p.2 ≠ 0) ↔ ∀ x ∈ s.qNbrs a, x.vec ≠ 0 := by simp [wv]
  have hw : (wv (s.qNbrs a)).map Prod.fst = (s.qNbrs a).map Nb.weight := by simp [wv]
  rw [hz, hz', hw]
  obtain ⟨c1, c2⟩ := calcQ_value s l a
  refine ⟨fun hx => by rw [c1 hx]; rfl, fun hx => ⟨fun hv => ?_, fun hv h0 => ?_, fun hv h0 => ?_⟩⟩
  · rw [(c2 hx).1 hv, Option.map_some, qValue_sumVec l hl2 hl12 _ hx]
  · rw [(c2 hx).2.1 hv h0]; rfl
  · rw [(c2 hx).2.2 hv h0, Option.map_some, qValue_smul, qValue_sumVec l hl2 hl12 _ hx, abs_inv, div_eq_inv_mul]

/-! ### C17: the range -/

/-- **C17**: after `calculate_q`, for every requested `l` and every atom whose participating
neighbours have non-zero vectors and non-negative weights: if the weights are normalised by the
code and add up to something positive, or come from a Voronoi search and add up to at most one,
`q_l` is a real number between 0 and 1; without participating neighbours it is NaN (0 after a
Voronoi search). -/
theorem C17_range (s s' : System) (ls : List ℤ) (av : Bool) (h : s.calculateQ ls av = .ok s') (l : ℕ) (hl : (l : ℤ) ∈ ls)
    (k : ℕ) (a a' : Atom) (hk : s.atoms[k]? = some a) (hk' : s'.atoms[k]? = some a')
    (hv : ∀ p ∈ Spec.participants s a, p.2 ≠ 0) (hw : ∀ p ∈ Spec.participants s a, 0 ≤ p.1) :
    (s.voronoiused = false → 0 < ((Spec.participants s a).map Prod.fst).sum → ∃ v, a'.q l = some v ∧ 0 ≤ v ∧ v ≤ 1) ∧
    (s.voronoiused = true → ((Spec.participants s a).map Prod.fst).sum ≤ 1 → ∃ v, a'.q l = some v ∧ 0 ≤ v ∧ v ≤ 1) ∧
    (Spec.participants s a = [] → a'.q l = if s.voronoiused then some 0 else none) := by
  obtain ⟨hr, hs, -⟩ := calculateQ_ok h
  have hl2 : 2 ≤ l := by have := (hr _ hl).1; omega
  have hl12 : l ≤ 12 := by have := (hr _ hl).2; omega
  obtain ⟨-, hval⟩ := C61_legendre s s' ls av h l hl k a a' hk hk'
  obtain ⟨v1, v2, v3⟩ := hval hv
  have hP := participants_eq hs (List.mem_of_getElem? hk)
  have hle : Real.sqrt (Spec.pairSum l (Spec.participants s a)) ≤ ((Spec.participants s a).map Prod.fst).sum := by
    rw [hP] at hv hw ⊢
    have hz : ∀ x ∈ s.qNbrs a, x.vec ≠ 0 := by simpa [wv] using hv
    have hw' : ∀ x ∈ s.qNbrs a, 0 ≤ x.weight := by simpa [wv] using hw
    rw [← qValue_sumVec l hl2 hl12 _ hz]
    refine (qValue_sumVec_le l hl2 hl12 _ hz hw').trans_eq ?_
    simp [wv, Function.comp_def]
  refine ⟨fun hvo hpos => ⟨_, v3 hvo hpos.ne', ?_, ?_⟩, fun hvo hone => ⟨_, v1 hvo, Real.sqrt_nonneg _, hle.trans hone⟩, ?_⟩
  · positivity
  · rw [abs_of_pos hpos]; exact (div_le_one hpos).2 hle
  · intro hnil
    by_cases hvo : s.voronoiused = true
    · rw [if_pos hvo, v1 hvo, hnil]; simp [Spec.pairSum, Spec.crossSum]
    · rw [if_neg hvo]
      exact v2 (by simpa using hvo) (by rw [hnil]; rfl)

/-- **C17** for the usual sequence of calls: after `find_neighbors` with a numeric cutoff and
`calculate_q`, every atom with at least one neighbour has `q_l` in [0, 1], every atom without has
NaN, provided no two atoms coincide (distance zero). -/
theorem C17_cutoff (σ : StdSort) (s s1 s' : System) (f : ℕ) (r : ℝ) (hr : r ≠ 0) (hn : s.realNop ≤ 2300)
    (h1 : s.findNeighbors σ f (.cutoff r) = .ok s1) (ls : List ℤ) (av : Bool) (h : s1.calculateQ ls av = .ok s')
    (hd : ∀ i j, i < s.atoms.length → j < s.atoms.length → i ≠ j → s.distOf i j ≠ 0)
    (l : ℕ) (hl : (l : ℤ) ∈ ls) (k : ℕ) (a1 a' : Atom) (hk : s1.atoms[k]? = some a1) (hk' : s'.atoms[k]? = some a') :
    (a1.nbrs ≠ [] → ∃ v, a'.q l = some v ∧ 0 ≤ v ∧ v ≤ 1) ∧ (a1.nbrs = [] → a'.q l = none) := by
  obtain ⟨_, hS, _⟩ := findNeighbors_cutoff_ok hr hn h1
  obtain ⟨-, hs, -⟩ := calculateQ_ok h
  have hlen : s1.atoms.length = s.atoms.length := by rw [hS]; simp
  have hkl : k < s.atoms.length := by
    have := (List.getElem?_eq_some_iff.1 hk).1
    rwa [hlen] at this
  have ha1 : a1 = cutoffAtom s r f k := by
    rw [hS] at hk
    simp only [List.getElem?_map, List.getElem?_range hkl, Option.map_some, Option.some.injEq] at hk
    exact hk.symm
  have hP := participants_eq hs (List.mem_of_getElem? hk)
  have hq : s1.qNbrs a1 = a1.nbrs := by
    unfold System.qNbrs
    refine List.filter_eq_self.2 fun x hx => ?_
    have hxr := hs a1 (List.mem_of_getElem? hk) x hx
    have hxr' : x.idx < s.atoms.length := by rwa [hlen] at hxr
    have : s1.mem x.idx = cutoffAtom s r f x.idx := by
      rw [mem_eq_getElem _ _ hxr]
      simp [hS]
    rw [this, ha1]
    simp [cutoffAtom]
  rw [hq] at hP
  have hw1 : ∀ x ∈ a1.nbrs, x.weight = 1 := by
    intro x hx
    rw [ha1] at hx
    obtain ⟨j, _, rfl⟩ := List.mem_map.1 (show x ∈ cutoffNbs s r f k from hx)
    rfl
  have hz1 : ∀ x ∈ a1.nbrs, x.vec ≠ 0 := by
    intro x hx h0
    rw [ha1] at hx
    obtain ⟨j, hj, rfl⟩ := List.mem_map.1 (show x ∈ cutoffNbs s r f k from hx)
    obtain ⟨hj1, hj2⟩ := List.mem_filter.1 hj
    have hj2 := of_decide_eq_true hj2
    refine hd k j hkl (List.mem_range.1 hj1) (Ne.symm hj2.1) ?_
    have : s.diffOf k j = 0 := h0
    have e : s.distOf k j = V3.norm (s.diffOf k j) := rfl
    rw [e, this, V3.norm_zero]
  obtain ⟨c1, -, c3⟩ := C17_range s1 s' ls av h l hl k a1 a' hk hk' (by rw [hP]; simpa [wv] using hz1)
    (by
      rw [hP]; intro p hp
      obtain ⟨x, hx, rfl⟩ := List.mem_map.1 hp
      simp [hw1 x hx])
  constructor
  · intro hne
    refine c1 (by rw [hS]) ?_
    rw [hP]
    have : (wv a1.nbrs).map Prod.fst = a1.nbrs.map fun _ => (1 : ℝ) := by
      simp only [wv, List.map_map]
      exact List.map_congr_left fun x hx => hw1 x hx
    rw [this]
    simp only [List.map_const', List.sum_replicate, nsmul_eq_mul, mul_one]
    exact_mod_cast List.length_pos_iff.2 hne
  · intro hnil
    have := c3 (by rw [hP, hnil]; rfl)
    rw [this, hS]; rfl

/-- The sequence of calls of `C17_cutoff` succeeds on a concrete system. -/
theorem twoAtoms_q (σ : StdSort) : ∃ s1 s', twoAtoms.findNeighbors σ 0 (.cutoff 2) = .ok s1 ∧ s1.calculateQ [4, 6] true = .ok s' ∧
    (∀ i j, i < twoAtoms.atoms.length → j < twoAtoms.atoms.length → i ≠ j → twoAtoms.distOf i j ≠ 0) ∧
    ∃ a1, s1.atoms[0]? = some a1 ∧ a1.nbrs ≠ [] := by
  have hcap : ∀ k < twoAtoms.atoms.length, (Spec.nearSet twoAtoms 2 0 k).ncard ≤ 300 := by
    intro k hk
    rw [← cutoffList_length (List.getElem?_eq_getElem hk) (cutoffNbs_spec (List.getElem?_eq_getElem hk))]
    exact (cutoffNbs_le _ _ _ _).trans (by decide)
  obtain ⟨s1, h1⟩ := (C09_overrun σ twoAtoms 0 2 (by norm_num) (by decide) (by decide)).2 hcap
  obtain ⟨_, e1, _⟩ := findNeighbors_cutoff_ok (by norm_num) (by decide) h1
  have hin : s1.NbrsInRange := by
    rw [e1]
    intro a ha x hx
    obtain ⟨k, _, rfl⟩ := List.mem_map.1 ha
    obtain ⟨j, hj, rfl⟩ := List.mem_map.1 (show x ∈ cutoffNbs twoAtoms 2 0 k from hx)
    have := List.mem_range.1 (List.mem_filter.1 hj).1
    rw [List.length_map, List.length_range]
    exact this
  obtain ⟨s', h'⟩ := calculateQ_succeeds (s := s1) (ls := [4, 6]) true false (by simp [qRange]) hin
  refine ⟨s1, s', h1, h', ?_, cutoffAtom twoAtoms 2 0 0, ?_, ?_⟩
  · intro i j hi hj hij
    have hi : i < 2 := hi
    have hj : j < 2 := hj
    obtain ⟨rfl, rfl⟩ | ⟨rfl, rfl⟩ : (i = 0 ∧ j = 1) ∨ (i = 1 ∧ j = 0) := by omega
    · rw [twoAtoms_dist.1]; norm_num
    · rw [twoAtoms_dist.2]; norm_num
  · rw [e1]; rfl
  · exact twoAtoms_nbs_ne rfl twoAtoms_dist.1

/-! ### C18, C19: invariances -/

/-- Atom `π k` of `g` has the neighbours of atom `k` of `s` (renumbered by `π`), listed in some
order, with the same weights, with every vector mapped by `M` and stretched by some positive
factor. -/
def Spec.SameShape (π : Equiv.Perm ℕ) (M : Mat3) (s g : System) : Prop :=
  g.voronoiused = s.voronoiused ∧ g.atoms.length = s.atoms.length ∧ (∀ i, π i < s.atoms.length ↔ i < s.atoms.length) ∧
  ∀ (k : ℕ) (a b : Atom), s.atoms[k]? = some a → g.atoms[π k]? = some b → b.condition = a.condition ∧
    ∃ L : List Nb, L.Perm a.nbrs ∧ List.Forall₂ (fun x y => y.idx = π x.idx ∧ y.weight = x.weight ∧
      ∃ c : ℝ, 0 < c ∧ y.vec = V3.smul c (M.mulVec x.vec)) L b.nbrs

theorem orthogonal_norm {M : Mat3} (hM : Spec.Orthogonal M) (v : V3) : (M.mulVec v).norm = v.norm := by
  unfold V3.norm
  have : V3.normSq (M.mulVec v) = V3.normSq v := hM v v
  rw [this]

theorem norm_smul_pos {c : ℝ} (hc : 0 < c) (v : V3) : (V3.smul c v).norm = c * v.norm := by
  have : V3.normSq (V3.smul c v) = (c * c) * V3.normSq v := by simp [V3.normSq]; ring
  rw [V3.norm, this, Real.sqrt_mul (by positivity), Real.sqrt_mul_self hc.le]; rfl

theorem cosAngle_shape {M : Mat3} (hM : Spec.Orthogonal M) {c d : ℝ} (hc : 0 < c) (hd : 0 < d) (u v : V3) :
    Spec.cosAngle (V3.smul c (M.mulVec u)) (V3.smul d (M.mulVec v)) = Spec.cosAngle u v := by
  unfold Spec.cosAngle
  rw [norm_smul_pos hc, norm_smul_pos hd, orthogonal_norm hM, orthogonal_norm hM]
  have : V3.dot (V3.smul c (M.mulVec u)) (V3.smul d (M.mulVec v)) = (c * d) * V3.dot u v := by
    rw [← hM u v]; simp [V3.dot]; ring
  rw [this, show c * u.norm * (d * v.norm) = (c * d) * (u.norm * v.norm) by ring,
    mul_div_mul_left _ _ (by positivity)]

theorem crossSum_perm (l : ℕ) {L1 L2 M1 M2 : List (ℝ × V3)} (h1 : L1.Perm L2) (h2 : M1.Perm M2) :
    Spec.crossSum l L1 M1 = Spec.crossSum l L2 M2 := by
  unfold Spec.crossSum
  have : ∀ p : ℝ × V3, (M1.map fun p' => p.1 * p'.1 * Spec.legendre l (Spec.cosAngle p.2 p'.2)).sum
      = (M2.map fun p' => p.1 * p'.1 * Spec.legendre l (Spec.cosAngle p.2 p'.2)).sum := fun p => (h2.map _).sum_eq
  simp only [this]
  exact (h1.map _).sum_eq

theorem forall₂_map_eq {α β γ : Type} {R : α → β → Prop} {F : α → γ} {G : β → γ} {l : List α} {m : List β}
    (h : List.Forall₂ R l m) (hFG : ∀ x y, R x y → G y = F x) : m.map G = l.map F := by
  induction h with
  | nil => rfl
  | cons h _ ih => rw [List.map_cons, List.map_cons, ih, hFG _ _ h]

theorem forall₂_filter {α β : Type} {R : α → β → Prop} {p : α → Bool} {q : β → Bool} {l : List α} {m : List β}
    (h : List.Forall₂ R l m) (hpq : ∀ x y, R x y → q y = p x) : List.Forall₂ R (l.filter p) (m.filter q) := by
  induction h with
  | nil => exact .nil
  | @cons x y l m h _ ih =>
    rw [List.filter_cons, List.filter_cons, hpq _ _ h]
    split
    · exact .cons h ih
    · exact ih

theorem Spec.SameShape.cond {π : Equiv.Perm ℕ} {M : Mat3} {s g : System} (h : Spec.SameShape π M s g) (i : ℕ) :
    (g.mem (π i)).condition = (s.mem i).condition := by
  by_cases hi : i < s.atoms.length
  · have hi' : π i < g.atoms.length := h.2.1 ▸ (h.2.2.1 i).2 hi
    rw [mem_eq_getElem _ _ hi, mem_eq_getElem _ _ hi']
    exact (h.2.2.2 i _ _ (List.getElem?_eq_getElem hi) (List.getElem?_eq_getElem hi')).1
  · have hi' : ¬ π i < g.atoms.length := fun hx => hi ((h.2.2.1 i).1 (h.2.1 ▸ hx))
    simp [System.mem, hi, hi']

theorem Spec.SameShape.nbrs {π : Equiv.Perm ℕ} {M : Mat3} {s g : System} (h : Spec.SameShape π M s g) {k : ℕ}
    (hk : k < s.atoms.length) :
    ∃ L : List Nb, L.Perm (s.qNbrs (s.mem k)) ∧ List.Forall₂ (fun x y => y.idx = π x.idx ∧ y.weight = x.weight ∧
      ∃ c : ℝ, 0 < c ∧ y.vec = V3.smul c (M.mulVec x.vec)) L (g.qNbrs (g.mem (π k))) := by
  have hk' : π k < g.atoms.length := h.2.1 ▸ (h.2.2.1 k).2 hk
  obtain ⟨-, L, hp, hf⟩ := h.2.2.2 k _ _ (List.getElem?_eq_getElem hk) (List.getElem?_eq_getElem hk')
  rw [← mem_eq_getElem _ _ hk] at hp
  rw [← mem_eq_getElem _ _ hk'] at hf
  refine ⟨_, hp.filter (fun x => (s.mem x.idx).condition = (s.mem k).condition), ?_⟩
  refine forall₂_filter hf fun x y hxy => ?_
  rw [hxy.1, h.cond, h.cond]

theorem Spec.SameShape.qEquiv {π : Equiv.Perm ℕ} {M : Mat3} (hM : Spec.Orthogonal M) {s g : System}
    (h : Spec.SameShape π M s g) : QEquiv π s g := by
  refine ⟨h.1, h.2.1, fun k => (h.2.2.1 k).2, ?_, ?_, ?_, ?_, ?_⟩
  · have hmem : ∀ (k : ℕ) (a b : Atom), s.atoms[k]? = some a → g.atoms[π k]? = some b → ∀ i : ℕ,
        (∃ y ∈ b.nbrs, y.idx = i) ↔ ∃ x ∈ a.nbrs, π x.idx = i := by
      intro k a b ha hb i
      obtain ⟨-, L, hp, hf⟩ := h.2.2.2 k a b ha hb
      have e : b.nbrs.map Nb.idx = L.map fun x => π x.idx := forall₂_map_eq hf fun x y hxy => hxy.1
      have e2 : (b.nbrs.map Nb.idx).Perm (a.nbrs.map fun x => π x.idx) := by rw [e]; exact hp.map _
      have := e2.mem_iff (a := i)
      simpa using this
    constructor
    · intro hg a ha x hx
      obtain ⟨k, hk, rfl⟩ := List.getElem_of_mem ha
      have hk' : π k < g.atoms.length := h.2.1 ▸ (h.2.2.1 k).2 hk
      obtain ⟨y, hy, e⟩ := (hmem k _ _ (List.getElem?_eq_getElem hk) (List.getElem?_eq_getElem hk') (π x.idx)).2 ⟨x, hx, rfl⟩
      have := hg _ (List.getElem_mem hk') y hy
      rw [e, h.2.1, h.2.2.1] at this; exact this
    · intro hs a ha x hx
      obtain ⟨k', hk', rfl⟩ := List.getElem_of_mem ha
      obtain ⟨k, rfl⟩ := π.surjective k'
      have hk : k < s.atoms.length := (h.2.2.1 k).1 (h.2.1 ▸ hk')
      obtain ⟨y, hy, e⟩ := (hmem k _ _ (List.getElem?_eq_getElem hk) (List.getElem?_eq_getElem hk') x.idx).1 ⟨x, hx, rfl⟩
      have := hs _ (List.getElem_mem hk) y hy
      rw [← e, h.2.1, h.2.2.1]; exact this
  · intro k hk
    obtain ⟨L, hp, hf⟩ := h.nbrs hk
    rw [forall₂_map_eq (F := fun x => π x.idx) hf fun x y hxy => hxy.1]
    exact hp.map _
  · intro k hk
    obtain ⟨L, hp, hf⟩ := h.nbrs hk
    rw [forall₂_map_eq (F := Nb.weight) hf fun x y hxy => hxy.2.1]
    exact (hp.map _).sum_eq
  · intro k hk
    obtain ⟨L, hp, hf⟩ := h.nbrs hk
    have hz : ∀ (c : ℝ) (v : V3), 0 < c → (V3.smul c (M.mulVec v) = 0 ↔ v = 0) := by
      intro c v hc
      rw [← V3.norm_eq_zero, norm_smul_pos hc, orthogonal_norm hM, mul_eq_zero, V3.norm_eq_zero]
      simp [hc.ne']
    have e : (g.qNbrs (g.mem (π k))).map (fun y => y.vec = 0) = L.map (fun x => x.vec = 0) :=
      forall₂_map_eq hf fun x y hxy => by
        obtain ⟨c, hc, he⟩ := hxy.2.2
        rw [he, hz c _ hc]
    have e2 : (∃ P ∈ (g.qNbrs (g.mem (π k))).map (fun y => y.vec = 0), P) ↔ ∃ P ∈ L.map (fun x => x.vec = 0), P := by rw [e]
    simp only [List.mem_map, exists_exists_and_eq_and] at e2
    rw [e2]
    constructor
    · rintro ⟨x, hx, h0⟩; exact ⟨x, hp.mem_iff.1 hx, h0⟩
    · rintro ⟨x, hx, h0⟩; exact ⟨x, hp.mem_iff.2 hx, h0⟩
  · intro l i hi j hj
    obtain ⟨L, hp, hf⟩ := h.nbrs hi
    obtain ⟨L', hp', hf'⟩ := h.nbrs hj
    have e1 : (wv L).Perm (wv (s.qNbrs (s.mem i))) := hp.map _
    have e2 : (wv L').Perm (wv (s.qNbrs (s.mem j))) := hp'.map _
    rw [← crossSum_perm l e1 e2]
    unfold Spec.crossSum wv
    simp only [List.map_map]
    refine congrArg List.sum (forall₂_map_eq hf fun x y hxy => ?_)
    refine congrArg List.sum (forall₂_map_eq hf' fun x' y' hxy' => ?_)
    obtain ⟨c, hc, he⟩ := hxy.2.2
    obtain ⟨c', hc', he'⟩ := hxy'.2.2
    simp only [Function.comp]
    rw [he, he', hxy.2.1, hxy'.2.1, cosAngle_shape hM hc hc']

/-- Rotations, reorderings, renumberings and stretchings of the neighbours do not change `q_l`,
plain or averaged. -/
theorem sameShape_q {π : Equiv.Perm ℕ} {M : Mat3} (hM : Spec.Orthogonal M) {s g : System} (hR : Spec.SameShape π M s g)
    (ls : List ℤ) (av : Bool) :
    (∀ e, s.calculateQ ls av = .error e ↔ g.calculateQ ls av = .error e) ∧
    ∀ s' g', s.calculateQ ls av = .ok s' → g.calculateQ ls av = .ok g' →
      ∀ (k : ℕ) (a b : Atom), s'.atoms[k]? = some a → g'.atoms[π k]? = some b → ∀ l : ℕ, (l : ℤ) ∈ ls →
        b.q l = a.q l ∧ (av = true → b.aq l = a.aq l) := by
  have hE := hR.qEquiv hM
  constructor
  · intro e
    rw [calculateQ_spec, calculateQ_spec]
    have := hE.range
    simp only [Bool.false_eq_true, if_false]
    split_ifs <;> first | rfl | exact absurd (this.1 ‹_›) ‹_› | exact absurd (this.2 ‹_›) ‹_›
  · intro s' g' h h' k a' b' hk hk' l hl
    obtain ⟨hr, hs, es⟩ := calculateQ_ok h
    obtain ⟨-, hg, eg⟩ := calculateQ_ok h'
    have hl2 : 2 ≤ l := by have := (hr _ hl).1; omega
    have hl12 : l ≤ 12 := by have := (hr _ hl).2; omega
    have hlen : k < s.atoms.length := by
      have := (List.getElem?_eq_some_iff.1 hk).1
      rw [es] at this
      cases av <;> simpa [System.afterQ] using this
    have hlen' : π k < g.atoms.length := hE.len ▸ hE.lt k hlen
    have ha := List.getElem?_eq_getElem hlen
    have hb := List.getElem?_eq_getElem hlen'
    rw [(calculateQ_q h ha hk l).1, (calculateQ_q h' hb hk' l).1, if_pos hl, if_pos hl, ← mem_eq_getElem _ _ hlen,
      ← mem_eq_getElem _ _ hlen']
    refine ⟨hE.q_eq l hl2 hl12 hlen, ?_⟩
    rintro rfl
    have e1 := calculateQ_atom h ha hk
    have e2 := calculateQ_atom h' hb hk'
    rw [if_pos rfl, ← mem_eq_getElem _ _ hlen] at e1
    rw [if_pos rfl, ← mem_eq_getElem _ _ hlen'] at e2
    rw [e1, e2]
    simp only [aqAtom, if_pos (toNat_mem hl)]
    exact hE.aq_eq _ l (toNat_mem hl) hl2 hl12 hs hlen

/-- **C18**: mapping all neighbour vectors by an orthogonal matrix (rotation or reflection) leaves
every requested `q_l`, plain and averaged, unchanged, NaN included; the call fails in both cases or
in neither. -/
theorem C18_rotation (M : Mat3) (hM : Spec.Orthogonal M) (s : System) (ls : List ℤ) (av : Bool) :
    let g : System := { s with atoms := s.atoms.map fun a => { a with nbrs := a.nbrs.map fun x => { x with vec := M.mulVec x.vec } } }
    (∀ e, s.calculateQ ls av = .error e ↔ g.calculateQ ls av = .error e) ∧
    ∀ s' g', s.calculateQ ls av = .ok s' → g.calculateQ ls av = .ok g' →
      ∀ (k : ℕ) (a b : Atom), s'.atoms[k]? = some a → g'.atoms[k]? = some b → ∀ l : ℕ, (l : ℤ) ∈ ls →
        b.q l = a.q l ∧ (av = true → b.aq l = a.aq l) := by
  intro g
  refine sameShape_q hM (⟨rfl, by simp [g], fun _ => Iff.rfl, ?_⟩ : Spec.SameShape (Equiv.refl ℕ) M s g) ls av
  intro k a b ha hb
  simp only [g, Equiv.refl_apply, List.getElem?_map, ha, Option.map_some, Option.some.injEq] at hb
  subst hb
  refine ⟨rfl, a.nbrs, .refl _, ?_⟩
  rw [List.forall₂_map_right_iff]
  exact List.forall₂_same.2 fun x _ => ⟨rfl, rfl, 1, one_pos, by simp [V3.smul]⟩

/-- The identity matrix is orthogonal, and so is a quarter turn about `z`. -/
example : Spec.Orthogonal ⟨⟨0, -1, 0⟩, ⟨1, 0, 0⟩, ⟨0, 0, 1⟩⟩ := by
  intro u v; simp [V3.dot, Mat3.mulVec]; ring

theorem orthogonal_one : Spec.Orthogonal ⟨⟨1, 0, 0⟩, ⟨0, 1, 0⟩, ⟨0, 0, 1⟩⟩ := by
  intro u v; simp [V3.dot, Mat3.mulVec]

/-- **C19**: permuting the neighbour lists and stretching every neighbour vector by its own positive
factor leaves every requested `q_l`, plain and averaged, unchanged. -/
theorem C19_order_scale (s g : System) (hvor : g.voronoiused = s.voronoiused) (hlen : g.atoms.length = s.atoms.length)
    (hnb : ∀ (k : ℕ) (a b : Atom), s.atoms[k]? = some a → g.atoms[k]? = some b → b.condition = a.condition ∧
      ∃ c : Nb → ℝ, (∀ x, 0 < c x) ∧ b.nbrs.Perm (a.nbrs.map fun x => { x with vec := V3.smul (c x) x.vec, dist := c x * x.dist }))
    (ls : List ℤ) (av : Bool) :
    (∀ e, s.calculateQ ls av = .error e ↔ g.calculateQ ls av = .error e) ∧
    ∀ s' g', s.calculateQ ls av = .ok s' → g.calculateQ ls av = .ok g' →
      ∀ (k : ℕ) (a b : Atom), s'.atoms[k]? = some a → g'.atoms[k]? = some b → ∀ l : ℕ, (l : ℤ) ∈ ls →
        b.q l = a.q l ∧ (av = true → b.aq l = a.aq l) := by
  refine sameShape_q orthogonal_one (⟨hvor, hlen, fun _ => Iff.rfl, ?_⟩ : Spec.SameShape (Equiv.refl ℕ) _ s g) ls av
  intro k a b ha hb
  obtain ⟨hc, c, hpos, hp⟩ := hnb k a b ha hb
  refine ⟨hc, ?_⟩
  obtain ⟨L, hL, hLp⟩ : ∃ L : List Nb, L.Perm a.nbrs ∧ L.map (fun x => { x with vec := V3.smul (c x) x.vec, dist := c x * x.dist }) = b.nbrs := by
    have : ∀ (l : List Nb) (b : List Nb), b.Perm (l.map fun x => { x with vec := V3.smul (c x) x.vec, dist := c x * x.dist }) →
        ∃ L : List Nb, L.Perm l ∧ L.map (fun x => { x with vec := V3.smul (c x) x.vec, dist := c x * x.dist }) = b := by
      intro l b hb
      generalize hm : l.map (fun x => ({ x with vec := V3.smul (c x) x.vec, dist := c x * x.dist } : Nb)) = m at hb
      induction hb.symm generalizing l with
      | nil =>
        rw [List.map_eq_nil_iff] at hm; subst hm
        exact ⟨[], .refl _, rfl⟩
      | cons y hp ih =>
        rcases l with _ | ⟨x, l⟩
        · simp at hm
        · simp only [List.map_cons, List.cons.injEq] at hm
          obtain ⟨L, h1, h2⟩ := ih l hm.2 hp.symm
          exact ⟨x :: L, h1.cons x, by rw [List.map_cons, h2, hm.1]⟩
      | swap y z t =>
        rcases l with _ | ⟨x, _ | ⟨x', l⟩⟩
        · simp at hm
        · simp at hm
        · simp only [List.map_cons, List.cons.injEq] at hm
          exact ⟨x' :: x :: l, .swap _ _ _, by simp [hm.1, hm.2.1, hm.2.2]⟩
      | trans h1 h2 ih1 ih2 =>
        obtain ⟨L1, p1, e1⟩ := ih1 l hm h1.symm
        obtain ⟨L2, p2, e2⟩ := ih2 L1 e1 h2.symm
        exact ⟨L2, p2.trans p1, e2⟩
    exact this _ _ hp
  refine ⟨L, hL, ?_⟩
  rw [← hLp, List.forall₂_map_right_iff]
  exact List.forall₂_same.2 fun x _ => ⟨rfl, rfl, c x, hpos x, by simp [Mat3.mulVec, V3.dot]⟩

/-! ### C20: averaged values -/

/-- The norm used for `q_l` on a vector of `2 l + 1` complex components. -/
noncomputable def Spec.qNorm (l : ℕ) (c : ℕ → ℝ × ℝ) : ℝ :=
  Real.sqrt (4 * PI / (2 * l + 1) * ∑ k ∈ Finset.range (2 * l + 1), ((c k).1 ^ 2 + (c k).2 ^ 2))

/-- Component-wise mean of a list of vectors. -/
noncomputable def Spec.meanVec (V : List (ℕ → ℝ × ℝ)) : ℕ → ℝ × ℝ := fun t =>
  ((V.map fun c => (c t).1).sum / V.length, (V.map fun c => (c t).2).sum / V.length)

/-- The atoms entering the average of `a`: itself and its neighbours with the same condition. -/
def Spec.group (s : System) (a : Atom) : List Atom :=
  a :: (a.nbrs.filterMap fun x => s.atoms[x.idx]?).filter fun b => b.condition = a.condition

theorem qNorm_eq (l : ℕ) (c : ℕ → ℝ × ℝ) : Spec.qNorm l c = qValue l c := by
  rw [qValue_eq, Spec.qNorm, ip]
  congr 2
  exact Finset.sum_congr rfl fun k _ => by simp [dot2, pow_two]

theorem group_eq {s : System} (hs : s.NbrsInRange) {k : ℕ} {a : Atom} (hk : s.atoms[k]? = some a) :
    Spec.group s a = (k :: (s.qNbrs (s.mem k)).map Nb.idx).map s.mem := by
  have hka := mem_of_getElem? hk
  have hin : ∀ x ∈ a.nbrs, x.idx < s.atoms.length := hs a (List.mem_of_getElem? hk)
  rw [List.map_cons, hka.2, Spec.group, List.cons.injEq]
  refine ⟨rfl, ?_⟩
  unfold System.qNbrs
  have : ∀ L : List Nb, (∀ x ∈ L, x.idx < s.atoms.length) →
      (L.filterMap fun x => s.atoms[x.idx]?).filter (fun b => b.condition = a.condition)
        = ((L.filter fun x => (s.mem x.idx).condition = a.condition).map Nb.idx).map s.mem := by
    intro L
    induction L with
    | nil => intro _; rfl
    | cons x L ih =>
      intro hL
      have hx := hL x (by simp)
      have ih := ih fun y hy => hL y (by simp [hy])
      simp only [List.filterMap_cons, List.getElem?_eq_getElem hx, List.filter_cons, mem_eq_getElem s _ hx]
      split_ifs with h
      · rw [List.map_cons, List.map_cons, ih, mem_eq_getElem s _ hx]
      · exact ih
  exact this _ hin

theorem qValue_vecSum_le (l : ℕ) (V : List (ℕ → ℝ × ℝ)) (B : ℝ) (h : ∀ c ∈ V, qValue l c ≤ B) :
    qValue l (vecSum V) ≤ V.length * B := by
  induction V with
  | nil =>
    have : vecSum [] = fun _ => (0, 0) := rfl
    rw [this, qValue_eq, ip_zero_left]; simp
  | cons c V ih =>
    have : vecSum (c :: V) = fun k => ((c k).1 + (vecSum V k).1, (c k).2 + (vecSum V k).2) := rfl
    rw [this]
    refine (qValue_add_le l _ _).trans ?_
    have h1 := h c (by simp)
    have h2 := ih fun c hc => h c (by simp [hc])
    rw [List.length_cons]; push_cast
    linarith

/-- The state after an averaged `calculate_q`, field by field. -/
theorem calculateQ_av {s s' : System} {ls : List ℤ} (h : s.calculateQ ls true = .ok s') (l : ℕ) (hl : (l : ℤ) ∈ ls) {k : ℕ}
    {a' : Atom} (hk' : s'.atoms[k]? = some a') :
    ∃ hk : k < s.atoms.length, a'.nbrs = s.atoms[k].nbrs ∧ a'.condition = s.atoms[k].condition ∧
      a'.qlm l = s.calcQlm l (s.mem k) ∧ a'.q l = (s.calcQlm l (s.mem k)).map (qValue l) ∧
      a'.aqlm l = (s.afterQ (ls.map Int.toNat)).calcAqlm l (qAtom s (ls.map Int.toNat) (s.mem k)) ∧
      a'.aq l = (a'.aqlm l).map (qValue l) := by
  obtain ⟨-, -, es⟩ := calculateQ_ok h
  have hlen : k < s.atoms.length := by
    have := (List.getElem?_eq_some_iff.1 hk').1
    rw [es] at this
    simpa [System.afterQ] using this
  have ha := List.getElem?_eq_getElem hlen
  have hq := calculateQ_q h ha hk' l
  rw [if_pos hl, if_pos hl] at hq
  have e := calculateQ_atom h ha hk'
  rw [if_pos rfl] at e
  refine ⟨hlen, by rw [e]; rfl, by rw [e]; rfl, ?_, ?_, ?_, ?_⟩
  · rw [hq.2, mem_eq_getElem _ _ hlen]
  · rw [hq.1, mem_eq_getElem _ _ hlen]
  · rw [e, mem_eq_getElem _ _ hlen]; simp only [aqAtom, if_pos (toNat_mem hl)]
  · rw [e]; simp only [aqAtom, if_pos (toNat_mem hl)]

/-- **C20**: after `calculate_q(ls, averaged=True)`, the averaged vector of an atom is the mean of
the vectors of the atom and its neighbours of equal condition, the averaged value is its norm; it
is at most every bound on the plain values of these atoms (so at most 1), it equals the plain value
if the vectors agree, and it is NaN if one of the vectors is NaN. -/
theorem C20_average (s s' : System) (ls : List ℤ) (h : s.calculateQ ls true = .ok s') (l : ℕ) (hl : (l : ℤ) ∈ ls)
    (k : ℕ) (a : Atom) (hk : s'.atoms[k]? = some a) :
    ((∃ b ∈ Spec.group s' a, b.qlm l = none) → a.aq l = none) ∧
    ∀ V : List (ℕ → ℝ × ℝ), (Spec.group s' a).map (fun b => b.qlm l) = V.map some →
      a.aqlm l = some (Spec.meanVec V) ∧ a.aq l = some (Spec.qNorm l (Spec.meanVec V)) ∧
      (∀ b ∈ Spec.group s' a, ∃ q, b.q l = some q) ∧
      (∀ B, (∀ b ∈ Spec.group s' a, ∀ q, b.q l = some q → q ≤ B) → Spec.qNorm l (Spec.meanVec V) ≤ B) ∧
      ((∀ c ∈ V, ∀ c' ∈ V, c = c') → a.aq l = a.q l) := by
  obtain ⟨hr, hs, es⟩ := calculateQ_ok h
  rw [if_pos rfl] at es
  have hlen : s'.atoms.length = s.atoms.length := by rw [es]; simp [System.afterQ]
  have hall : ∀ i, i < s.atoms.length → (s'.mem i).qlm l = s.calcQlm l (s.mem i) ∧ (s'.mem i).q l = (s.calcQlm l (s.mem i)).map (qValue l) ∧
      (s'.mem i).condition = (s.mem i).condition := by
    intro i hi
    have hi' : i < s'.atoms.length := hlen.symm ▸ hi
    obtain ⟨_, -, hc, h1, h2, -⟩ := calculateQ_av h l hl (List.getElem?_eq_getElem hi')
    rw [mem_eq_getElem _ _ hi', mem_eq_getElem s _ hi]
    rw [mem_eq_getElem s _ hi] at h1 h2
    exact ⟨h1, h2, hc⟩
  obtain ⟨hkl, hnb, hcond, hqlm, hq, haqlm, haq⟩ := calculateQ_av h l hl hk
  have hs' : s'.NbrsInRange := by
    intro b hb x hx
    obtain ⟨i, hi, rfl⟩ := List.getElem_of_mem hb
    obtain ⟨hi', e, -⟩ := calculateQ_av h l hl (List.getElem?_eq_getElem hi)
    rw [e] at hx
    rw [hlen]
    exact hs _ (List.getElem_mem hi') x hx
  have hqN : s'.qNbrs (s'.mem k) = s.qNbrs (s.mem k) := by
    have e1 : s'.mem k = a := (mem_of_getElem? hk).2
    unfold System.qNbrs
    rw [e1, hnb, mem_eq_getElem s _ hkl]
    refine List.filter_congr fun x hx => ?_
    rw [(hall _ (hs _ (List.getElem_mem hkl) x hx)).2.2, hcond]
  have hG : Spec.group s' a = (k :: (s.qNbrs (s.mem k)).map Nb.idx).map s'.mem := by rw [group_eq hs' hk, hqN]
  obtain ⟨hI, hnone, hsome⟩ := calcAqlm_afterQ s (ls.map Int.toNat) l (toNat_mem hl) hs k hkl (fun i => s.calcQlm l (s.mem i)) (fun _ _ => rfl)
  set I := k :: (s.qNbrs (s.mem k)).map Nb.idx with hIdef
  rw [← haqlm] at hnone hsome
  constructor
  · rintro ⟨b, hb, hn⟩
    rw [hG] at hb
    obtain ⟨i, hi, rfl⟩ := List.mem_map.1 hb
    rw [(hall i (hI i hi)).1] at hn
    rw [haq, hnone ⟨i, hi, hn⟩]; rfl
  · intro V hV
    rw [hG, List.map_map] at hV
    have hV' : I.map (fun i => s.calcQlm l (s.mem i)) = V.map some := by
      rw [← hV]
      exact List.map_congr_left fun i hi => ((hall i (hI i hi)).1).symm
    have hS : ∀ i ∈ I, (s.calcQlm l (s.mem i)).isSome := by
      intro i hi
      have : s.calcQlm l (s.mem i) ∈ V.map some := by rw [← hV']; exact List.mem_map_of_mem hi
      obtain ⟨c, _, hc⟩ := List.mem_map.1 this
      rw [← hc]; rfl
    have hVe : I.map (fun i => (s.calcQlm l (s.mem i)).getD default) = V := by
      have := congrArg (List.map fun o : Option (ℕ → ℝ × ℝ) => o.getD default) hV'
      simpa [List.map_map, Function.comp_def] using this
    have hlenV : (I.length : ℝ) = V.length := by rw [← hVe, List.length_map]
    have hmean : a.aqlm l = some (Spec.meanVec V) := by
      rw [hsome hS, hVe, hlenV]; rfl
    have hpos : (0 : ℝ) < V.length := by rw [← hlenV, hIdef]; simp; positivity
    have hq' : a.aq l = some (Spec.qNorm l (Spec.meanVec V)) := by rw [haq, hmean, Option.map_some, qNorm_eq]
    have hbq : ∀ i ∈ I, ∃ c ∈ V, (s'.mem i).q l = some (qValue l c) := by
      intro i hi
      have : s.calcQlm l (s.mem i) ∈ V.map some := by rw [← hV']; exact List.mem_map_of_mem hi
      obtain ⟨c, hc, hc'⟩ := List.mem_map.1 this
      refine ⟨c, hc, ?_⟩
      rw [(hall i (hI i hi)).2.1, ← hc']; rfl
    refine ⟨hmean, hq', ?_, ?_, ?_⟩
    · intro b hb
      rw [hG] at hb
      obtain ⟨i, hi, rfl⟩ := List.mem_map.1 hb
      obtain ⟨c, _, hc⟩ := hbq i hi
      exact ⟨_, hc⟩
    · intro B hB
      have hB' : ∀ c ∈ V, qValue l c ≤ B := by
        intro c hc
        have : some c ∈ I.map (fun i => s.calcQlm l (s.mem i)) := by rw [hV']; exact List.mem_map_of_mem hc
        obtain ⟨i, hi, hic⟩ := List.mem_map.1 this
        refine hB (s'.mem i) (by rw [hG]; exact List.mem_map_of_mem hi) _ ?_
        rw [(hall i (hI i hi)).2.1, hic]; rfl
      rw [qNorm_eq]
      have := qValue_vecSum l V V.length
      have e : Spec.meanVec V = fun k => ((vecSum V k).1 / V.length, (vecSum V k).2 / V.length) := rfl
      rw [e, this, abs_of_pos (by positivity)]
      have h3 := qValue_vecSum_le l V B hB'
      calc _ ≤ (V.length : ℝ)⁻¹ * (V.length * B) := mul_le_mul_of_nonneg_left h3 (by positivity)
        _ = B := by field_simp
    · intro hsame
      obtain ⟨c, hc, hcq⟩ := hbq k (by simp [hIdef])
      rw [(mem_of_getElem? hk).2] at hcq
      rw [hq', hcq, qNorm_eq]
      congr 2
      funext t
      have e1 : V.map (fun c => (c t).1) = V.map fun _ => (c t).1 := List.map_congr_left fun c' hc' => by rw [hsame c' hc' c hc]
      have e2 : V.map (fun c => (c t).2) = V.map fun _ => (c t).2 := List.map_congr_left fun c' hc' => by rw [hsame c' hc' c hc]
      simp only [Spec.meanVec, e1, e2, List.map_const', List.sum_replicate, nsmul_eq_mul]
      refine Prod.ext ?_ ?_ <;> simp only <;> field_simp

/-! ### C53: frame and locality -/

/-- **C53**, frame: `calculate_q(ls)` changes nothing but the q values; those of unrequested `l`
and, unless requested, the averaged ones are untouched. -/
theorem C53_frame (s s' : System) (ls : List ℤ) (av : Bool) (h : s.calculateQ ls av = .ok s') :
    { s' with atoms := s.atoms } = s ∧ s'.atoms.length = s.atoms.length ∧
    ∀ (k : ℕ) (a a' : Atom), s.atoms[k]? = some a → s'.atoms[k]? = some a' →
      { a' with q := a.q, qlm := a.qlm, aq := a.aq, aqlm := a.aqlm } = a ∧
      (∀ l : ℕ, (l : ℤ) ∉ ls → a'.q l = a.q l ∧ a'.qlm l = a.qlm l ∧ a'.aq l = a.aq l ∧ a'.aqlm l = a.aqlm l) ∧
      (av = false → a'.aq = a.aq ∧ a'.aqlm = a.aqlm) := by
  obtain ⟨hr, -, es⟩ := calculateQ_ok h
  refine ⟨by rw [es]; cases av <;> rfl, by rw [es]; cases av <;> simp [System.afterQ], ?_⟩
  intro k a a' hk hk'
  have e := calculateQ_atom h hk hk'
  refine ⟨by rw [e]; cases av <;> rfl, ?_, ?_⟩
  · intro l hl
    have hl' : l ∉ ls.map Int.toNat := fun hm => hl (mem_toNat hr hm)
    have hq := calculateQ_q h hk hk' l
    rw [if_neg hl, if_neg hl] at hq
    refine ⟨hq.1, hq.2, ?_⟩
    rw [e]
    cases av with
    | false => exact ⟨rfl, rfl⟩
    | true =>
      simp only [if_true, aqAtom, if_neg hl']
      exact ⟨rfl, rfl⟩
  · rintro rfl
    rw [e]; exact ⟨rfl, rfl⟩

/-- **C53**, locality: two systems with the same neighbours, conditions and normalisation flag give
the same `q_l` (plain, averaged and components), whatever else they hold and whichever other `l`
are requested at the same time. -/
theorem C53_local (s g s' g' : System) (ls ms : List ℤ) (av : Bool) (h : s.calculateQ ls av = .ok s')
    (h' : g.calculateQ ms av = .ok g') (hv : g.voronoiused = s.voronoiused)
    (hn : g.atoms.map (fun a => (a.nbrs, a.condition)) = s.atoms.map fun a => (a.nbrs, a.condition))
    (l : ℕ) (hl : (l : ℤ) ∈ ls) (hm : (l : ℤ) ∈ ms) (k : ℕ) (a b : Atom) (hk : s'.atoms[k]? = some a) (hk' : g'.atoms[k]? = some b) :
    b.q l = a.q l ∧ b.qlm l = a.qlm l ∧ (av = true → b.aq l = a.aq l ∧ b.aqlm l = a.aqlm l) := by
  have hlen : g.atoms.length = s.atoms.length := by simpa using congrArg List.length hn
  have hat : ∀ i, i < s.atoms.length → (g.mem i).nbrs = (s.mem i).nbrs ∧ (g.mem i).condition = (s.mem i).condition := by
    intro i hi
    have := congrArg (fun L => L[i]?) hn
    simp only [List.getElem?_map, List.getElem?_eq_getElem hi, List.getElem?_eq_getElem (hlen.symm ▸ hi : i < g.atoms.length),
      Option.map_some, Option.some.injEq, Prod.mk.injEq] at this
    rw [mem_eq_getElem _ _ hi, mem_eq_getElem _ _ (hlen.symm ▸ hi : i < g.atoms.length)]
    exact this
  obtain ⟨_, hs, es⟩ := calculateQ_ok h
  obtain ⟨_, hg, eg⟩ := calculateQ_ok h'
  have hkl : k < s.atoms.length := by
    have := (List.getElem?_eq_some_iff.1 hk).1
    rw [es] at this
    cases av <;> simpa [System.afterQ] using this
  have hcond : ∀ i, (g.mem i).condition = (s.mem i).condition := by
    intro i
    by_cases hi : i < s.atoms.length
    · exact (hat i hi).2
    · have hi' : ¬ i < g.atoms.length := hlen.symm ▸ hi
      simp [System.mem, hi, hi']
  have hqn : ∀ i, i < s.atoms.length → g.qNbrs (g.mem i) = s.qNbrs (s.mem i) := by
    intro i hi
    unfold System.qNbrs
    rw [(hat i hi).1]
    exact List.filter_congr fun x _ => by rw [hcond, hcond]
  have hcalc : ∀ i, i < s.atoms.length → g.calcQlm l (g.mem i) = s.calcQlm l (s.mem i) := by
    intro i hi
    unfold System.calcQlm
    rw [hqn i hi, hv]
  have hkl' : k < g.atoms.length := hlen.symm ▸ hkl
  have q1 := calculateQ_q h (List.getElem?_eq_getElem hkl) hk l
  have q2 := calculateQ_q h' (List.getElem?_eq_getElem hkl') hk' l
  rw [if_pos hl, if_pos hl, ← mem_eq_getElem _ _ hkl] at q1
  rw [if_pos hm, if_pos hm, ← mem_eq_getElem _ _ hkl'] at q2
  refine ⟨by rw [q1.1, q2.1, hcalc k hkl], by rw [q1.2, q2.2, hcalc k hkl], ?_⟩
  rintro rfl
  obtain ⟨-, -, -, -, -, a1, a2⟩ := calculateQ_av h l hl hk
  obtain ⟨-, -, -, -, -, b1, b2⟩ := calculateQ_av h' l hm hk'
  have key : b.aqlm l = a.aqlm l := by
    obtain ⟨hI, n1, s1⟩ := calcAqlm_afterQ s (ls.map Int.toNat) l (toNat_mem hl) hs k hkl (fun i => s.calcQlm l (s.mem i)) (fun _ _ => rfl)
    obtain ⟨hJ, n2, s2⟩ := calcAqlm_afterQ g (ms.map Int.toNat) l (toNat_mem hm) hg k hkl' (fun i => s.calcQlm l (s.mem i))
      (fun i hi => (hcalc i (hlen ▸ hi)).symm)
    rw [hqn k hkl] at n2 s2
    rw [a1, b1]
    by_cases hex : ∃ i ∈ k :: (s.qNbrs (s.mem k)).map Nb.idx, s.calcQlm l (s.mem i) = none
    · rw [n1 hex, n2 hex]
    · have hex' : ∀ i ∈ k :: (s.qNbrs (s.mem k)).map Nb.idx, (s.calcQlm l (s.mem i)).isSome := by
        intro i hi
        by_contra hc
        exact hex ⟨i, hi, by simpa using hc⟩
      rw [s1 hex', s2 hex']
  exact ⟨by rw [a2, b2, key], key⟩

/-- **C53**, `get_qvals`: for `l` in 2..12 one value per real atom, in order; other `l` raise. -/
theorem C53_get_qvals (s : System) (l : ℤ) (av : Bool) (hn : s.realNop ≤ s.atoms.length) :
    (2 ≤ l ∧ l ≤ 12 → ∃ v, s.getQvals l av = .ok v ∧ v.length = s.natoms ∧
      ∀ (k : ℕ) (a : Atom), k < s.natoms → s.atoms[k]? = some a → v[k]? = some (if av then a.aq l.toNat else a.q l.toNat)) ∧
    (¬ (2 ≤ l ∧ l ≤ 12) → s.getQvals l av = .error .valueError) := by
  constructor
  · intro hl
    refine ⟨_, by rw [System.getQvals, if_pos hl, System.gqvals, if_pos hn], ?_, ?_⟩
    · simp [System.natoms, hn]
    · intro k a hk ha
      have hk : k < s.realNop := hk
      rw [List.getElem?_map, List.getElem?_take_of_lt hk, ha]; rfl
  · intro hl
    rw [System.getQvals, if_neg hl]

/-- **C53**, `get_qvals` with a list: one list of values per entry, in the order of the entries; an entry outside 2..12 raises. -/
theorem C53_get_qvals_list (s : System) (ls : List ℤ) (av : Bool) (hn : s.realNop ≤ s.atoms.length) :
    ((∀ l ∈ ls, 2 ≤ l ∧ l ≤ 12) → ∃ v, s.getQvalsList ls av = .ok v ∧ v.length = ls.length ∧
      ∀ (j : ℕ) (l : ℤ), ls[j]? = some l → ∃ w, v[j]? = some w ∧ s.getQvals l av = .ok w) ∧
    ((∃ l ∈ ls, ¬ (2 ≤ l ∧ l ≤ 12)) → s.getQvalsList ls av = .error .valueError) := by
  constructor
  · intro hl
    have hq : qRange ls := hl
    rw [System.getQvalsList, if_pos hq]
    have key : ∀ ls : List ℤ, (∀ l ∈ ls, 2 ≤ l ∧ l ≤ 12) → ∃ v, (ls.mapM fun l => s.gqvals av l.toNat) = .ok v ∧ v.length = ls.length ∧
        ∀ (j : ℕ) (l : ℤ), ls[j]? = some l → ∃ w, v[j]? = some w ∧ s.getQvals l av = .ok w := by
      intro ls
      induction ls with
      | nil => intro _; exact ⟨[], rfl, rfl, by simp⟩
      | cons l0 ls ih =>
        intro h
        obtain ⟨v, hv, hlen, hget⟩ := ih fun l hl => h l (by simp [hl])
        obtain ⟨w, hw⟩ : ∃ w, s.gqvals av l0.toNat = .ok w := ⟨_, by rw [System.gqvals, if_pos hn]⟩
        refine ⟨w :: v, ?_, by simp [hlen], ?_⟩
        · rw [List.mapM_cons, hw, hv]; rfl
        · intro j l hj
          cases j with
          | zero =>
            obtain rfl : l0 = l := by simpa using hj
            exact ⟨w, rfl, by rw [System.getQvals, if_pos (h l0 (by simp)), hw]⟩
          | succ j => exact hget j l (by simpa using hj)
    exact key ls hl
  · rintro ⟨l, hl, h⟩
    rw [System.getQvalsList, if_neg]
    intro hq
    exact h (hq l hl)

/-- The hypotheses of `C53_get_qvals_list` are met. -/
example : twoAtoms.realNop ≤ twoAtoms.atoms.length ∧ ∀ l ∈ ([6, 4] : List ℤ), 2 ≤ l ∧ l ≤ 12 := by
  constructor
  · decide
  · decide

/-! ### C52: set_q and get_q -/

/-- **C52**, single value: `set_q` then `get_q` returns the value; every other plain and averaged
value, and every other field, is unchanged; `l` outside 2..12 raises in both. -/
theorem C52_set_get (a : Atom) (l : ℤ) (v : Option ℝ) (av : Bool) :
    (2 ≤ l ∧ l ≤ 12 → ∃ b, a.setQ l v av = .ok b ∧ b.getQ l av = .ok v ∧ b.getQ l (!av) = a.getQ l (!av) ∧
      (∀ m w, m ≠ l → b.getQ m w = a.getQ m w) ∧ { b with q := a.q, aq := a.aq } = a) ∧
    (¬ (2 ≤ l ∧ l ≤ 12) → a.setQ l v av = .error .invalidArgument ∧ a.getQ l av = .error .invalidArgument) := by
  constructor
  · intro hl
    have hn : ¬ (l < 2 ∨ l > 12) := by omega
    refine ⟨_, by rw [Atom.setQ, if_neg hn], ?_, ?_, ?_, ?_⟩
    · rw [Atom.getQ, if_neg hn]; cases av <;> simp
    · rw [Atom.getQ, Atom.getQ, if_neg hn, if_neg hn]; cases av <;> simp
    · intro m w hm
      rw [Atom.getQ, Atom.getQ]
      by_cases hb : m < 2 ∨ m > 12
      · rw [if_pos hb, if_pos hb]
      · rw [if_neg hb, if_neg hb]
        have : m.toNat ≠ l.toNat := by omega
        cases av <;> cases w <;> simp [this]
    · cases av <;> rfl
  · intro hl
    have hn : l < 2 ∨ l > 12 := by omega
    rw [Atom.setQ, Atom.getQ, if_pos hn, if_pos hn]
    exact ⟨rfl, rfl⟩

/-- **C52**, lists: `set_q` with distinct `l` in range and as many values succeeds, and then `get_q`
of the same list returns the values. -/
theorem C52_set_get_list (av : Bool) (ls : List ℤ) (vs : List (Option ℝ)) (hlen : vs.length = ls.length) (hr : qRange ls)
    (hnd : ls.Nodup) (a : Atom) :
    (Atom.setQList av ls vs a).2 = none ∧ (Atom.setQList av ls vs a).1.getQList ls av = .ok vs ∧
    ∀ m w, (w ≠ av ∨ m ∉ ls) → (Atom.setQList av ls vs a).1.getQ m w = a.getQ m w := by
  induction ls generalizing vs a with
  | nil =>
    rw [List.length_nil, List.length_eq_zero_iff] at hlen
    subst hlen
    exact ⟨rfl, rfl, fun m w _ => rfl⟩
  | cons l ls ih =>
    rcases vs with _ | ⟨v, vs⟩
    · simp at hlen
    · have hl := hr l (by simp)
      have hn : ¬ (l < 2 ∨ l > 12) := by omega
      obtain ⟨hln, hnd'⟩ := List.nodup_cons.1 hnd
      obtain ⟨b, hb, g1, g2, g3, -⟩ := (C52_set_get a l v av).1 hl
      have eb : (if av then { a with aq := Function.update a.aq l.toNat v } else { a with q := Function.update a.q l.toNat v }) = b := by
        rw [Atom.setQ, if_neg hn] at hb
        exact Except.ok.inj hb
      obtain ⟨i1, i2, i3⟩ := ih vs (by simpa using hlen) (fun m hm => hr m (by simp [hm])) hnd' b
      rw [Atom.setQList, if_neg hn]
      simp only [eb]
      refine ⟨i1, ?_, ?_⟩
      · rw [Atom.getQList, List.mapM_cons, i3 l av (.inr hln), g1]
        change (do let ys ← Atom.getQList _ ls av; pure (v :: ys)) = _
        rw [i2]; rfl
      · intro m w hmw
        rw [i3 m w (hmw.imp_right fun hm => fun hc => hm (by simp [hc]))]
        rcases eq_or_ne m l with rfl | hm
        · have : w = !av := by
            rcases hmw with hw | hm
            · cases av <;> cases w <;> simp_all
            · simp at hm
          rw [this, g2]
        · exact g3 m w hm

example : qRange [4, 6] ∧ ([4, 6] : List ℤ).Nodup := ⟨by decide, by decide⟩

/-- **C52**, when a list call succeeds: `set_q` of lists goes through exactly if every `l` is in range and there is a value for each of them; extra values are
ignored. With too few values (and all `l` in range) the code reads past the end of the list of values. -/
theorem C52_list_errors (av : Bool) (ls : List ℤ) (vs : List (Option ℝ)) (a : Atom) :
    ((Atom.setQList av ls vs a).2 = none ↔ qRange ls ∧ ls.length ≤ vs.length) ∧
    (qRange ls → vs.length < ls.length → (Atom.setQList av ls vs a).2 = some .oob) := by
  induction ls generalizing vs a with
  | nil => exact ⟨⟨fun _ => ⟨fun l hl => absurd hl (by simp), Nat.zero_le _⟩, fun _ => rfl⟩, fun _ h => absurd h (by simp)⟩
  | cons l ls ih =>
    by_cases hl : l < 2 ∨ l > 12
    · have hn : ¬ qRange (l :: ls) := fun h => by have := h l (by simp); omega
      have e : (Atom.setQList av (l :: ls) vs a).2 = some .invalidArgument := by unfold Atom.setQList; rw [if_pos hl]
      rw [e]
      exact ⟨⟨fun h => (by simp at h), fun h => absurd h.1 hn⟩, fun h => absurd h hn⟩
    · have hq : qRange (l :: ls) ↔ qRange ls := by
        refine ⟨fun h m hm => h m (by simp [hm]), fun h m hm => ?_⟩
        rcases List.mem_cons.1 hm with rfl | hm
        · omega
        · exact h m hm
      rcases vs with _ | ⟨v, vs⟩
      · have e : (Atom.setQList av (l :: ls) [] a).2 = some .oob := by unfold Atom.setQList; rw [if_neg hl]
        rw [e]
        simp
      · rw [Atom.setQList, if_neg hl]
        simp only [hq, List.length_cons, Nat.add_le_add_iff_right, Nat.add_lt_add_iff_right]
        exact ih vs _

example : qRange [4, 6] ∧ ([some 1] : List (Option ℝ)).length < ([4, 6] : List ℤ).length := ⟨by decide, by decide⟩

/-- The last part of **C52** is false: `set_q([2, 13], [5, 5])` raises, but has already set `q_2`. -/
theorem C52_false_partial_write (a : Atom) (h : a.q 2 = some (-1)) :
    (Atom.setQList false [2, 13] [some 5, some 5] a).2 = some .invalidArgument ∧
    (Atom.setQList false [2, 13] [some 5, some 5] a).1.q 2 = some 5 ∧ a.q 2 ≠ some 5 := by
  refine ⟨rfl, rfl, ?_⟩
  rw [h]; norm_num

/-! ### C62: components -/

theorem QLM_neg (l m : ℕ) (hm : 0 < m) (t p : ℝ) :
    QLM l (-(m : ℤ)) t p = ((-1) ^ m * (QLM l m t p).1, (-1) ^ m * (QLM l m t p).2) := by
  unfold QLM
  rw [if_pos (by omega), if_neg (by omega)]
  have : ((-1 : ℝ)) ^ (-(m : ℤ)) = (-1) ^ m := by
    rw [zpow_neg, zpow_natCast, ← inv_pow]; norm_num
  simp only [this, Int.natAbs_neg]

theorem qSum_neg (l m : ℕ) (hm : 0 < m) (L : List Nb) :
    qSum l (-(m : ℤ)) L = ((-1) ^ m * (qSum l m L).1, (-1) ^ m * (qSum l m L).2) := by
  rw [qSum_eq, qSum_eq]
  simp only [QLM_neg l m hm, ← List.sum_map_mul_left]
  refine Prod.ext ?_ ?_ <;> simp only <;> refine congrArg List.sum (List.map_congr_left fun x _ => by ring)

/-- **C62**, what the code guarantees: component `-m` is `(-1)^m` times component `m`, without the
complex conjugation of the spherical harmonics. -/
theorem C62_partial (s s' : System) (ls : List ℤ) (av : Bool) (h : s.calculateQ ls av = .ok s') (l : ℕ) (hl : (l : ℤ) ∈ ls)
    (k : ℕ) (a' : Atom) (hk' : s'.atoms[k]? = some a') (c : ℕ → ℝ × ℝ) (hc : a'.qlm l = some c) (m : ℕ) (hm : 0 < m) (hml : m ≤ l) :
    c (l - m) = ((-1) ^ m * (c (l + m)).1, (-1) ^ m * (c (l + m)).2) := by
  obtain ⟨_, _, es⟩ := calculateQ_ok h
  have hkl : k < s.atoms.length := by
    have := (List.getElem?_eq_some_iff.1 hk').1
    rw [es] at this
    cases av <;> simpa [System.afterQ] using this
  have q1 := (calculateQ_q h (List.getElem?_eq_getElem hkl) hk' l).2
  rw [if_pos hl, hc, ← mem_eq_getElem _ _ hkl] at q1
  obtain ⟨_, rfl⟩ := QEquiv.form s l q1.symm
  have e1 : ((l - m : ℕ) : ℤ) - l = -(m : ℤ) := by omega
  have e2 : ((l + m : ℕ) : ℤ) - l = m := by omega
  simp only [sumVec, e1, e2, qSum_neg l m hm]
  refine Prod.ext ?_ ?_ <;> simp only <;> ring

/-- The negation of **C62**: the components do not satisfy `q_{l,-m} = (-1)^m conj(q_{lm})`, except
when the imaginary part of `q_{lm}` vanishes. -/
theorem C62_false (s s' : System) (ls : List ℤ) (av : Bool) (h : s.calculateQ ls av = .ok s') (l : ℕ) (hl : (l : ℤ) ∈ ls)
    (k : ℕ) (a' : Atom) (hk' : s'.atoms[k]? = some a') (c : ℕ → ℝ × ℝ) (hc : a'.qlm l = some c) (m : ℕ) (hm : 0 < m) (hml : m ≤ l) :
    c (l - m) = ((-1) ^ m * (c (l + m)).1, -((-1) ^ m * (c (l + m)).2)) ↔ (c (l + m)).2 = 0 := by
  rw [C62_partial s s' ls av h l hl k a' hk' c hc m hm hml, Prod.mk.injEq]
  constructor
  · rintro ⟨-, h2⟩
    have : ((-1 : ℝ) ^ m) * (c (l + m)).2 = 0 := by linarith
    rcases mul_eq_zero.1 this with h0 | h0
    · exact absurd h0 (pow_ne_zero _ (by norm_num))
    · exact h0
  · intro h0
    rw [h0]; simp

/-- A system with one atom and one neighbour (its own image) in direction `(1, 1, 0)`. -/
noncomputable def diagBond : System :=
  { twoAtoms with atoms := [{ (default : Atom) with nbrs := [⟨0, 1, 1, ⟨1, 1, 0⟩⟩] }], voronoiused := false }

/-- On a concrete system the imaginary part in `C62_false` does not vanish. -/
theorem C62_false_witness : ∃ (s' : System) (a' : Atom) (c : ℕ → ℝ × ℝ), diagBond.calculateQ [2] = .ok s' ∧ s'.atoms[0]? = some a' ∧ a'.qlm 2 = some c ∧
    c (2 - 2) ≠ ((-1) ^ 2 * (c (2 + 2)).1, -((-1) ^ 2 * (c (2 + 2)).2)) := by
  have hin : diagBond.NbrsInRange := by
    intro a ha x hx
    simp only [diagBond, List.mem_singleton] at ha
    subst ha
    simp only [List.mem_singleton] at hx
    subst hx
    simp [diagBond]
  obtain ⟨s', hs'⟩ := calculateQ_succeeds (ls := [2]) false false (by simp [qRange]) hin
  have hv : (⟨1, 1, 0⟩ : V3) ≠ 0 := by
    intro h; have := congrArg V3.x h; simp at this
  have hlen : 0 < s'.atoms.length := by
    obtain ⟨_, _, e⟩ := calculateQ_ok hs'
    rw [e]; simp [System.afterQ, diagBond]
  have ha : diagBond.atoms[0]? = some { (default : Atom) with nbrs := [⟨0, 1, 1, ⟨1, 1, 0⟩⟩] } := rfl
  have hk := List.getElem?_eq_getElem hlen
  have hq := (calculateQ_q hs' ha hk 2).2
  rw [if_pos (by simp)] at hq
  have hnb : diagBond.qNbrs { (default : Atom) with nbrs := [⟨0, 1, 1, ⟨1, 1, 0⟩⟩] } = [⟨0, 1, 1, ⟨1, 1, 0⟩⟩] := by
    unfold System.qNbrs
    rw [List.filter_eq_self]
    intro x hx
    simp only [List.mem_singleton] at hx
    subst hx
    simp [System.mem, diagBond]
  have hsome := ((calcQ_value diagBond 2 _).2 (by rw [hnb]; simpa using hv)).2.2 rfl (by rw [hnb]; simp)
  rw [hsome] at hq
  refine ⟨s', _, _, hs', hk, hq, ?_⟩
  rw [ne_eq, C62_false diagBond s' [2] false hs' 2 (by simp) 0 _ hk _ hq 2 (by norm_num) le_rfl, hnb]
  have e : (sumVec 2 [⟨0, 1, 1, ⟨1, 1, 0⟩⟩] (2 + 2)).2 = (YLM 2 2 (V3.theta ⟨1, 1, 0⟩) (V3.phi ⟨1, 1, 0⟩)).2 := by
    simp [sumVec, qSum, QLM]
  rw [e, YLM_eq 2 2 le_rfl hv]
  have hn := V3.norm_pos_of_ne hv
  have him : (((⟨1, 1, 0⟩ : V3).cx ^ 2).im) = 2 / ((⟨1, 1, 0⟩ : V3).norm * (⟨1, 1, 0⟩ : V3).norm) := by
    rw [pow_two, Complex.mul_im]
    simp only [V3.cx]
    field_simp; norm_num
  rw [him]
  have hamp : 0 < ylmAmp 2 2 := by
    unfold ylmAmp
    refine Real.sqrt_pos.2 (mul_pos (div_pos (by norm_num) (by unfold PI; norm_num)) ?_)
    exact dfactorial_pos 2 2 le_rfl
  simp [plmPoly, pmmCoef, hamp.ne', hn.ne']
  norm_num

end Pyscal
