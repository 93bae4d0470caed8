import Verif.Lemmas.Neighbors
import Verif.Spec.Neighbors
import Mathlib.Data.Set.Card

/-! Lemmas about `find_neighbors`. -/

namespace Pyscal

/-- State on which the search of `find_neighbors` runs. -/
def System.startSearch (s : System) (f : ℕ) : System := { s.resetAllNeighbors with filter := f }

theorem resetAll_mem (s : System) (k : ℕ) (hk : k < s.atoms.length) :
    s.resetAllNeighbors.mem k = { s.mem k with nbrs := [], temp := [], condition := some 0 } := by
  simp [System.mem, System.resetAllNeighbors, hk]

theorem resetAll_length (s : System) : s.resetAllNeighbors.atoms.length = s.atoms.length := by
  simp [System.resetAllNeighbors]

theorem resetAll_posOf (s : System) (k : ℕ) : s.resetAllNeighbors.posOf k = s.posOf k := by
  by_cases hk : k < s.atoms.length
  · rw [System.posOf, resetAll_mem s k hk]; rfl
  · simp [System.posOf, System.mem, System.resetAllNeighbors, hk]

theorem resetAll_typeOf (s : System) (k : ℕ) : s.resetAllNeighbors.typeOf k = s.typeOf k := by
  by_cases hk : k < s.atoms.length
  · rw [System.typeOf, resetAll_mem s k hk]; rfl
  · simp [System.typeOf, System.mem, System.resetAllNeighbors, hk]

theorem image_frame {s s' : System} (h1 : s'.box = s.box) (h2 : s'.rot = s.rot) (h3 : s'.rotinv = s.rotinv)
    (h4 : s'.triclinic = s.triclinic) (d : V3) : s'.image d = s.image d := by
  simp only [System.image, System.boxx, System.boxy, System.boxz, h1, h2, h3, h4]

theorem resetAll_diffOf (s : System) (i j : ℕ) : s.resetAllNeighbors.diffOf i j = s.diffOf i j := by
  simp only [System.diffOf, System.diffIdx, resetAll_posOf]
  exact image_frame rfl rfl rfl rfl _

theorem resetAll_distOf (s : System) (i j : ℕ) : s.resetAllNeighbors.distOf i j = s.distOf i j := by
  have : s.resetAllNeighbors.distOf i j = V3.norm (s.resetAllNeighbors.diffOf i j) := rfl
  rw [this, resetAll_diffOf]; rfl

open Classical in
/-- The neighbours found with a numeric cutoff, as a function of the state before. -/
noncomputable def cutoffNbs (s : System) (r : ℝ) (f k : ℕ) : List Nb :=
  ((List.range s.atoms.length).filter fun j => j ≠ k ∧ (s.distOf k j < r ∧
    filterOK f (s.typeOf k) (s.typeOf j) = true)).map (s.mkNb k)

/-- Atom `k` after a search with a numeric cutoff. -/
noncomputable def cutoffAtom (s : System) (r : ℝ) (f k : ℕ) : Atom :=
  { s.mem k with
    nbrs := cutoffNbs s r f k
    temp := []
    condition := some 0
    cutoff := if cutoffNbs s r f k = [] then (s.mem k).cutoff else some r }

theorem neighborsNormal_start (s : System) (r : ℝ) (f : ℕ) (k : ℕ) (hk : k < s.atoms.length) :
    (System.neighborsNormal { s.startSearch f with neighbordistance := r }).mem k = cutoffAtom s r f k := by
  set s1 : System := { s.startSearch f with neighbordistance := r } with hs1
  have hl : s1.atoms.length = s.atoms.length := resetAll_length s
  have hd : ∀ i j, s1.distOf i j = s.distOf i j := fun i j => resetAll_distOf s i j
  have hv : ∀ i j, s1.diffOf i j = s.diffOf i j := fun i j => resetAll_diffOf s i j
  have ht : ∀ i, s1.typeOf i = s.typeOf i := fun i => resetAll_typeOf s i
  have hm : s1.mem k = { s.mem k with nbrs := [], temp := [], condition := some 0 } := resetAll_mem s k hk
  have hnb : s1.mkNb k = s.mkNb k := by
    funext j
    simp only [System.mkNb, hd, hv]
  rw [neighborsNormal_mem s1 k (by rw [hl]; exact hk)]
  simp only [hl, hd, ht, hm, hnb, List.nil_append]
  rfl

theorem neighborsNormal_length (s : System) : s.neighborsNormal.atoms.length = s.atoms.length := by
  simp [System.neighborsNormal]

/-- `find_neighbors` with a numeric cutoff and at most 2300 atoms. -/
theorem findNeighbors_cutoff (σ : StdSort) (s : System) (f : ℕ) (r : ℝ) (hr : r ≠ 0)
    (hn : s.realNop ≤ 2300) (hle : s.realNop ≤ s.atoms.length) :
    s.findNeighbors σ f (.cutoff r) =
      (do
        let s' ← (System.neighborsNormal { s.startSearch f with neighbordistance := r }).checkCapacity
        return { s' with neighborsFound := true }) := by
  have hg : System.getAtoms { s.startSearch f with neighbordistance := r } =
      .ok ((s.resetAllNeighbors.atoms).take s.realNop) := by
    unfold System.getAtoms
    rw [if_pos]
    · rfl
    · exact hle.trans (resetAll_length s).ge
  simp only [System.findNeighbors, System.search, if_neg hr, System.searchCutoff]
  change (do
    let s ← (do
      let l ← System.getAtoms { s.startSearch f with neighbordistance := r }
      if l.length > 2300 then System.neighborsCells { s.startSearch f with neighbordistance := r }
      else return System.neighborsNormal { s.startSearch f with neighbordistance := r })
    let s ← s.checkCapacity
    return { s with neighborsFound := true }) = _
  rw [hg]
  have : ¬ (s.resetAllNeighbors.atoms.take s.realNop).length > 2300 := by
    rw [List.length_take]; omega
  simp only [bind, Except.bind, if_neg this, pure, Except.pure]

theorem getAtoms_error (s : System) (hle : ¬ s.realNop ≤ s.atoms.length) : s.getAtoms = .error .oob := by
  unfold System.getAtoms; rw [if_neg hle]

theorem findNeighbors_cutoff_oob (σ : StdSort) (s : System) (f : ℕ) (r : ℝ) (hr : r ≠ 0)
    (hle : ¬ s.realNop ≤ s.atoms.length) : s.findNeighbors σ f (.cutoff r) = .error .oob := by
  simp only [System.findNeighbors, System.search, if_neg hr, System.searchCutoff]
  have : System.getAtoms { s.startSearch f with neighbordistance := r } = .error .oob :=
    getAtoms_error _ (by rw [show (System.atoms { s.startSearch f with neighbordistance := r }).length = _ from
      resetAll_length s]; exact hle)
  change (do
    let s ← (do
      let l ← System.getAtoms { s.startSearch f with neighbordistance := r }
      if l.length > 2300 then System.neighborsCells { s.startSearch f with neighbordistance := r }
      else return System.neighborsNormal { s.startSearch f with neighbordistance := r })
    let s ← s.checkCapacity
    return { s with neighborsFound := true }) = _
  rw [this]
  rfl

theorem checkCapacity_ok {s s' : System} (h : s.checkCapacity = .ok s') :
    s' = s ∧ ∀ a ∈ s.atoms, a.nbrs.length ≤ 300 := by
  unfold System.checkCapacity at h
  by_cases hc : ∃ a ∈ s.atoms, a.nbrs.length > 300
  · rw [if_pos hc] at h; cases h
  · rw [if_neg hc] at h
    push Not at hc
    exact ⟨(Except.ok.inj h).symm, hc⟩

/-- What a successful search with a numeric cutoff returns. -/
theorem findNeighbors_cutoff_ok {σ : StdSort} {s s' : System} {f : ℕ} {r : ℝ} (hr : r ≠ 0)
    (hn : s.realNop ≤ 2300) (h : s.findNeighbors σ f (.cutoff r) = .ok s') :
    s.realNop ≤ s.atoms.length ∧
    s' = { s with atoms := (List.range s.atoms.length).map (cutoffAtom s r f), filter := f,
                  neighbordistance := r, voronoiused := false, neighborsFound := true } ∧
    ∀ k < s.atoms.length, (cutoffNbs s r f k).length ≤ 300 := by
  by_cases hle : s.realNop ≤ s.atoms.length
  · rw [findNeighbors_cutoff σ s f r hr hn hle] at h
    set N := System.neighborsNormal { s.startSearch f with neighbordistance := r } with hN
    have hatoms : N.atoms = (List.range s.atoms.length).map (cutoffAtom s r f) := by
      apply atoms_ext
      · rw [hN, neighborsNormal_length, List.length_map, List.length_range]
        exact resetAll_length s
      · intro k hk
        rw [List.length_map, List.length_range] at hk
        rw [hN, neighborsNormal_start s r f k hk]
        simp
    rcases hc : N.checkCapacity with e | s2
    · rw [hc] at h; cases h
    · rw [hc] at h
      obtain ⟨rfl, hcap⟩ := checkCapacity_ok hc
      have h' : { N with neighborsFound := true } = s' := Except.ok.inj h
      refine ⟨hle, ?_, ?_⟩
      · rw [← h']
        have : N = { s with atoms := N.atoms, filter := f, neighbordistance := r, voronoiused := false } := by
          rw [hN]; rfl
        rw [this, hatoms]
      · intro k hk
        have := hcap (cutoffAtom s r f k) (by
          rw [hatoms, List.mem_map]; exact ⟨k, List.mem_range.2 hk, rfl⟩)
        exact this
  · rw [findNeighbors_cutoff_oob σ s f r hr hle] at h; cases h

theorem filterOK_iff (f : ℕ) (a b : Atom) :
    filterOK f a.type b.type = true ↔ Spec.FilterAllows f a b := by
  unfold filterOK Spec.FilterAllows
  simp only [Bool.and_eq_true, Bool.not_eq_true', Bool.and_eq_false_iff, beq_eq_false_iff_ne,
    bne_eq_false_iff_eq, ne_eq]
  constructor
  · rintro ⟨h1, h2⟩
    refine ⟨fun hf => ?_, fun hf hab => ?_⟩
    · rcases h1 with h1 | h1
      · exact absurd hf h1
      · exact h1.symm
    · rcases h2 with h2 | h2
      · exact h2 hf
      · exact h2 hab.symm
  · rintro ⟨h1, h2⟩
    refine ⟨?_, ?_⟩
    · by_cases hf : f = 1
      · exact .inr (h1 hf).symm
      · exact .inl hf
    · by_cases hf : f = 2
      · exact .inr fun h => h2 hf h.symm
      · exact .inl hf

theorem mem_of_getElem? {s : System} {k : ℕ} {a : Atom} (h : s.atoms[k]? = some a) :
    k < s.atoms.length ∧ s.mem k = a := by
  obtain ⟨hk, rfl⟩ := List.getElem?_eq_some_iff.1 h
  exact ⟨hk, mem_eq_getElem s k hk⟩

theorem distOf_eq {s : System} {j k : ℕ} {a b : Atom} (hk : s.atoms[k]? = some a) (hj : s.atoms[j]? = some b) :
    s.distOf k j = s.getDistance b a ∧ s.diffOf k j = s.getDistanceVector b a := by
  simp only [System.distOf, System.diffOf, System.distIdx, System.diffIdx, System.posOf,
    (mem_of_getElem? hk).2, (mem_of_getElem? hj).2, System.getDistance, System.getDistanceVector, and_self]

theorem cutoffNbs_spec {s : System} {r : ℝ} {f k : ℕ} {a : Atom} (hk : s.atoms[k]? = some a) :
    Spec.CutoffList s r f k a (cutoffNbs s r f k) := by
  have hka := mem_of_getElem? hk
  refine ⟨?_, ?_, ?_⟩
  · unfold cutoffNbs
    rw [List.map_map]
    have : (Nb.idx ∘ s.mkNb k) = id := rfl
    rw [this, List.map_id]
    exact List.nodup_range.filter _
  · intro j b hj hnear
    obtain ⟨h1, h2, h3⟩ := hnear
    have hjb := mem_of_getElem? hj
    refine ⟨s.mkNb k j, ?_, rfl⟩
    unfold cutoffNbs
    rw [List.mem_map]
    refine ⟨j, ?_, rfl⟩
    rw [List.mem_filter]
    refine ⟨List.mem_range.2 hjb.1, ?_⟩
    rw [decide_eq_true_eq]
    refine ⟨h1, ?_, ?_⟩
    · rw [(distOf_eq hk hj).1]; exact h2
    · rw [System.typeOf, System.typeOf, hka.2, hjb.2, filterOK_iff]; exact h3
  · intro x hx
    unfold cutoffNbs at hx
    rw [List.mem_map] at hx
    obtain ⟨j, hj, rfl⟩ := hx
    rw [List.mem_filter, decide_eq_true_eq, List.mem_range] at hj
    obtain ⟨hjn, h1, h2, h3⟩ := hj
    have hj : s.atoms[j]? = some s.atoms[j] := List.getElem?_eq_getElem hjn
    have hd := distOf_eq hk hj
    refine ⟨s.atoms[j], hj, ⟨h1, ?_, ?_⟩, hd.1, rfl, hd.2⟩
    · rw [← hd.1]; exact h2
    · rw [← filterOK_iff]
      rw [System.typeOf, System.typeOf, hka.2, (mem_of_getElem? hj).2] at h3
      exact h3

/-- A list satisfying the specification has as many entries as there are neighbours. -/
theorem cutoffList_length {s : System} {r : ℝ} {f k : ℕ} {a : Atom} {l : List Nb} (hk : s.atoms[k]? = some a)
    (h : Spec.CutoffList s r f k a l) : l.length = (Spec.nearSet s r f k).ncard := by
  have : Spec.nearSet s r f k = ((l.map Nb.idx).toFinset : Set ℕ) := by
    ext j
    simp only [Spec.nearSet, Set.mem_ofPred_eq, List.coe_toFinset, List.mem_map]
    constructor
    · rintro ⟨host, nb, h1, h2, h3⟩
      rw [hk] at h1
      obtain rfl := Option.some.inj h1
      exact h.2.1 j nb h2 h3
    · rintro ⟨x, hx, rfl⟩
      obtain ⟨nb, h1, h2, -⟩ := h.2.2 x hx
      exact ⟨a, nb, hk, h1, h2⟩
  rw [this, Set.ncard_coe_finset, List.toFinset_card_of_nodup h.1, List.length_map]

end Pyscal
