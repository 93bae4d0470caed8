import Verif.Lemmas.Centro
import Verif.Props.Diamond

/-! Property C30: centrosymmetry. -/

namespace Pyscal

open Finset

theorem pairs_length (n : ℕ) : 2 * (pairs n).length = n * (n - 1) := by
  have h : (pairs n).length = ∑ i ∈ range n, (n - 1 - i) := by
    unfold pairs
    rw [List.length_flatMap]
    have : ∀ i ∈ List.range n, (((List.range n).filter fun j => i < j).map fun j => (i, j)).length = n - 1 - i := by
      intro i hi
      rw [List.length_map]
      have e : ((List.range n).filter fun j => i < j).length = (Finset.Ioo i n).card := by
        rw [← List.toFinset_card_of_nodup (List.nodup_range.filter _)]
        congr 1
        ext j
        simp [and_comm]
      rw [e, Nat.card_Ioo]
      omega
    rw [List.map_congr_left this, ← List.sum_toFinset _ List.nodup_range, List.toFinset_range]
  rw [h, Finset.sum_range_reflect (fun i => i) n, mul_comm, Finset.sum_range_id_mul_two]

theorem smallest_nonneg {ι : Type} {S : Finset ι} {f : ι → ℝ} {m : ℕ} {x : ℝ} (hf : ∀ p ∈ S, 0 ≤ f p)
    (h : Spec.IsSumOfSmallest S f m x) : 0 ≤ x := by
  obtain ⟨T, hT, -, -, rfl⟩ := h
  exact Finset.sum_nonneg fun p hp => hf p (hT hp)

/-- A sum of smallest non-negative values vanishes exactly if that many values vanish. -/
theorem smallest_eq_zero {ι : Type} {S : Finset ι} {f : ι → ℝ} {m : ℕ} {x : ℝ} (hf : ∀ p ∈ S, 0 ≤ f p)
    (h : Spec.IsSumOfSmallest S f m x) : x = 0 ↔ m ≤ (S.filter fun p => f p = 0).card := by
  classical
  obtain ⟨T, hT, hc, hle, rfl⟩ := h
  rw [Finset.sum_eq_zero_iff_of_nonneg fun p hp => hf p (hT hp)]
  constructor
  · intro h0
    rw [← hc]
    exact Finset.card_le_card fun p hp => Finset.mem_filter.2 ⟨hT hp, h0 p hp⟩
  · intro hm p hp
    by_contra hne
    have hsub : S.filter (fun p => f p = 0) ⊆ T.erase p := by
      intro q hq
      obtain ⟨hqS, hq0⟩ := Finset.mem_filter.1 hq
      have hqp : q ≠ p := fun h => hne (h ▸ hq0)
      refine Finset.mem_erase.2 ⟨hqp, ?_⟩
      by_contra hqT
      have := hle p hp q hqS hqT
      rw [hq0] at this
      exact hne (le_antisymm this (hf p (hT hp)))
    have := Finset.card_le_card hsub
    rw [Finset.card_erase_of_mem hp] at this
    have : 0 < T.card := Finset.card_pos.2 ⟨p, hp⟩
    omega

/-- Opposite neighbours give enough vanishing pair sums. -/
theorem opposite_count {l : List Nb} (h : Spec.OppositePairs l) :
    l.length / 2 ≤ ((Spec.pairSet l.length).filter fun p =>
      V3.normSq (Spec.nbVector l p.1 + Spec.nbVector l p.2) = 0).card := by
  classical
  obtain ⟨f, hf⟩ := h
  set A := (range l.length).filter fun i => i < f i with hA
  set B := (range l.length).filter fun i => f i < i with hB
  have hAB : A.card = B.card := by
    refine Finset.card_bij (fun i _ => f i) ?_ ?_ ?_
    · intro i hi
      rw [hA, mem_filter, mem_range] at hi
      obtain ⟨h1, h2, h3, -⟩ := hf i hi.1
      rw [hB, mem_filter, mem_range, h3]
      exact ⟨h1, hi.2⟩
    · intro i hi j hj hij
      rw [hA, mem_filter, mem_range] at hi hj
      have := (hf i hi.1).2.2.1
      rw [hij, (hf j hj.1).2.2.1] at this
      exact this.symm
    · intro j hj
      rw [hB, mem_filter, mem_range] at hj
      obtain ⟨h1, h2, h3, -⟩ := hf j hj.1
      refine ⟨f j, ?_, h3⟩
      rw [hA, mem_filter, mem_range, h3]
      exact ⟨h1, hj.2⟩
  have hsum : A.card + B.card = l.length := by
    rw [← Finset.card_union_of_disjoint]
    · rw [← Finset.card_range l.length]
      congr 1
      ext i
      simp only [hA, hB, mem_union, mem_filter, mem_range, Finset.card_range]
      constructor
      · rintro (h | h) <;> exact h.1
      · intro hi
        have := (hf i hi).2.1
        rcases lt_or_gt_of_ne this with h | h
        · exact .inr ⟨hi, h⟩
        · exact .inl ⟨hi, h⟩
    · rw [Finset.disjoint_left]
      intro i hi hi'
      rw [hA, mem_filter] at hi
      rw [hB, mem_filter] at hi'
      omega
  have hinj : A.card ≤ ((Spec.pairSet l.length).filter fun p =>
      V3.normSq (Spec.nbVector l p.1 + Spec.nbVector l p.2) = 0).card := by
    refine Finset.card_le_card_of_injOn (fun i => (i, f i)) ?_ ?_
    · intro i hi
      have hi : i ∈ A := hi
      rw [hA, mem_filter, mem_range] at hi
      obtain ⟨h1, h2, h3, h4⟩ := hf i hi.1
      refine Finset.mem_coe.2 (mem_filter.2 ⟨?_, ?_⟩)
      · simp only [Spec.pairSet, mem_filter, mem_product, mem_range]
        exact ⟨⟨hi.1, h1⟩, hi.2⟩
      · dsimp only
        rw [h4]
        have : Spec.nbVector l i + -Spec.nbVector l i = 0 := by
          ext <;> simp
        rw [this]
        simp [V3.normSq, V3.dot]
    · intro i _ j _ hij
      exact (Prod.mk.inj hij).1
  omega

theorem centroAtom_ok (σ : StdSort) (nmax : ℕ) (a : Atom) (h : nmax / 2 ≤ (σ.sort a.pairSums).length) :
    centroAtom σ nmax a = .ok { a with centro :=
      (((σ.sort a.pairSums).take (nmax / 2)).map fun x => x.dist * x.dist).sum } := by
  unfold centroAtom
  exact if_pos h

theorem sortSums_length (σ : StdSort) (a : Atom) : 2 * (σ.sort a.pairSums).length = a.nbrs.length * (a.nbrs.length - 1) := by
  rw [(σ.perm _).length_eq, pairSums_length, pairs_length]

open Classical in
/-- **C30**: on any system (for which the candidate search is exact, always so up to 4000 atoms) in which
every atom has `nmax` others within the search radius, `calculate_centrosymmetry(nmax)` for even
positive `nmax ≤ 300` succeeds.  Every atom gets its `nmax` nearest neighbours, and its value is the sum
of the `nmax/2` smallest squared lengths of sums of two neighbour vectors.  The value is not negative.
It is zero exactly if at least `nmax/2` pairs of neighbours have opposite vectors, in particular if
the neighbours come in opposite pairs. -/
theorem C30_centrosymmetry (σ : StdSort) (s : System) (nmax : ℕ) (R : ℝ) (hR : Spec.SearchRadius s 3 R)
    (hpos : 0 < nmax) (heven : nmax % 2 = 0) (hcap : nmax ≤ 300)
    (hok : Spec.SearchExact s s.usecells 3) (henough : Spec.EnoughWithin s R nmax) :
    ∃ s' : System, System.calculateCentrosymmetry σ nmax s = (s', .ok ()) ∧ Spec.SameGeometry s s' ∧ s'.realNop = s.realNop ∧
    ∀ (k : ℕ) (a : Atom), s.atoms[k]? = some a → ∃ a' : Atom, s'.atoms[k]? = some a' ∧
      Spec.NearestList s k a nmax a'.nbrs ∧
      Spec.IsSumOfSmallest (Spec.pairSet nmax)
        (fun p => V3.normSq (Spec.nbVector a'.nbrs p.1 + Spec.nbVector a'.nbrs p.2)) (nmax / 2) a'.centro ∧
      0 ≤ a'.centro ∧
      (a'.centro = 0 ↔ nmax / 2 ≤ ((Spec.pairSet nmax).filter fun p : ℕ × ℕ =>
        Spec.nbVector a'.nbrs p.1 + Spec.nbVector a'.nbrs p.2 = 0).card) ∧
      (Spec.OppositePairs a'.nbrs → a'.centro = 0) := by
  obtain ⟨T, hT, -, hrun⟩ := byNumber_reset σ s 3 nmax (candOK_of hok)
  have hlen : ∀ k < s.atoms.length, nmax ≤ (T k).length := by
    intro k hk
    rw [(hT k hk).length_eq]
    exact enough_cands _ _ ((searchRadius_iff _ _ _).1 hR) henough k hk
  have hrun := hrun hlen
  set A : ℕ → Atom := fun k => byNumberAtom σ s nmax true k (candAtom s (T k) k) with hA
  have hnb : ∀ k, (A k).nbrs = ((σ.sort (T k)).take nmax).map fun x => s.mkNb k x.idx := fun k => by
    simp [hA, byNumberAtom, candAtom]
  have hnl : ∀ k < s.atoms.length, (A k).nbrs.length = nmax := fun k hk => by
    rw [hnb, List.length_map, List.length_take, (σ.perm _).length_eq]
    have := hlen k hk
    omega
  have hsl : ∀ k < s.atoms.length, nmax / 2 ≤ (σ.sort (A k).pairSums).length := fun k hk => by
    have := sortSums_length σ (A k)
    rw [hnl k hk] at this
    have h1 : nmax * 1 ≤ nmax * (nmax - 1) := Nat.mul_le_mul_left _ (by omega)
    omega
  set C : Atom → Atom := fun a => { a with centro :=
      (((σ.sort a.pairSums).take (nmax / 2)).map fun x => x.dist * x.dist).sum } with hC
  have hmap := mapM_ok_map (centroAtom σ nmax) C ((List.range s.atoms.length).map A) (fun a ha => by
    obtain ⟨k, hk, rfl⟩ := List.mem_map.1 ha
    exact centroAtom_ok σ nmax _ (hsl k (List.mem_range.1 hk)))
  set s1 : System := { s with
      atoms := ((List.range s.atoms.length).map A).map C
      voronoiused := false
      neighbordistance := s.guessDist 3 } with hs1
  have hcc : s.ccalculateCentrosymmetry σ nmax = .ok s1 := by
    unfold System.ccalculateCentrosymmetry
    change Except.bind (s.resetAllNeighbors.neighborsByNumber σ 3 nmax true) _ = _
    rw [hrun]
    change Except.bind (System.checkCapacity _) _ = _
    unfold System.checkCapacity
    rw [if_neg]
    · change Except.bind (((List.range s.atoms.length).map A).mapM (centroAtom σ nmax)) _ = _
      rw [hmap]
      rfl
    · rintro ⟨a, ha, hgt⟩
      obtain ⟨k, hk, rfl⟩ := List.mem_map.1 ha
      have := hnl k (List.mem_range.1 hk)
      change (A k).nbrs.length > 300 at hgt
      omega
  refine ⟨s1, ?_, ?_, rfl, ?_⟩
  · unfold System.calculateCentrosymmetry
    rw [if_neg (by omega), if_neg (by omega), Int.toNat_natCast, hcc]
  · refine sameGeometry_map (g := fun k => C (A k)) ?_ ⟨rfl, rfl, rfl, rfl⟩ (fun _ => rfl) (fun _ => rfl)
    exact List.map_map
  · intro k a hka
    obtain ⟨hk, hmk⟩ := mem_of_getElem? hka
    refine ⟨C (A k), by simp [hs1, hk], ?_⟩
    have hS := SortedCands.mk' σ (hT k hk)
    have hN := hS.nearest (a := a) hka (n := nmax) (by rw [(σ.perm _).length_eq]; exact hlen k hk)
    have hval := centro_value σ (A k) (hsl k hk)
    have hCn : (C (A k)).nbrs = (A k).nbrs := rfl
    have hCc : (C (A k)).centro = (((σ.sort (A k).pairSums).take (nmax / 2)).map fun x => x.dist * x.dist).sum := rfl
    rw [hCn, hCc]
    rw [hnl k hk] at hval
    have hnn : ∀ p ∈ Spec.pairSet nmax, 0 ≤ V3.normSq (Spec.nbVector (A k).nbrs p.1 + Spec.nbVector (A k).nbrs p.2) :=
      fun p _ => V3.normSq_nonneg _
    have hz : ∀ v : V3, V3.normSq v = 0 ↔ v = 0 := by
      intro v
      exact V3.normSq_eq_zero v
    refine ⟨by rw [hnb]; exact hN, hval, smallest_nonneg hnn hval, ?_, ?_⟩
    · rw [smallest_eq_zero hnn hval]
      have : ((Spec.pairSet nmax).filter fun p => V3.normSq (Spec.nbVector (A k).nbrs p.1 + Spec.nbVector (A k).nbrs p.2) = 0) =
          (Spec.pairSet nmax).filter fun p => Spec.nbVector (A k).nbrs p.1 + Spec.nbVector (A k).nbrs p.2 = 0 :=
        Finset.filter_congr fun p _ => hz _
      rw [this]
    · intro hop
      rw [smallest_eq_zero hnn hval]
      have := opposite_count hop
      rw [hnl k hk] at this
      exact this

/-- **C30**, failures, and **C24** for centrosymmetry: a value of `nmax` that is not positive or odd raises
ValueError and changes nothing.  For other values, if some atom has fewer than `nmax` others within the
search radius the calculation reads past the end of an array: the failed search is not noticed. -/
theorem C30_errors (σ : StdSort) (s : System) (nmax : ℤ) :
    ((nmax ≤ 0 ∨ nmax % 2 = 1) → System.calculateCentrosymmetry σ nmax s = (s, .error .valueError)) ∧
    (∀ R : ℝ, Spec.SearchRadius s 3 R → 0 < nmax → nmax % 2 = 0 → Spec.SearchExact s s.usecells 3 →
      ∀ k < s.atoms.length, (Spec.countWithin s R k : ℤ) < nmax →
        System.calculateCentrosymmetry σ nmax s = (s, .error .oob)) := by
  constructor
  · intro h
    unfold System.calculateCentrosymmetry
    by_cases h0 : nmax > 0
    · rw [if_neg (by simpa using h0), if_pos (by omega)]
    · rw [if_pos h0]
  · intro R hR hpos heven hok k hk hfew
    obtain ⟨n, rfl⟩ : ∃ n : ℕ, nmax = n := ⟨nmax.toNat, by omega⟩
    obtain ⟨T, hT, hbad, -⟩ := byNumber_reset σ s 3 n (candOK_of hok)
    obtain ⟨g, b, hrun, a, ha, hanil⟩ := hbad ⟨k, hk, by
      rw [(hT k hk).length_eq]
      refine lt_of_le_of_lt (cands_length_le s s.usecells 3 hk) ?_
      rw [← (searchRadius_iff _ _ _).1 hR]
      exact_mod_cast hfew⟩
    have hcc : s.ccalculateCentrosymmetry σ n = .error .oob := by
      unfold System.ccalculateCentrosymmetry
      change Except.bind (s.resetAllNeighbors.neighborsByNumber σ 3 n true) _ = _
      rw [hrun]
      change Except.bind g.checkCapacity _ = _
      unfold System.checkCapacity
      by_cases hc : ∃ a ∈ g.atoms, a.nbrs.length > 300
      · rw [if_pos hc]; rfl
      · rw [if_neg hc]
        change Except.bind (g.atoms.mapM (centroAtom σ n)) _ = _
        rw [mapM_all_error (centroAtom σ n) .oob]
        · rfl
        · intro x hx
          unfold centroAtom
          dsimp only
          split_ifs
          · exact .inl ⟨_, rfl⟩
          · exact .inr rfl
        · refine ⟨a, ha, ?_⟩
          unfold centroAtom
          dsimp only
          rw [if_neg]
          have := sortSums_length σ a
          rw [hanil] at this
          simp only [List.length_nil] at this
          omega
    unfold System.calculateCentrosymmetry
    rw [if_neg (by omega), if_neg (by omega), Int.toNat_natCast, hcc]

/-- The cluster meets the hypotheses for the usual `nmax = 12`. -/
example : ∃ R, Spec.SearchRadius cnaSys 3 R ∧ Spec.SearchExact cnaSys cnaSys.usecells 3 ∧
    Spec.EnoughWithin cnaSys R 12 := by
  obtain ⟨-, -, -, -, R, h5, h6⟩ := cnaSys_wf
  refine ⟨R, h5, exact_small, fun k a hk => ?_⟩
  obtain ⟨J, hJ, hj⟩ := h6 k a hk
  exact ⟨J, by omega, hj⟩

/-- Two neighbours at opposite vectors are opposite pairs. -/
example : Spec.OppositePairs [⟨1, 1, 1, ⟨1, 0, 0⟩⟩, ⟨2, 1, 1, ⟨-1, 0, 0⟩⟩] := by
  refine ⟨fun i => 1 - i, fun i hi => ?_⟩
  have hi : i < 2 := hi
  interval_cases i
  · refine ⟨by decide, by decide, by decide, ?_⟩
    ext <;> simp [Spec.nbVector]
  · refine ⟨by decide, by decide, by decide, ?_⟩
    ext <;> simp [Spec.nbVector]

end Pyscal
