import Verif.Props.NumberCells
import Verif.Props.Monotone

/-! C11 and C91 outside the conditions for cell lists: a search that succeeds with neighbours listed twice. -/

namespace Pyscal

open CellsOK

theorem bigSys_posOf {N i : ℕ} (hi : i < N) : (bigSys N).posOf i = if i = 0 then ⟨9, 0, 0⟩ else ⟨0, 10 * ((i : ℝ) - 1), 0⟩ := by
  simp only [System.posOf, System.mem, bigSys]
  rw [List.getD_eq_getElem?_getD, List.getElem?_map, List.getElem?_range hi]
  by_cases h0 : i = 0 <;> simp [h0]

/-- Only the atoms 0 and 1 are near each other. -/
theorem bigSys_far {N i j : ℕ} (hN : N ≤ 5000) (hij : i < j) (hj : j < N) (hne : (i, j) ≠ (0, 1)) : 4 ≤ (bigSys N).distOf i j := by
  obtain ⟨-, -, hbx, hby, hbz, -, -⟩ := bigSys_cells N (by omega)
  have hj1 : 2 ≤ j := by
    by_contra hc
    exact hne (by ext <;> simp only <;> omega)
  set u : ℝ := ((i - 1 : ℕ) : ℝ) with hu
  have hyi : ((bigSys N).posOf i).y = 10 * u := by
    rw [bigSys_posOf (by omega)]
    by_cases h0 : i = 0
    · simp [h0, hu]
    · rw [if_neg h0, hu, Nat.cast_sub (by omega)]; simp
  have hyj : ((bigSys N).posOf j).y = 10 * ((j : ℝ) - 1) := by
    rw [bigSys_posOf hj, if_neg (by omega)]
  have hgap : u + 1 ≤ (j : ℝ) - 1 := by
    have h1 : i - 1 + 1 + 1 ≤ j := by omega
    have : u + 1 + 1 ≤ (j : ℝ) := by rw [hu]; exact_mod_cast h1
    linarith
  have hj5 : (j : ℝ) ≤ 5000 := by exact_mod_cast (by omega : j ≤ 5000)
  have hu0 : 0 ≤ u := Nat.cast_nonneg _
  have hw : ∀ d : ℝ, -50000 ≤ d → d ≤ 50000 → wrap 100000 d = d := by
    intro d h1 h2
    simp only [wrap]
    rw [if_neg (show ¬ d > 100000 / 2 by linarith), if_neg (by linarith)]
  have e : |((bigSys N).diffOf i j).y| = 10 * ((j : ℝ) - 1) - 10 * u := by
    simp only [System.diffOf, System.diffIdx, System.image, show (bigSys N).triclinic = false from rfl, hbx, hby, hbz]
    simp only [Bool.false_eq_true, if_false, V3.sub_y, hyi, hyj]
    rw [hw _ (by linarith) (by linarith)]
    first
      | (rw [abs_of_nonneg (by linarith)]; done)
      | (rw [abs_of_nonpos (by linarith)]; ring)
  have h : V3.norm ⟨0, 10 * ((j : ℝ) - 1) - 10 * u, 0⟩ ≤ V3.norm ((bigSys N).diffOf i j) :=
    norm_le_norm (by simp) (by rw [e, abs_of_nonneg (by linarith)]) (by simp)
  rw [norm_axis_y _ (by linarith)] at h
  have : (bigSys N).distOf i j = V3.norm ((bigSys N).diffOf i j) := rfl
  rw [this]
  linarith

/-- **C11 fails without an error**: with 2301 to 5000 atoms in a box with two cells along x, `find_neighbors(cutoff=4)` succeeds, and atom 0 has
atom 1, at distance 1, at least twice among its neighbours. -/
theorem C11_false_doubled (σ : StdSort) (N : ℕ) (hN1 : 2300 < N) (hN2 : N ≤ 5000) :
    ∃ s' a', (bigSys N).findNeighbors σ 0 (.cutoff 4) = .ok s' ∧ s'.atoms[0]? = some a' ∧
      ∃ x : Nb, x.idx = 1 ∧ x.dist = 1 ∧ [x, x].Sublist a'.nbrs := by
  obtain ⟨hok, hnx, hbx, hby, hbz, hny, hnz⟩ := bigSys_cells N (by omega)
  have hlen : (bigSys N).atoms.length = N := by simp [bigSys]
  rw [findNeighbors_cutoff_large σ (bigSys N) 0 4 (by norm_num) hN1 (by rw [hlen]; exact le_rfl)]
  set s1 : System := { (bigSys N).startSearch 0 with neighbordistance := 4 } with hs1
  have hok1 : CellsOK s1 10 100000 10 := hok.start 0
  rw [neighborsCells_eq hok1]
  set s2 : System := { s1 with voronoiused := false } with hs2
  have hok2 : CellsOK s2 10 100000 10 := hok1.vor
  have hlen2 : s2.atoms.length = N := (resetAll_length (bigSys N)).trans hlen
  have hpos : ∀ i, s2.posOf i = (bigSys N).posOf i := fun i => resetAll_posOf (bigSys N) i
  have hdist : ∀ i j, s2.distOf i j = (bigSys N).distOf i j := by
    intro i j
    have : s2.diffOf i j = (bigSys N).diffOf i j := by
      simp only [System.diffOf, System.diffIdx, hpos]
      rfl
    change V3.norm (s2.diffOf i j) = V3.norm ((bigSys N).diffOf i j)
    rw [this]
  have hp0 : s2.posOf 0 = ⟨9, 0, 0⟩ := by rw [hpos, bigSys_posOf (by omega), if_pos rfl]
  have hp1 : s2.posOf 1 = ⟨0, 0, 0⟩ := by rw [hpos, bigSys_posOf (by omega)]; simp
  have hbx2 : s2.boxx = 10 := hbx
  have hby2 : s2.boxy = 100000 := hby
  have hbz2 : s2.boxz = 10 := hbz
  have hnx2 : s2.nx = 2 := hnx
  have hc0 : (cell3 s2 0).1 = 1 := by
    simp only [cell3, hp0, hbx2, hnx2, cellCoord, binCoord, truncZ]
    norm_num
  have hc1 : (cell3 s2 1).1 = 0 := by
    simp only [cell3, hp1, hbx2, hnx2, cellCoord, binCoord, truncZ]
    norm_num
  have hyz : (cell3 s2 1).2 = (cell3 s2 0).2 := by
    simp only [cell3, hp0, hp1]
  have hdup := hok2.two_cells_dup hnx2 (i := 0) (j := 1) (by norm_num) (by rw [hlen2]; omega) hc0 hc1 hyz
  have hd : s2.distOf 0 1 = 1 := by
    have e : s2.diffOf 0 1 = ⟨1, 0, 0⟩ := by
      simp only [System.diffOf, System.diffIdx, System.image, hok2.ortho, hp0, hp1, hbx2, hby2, hbz2, wrap]
      norm_num
    have : s2.distOf 0 1 = V3.norm (s2.diffOf 0 1) := rfl
    rw [this, e]
    exact norm_axis_x _ (by norm_num)
  have hnd : s2.neighbordistance = 4 := rfl
  have hhit : contrib (cutoffHit s2) 0 (0, 1) = [s2.mkNb 0 1] := by
    have hf : s2.filter = 0 := rfl
    simp only [contrib, cutoffHit, hd, hnd, hf]
    norm_num [filterOK, System.mkNb, hd]
  have hnbrs : ∀ k < N, (System.mem (s2.ofMem (pairLoop (Atom.pushNbCut s1.neighbordistance) (cutoffHit s2) (visited s2) s1.mem)) k).nbrs =
      (s1.mem k).nbrs ++ (visited s2).flatMap (contrib (cutoffHit s2) k) := by
    intro k hk
    rw [ofMem_mem _ _ _ (by rw [hlen2]; omega), pairLoop_apply _ _ _ (visited_ne _), foldl_pushNbCut]
  have hnil : ∀ k < N, (s1.mem k).nbrs = [] := by
    intro k hk
    have hk' : k < s1.atoms.length := by rw [show s1.atoms.length = N from hlen2]; exact hk
    rw [mem_eq_getElem _ _ hk']
    obtain ⟨b, -, e⟩ := List.mem_map.1 (List.getElem_mem hk')
    rw [← e]
  have hcap : ∀ k < N, ((visited s2).flatMap (contrib (cutoffHit s2) k)).length ≤ 27 := by
    intro k hk
    refine (flatMap_length_le _ (0, 1) _ ?_ ?_).trans (visited_count_le hok2 0 1 (by rw [hlen2]; omega))
    · unfold contrib
      split <;> (try split_ifs) <;> simp
    · rintro ⟨i, j⟩ hp hne
      obtain ⟨hij, hj, -⟩ := (hok2.mem_visited (p := (i, j))).1 hp
      simp only at hij hj
      have := bigSys_far hN2 hij (by omega) hne
      rw [← hdist] at this
      simp only [contrib, cutoffHit, hnd]
      rw [if_neg (by intro h; first | linarith | linarith [h.1])]
  set c := s2.ofMem (pairLoop (Atom.pushNbCut s1.neighbordistance) (cutoffHit s2) (visited s2) s1.mem) with hc
  have hclen : c.atoms.length = N := by rw [hc]; simpa using hlen2
  have hcc : c.checkCapacity = .ok c := by
    unfold System.checkCapacity
    rw [if_neg]
    rintro ⟨a, ha, hgt⟩
    obtain ⟨k, hk, rfl⟩ := List.getElem_of_mem ha
    have h1 := hnbrs k (hclen ▸ hk)
    rw [hnil k (hclen ▸ hk), List.nil_append, mem_eq_getElem _ _ hk] at h1
    rw [h1] at hgt
    have := hcap k (hclen ▸ hk)
    omega
  have h0 : 0 < c.atoms.length := by rw [hclen]; omega
  refine ⟨{ c with neighborsFound := true }, c.atoms[0], ?_, List.getElem?_eq_getElem h0, s2.mkNb 0 1, rfl, ?_, ?_⟩
  · change (do
      let s' ← c.checkCapacity
      return { s' with neighborsFound := true }) = Except.ok _
    rw [hcc]
    rfl
  · simp only [System.mkNb, hd]
  · have h1 := hnbrs 0 (by omega)
    rw [mem_eq_getElem _ _ h0] at h1
    rw [h1]
    refine List.Sublist.trans ?_ (List.sublist_append_right _ _)
    have := sublist_flatMap hdup (contrib (cutoffHit s2) 0)
    simpa only [List.flatMap_cons, List.flatMap_nil, List.append_nil, hhit, List.singleton_append] using this

open Classical in
/-- **C91 is false outside the conditions of C11**: in this system the searches with the cutoffs 3 and 4 both succeed, but the list of atom 0 for the
smaller cutoff is not what remains of its list for the larger one: it has atom 1, at distance 1, once instead of twice. -/
theorem C91_false_cells (σ : StdSort) (N : ℕ) (hN1 : 2300 < N) (hN2 : N ≤ 5000) :
    ∃ s' s'' a b, (bigSys N).findNeighbors σ 0 (.cutoff 4) = .ok s' ∧ (bigSys N).findNeighbors σ 0 (.cutoff 3) = .ok s'' ∧ s'.atoms[0]? = some a ∧
      s''.atoms[0]? = some b ∧ b.nbrs.length < (a.nbrs.filter fun x => decide (x.dist < 3)).length ∧
      ¬ b.nbrs.Perm (a.nbrs.filter fun x => decide (x.dist < 3)) := by
  obtain ⟨s', a, h1, h2, x, hx1, hx2, hx3⟩ := C11_false_doubled σ N hN1 hN2
  have hlen : (bigSys N).atoms.length = N := by simp [bigSys]
  obtain ⟨c1, c2⟩ := bigSys_three N hN2
  obtain ⟨s'', h3⟩ := (C11_succeeds σ (bigSys N) 0 3 hN1 (by rw [hlen]; exact le_rfl) c1).2 c2
  obtain ⟨g1, -, g3⟩ := C11_partial σ (bigSys N) s'' 0 3 hN1 c1 h3
  have hlen'' : s''.atoms.length = N := by
    have := congrArg List.length g1.1
    simpa [hlen] using this
  have h0 : 0 < s''.atoms.length := by omega
  obtain ⟨q1, q2, -⟩ := g3 0 _ _ (List.getElem?_eq_getElem (by omega)) (List.getElem?_eq_getElem h0)
  have hsub : [x, x].Sublist (a.nbrs.filter fun x => decide (x.dist < 3)) := by
    have := hx3.filter (fun x => decide (x.dist < 3))
    rwa [List.filter_eq_self.2 (by intro y hy; simp only [List.mem_cons, List.not_mem_nil, or_false, or_self] at hy; rw [hy, hx2]; norm_num)] at this
  have hle := hsub.length_le
  have hone : (s''.atoms[0]).nbrs.length ≤ 1 := by
    rw [q2]
    have hs : Spec.nearSet (bigSys N) 3 0 0 ⊆ {1} := by
      intro j hj
      rcases bigSys_near N hN2 0 hj with rfl | h
      · obtain ⟨host, nb, -, -, hne, -⟩ := hj
        exact absurd rfl hne
      · exact h
    refine (Set.ncard_le_ncard hs (by simp)).trans ?_
    simp
  refine ⟨s', s'', a, s''.atoms[0], h1, h3, h2, List.getElem?_eq_getElem h0, by simp at hle; omega, fun hp => ?_⟩
  have := hp.length_eq
  simp at hle
  omega

end Pyscal
