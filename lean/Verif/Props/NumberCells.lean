import Verif.Props.Number
import Verif.Props.Cells

/-! C12 and C13 with cell lists and fewer than three cells along an axis. -/

namespace Pyscal

open CellsOK

theorem sum_single_le {α : Type} [DecidableEq α] (f : α → ℕ) (a : α) (l : List α) (hl : l.Nodup)
    (h : ∀ x ∈ l, x ≠ a → f x = 0) : (l.map f).sum ≤ f a := by
  induction l with
  | nil => simp
  | cons b l ih =>
    rw [List.nodup_cons] at hl
    rw [List.map_cons, List.sum_cons]
    by_cases hb : b = a
    · subst hb
      have : (l.map f).sum = 0 := by
        rw [List.sum_eq_zero]
        intro y hy
        obtain ⟨x, hx, rfl⟩ := List.mem_map.1 hy
        exact h x (List.mem_cons_of_mem _ hx) (fun e => hl.1 (e ▸ hx))
      omega
    · have := ih hl.2 fun x hx => h x (List.mem_cons_of_mem _ hx)
      rw [h b (List.mem_cons_self ..) hb]
      omega

theorem flatMap_length_le {α β : Type} [BEq α] [LawfulBEq α] (f : α → List β) (q : α) (l : List α) (hq : (f q).length ≤ 1)
    (h : ∀ x ∈ l, x ≠ q → f x = []) : (l.flatMap f).length ≤ l.count q := by
  induction l with
  | nil => simp
  | cons b l ih =>
    have ih := ih fun x hx => h x (List.mem_cons_of_mem _ hx)
    rw [List.flatMap_cons, List.length_append, List.count_cons]
    by_cases hb : b = q
    · rw [hb]
      rw [if_pos (by simp)]; omega
    · rw [h b (List.mem_cons_self ..) hb, List.length_nil]; omega

theorem neighborCells_length (nx ny nz : ℤ) (c : ℤ × ℤ × ℤ) : (neighborCells nx ny nz c).length = 27 := by
  have h : ∀ z : ℤ, (z + 2 - (z - 1)).toNat = 3 := fun z => by omega
  have h3 : ∀ z : ℤ, (intRange (z - 1) (z + 2)).length = 3 := fun z => by simp only [intRange, List.length_map, List.length_range, h]
  simp only [neighborCells, List.length_flatMap, List.length_map, h3, List.map_const', List.sum_replicate]
  rfl

/-- No pair is compared more than 27 times. -/
theorem visited_count_le {s : System} {L1 L2 L3 : ℝ} (h : CellsOK s L1 L2 L3) (i j : ℕ) (hi : i < s.atoms.length) :
    (visited s).count (i, j) ≤ 27 := by
  unfold visited
  rw [List.count_flatMap]
  refine (sum_single_le _ (cell3 s i) _ (allCells_nodup _ _ _) ?_).trans ?_
  · intro c hc hne
    rw [Function.comp_apply, List.count_eq_zero]
    intro hm
    simp only [List.mem_flatMap, List.mem_map, List.mem_filter] at hm
    obtain ⟨ti, hti, sub, -, tj, -, he⟩ := hm
    obtain rfl : ti = i := (Prod.mk.inj he).1
    exact hne (h.members_cell hc hti).symm
  · rw [Function.comp_apply, List.count_flatMap]
    refine (sum_single_le _ i _ ((List.nodup_range).filter _) ?_).trans ?_
    · intro ti _ hne
      rw [Function.comp_apply, List.count_eq_zero]
      intro hm
      simp only [List.mem_flatMap, List.mem_map, List.mem_filter] at hm
      obtain ⟨sub, -, tj, -, he⟩ := hm
      exact hne (Prod.mk.inj he).1
    · rw [Function.comp_apply, List.count_flatMap]
      refine (List.sum_le_card_nsmul _ 1 ?_).trans ?_
      · intro y hy
        obtain ⟨sub, -, rfl⟩ := List.mem_map.1 hy
        rw [Function.comp_apply]
        refine List.nodup_iff_count_le_one.1 ?_ _
        refine List.Nodup.map (fun a b e => (Prod.mk.inj e).2) (((List.nodup_range).filter _).filter _)
      · rw [List.length_map, neighborCells_length]; simp

/-- The number of atoms of the example. -/
@[irreducible] def wideN : ℕ := 5000

theorem wideN_eq : wideN = 5000 := by unfold wideN; rfl

/-- 5000 atoms in a box of edges 10, 3200 and 10: two of them at distance 1, the others all at one point far
away. -/
noncomputable def wideSys : System :=
  { atoms := (List.range wideN).map fun (i : ℕ) =>
      if i = 0 then { pos := ⟨9, 0, 0⟩ } else if i = 1 then { pos := ⟨0, 0, 0⟩ } else { pos := ⟨0, 100, 0⟩ },
    nop := 5000, realNop := 5000, box := Spec.diagBox 10 3200 10 }

namespace wideSys

theorem length : wideSys.atoms.length = 5000 := by simp [wideSys, wideN_eq]

/-- The state in which the candidates are collected. -/
noncomputable def g : System := wideSys.candSettings true 1

theorem glen : g.atoms.length = 5000 := length

theorem guess : wideSys.guessDist 1 = 4 := by
  refine ((searchRadius_iff _ _ _).1 ?_).symm
  unfold Spec.SearchRadius Spec.searchVolume
  rw [if_neg (by simp [wideSys]), length]
  simp only [wideSys, Spec.diagBox]
  rw [norm_axis_x _ (by norm_num), norm_axis_y _ (by norm_num), norm_axis_z _ (by norm_num)]
  norm_num

theorem g_nd : g.neighbordistance = 4 := guess

theorem posOf {i : ℕ} (hi : i < 5000) : g.posOf i =
    if i = 0 then ⟨9, 0, 0⟩ else if i = 1 then ⟨0, 0, 0⟩ else ⟨0, 100, 0⟩ := by
  simp only [System.posOf, System.mem, g, System.candSettings, wideSys]
  rw [List.getD_eq_getElem?_getD, List.getElem?_map, List.getElem?_range (by rw [wideN_eq]; exact hi)]
  by_cases h0 : i = 0
  · simp [h0]
  · by_cases h1 : i = 1 <;> simp [h0, h1]

theorem edges : g.boxx = 10 ∧ g.boxy = 3200 ∧ g.boxz = 10 := by
  simp only [System.boxx, System.boxy, System.boxz, g, System.candSettings, wideSys, Spec.diagBox]
  rw [norm_axis_x _ (by norm_num), norm_axis_y _ (by norm_num), norm_axis_z _ (by norm_num)]
  exact ⟨rfl, rfl, rfl⟩

theorem counts : g.nx = 2 ∧ g.ny = 800 ∧ g.nz = 2 := by
  have hn : cellCount 10 4 = 2 := by
    unfold cellCount truncZ
    rw [if_pos (by norm_num), Int.floor_eq_iff]
    norm_num
  have hn' : cellCount 3200 4 = 800 := by
    unfold cellCount truncZ
    rw [if_pos (by norm_num), Int.floor_eq_iff]
    norm_num
  obtain ⟨e1, e2, e3⟩ := edges
  simp only [System.nx, System.ny, System.nz, e1, e2, e3, g_nd]
  exact ⟨hn, hn', hn⟩

theorem cells : CellsOK g 10 3200 10 := by
  refine ⟨by norm_num, rfl, rfl, by rw [g_nd]; norm_num, ?_, ?_⟩
  · obtain ⟨h1, h2, h3⟩ := counts; omega
  · intro i hi
    have hi : i < 5000 := by
      have := glen
      omega
    rw [posOf hi]
    split_ifs <;> (simp only [BinRange]; norm_num)

theorem dist_close : g.distOf 0 1 = 1 := by
  obtain ⟨e1, e2, e3⟩ := edges
  have e : g.diffOf 0 1 = ⟨1, 0, 0⟩ := by
    simp only [System.diffOf, System.diffIdx, System.image, cells.ortho, posOf (i := 0) (by norm_num),
      posOf (i := 1) (by norm_num), e1, e2, e3, wrap]
    norm_num
  have : g.distOf 0 1 = V3.norm (g.diffOf 0 1) := rfl
  rw [this, e]
  exact norm_axis_x _ (by norm_num)

theorem dist_far {i j : ℕ} (hi : i < 2) (hj : 2 ≤ j) (hj' : j < 5000) : 4 ≤ g.distOf i j := by
  obtain ⟨e1, e2, e3⟩ := edges
  have e : |(g.diffOf i j).y| = 100 := by
    simp only [System.diffOf, System.diffIdx, System.image, cells.ortho, posOf (i := i) (by omega),
      posOf hj', e1, e2, e3, wrap, if_neg (show j ≠ 0 by omega), if_neg (show j ≠ 1 by omega)]
    have : i = 0 ∨ i = 1 := by omega
    rcases this with rfl | rfl <;> norm_num
  have h : V3.norm ⟨0, 100, 0⟩ ≤ V3.norm (g.diffOf i j) :=
    norm_le_norm (by simp) (by rw [e]; norm_num) (by simp)
  rw [norm_axis_y _ (by norm_num)] at h
  have : g.distOf i j = V3.norm (g.diffOf i j) := rfl
  rw [this]; linarith

theorem dist_rest {i j : ℕ} (hi : 2 ≤ i) (hj : 2 ≤ j) (hi' : i < 5000) (hj' : j < 5000) : g.distOf i j = 0 := by
  obtain ⟨e1, e2, e3⟩ := edges
  have e : g.diffOf i j = ⟨0, 0, 0⟩ := by
    simp only [System.diffOf, System.diffIdx, System.image, cells.ortho, posOf hi',
      posOf hj', e1, e2, e3, wrap, if_neg (show j ≠ 0 by omega), if_neg (show j ≠ 1 by omega),
      if_neg (show i ≠ 0 by omega), if_neg (show i ≠ 1 by omega)]
    norm_num
  have : g.distOf i j = V3.norm (g.diffOf i j) := rfl
  rw [this, e]
  exact norm_axis_x _ le_rfl

theorem cand_eq (k : ℕ) : candList g k = (visited g).flatMap (contrib (tempHitLt g) k) := if_pos rfl

/-- A candidate of an atom is another atom nearer than the search radius. -/
theorem cand_mem {k : ℕ} {x : DAtom} (h : x ∈ candList g k) :
    x.idx < 5000 ∧ x.idx ≠ k ∧ x.dist = g.distOf k x.idx ∧ x.dist < 4 := by
  rw [cand_eq, List.mem_flatMap] at h
  obtain ⟨⟨i, j⟩, hp, hx⟩ := h
  obtain ⟨hij, hj, -⟩ := (cells.mem_visited (p := (i, j))).1 hp
  have hl := glen
  simp only at hij hj
  simp only [contrib, tempHitLt, g_nd] at hx
  by_cases hd : g.distOf i j < 4
  · rw [if_pos hd] at hx
    simp only at hx
    split_ifs at hx with h1 h2
    · rw [List.mem_singleton] at hx
      subst hx h1
      exact ⟨by simp only; omega, by simp only; omega, rfl, hd⟩
    · rw [List.mem_singleton] at hx
      subst hx h2
      exact ⟨by simp only; omega, by simp only; omega, distOf_comm g _ _, hd⟩
    · cases hx
  · rw [if_neg hd] at hx
    cases hx

theorem dup : [(0, 1), (0, 1)].Sublist (visited g) := by
  obtain ⟨e1, e2, e3⟩ := edges
  obtain ⟨n1, n2, n3⟩ := counts
  have hc0 : (cell3 g 0).1 = 1 := by
    simp only [cell3, posOf (i := 0) (by norm_num), e1, n1, cellCoord, binCoord, truncZ]
    norm_num
  have hc1 : (cell3 g 1).1 = 0 := by
    simp only [cell3, posOf (i := 1) (by norm_num), e1, n1, cellCoord, binCoord, truncZ]
    norm_num
  have hyz : (cell3 g 1).2 = (cell3 g 0).2 := by
    simp only [cell3, posOf (i := 0) (by norm_num), posOf (i := 1) (by norm_num)]
    simp
  have hl := glen
  exact cells.two_cells_dup n1 (i := 0) (j := 1) (by norm_num) (by omega) hc0 hc1 hyz

/-- The candidates of atoms 0 and 1: the other one, between 2 and 27 times. -/
theorem cand_close {k : ℕ} (hk : k < 2) : ∃ n, 2 ≤ n ∧ n ≤ 27 ∧ candList g k = List.replicate n ⟨1, 1 - k⟩ := by
  have hall : ∀ x ∈ candList g k, x = ⟨1, 1 - k⟩ := by
    intro x hx
    obtain ⟨h1, h2, h3, h4⟩ := cand_mem hx
    have hx2 : x.idx < 2 := by
      by_contra hc
      have := dist_far hk (not_lt.1 hc) h1
      rw [h3] at h4
      linarith
    obtain ⟨d, j⟩ := x
    simp only at h1 h2 h3 h4 hx2
    have hj : j = 1 - k := by omega
    subst hj
    have : k = 0 ∨ k = 1 := by omega
    rcases this with rfl | rfl
    · rw [h3, dist_close]
    · rw [h3, distOf_comm, dist_close]
  have hc1 : contrib (tempHitLt g) k (0, 1) = [⟨1, 1 - k⟩] := by
    have : k = 0 ∨ k = 1 := by omega
    simp only [contrib, tempHitLt, g_nd, dist_close]
    rcases this with rfl | rfl <;> norm_num
  refine ⟨(candList g k).length, ?_, ?_, List.eq_replicate_iff.2 ⟨rfl, hall⟩⟩
  · rw [cand_eq]
    have := (sublist_flatMap dup (contrib (tempHitLt g) k)).length_le
    simpa only [List.flatMap_cons, List.flatMap_nil, List.append_nil, hc1, List.singleton_append, List.length_cons,
      List.length_nil] using this
  · rw [cand_eq]
    refine (flatMap_length_le _ (0, 1) _ (by rw [hc1]; simp) ?_).trans
      (visited_count_le cells 0 1 (by have := glen; omega))
    rintro ⟨i, j⟩ hp hne
    by_contra hc
    obtain ⟨x, hx⟩ := List.exists_mem_of_ne_nil _ hc
    have hx' := hall x (by rw [cand_eq, List.mem_flatMap]; exact ⟨_, hp, hx⟩)
    obtain ⟨hij, -⟩ := (cells.mem_visited (p := (i, j))).1 hp
    simp only at hij
    simp only [contrib, tempHitLt, g_nd] at hx
    apply hne
    by_cases h1 : g.distOf i j < 4
    swap
    · rw [if_neg h1] at hx; cases hx
    rw [if_pos h1] at hx
    simp only at hx
    split_ifs at hx with h2 h3
    · rw [List.mem_singleton, hx', DAtom.mk.injEq] at hx
      have : k = 0 := by omega
      ext <;> simp only <;> omega
    · rw [List.mem_singleton, hx', DAtom.mk.injEq] at hx
      ext <;> simp only <;> omega
    · cases hx

/-- The other atoms have each other as candidates, at distance 0. -/
theorem cand_rest {k : ℕ} (hk : 2 ≤ k) (hk' : k < 5000) :
    2 ≤ (candList g k).length ∧ ∀ x ∈ candList g k, x.dist = 0 := by
  constructor
  · have hmem : ∀ j, 2 ≤ j → j < 5000 → j ≠ k → (⟨0, j⟩ : DAtom) ∈ candList g k := by
      intro j hj hj' hne
      have hl := glen
      rw [cand_eq, List.mem_flatMap]
      rcases lt_or_gt_of_ne hne with hlt | hlt
      · refine ⟨(j, k), cells.near_visited hlt (by omega) (by rw [dist_rest hj hk hj' hk', g_nd]; norm_num), ?_⟩
        simp only [contrib, tempHitLt, g_nd, dist_rest hj hk hj' hk']
        norm_num [hne.symm]
      · refine ⟨(k, j), cells.near_visited hlt (by omega) (by rw [dist_rest hk hj hk' hj', g_nd]; norm_num), ?_⟩
        simp only [contrib, tempHitLt, g_nd, dist_rest hk hj hk' hj']
        norm_num
    obtain ⟨i, j, hi, hj, hik, hjk, hij⟩ : ∃ i j, (2 ≤ i ∧ i < 5000) ∧ (2 ≤ j ∧ j < 5000) ∧ i ≠ k ∧ j ≠ k ∧ i ≠ j := by
      by_cases h2 : k = 2
      · exact ⟨3, 4, by omega, by omega, by omega, by omega, by omega⟩
      · by_cases h3 : k = 3
        · exact ⟨2, 4, by omega, by omega, by omega, by omega, by omega⟩
        · exact ⟨2, 3, by omega, by omega, by omega, by omega, by omega⟩
    have hsub : [(⟨0, i⟩ : DAtom), ⟨0, j⟩] ⊆ candList g k := by
      intro x hx
      simp only [List.mem_cons, List.not_mem_nil, or_false] at hx
      rcases hx with rfl | rfl
      · exact hmem i hi.1 hi.2 hik
      · exact hmem j hj.1 hj.2 hjk
    have hnd : [(⟨0, i⟩ : DAtom), ⟨0, j⟩].Nodup := by simp [hij]
    simpa using (List.subperm_of_subset hnd hsub).length_le
  · intro x hx
    obtain ⟨h1, h2, h3, h4⟩ := cand_mem hx
    by_cases hx2 : x.idx < 2
    · have := dist_far hx2 hk hk'
      rw [distOf_comm, ← h3] at this
      linarith
    · rw [h3, dist_rest hk (not_lt.1 hx2) hk' h1]

theorem enough {k : ℕ} (hk : k < wideSys.atoms.length) : 2 ≤ (candList g k).length := by
  rw [length] at hk
  by_cases h2 : k < 2
  · obtain ⟨n, hn, -, e⟩ := cand_close h2
    rw [e, List.length_replicate]; exact hn
  · exact (cand_rest (not_lt.1 h2) hk).1

theorem sort_close (σ : StdSort) : ∃ n, 2 ≤ n ∧ n ≤ 27 ∧ σ.sort (candList g 0) = List.replicate n ⟨1, 1⟩ := by
  obtain ⟨n, h1, h2, e⟩ := cand_close (k := 0) (by norm_num)
  refine ⟨n, h1, h2, ?_⟩
  rw [e]
  exact List.perm_replicate.1 (σ.perm _)

theorem first : wideSys.atoms[0]? = some { pos := ⟨9, 0, 0⟩ } := by
  simp [wideSys, wideN_eq]

end wideSys

open wideSys in
/-- **C12 fails above 4000 atoms with fewer than three cells along an axis**: with 5000 atoms in a
box of edges 10, 3200, 10, `find_neighbors(method='number', nmax=2, threshold=1)` succeeds and gives atom 0
its nearest atom twice, whatever the order of ties. -/
theorem C12_false_cells (σ : StdSort) :
    ∃ s' a a', wideSys.findNeighbors σ 0 (.number 1 2 true) = .ok s' ∧ wideSys.atoms[0]? = some a ∧
      s'.atoms[0]? = some a' ∧ a'.nbrs.map Nb.idx = [1, 1] ∧ ¬ Spec.NearestList wideSys 0 a 2 a'.nbrs := by
  have hg : wideSys.candSettings (decide (wideSys.realNop > 4000)) 1 = g := rfl
  have hrun := (searchNumber_runs σ wideSys 0 1 2 true le_rfl (by rw [length]; exact le_rfl)
    (by rw [hg]; exact .inr ⟨_, _, _, cells⟩)).2 (by intro k hk; rw [hg]; exact enough hk)
  rw [hg] at hrun
  have hcap : ∀ k, (byNumberAtom σ wideSys 2 true k (candAtom wideSys (candList g k) k)).nbrs.length ≤ 2 := by
    intro k
    simp [byNumberAtom, candAtom]
  obtain ⟨n, hn, -, hs⟩ := sort_close σ
  have hidx : (byNumberAtom σ wideSys 2 true 0 (candAtom wideSys (candList g 0) 0)).nbrs.map Nb.idx = [1, 1] := by
    obtain ⟨m, rfl⟩ : ∃ m, n = m + 2 := ⟨n - 2, by omega⟩
    simp [byNumberAtom, candAtom, hs, List.replicate_succ, System.mkNb]
  refine ⟨{ wideSys with
      atoms := (List.range wideSys.atoms.length).map
        fun k => byNumberAtom σ wideSys 2 true k (candAtom wideSys (candList g k) k),
      filter := 0, usecells := decide (wideSys.realNop > 4000), voronoiused := false,
      neighbordistance := wideSys.guessDist 1, neighborsFound := true }, _,
    byNumberAtom σ wideSys 2 true 0 (candAtom wideSys (candList g 0) 0), ?_, first, ?_, hidx, ?_⟩
  · rw [finish_search hrun]
    unfold System.checkCapacity
    rw [if_neg]
    · rfl
    · rintro ⟨a, ha, hgt⟩
      obtain ⟨k, -, rfl⟩ := List.mem_map.1 ha
      have := hcap k
      omega
  · simp only [length]
    rw [List.getElem?_map, List.getElem?_range (by norm_num)]
    rfl
  · rintro ⟨-, hnd, -⟩
    rw [hidx] at hnd
    simp at hnd

open wideSys in
/-- **C13 fails above 4000 atoms with fewer than three cells along an axis**: in the same system the
adaptive search succeeds and lists the nearest atom of atom 0 more than once. -/
theorem C13_false_cells (σ : StdSort) :
    ∃ s' a a', wideSys.findNeighbors σ 0 (.adaptive 1 2 1.2) = .ok s' ∧ wideSys.atoms[0]? = some a ∧
      s'.atoms[0]? = some a' ∧ ¬ (a'.nbrs.map Nb.idx).Nodup ∧
      ∀ R, ¬ Spec.AdaptiveList wideSys 2 1.2 R 0 0 a a'.nbrs a'.cutoff := by
  have hg : wideSys.candSettings (decide (wideSys.nop > 4000)) 1 = g := rfl
  have hrun := (searchAdaptive_runs σ wideSys 0 1 2 1.2 le_rfl
    (by rw [hg]; exact .inr ⟨_, _, _, cells⟩)).2 (by intro k hk; rw [hg]; exact enough hk)
  rw [hg] at hrun
  have hcap : ∀ k < wideSys.atoms.length,
      (adaptiveAtom σ { wideSys with filter := 0 } 2 1.2 k (candAtom wideSys (candList g k) k)).nbrs.length ≤ 27 := by
    intro k hk
    rw [length] at hk
    simp only [adaptiveAtom, candAtom, List.nil_append, List.length_map]
    by_cases h2 : k < 2
    · obtain ⟨n, -, hn, e⟩ := cand_close h2
      refine (List.length_filter_le _ _).trans ?_
      rw [(σ.perm _).length_eq, e, List.length_replicate]
      exact hn
    · have h0 : ∀ x ∈ σ.sort (candList g k), x.dist = 0 := fun x hx =>
        (cand_rest (not_lt.1 h2) hk).2 x ((σ.perm _).mem_iff.1 hx)
      have hcut : System.adaptiveCut 1.2 2 (σ.sort (candList g k)) = 0 := by
        unfold System.adaptiveCut
        rw [List.sum_eq_zero]
        · simp
        · intro y hy
          obtain ⟨x, hx, rfl⟩ := List.mem_map.1 hy
          exact h0 x (List.mem_of_mem_take hx)
      rw [hcut, adaptiveSel, List.filter_eq_nil_iff.2]
      · simp
      · intro x hx
        rw [h0 x hx]
        simp
  obtain ⟨n, hn, -, hs⟩ := sort_close σ
  have hnd : ¬ ((adaptiveAtom σ { wideSys with filter := 0 } 2 1.2 0
      (candAtom wideSys (candList g 0) 0)).nbrs.map Nb.idx).Nodup := by
    obtain ⟨m, rfl⟩ : ∃ m, n = m + 2 := ⟨n - 2, by omega⟩
    have hcut : System.adaptiveCut 1.2 2 (List.replicate (m + 2) (⟨1, 1⟩ : DAtom)) = 1.2 := by
      simp [System.adaptiveCut, List.replicate_succ]; norm_num
    have hsel : adaptiveSel { wideSys with filter := 0 } 0 1.2 (List.replicate (m + 2) (⟨1, 1⟩ : DAtom)) =
        List.replicate (m + 2) ⟨1, 1⟩ := by
      unfold adaptiveSel
      rw [List.filter_eq_self]
      intro x hx
      obtain rfl := List.eq_of_mem_replicate hx
      norm_num [filterOK]
    simp only [adaptiveAtom, candAtom, List.nil_append, hs, hcut, hsel]
    simp [List.replicate_succ, System.mkNb]
  refine ⟨{ wideSys with
      atoms := (List.range wideSys.atoms.length).map
        fun k => adaptiveAtom σ { wideSys with filter := 0 } 2 1.2 k (candAtom wideSys (candList g k) k),
      filter := 0, usecells := decide (wideSys.nop > 4000),
      neighbordistance := wideSys.guessDist 1, neighborsFound := true }, _,
    adaptiveAtom σ { wideSys with filter := 0 } 2 1.2 0 (candAtom wideSys (candList g 0) 0), ?_, first, ?_, hnd, ?_⟩
  · have hrun' : (wideSys.startSearch 0).search σ (.adaptive 1 2 1.2) = _ := hrun
    rw [finish_search hrun']
    unfold System.checkCapacity
    rw [if_neg]
    · rfl
    · rintro ⟨a, ha, hgt⟩
      obtain ⟨k, hk, rfl⟩ := List.mem_map.1 ha
      exact absurd (hcap k (List.mem_range.1 hk)) (not_le.2 (lt_trans (by norm_num) hgt))
  · simp only [length]
    rw [List.getElem?_map, List.getElem?_range (by norm_num)]
    rfl
  · rintro R ⟨N, dcut, -, -, h, -⟩
    exact hnd h

end Pyscal
