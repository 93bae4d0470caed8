import Verif.Props.Cells
import Verif.Props.Repeat

/-! C11 in skewed boxes: the cells are filled from Cartesian coordinates. -/

namespace Pyscal

open CellsOK
open Spec (ofFrac)

/-- Every atom falls into a cell. -/
structure Binned (s : System) : Prop where
  one : 1 ≤ s.nx ∧ 1 ≤ s.ny ∧ 1 ≤ s.nz
  cell : ∀ i < s.atoms.length, cell3 s i ∈ allCells s.nx s.ny s.nz

theorem Binned.cellPairs_eq {s : System} (h : Binned s) : s.cellPairs = .ok (visited s) := by
  unfold System.cellPairs
  obtain ⟨t1, t2, t3⟩ := h.one
  rw [if_neg (by omega), if_neg]
  · rfl
  · rintro ⟨i, hi, hc⟩
    obtain ⟨a, b, c⟩ := mem_allCells.1 (h.cell i hi)
    have := cellIndex_range a b c
    rw [← atomCell_eq] at this
    omega

/-- Atoms that are compared are in neighbouring cells. -/
theorem Binned.adjacent {s : System} (h : Binned s) {p : ℕ × ℕ} (hp : p ∈ visited s) :
    p.1 < p.2 ∧ p.2 < s.atoms.length ∧ ∃ i j k : ℤ, (-1 ≤ i ∧ i ≤ 1) ∧ (-1 ≤ j ∧ j ≤ 1) ∧ (-1 ≤ k ∧ k ≤ 1) ∧
      cell3 s p.2 = (cellPeriodic s.nx ((cell3 s p.1).1 + i), cellPeriodic s.ny ((cell3 s p.1).2.1 + j),
        cellPeriodic s.nz ((cell3 s p.1).2.2 + k)) := by
  obtain ⟨a, b⟩ := p
  simp only [visited, List.mem_flatMap, List.mem_map, List.mem_filter, decide_eq_true_eq, Prod.mk.injEq] at hp
  obtain ⟨c, hc, ti, hti, sub, hsub, tj, ⟨htj, hlt⟩, rfl, rfl⟩ := hp
  obtain ⟨m1, m2⟩ := mem_members.1 hti
  obtain ⟨n1, n2⟩ := mem_members.1 htj
  rw [atomCell_eq] at m2 n2
  obtain ⟨a1, a2, a3⟩ := mem_allCells.1 (h.cell ti m1)
  obtain ⟨b1, b2, b3⟩ := mem_allCells.1 hc
  obtain ⟨c1, c2, c3⟩ := mem_allCells.1 (h.cell tj n1)
  obtain ⟨e1, e2, e3⟩ := cellIndex_inj a1 a2 a3 b1 b2 b3 m2
  obtain ⟨i, j, k, hi, hj, hk, hx⟩ := mem_neighborCells.1 hsub
  rw [hx] at n2
  obtain ⟨t1, t2, t3⟩ := h.one
  obtain ⟨f1, f2, f3⟩ := cellIndex_inj c1 c2 c3 (cellPeriodic_range t1 (by omega)) (cellPeriodic_range t2 (by omega))
    (cellPeriodic_range t3 (by omega)) n2
  refine ⟨hlt, n1, i, j, k, hi, hj, hk, ?_⟩
  dsimp only
  rw [e1, e2, e3]
  exact Prod.ext f1 (Prod.ext f2 f3)

/-- A search over cells in which no compared pair is close finds nothing. -/
theorem Binned.nothing {s : System} (h : Binned { s with voronoiused := false }) (hn : ∀ a ∈ s.atoms, a.nbrs = [])
    (hfar : ∀ p ∈ visited { s with voronoiused := false }, ¬ s.distOf p.1 p.2 < s.neighbordistance) :
    ∃ s', s.neighborsCells = .ok s' ∧ s'.atoms.length = s.atoms.length ∧ ∀ a ∈ s'.atoms, a.nbrs = [] := by
  have he : s.neighborsCells = .ok (System.ofMem { s with voronoiused := false }
      (pairLoop (Atom.pushNbCut s.neighbordistance) (cutoffHit { s with voronoiused := false })
        (visited { s with voronoiused := false }) s.mem)) := by
    unfold System.neighborsCells
    simp only [h.cellPairs_eq]
    rfl
  refine ⟨_, he, by simp, ?_⟩
  intro a ha
  obtain ⟨k, hk⟩ := List.mem_iff_getElem?.1 ha
  obtain ⟨h1, h2⟩ := mem_of_getElem? hk
  have h1 : k < s.atoms.length := by simpa using h1
  rw [ofMem_mem _ _ _ (by exact h1), pairLoop_apply _ _ _ (visited_ne _), foldl_pushNbCut] at h2
  rw [← h2]
  dsimp only
  have h0 : (s.mem k).nbrs = [] := by
    rw [mem_eq_getElem _ _ h1]; exact hn _ (List.getElem_mem _)
  rw [h0, List.nil_append, List.flatMap_eq_nil_iff]
  intro p hp
  have := contrib_none (s := { s with voronoiused := false }) p.1 p.2 (hfar p hp)
  unfold contrib
  rw [this]

/-- A sheared box: the second vector is (60, 80, 0). -/
noncomputable def slantBox : Mat3 := ⟨⟨100000, 0, 0⟩, ⟨60, 80, 0⟩, ⟨0, 0, 100⟩⟩

/-- Atom 0 near the upper face of the box, the others on the lower edge at distance 20 from each other.  Atom 1 is at
distance 1 from an image of atom 0. -/
noncomputable def slantPos (i : ℕ) : V3 := if i = 0 then ⟨80, 79, 0⟩ else ⟨20 * i, 0, 0⟩

/-- See `slantPos`. -/
noncomputable def slantAtoms (N : ℕ) : List Atom := (List.range N).map fun i : ℕ => { pos := slantPos i }

theorem slantBox_norms : V3.norm slantBox.r0 = 100000 ∧ V3.norm slantBox.r1 = 100 ∧ V3.norm slantBox.r2 = 100 := by
  refine ⟨norm_axis_x _ (by norm_num), ?_, norm_axis_z _ (by norm_num)⟩
  simp only [V3.norm, V3.normSq, slantBox]
  rw [show (60 * 60 + 80 * 80 + 0 * 0 : ℝ) = 100 * 100 by norm_num]
  exact Real.sqrt_mul_self (by norm_num)

theorem slantBox_skewed : Skewed slantBox := by
  obtain ⟨h0, h1, h2⟩ := slantBox_norms
  refine ⟨3 / 5, ?_, by norm_num⟩
  rw [cosSum_eq (by rw [h0]; norm_num) (by rw [h1]; norm_num) (by rw [h2]; norm_num), h0, h1, h2]
  norm_num [V3.dot, slantBox]

/-- The displacement from atom 0 to atom j. -/
theorem slant_image0 {s : System} (h : TriOK s) (hb : s.box = slantBox) (j : ℕ) (hj : 1 ≤ j) (hj2 : j ≤ 2400) :
    s.image (slantPos j - slantPos 0) = ⟨20 * ((j : ℝ) - 1), 1, 0⟩ := by
  have h1 : (1 : ℝ) ≤ j := by exact_mod_cast hj
  have h2 : (j : ℝ) ≤ 2400 := by exact_mod_cast hj2
  have e : slantPos j - slantPos 0 = ofFrac s.box ⟨(20 * (j : ℝ) - 83 / 4) / 100000, -79 / 80, 0⟩ := by
    rw [hb]
    simp only [slantPos, if_pos rfl, if_neg (show j ≠ 0 by omega)]
    ext <;> simp [ofFrac, slantBox] <;> ring
  have hx : s.boxx = 100000 := by rw [System.boxx, hb]; exact slantBox_norms.1
  have hy : s.boxy = 100 := by rw [System.boxy, hb]; exact slantBox_norms.2.1
  have hz : s.boxz = 100 := by rw [System.boxz, hb]; exact slantBox_norms.2.2
  have w1 := wrap_frac_unique (L := 100000) (f := (20 * (j : ℝ) - 83 / 4) / 100000) (by norm_num)
    (by rw [abs_le]; constructor <;> linarith) 0 (by rw [abs_lt]; push_cast; constructor <;> linarith)
  have w2 := wrap_frac_unique (L := 100) (f := -79 / 80) (by norm_num) (by rw [abs_le]; norm_num) 1 (by rw [abs_lt]; norm_num)
  have w3 := wrap_frac_unique (L := 100) (f := 0) (by norm_num) (by norm_num) 0 (by norm_num)
  rw [e, image_ofFrac h, hx, hy, hz, w1, w2, w3, hb]
  ext <;> simp [ofFrac, slantBox] <;> ring

/-- The displacement between two other atoms. -/
theorem slant_image {s : System} (h : TriOK s) (hb : s.box = slantBox) (i j : ℕ) (hi : 1 ≤ i) (hi2 : i ≤ 2400) (hj : 1 ≤ j) (hj2 : j ≤ 2400) :
    s.image (slantPos j - slantPos i) = ⟨20 * ((j : ℝ) - i), 0, 0⟩ := by
  have h1 : (1 : ℝ) ≤ j := by exact_mod_cast hj
  have h2 : (j : ℝ) ≤ 2400 := by exact_mod_cast hj2
  have h3 : (1 : ℝ) ≤ i := by exact_mod_cast hi
  have h4 : (i : ℝ) ≤ 2400 := by exact_mod_cast hi2
  have e : slantPos j - slantPos i = ofFrac s.box ⟨(20 * ((j : ℝ) - i)) / 100000, 0, 0⟩ := by
    rw [hb]
    simp only [slantPos, if_neg (show j ≠ 0 by omega), if_neg (show i ≠ 0 by omega)]
    ext <;> simp [ofFrac, slantBox] <;> ring
  have hx : s.boxx = 100000 := by rw [System.boxx, hb]; exact slantBox_norms.1
  have hy : s.boxy = 100 := by rw [System.boxy, hb]; exact slantBox_norms.2.1
  have hz : s.boxz = 100 := by rw [System.boxz, hb]; exact slantBox_norms.2.2
  have w1 := wrap_frac_unique (L := 100000) (f := (20 * ((j : ℝ) - i)) / 100000) (by norm_num)
    (by rw [abs_le]; constructor <;> linarith) 0 (by rw [abs_lt]; push_cast; constructor <;> linarith)
  have w3 := wrap_frac_unique (L := 100) (f := 0) (by norm_num) (by norm_num) 0 (by norm_num)
  rw [e, image_ofFrac h, hx, hy, hz, w1, w3, hb]
  ext <;> simp [ofFrac, slantBox] <;> ring

/-- **C11 is false in skewed boxes**: with more than 2300 atoms the cells are filled from Cartesian coordinates, which in a
skewed box do not show which atoms meet across its faces.  Here atoms 0 and 1 are at distance 1 by `get_distance`, but a search
with cutoff 10 succeeds and finds no neighbour for any atom. -/
theorem C11_false_skew (σ : StdSort) (N : ℕ) (hN1 : 2300 < N) (hN2 : N ≤ 2400) :
    ∃ (s0 s1 s' : System) (a b : Atom), System.init.setBox slantBox = .ok s0 ∧ s0.assignAtoms (slantAtoms N) = .ok s1 ∧
      s1.atoms[0]? = some a ∧ s1.atoms[1]? = some b ∧ s1.getDistance a b = 1 ∧ s1.getDistance b a = 1 ∧
      s1.findNeighbors σ 0 (.cutoff 10) = .ok s' ∧ s'.atoms.length = N ∧ ∀ x ∈ s'.atoms, x.nbrs = [] := by
  have hdet : slantBox.det ≠ 0 := by norm_num [Mat3.det, slantBox]
  have hlenA : (slantAtoms N).length = N := by simp [slantAtoms]
  have hreal : ∀ a ∈ slantAtoms N, a.ghost = false := by
    intro a ha
    obtain ⟨i, -, rfl⟩ := List.mem_map.1 ha
    rfl
  obtain ⟨s0, h0⟩ := setBox_ok (s := System.init) (b := slantBox) fun _ => hdet
  have h1 : s0.assignAtoms (slantAtoms N) = .ok (s0.setAtoms (slantAtoms N)) := if_neg (by rw [hlenA]; omega)
  have hs0 := h0
  unfold System.setBox at hs0
  rw [if_pos slantBox_skewed] at hs0
  dsimp only at hs0
  split_ifs at hs0 with hd
  obtain rfl := Except.ok.inj hs0
  set s1 := System.setAtoms _ (slantAtoms N) with hs1
  have ht : TriOK s1 := ⟨rfl, rfl, rfl, hdet⟩
  have hb : s1.box = slantBox := rfl
  have hat : s1.atoms = slantAtoms N := rfl
  have hpos : ∀ i < N, s1.posOf i = slantPos i := by
    intro i hi
    simp only [System.posOf, System.mem, hat, slantAtoms]
    rw [List.getD_eq_getElem?_getD, List.getElem?_map, List.getElem?_range hi]
    rfl
  have hget : ∀ i < N, s1.atoms[i]? = some { pos := slantPos i } := by
    intro i hi
    rw [hat, slantAtoms, List.getElem?_map, List.getElem?_range hi]
    rfl
  have hd01 : V3.norm (s1.image (slantPos 1 - slantPos 0)) = 1 := by
    rw [slant_image0 ht hb 1 le_rfl (by norm_num)]
    norm_num [V3.norm, V3.normSq]
  -- the search
  set g : System := { s1.startSearch 0 with neighbordistance := 10 } with hg
  have hgpos : ∀ i < N, System.posOf { g with voronoiused := false } i = slantPos i := by
    intro i hi
    rw [← hpos i hi]
    exact resetAll_posOf s1 i
  have hglen : g.atoms.length = N := (resetAll_length s1).trans (by rw [hat, hlenA])
  have hx : System.boxx { g with voronoiused := false } = 100000 := slantBox_norms.1
  have hy : System.boxy { g with voronoiused := false } = 100 := slantBox_norms.2.1
  have hz : System.boxz { g with voronoiused := false } = 100 := slantBox_norms.2.2
  have hcc : cellCount 100000 10 = 10000 ∧ cellCount 100 10 = 10 := by
    unfold cellCount truncZ
    rw [if_pos (by norm_num), if_pos (by norm_num), Int.floor_eq_iff, Int.floor_eq_iff]
    norm_num
  have hnx : System.nx { g with voronoiused := false } = 10000 := by rw [System.nx, hx]; exact hcc.1
  have hny : System.ny { g with voronoiused := false } = 10 := by rw [System.ny, hy]; exact hcc.2
  have hnz : System.nz { g with voronoiused := false } = 10 := by rw [System.nz, hz]; exact hcc.2
  have hin : ∀ i < N, BinRange 100000 (slantPos i).x ∧ BinRange 100 (slantPos i).y ∧ BinRange 100 (slantPos i).z := by
    intro i hi
    have h2 : (i : ℝ) ≤ 2400 := by exact_mod_cast (show i ≤ 2400 by omega)
    have h3 : (0 : ℝ) ≤ i := Nat.cast_nonneg _
    unfold slantPos BinRange
    split_ifs
    · norm_num
    · refine ⟨⟨?_, ?_, Or.inl ?_⟩, by norm_num, by norm_num⟩ <;> dsimp only <;> linarith
  have hB : Binned { g with voronoiused := false } := by
    refine ⟨by rw [hnx, hny, hnz]; norm_num, ?_⟩
    intro i hi
    have hi : i < N := by rw [← hglen]; exact hi
    obtain ⟨r1, r2, r3⟩ := hin i hi
    rw [mem_allCells]
    simp only [cell3, hgpos i hi, hx, hy, hz, hnx, hny, hnz]
    refine ⟨?_, ?_, ?_⟩
    · have := cellCoord_range (L := 100000) (nd := 10) (by norm_num) (by norm_num) (by rw [hcc.1]; norm_num) r1
      rwa [hcc.1] at this
    · have := cellCoord_range (L := 100) (nd := 10) (by norm_num) (by norm_num) (by rw [hcc.2]; norm_num) r2
      rwa [hcc.2] at this
    · have := cellCoord_range (L := 100) (nd := 10) (by norm_num) (by norm_num) (by rw [hcc.2]; norm_num) r3
      rwa [hcc.2] at this
  have hcy0 : (cell3 { g with voronoiused := false } 0).2.1 = 7 := by
    simp only [cell3, hgpos 0 (by omega), hy, hny, slantPos, cellCoord, binCoord, truncZ]
    norm_num
  have hcyj : ∀ j < N, 1 ≤ j → (cell3 { g with voronoiused := false } j).2.1 = 0 := by
    intro j hj hj1
    simp only [cell3, hgpos j hj, hy, hny, slantPos, if_neg (show j ≠ 0 by omega), cellCoord, binCoord, truncZ]
    norm_num
  obtain ⟨s', e1, e2, e3⟩ := hB.nothing (s := g) (by
      intro a ha
      rw [hg] at ha
      simp only [System.startSearch, System.resetAllNeighbors, List.mem_map] at ha
      obtain ⟨c, -, rfl⟩ := ha
      rfl) (by
      intro p hp
      obtain ⟨q1, q2, i, j, k, -, hj, -, q3⟩ := hB.adjacent hp
      have q2 : p.2 < N := by rw [← hglen]; exact q2
      have hdist : g.distOf p.1 p.2 = V3.norm (s1.image (slantPos p.2 - slantPos p.1)) := by
        have u1 := hgpos p.1 (by omega)
        have u2 := hgpos p.2 q2
        change g.posOf p.1 = _ at u1
        change g.posOf p.2 = _ at u2
        rw [System.distOf, System.distIdx, System.diffIdx, u1, u2]
        rfl
      rw [hdist]
      change ¬ _ < (10 : ℝ)
      rw [not_lt]
      by_cases hp0 : p.1 = 0
      · have hy1 := congrArg (fun c => c.2.1) q3
        simp only [hp0, hcy0, hny, hcyj p.2 q2 (by omega)] at hy1
        unfold cellPeriodic at hy1
        split_ifs at hy1 <;> omega
      · rw [slant_image ht hb p.1 p.2 (by omega) (by omega) (by omega) (by omega)]
        have : (p.1 : ℝ) + 1 ≤ p.2 := by exact_mod_cast q1
        rw [norm_axis_x _ (by linarith)]
        linarith)
  refine ⟨_, s1, { s' with neighborsFound := true }, _, _, h0, h1, hget 0 (by omega), hget 1 (by omega), ?_, hd01, ?_, e2.trans hglen, e3⟩
  · rw [← hd01]
    have e : slantPos 1 - slantPos 0 = -(slantPos 0 - slantPos 1) := by ext <;> simp
    rw [e, image_neg, V3.norm_neg]
    rfl
  · rw [findNeighbors_cutoff_large σ s1 0 10 (by norm_num) ?_ ?_]
    · change (do
        let s' ← g.neighborsCells
        let s' ← s'.checkCapacity
        return { s' with neighborsFound := true }) = _
      have hcap : s'.checkCapacity = .ok s' := by
        unfold System.checkCapacity
        rw [if_neg]
        push Not
        intro a ha
        rw [e3 a ha]; simp
      simp only [bind, Except.bind, e1, hcap]
      rfl
    · change 2300 < countReal (slantAtoms N)
      rw [countReal_of_real hreal, hlenA]; exact hN1
    · change countReal (slantAtoms N) ≤ (slantAtoms N).length
      rw [countReal_of_real hreal]

/-- 2301 atoms will do. -/
example : (2300 < 2301) ∧ (2301 ≤ 2400) := by norm_num

end Pyscal
