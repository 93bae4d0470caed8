import Verif.Lemmas.FindNeighbors

/-! Cell lists: arithmetic of one axis, and the set of pairs visited. -/

namespace Pyscal

/-- Coordinates for which the binning of the cell list is correct: within one box length of the
box, but not in the interval `(-1e-6, 0)` that is snapped to 0 instead of being wrapped. -/
def BinRange (L x : ℝ) : Prop := -L ≤ x ∧ x < 2 * L ∧ (0 ≤ x ∨ x ≤ -1e-6)

theorem cellCount_spec {L nd : ℝ} (hL : 0 < L) (hnd : 0 < nd) :
    (cellCount L nd : ℝ) * nd ≤ L ∧ 0 ≤ cellCount L nd := by
  have h0 : 0 ≤ L / nd := by positivity
  have : cellCount L nd = ⌊L / nd⌋ := by unfold cellCount truncZ; rw [if_pos h0]
  rw [this]
  refine ⟨?_, Int.floor_nonneg.2 h0⟩
  have := Int.floor_le (L / nd)
  rwa [le_div_iff₀ hnd] at this

/-- The cell coordinate is the floor of the wrapped coordinate divided by the cell length. -/
theorem cellCoord_spec {L nd x : ℝ} (hL : 0 < L) (hnd : 1e-6 ≤ nd) (hn : 1 ≤ cellCount L nd)
    (hx : BinRange L x) :
    ∃ e : ℤ, 0 ≤ x + e * L ∧ x + e * L < L ∧
      cellCoord L (cellCount L nd) x = ⌊(x + e * L) / (L / cellCount L nd)⌋ := by
  set n := cellCount L nd with hndef
  have hnR : (1 : ℝ) ≤ n := by exact_mod_cast hn
  have hl : 0 < L / n := by positivity
  have hnd0 : (0 : ℝ) < nd := lt_of_lt_of_le (by norm_num) hnd
  have hln : nd ≤ L / n := by
    rw [le_div_iff₀ (by linarith), mul_comm]
    exact (cellCount_spec hL hnd0).1
  obtain ⟨h1, h2, h3⟩ := hx
  unfold cellCoord binCoord
  rw [sub_zero]
  by_cases hs : |x| < 1e-6
  · have hx0 : 0 ≤ x := by
      rcases h3 with h3 | h3
      · exact h3
      · rw [abs_lt] at hs; linarith [hs.1]
    have hx1 : x < 1e-6 := (abs_lt.1 hs).2
    have hxl : x < L / n := by linarith
    have hLn : L / n ≤ L := div_le_self hL.le hnR
    refine ⟨0, by simpa using hx0, by simp; linarith, ?_⟩
    simp only [if_pos hs, lt_self_iff_false, if_false, ge_iff_le, not_le.2 hL]
    rw [zero_div, truncZ, if_pos le_rfl, Int.floor_zero]
    symm
    rw [Int.floor_eq_zero_iff]
    simp only [Int.cast_zero, zero_mul, add_zero, Set.mem_Ico]
    exact ⟨by positivity, (div_lt_one hl).2 hxl⟩
  · simp only [if_neg hs]
    by_cases hneg : x < 0
    · refine ⟨1, by simp; linarith, by simp; linarith, ?_⟩
      rw [if_pos hneg, truncZ, if_pos (div_nonneg (by linarith) hl.le)]
      simp
    · by_cases hge : x ≥ L
      · refine ⟨-1, by simp; linarith, by simp; linarith, ?_⟩
        rw [if_neg hneg, if_pos hge, truncZ, if_pos (div_nonneg (by linarith) hl.le)]
        simp [sub_eq_add_neg]
      · push Not at hneg hge
        refine ⟨0, by simpa using hneg, by simpa using hge, ?_⟩
        rw [if_neg (not_lt.2 hneg), if_neg (not_le.2 hge), truncZ, if_pos (div_nonneg hneg hl.le)]
        simp

theorem cellCoord_range {L nd x : ℝ} (hL : 0 < L) (hnd : 1e-6 ≤ nd) (hn : 1 ≤ cellCount L nd)
    (hx : BinRange L x) :
    0 ≤ cellCoord L (cellCount L nd) x ∧ cellCoord L (cellCount L nd) x < cellCount L nd := by
  obtain ⟨e, h1, h2, h3⟩ := cellCoord_spec hL hnd hn hx
  have hnR : (1 : ℝ) ≤ cellCount L nd := by exact_mod_cast hn
  have hl : 0 < L / cellCount L nd := by positivity
  rw [h3]
  refine ⟨Int.floor_nonneg.2 (div_nonneg h1 hl.le), Int.floor_lt.2 ?_⟩
  rw [div_lt_iff₀ hl, mul_div_cancel₀ _ (by linarith)]
  exact h2

/-- Atoms closer than the cutoff along an axis are in the same or adjacent cells. -/
theorem cellCoord_near {L nd x y : ℝ} (hL : 0 < L) (hnd : 1e-6 ≤ nd) (hn : 1 ≤ cellCount L nd)
    (hx : BinRange L x) (hy : BinRange L y) (hw : |wrap L (y - x)| < nd) :
    ∃ d : ℤ, -1 ≤ d ∧ d ≤ 1 ∧ cellCoord L (cellCount L nd) y =
      cellPeriodic (cellCount L nd) (cellCoord L (cellCount L nd) x + d) := by
  have rx := cellCoord_range hL hnd hn hx
  have ry := cellCoord_range hL hnd hn hy
  obtain ⟨e, -, -, h3⟩ := cellCoord_spec hL hnd hn hx
  obtain ⟨e', -, -, h3'⟩ := cellCoord_spec hL hnd hn hy
  set n := cellCount L nd with hndef
  have hnR : (1 : ℝ) ≤ n := by exact_mod_cast hn
  have hl : 0 < L / n := by positivity
  have hnd0 : (0 : ℝ) < nd := lt_of_lt_of_le (by norm_num) hnd
  have hln : nd ≤ L / n := by
    rw [le_div_iff₀ (by linarith), mul_comm]
    exact (cellCount_spec hL hnd0).1
  obtain ⟨k, hk⟩ := wrap_isImage L (y - x) hL.le
  rw [hk, abs_lt] at hw
  -- `y' - x' + t L` is small, with `t = k - e' + e`
  set t : ℤ := k - e' + e with ht
  have hdiff : (y + e' * L) - (x + e * L) + t * L = y - x + k * L := by
    rw [ht]; push_cast; ring
  set l := L / n with hldef
  have hLl : L = n * l := by rw [hldef, mul_div_cancel₀ _ (by linarith)]
  set Y := (y + e' * L) / l
  set X := (x + e * L) / l
  have hXl : x + e * L = X * l := (div_mul_cancel₀ _ hl.ne').symm
  have hYl : y + e' * L = Y * l := (div_mul_cancel₀ _ hl.ne').symm
  have hYX : |Y - X + t * n| < 1 := by
    have h1 : (Y - X + t * n) * l = y - x + k * L := by
      rw [← hdiff, hXl, hYl]
      have : (t : ℝ) * L = t * n * l := by rw [mul_assoc, ← hLl]
      rw [this]; ring
    rw [abs_lt]
    constructor
    · have h2 : (-1) * l < (Y - X + t * n) * l := by rw [h1]; linarith [hw.1]
      exact lt_of_mul_lt_mul_right h2 hl.le
    · have h2 : (Y - X + t * n) * l < 1 * l := by rw [h1]; linarith [hw.2]
      exact lt_of_mul_lt_mul_right h2 hl.le
  rw [abs_lt] at hYX
  have hfl1 : ⌊Y⌋ + t * n ≤ ⌊X⌋ + 1 := by
    have h1 := Int.floor_le Y
    have h2 := Int.lt_floor_add_one X
    have : ((⌊Y⌋ + t * n : ℤ) : ℝ) < ((⌊X⌋ + 2 : ℤ) : ℝ) := by push_cast; linarith [hYX.2]
    have := Int.cast_lt.1 this
    omega
  have hfl2 : ⌊X⌋ - 1 ≤ ⌊Y⌋ + t * n := by
    have h1 := Int.floor_le X
    have h2 := Int.lt_floor_add_one Y
    have : ((⌊X⌋ - 2 : ℤ) : ℝ) < ((⌊Y⌋ + t * n : ℤ) : ℝ) := by push_cast; linarith [hYX.1]
    have := Int.cast_lt.1 this
    omega
  rw [h3] at rx ⊢
  rw [h3'] at ry ⊢
  refine ⟨⌊Y⌋ + t * n - ⌊X⌋, by omega, by omega, ?_⟩
  have hsum : ⌊X⌋ + (⌊Y⌋ + t * n - ⌊X⌋) = ⌊Y⌋ + t * n := by ring
  rw [hsum]
  unfold cellPeriodic
  -- `t` is -1, 0 or 1 unless `n` is small; in all cases one wrap suffices
  have hlow : -1 ≤ ⌊Y⌋ + t * n := by omega
  have hhigh : ⌊Y⌋ + t * n ≤ n := by omega
  have htl : -1 ≤ t := by
    by_contra hc
    have : t ≤ -2 := by omega
    nlinarith
  have hth : t ≤ 1 := by
    by_contra hc
    have : 2 ≤ t := by omega
    nlinarith
  have hcases : t = -1 ∨ t = 0 ∨ t = 1 := by omega
  rcases hcases with h | h | h
  · rw [h]
    rw [if_pos (by omega)]; omega
  · rw [h]
    rw [if_neg (by omega), if_neg (by omega)]; omega
  · rw [h]
    rw [if_neg (by omega), if_pos (by omega)]; omega

theorem mem_intRange {lo hi i : ℤ} : i ∈ intRange lo hi ↔ lo ≤ i ∧ i < hi := by
  simp only [intRange, List.mem_map, List.mem_range]
  constructor
  · rintro ⟨t, ht, rfl⟩; omega
  · rintro ⟨h1, h2⟩; exact ⟨(i - lo).toNat, by omega, by omega⟩

theorem intRange_nodup (lo hi : ℤ) : (intRange lo hi).Nodup :=
  List.Nodup.map (fun a b h => by simpa using h) List.nodup_range

theorem cellIndex_inj {nx ny nz a b c a' b' c' : ℤ} (_ : 0 ≤ a ∧ a < nx) (hb : 0 ≤ b ∧ b < ny) (hc : 0 ≤ c ∧ c < nz)
    (_ : 0 ≤ a' ∧ a' < nx) (hb' : 0 ≤ b' ∧ b' < ny) (hc' : 0 ≤ c' ∧ c' < nz)
    (h : cellIndex ny nz a b c = cellIndex ny nz a' b' c') : a = a' ∧ b = b' ∧ c = c' := by
  unfold cellIndex at h
  have hz : 0 < nz := by omega
  have hy : 0 < ny := by omega
  have e1 : (a * ny + b) * nz + c = (a' * ny + b') * nz + c' := by linarith
  have hab : a * ny + b = a' * ny + b' := by
    have q1 : ((a * ny + b) * nz + c) / nz = a * ny + b := by
      rw [add_comm, Int.add_mul_ediv_right _ _ hz.ne', Int.ediv_eq_zero_of_lt hc.1 hc.2, zero_add]
    have q2 : ((a' * ny + b') * nz + c') / nz = a' * ny + b' := by
      rw [add_comm, Int.add_mul_ediv_right _ _ hz.ne', Int.ediv_eq_zero_of_lt hc'.1 hc'.2, zero_add]
    rw [← q1, ← q2, e1]
  have ha : a = a' := by
    have q1 : (a * ny + b) / ny = a := by
      rw [add_comm, Int.add_mul_ediv_right _ _ hy.ne', Int.ediv_eq_zero_of_lt hb.1 hb.2, zero_add]
    have q2 : (a' * ny + b') / ny = a' := by
      rw [add_comm, Int.add_mul_ediv_right _ _ hy.ne', Int.ediv_eq_zero_of_lt hb'.1 hb'.2, zero_add]
    rw [← q1, ← q2, hab]
  subst ha
  have hbb : b = b' := by linarith
  subst hbb
  exact ⟨rfl, rfl, by linarith⟩

theorem cellIndex_range {nx ny nz a b c : ℤ} (ha : 0 ≤ a ∧ a < nx) (hb : 0 ≤ b ∧ b < ny) (hc : 0 ≤ c ∧ c < nz) :
    0 ≤ cellIndex ny nz a b c ∧ cellIndex ny nz a b c < nx * ny * nz := by
  unfold cellIndex
  have hz : 0 < nz := by omega
  have hy : 0 < ny := by omega
  have h1 : 0 ≤ a * ny * nz := by have := ha.1; positivity
  have h2 : 0 ≤ b * nz := by have := hb.1; positivity
  refine ⟨by omega, ?_⟩
  have h3 : b * nz + c < ny * nz := by nlinarith
  have h4 : a * (ny * nz) + ny * nz ≤ nx * (ny * nz) := by
    have : 0 < ny * nz := by positivity
    nlinarith
  nlinarith

theorem cellPeriodic_range {n i : ℤ} (hn : 1 ≤ n) (h : -1 ≤ i ∧ i ≤ n) :
    0 ≤ cellPeriodic n i ∧ cellPeriodic n i < n := by
  unfold cellPeriodic
  split_ifs <;> omega

theorem cellPeriodic_inj {n c i j : ℤ} (hn : 3 ≤ n) (hc : 0 ≤ c ∧ c < n) (hi : c - 1 ≤ i ∧ i ≤ c + 1)
    (hj : c - 1 ≤ j ∧ j ≤ c + 1) (h : cellPeriodic n i = cellPeriodic n j) : i = j := by
  unfold cellPeriodic at h
  split_ifs at h <;> omega

theorem mem_allCells {nx ny nz : ℤ} {c : ℤ × ℤ × ℤ} :
    c ∈ allCells nx ny nz ↔ (0 ≤ c.1 ∧ c.1 < nx) ∧ (0 ≤ c.2.1 ∧ c.2.1 < ny) ∧ (0 ≤ c.2.2 ∧ c.2.2 < nz) := by
  obtain ⟨a, b, d⟩ := c
  simp only [allCells, List.mem_flatMap, List.mem_map, mem_intRange, Prod.mk.injEq]
  constructor
  · rintro ⟨i, hi, j, hj, k, hk, rfl, rfl, rfl⟩; exact ⟨hi, hj, hk⟩
  · rintro ⟨h1, h2, h3⟩; exact ⟨a, h1, b, h2, d, h3, rfl, rfl, rfl⟩

theorem nodup_flatMap_of_key {α β γ : Type} {l : List α} {f : α → List β} (key : β → γ) (g : α → γ)
    (hl : l.Nodup) (hf : ∀ a ∈ l, (f a).Nodup) (hk : ∀ a ∈ l, ∀ b ∈ f a, key b = g a)
    (hg : ∀ a ∈ l, ∀ b ∈ l, g a = g b → a = b) : (l.flatMap f).Nodup := by
  rw [List.nodup_flatMap]
  refine ⟨hf, ?_⟩
  have : l.Pairwise (fun a b => a ≠ b) := hl
  refine (List.pairwise_iff_forall_sublist.2 ?_)
  intro a b hab
  have ha : a ∈ l := hab.subset (by simp)
  have hb : b ∈ l := hab.subset (by simp)
  have hne : a ≠ b := by
    have := hl.sublist hab
    simpa using this
  simp only [Function.onFun, List.disjoint_left]
  intro x hx hx'
  exact hne (hg a ha b hb ((hk a ha x hx).symm.trans (hk b hb x hx')))

theorem allCells_nodup (nx ny nz : ℤ) : (allCells nx ny nz).Nodup := by
  unfold allCells
  refine nodup_flatMap_of_key (fun c => c.1) id (intRange_nodup _ _) ?_ ?_ (fun a _ b _ h => h)
  · intro i _
    refine nodup_flatMap_of_key (fun c => c.2.1) id (intRange_nodup _ _) ?_ ?_ (fun a _ b _ h => h)
    · intro j _
      exact List.Nodup.map (fun a b h => by simpa using h) (intRange_nodup _ _)
    · intro j _ b hb
      rw [List.mem_map] at hb
      obtain ⟨k, _, rfl⟩ := hb
      rfl
  · intro i _ b hb
    simp only [List.mem_flatMap, List.mem_map] at hb
    obtain ⟨j, _, k, _, rfl⟩ := hb
    rfl

theorem mem_neighborCells {nx ny nz : ℤ} {c : ℤ × ℤ × ℤ} {x : ℤ} :
    x ∈ neighborCells nx ny nz c ↔ ∃ i j k : ℤ, (-1 ≤ i ∧ i ≤ 1) ∧ (-1 ≤ j ∧ j ≤ 1) ∧ (-1 ≤ k ∧ k ≤ 1) ∧
      x = cellIndex ny nz (cellPeriodic nx (c.1 + i)) (cellPeriodic ny (c.2.1 + j)) (cellPeriodic nz (c.2.2 + k)) := by
  simp only [neighborCells, List.mem_flatMap, List.mem_map, mem_intRange]
  constructor
  · rintro ⟨i, hi, j, hj, k, hk, rfl⟩
    refine ⟨i - c.1, j - c.2.1, k - c.2.2, by omega, by omega, by omega, ?_⟩
    congr 2 <;> ring
  · rintro ⟨i, j, k, hi, hj, hk, rfl⟩
    exact ⟨c.1 + i, by omega, c.2.1 + j, by omega, c.2.2 + k, by omega, rfl⟩

theorem neighborCells_nodup {nx ny nz : ℤ} (hx : 3 ≤ nx) (hy : 3 ≤ ny) (hz : 3 ≤ nz) {c : ℤ × ℤ × ℤ}
    (hc : c ∈ allCells nx ny nz) : (neighborCells nx ny nz c).Nodup := by
  obtain ⟨h1, h2, h3⟩ := mem_allCells.1 hc
  have e : neighborCells nx ny nz c =
      ((intRange (c.1 - 1) (c.1 + 2)).flatMap fun si => (intRange (c.2.1 - 1) (c.2.1 + 2)).flatMap fun sj =>
      (intRange (c.2.2 - 1) (c.2.2 + 2)).map fun sk => (si, sj, sk)).map fun t =>
        cellIndex ny nz (cellPeriodic nx t.1) (cellPeriodic ny t.2.1) (cellPeriodic nz t.2.2) := by
    simp only [neighborCells, List.map_flatMap, List.map_map]
    rfl
  rw [e]
  refine List.Nodup.map_on ?_ ?_
  · intro t ht t' ht' heq
    obtain ⟨i, j, k⟩ := t
    obtain ⟨i', j', k'⟩ := t'
    simp only [List.mem_flatMap, List.mem_map, mem_intRange, Prod.mk.injEq] at ht ht'
    obtain ⟨_, hi, _, hj, _, hk, rfl, rfl, rfl⟩ := ht
    obtain ⟨_, hi', _, hj', _, hk', rfl, rfl, rfl⟩ := ht'
    dsimp only at heq
    obtain ⟨q1, q2, q3⟩ := cellIndex_inj
      (cellPeriodic_range (n := nx) (by omega) (by omega)) (cellPeriodic_range (n := ny) (by omega) (by omega))
      (cellPeriodic_range (n := nz) (by omega) (by omega))
      (cellPeriodic_range (n := nx) (by omega) (by omega)) (cellPeriodic_range (n := ny) (by omega) (by omega))
      (cellPeriodic_range (n := nz) (by omega) (by omega)) heq
    rw [cellPeriodic_inj hx h1 (by omega) (by omega) q1, cellPeriodic_inj hy h2 (by omega) (by omega) q2,
      cellPeriodic_inj hz h3 (by omega) (by omega) q3]
  · refine nodup_flatMap_of_key (fun c => c.1) id (intRange_nodup _ _) ?_ ?_ (fun a _ b _ h => h)
    · intro i _
      refine nodup_flatMap_of_key (fun c => c.2.1) id (intRange_nodup _ _) ?_ ?_ (fun a _ b _ h => h)
      · intro j _
        exact List.Nodup.map (fun a b h => by simpa using h) (intRange_nodup _ _)
      · intro j _ b hb
        rw [List.mem_map] at hb
        obtain ⟨k, _, rfl⟩ := hb
        rfl
    · intro i _ b hb
      simp only [List.mem_flatMap, List.mem_map] at hb
      obtain ⟨j, _, k, _, rfl⟩ := hb
      rfl

/-- At least three cells along each axis. -/
def ThreeCells (s : System) : Prop := 3 ≤ s.nx ∧ 3 ≤ s.ny ∧ 3 ≤ s.nz

/-- Conditions under which the cell lists are well formed and complete: axis-aligned orthogonal
box, at least one cell along each axis, coordinates that are binned correctly. -/
structure CellsOK (s : System) (L1 L2 L3 : ℝ) : Prop where
  pos : 0 < L1 ∧ 0 < L2 ∧ 0 < L3
  box : s.box = Spec.diagBox L1 L2 L3
  ortho : s.triclinic = false
  nd : 1e-6 ≤ s.neighbordistance
  one : 1 ≤ s.nx ∧ 1 ≤ s.ny ∧ 1 ≤ s.nz
  inside : ∀ i < s.atoms.length, BinRange L1 (s.posOf i).x ∧ BinRange L2 (s.posOf i).y ∧ BinRange L3 (s.posOf i).z

namespace CellsOK

variable {s : System} {L1 L2 L3 : ℝ}

theorem edges (h : CellsOK s L1 L2 L3) : s.boxx = L1 ∧ s.boxy = L2 ∧ s.boxz = L3 := by
  obtain ⟨h1, h2, h3⟩ := h.pos
  simp only [System.boxx, System.boxy, System.boxz, h.box, Spec.diagBox]
  exact ⟨norm_axis_x _ h1.le, norm_axis_y _ h2.le, norm_axis_z _ h3.le⟩

/-- The cell of an atom as a triple. -/
noncomputable def cell3 (s : System) (i : ℕ) : ℤ × ℤ × ℤ :=
  (cellCoord s.boxx s.nx (s.posOf i).x, cellCoord s.boxy s.ny (s.posOf i).y, cellCoord s.boxz s.nz (s.posOf i).z)

theorem cell3_mem (h : CellsOK s L1 L2 L3) {i : ℕ} (hi : i < s.atoms.length) :
    cell3 s i ∈ allCells s.nx s.ny s.nz := by
  obtain ⟨e1, e2, e3⟩ := h.edges
  obtain ⟨p1, p2, p3⟩ := h.pos
  obtain ⟨t1, t2, t3⟩ := h.one
  obtain ⟨i1, i2, i3⟩ := h.inside i hi
  rw [mem_allCells]
  refine ⟨?_, ?_, ?_⟩
  · have : 1 ≤ cellCount L1 s.neighbordistance := by rw [← e1]; exact t1
    simp only [cell3, System.nx, e1]; exact cellCoord_range p1 h.nd this i1
  · have : 1 ≤ cellCount L2 s.neighbordistance := by rw [← e2]; exact t2
    simp only [cell3, System.ny, e2]; exact cellCoord_range p2 h.nd this i2
  · have : 1 ≤ cellCount L3 s.neighbordistance := by rw [← e3]; exact t3
    simp only [cell3, System.nz, e3]; exact cellCoord_range p3 h.nd this i3

theorem atomCell_eq (s : System) (i : ℕ) :
    s.atomCell i = cellIndex s.ny s.nz (cell3 s i).1 (cell3 s i).2.1 (cell3 s i).2.2 := rfl

/-- The list of pairs visited by the cell loops. -/
noncomputable def visited (s : System) : List (ℕ × ℕ) :=
  (allCells s.nx s.ny s.nz).flatMap fun c =>
      (s.members (cellIndex s.ny s.nz c.1 c.2.1 c.2.2)).flatMap fun ti =>
        (neighborCells s.nx s.ny s.nz c).flatMap fun sub =>
          ((s.members sub).filter fun tj => ti < tj).map fun tj => (ti, tj)

theorem cellPairs_eq (h : CellsOK s L1 L2 L3) : s.cellPairs = .ok (visited s) := by
  unfold System.cellPairs
  obtain ⟨t1, t2, t3⟩ := h.one
  rw [if_neg (by omega), if_neg]
  · rfl
  · rintro ⟨i, hi, hc⟩
    obtain ⟨a, b, c⟩ := mem_allCells.1 (h.cell3_mem hi)
    have := cellIndex_range a b c
    rw [← atomCell_eq] at this
    omega

theorem mem_members {c : ℤ} {i : ℕ} : i ∈ s.members c ↔ i < s.atoms.length ∧ s.atomCell i = c := by
  simp [System.members]

theorem members_cell (h : CellsOK s L1 L2 L3) {c : ℤ × ℤ × ℤ} (hc : c ∈ allCells s.nx s.ny s.nz) {i : ℕ}
    (hi : i ∈ s.members (cellIndex s.ny s.nz c.1 c.2.1 c.2.2)) : cell3 s i = c := by
  obtain ⟨h1, h2⟩ := mem_members.1 hi
  rw [atomCell_eq] at h2
  obtain ⟨a1, a2, a3⟩ := mem_allCells.1 (h.cell3_mem h1)
  obtain ⟨b1, b2, b3⟩ := mem_allCells.1 hc
  obtain ⟨e1, e2, e3⟩ := cellIndex_inj a1 a2 a3 b1 b2 b3 h2
  exact Prod.ext e1 (Prod.ext e2 e3)

theorem mem_visited (h : CellsOK s L1 L2 L3) {p : ℕ × ℕ} :
    p ∈ visited s ↔ p.1 < p.2 ∧ p.2 < s.atoms.length ∧
      s.atomCell p.2 ∈ neighborCells s.nx s.ny s.nz (cell3 s p.1) := by
  obtain ⟨i, j⟩ := p
  simp only [visited, List.mem_flatMap, List.mem_map, List.mem_filter, decide_eq_true_eq, Prod.mk.injEq]
  constructor
  · rintro ⟨c, hc, ti, hti, sub, hsub, tj, ⟨htj, hlt⟩, rfl, rfl⟩
    have hcell := h.members_cell hc hti
    obtain ⟨h1, h2⟩ := mem_members.1 htj
    refine ⟨hlt, h1, ?_⟩
    rw [hcell, h2]; exact hsub
  · rintro ⟨h1, h2, h3⟩
    have hi : i < s.atoms.length := by omega
    refine ⟨cell3 s i, h.cell3_mem hi, i, mem_members.2 ⟨hi, rfl⟩, s.atomCell j, h3, j,
      ⟨mem_members.2 ⟨h2, rfl⟩, h1⟩, rfl, rfl⟩

theorem visited_nodup (h : CellsOK s L1 L2 L3) (h3 : ThreeCells s) : (visited s).Nodup := by
  unfold visited
  refine nodup_flatMap_of_key (fun p => cell3 s p.1) id (allCells_nodup _ _ _) ?_ ?_ (fun a _ b _ h => h)
  · intro c hc
    refine nodup_flatMap_of_key (fun p => p.1) id (List.nodup_range.filter _) ?_ ?_ (fun a _ b _ h => h)
    · intro ti _
      refine nodup_flatMap_of_key (fun p => s.atomCell p.2) id
        (neighborCells_nodup h3.1 h3.2.1 h3.2.2 hc) ?_ ?_ (fun a _ b _ h => h)
      · intro sub _
        refine List.Nodup.map (fun a b hab => by simpa using hab) ?_
        exact (List.nodup_range.filter _).filter _
      · intro sub _ b hb
        simp only [List.mem_map, List.mem_filter] at hb
        obtain ⟨tj, ⟨htj, _⟩, rfl⟩ := hb
        exact (mem_members.1 htj).2
    · intro ti _ b hb
      simp only [List.mem_flatMap, List.mem_map, List.mem_filter] at hb
      obtain ⟨sub, _, tj, _, rfl⟩ := hb
      rfl
  · intro c hc b hb
    simp only [List.mem_flatMap, List.mem_map, List.mem_filter] at hb
    obtain ⟨ti, hti, sub, _, tj, _, rfl⟩ := hb
    exact h.members_cell hc hti

/-- Every pair closer than the cutoff is visited. -/
theorem near_visited (h : CellsOK s L1 L2 L3) {i j : ℕ} (hij : i < j) (hj : j < s.atoms.length)
    (hd : s.distOf i j < s.neighbordistance) : (i, j) ∈ visited s := by
  obtain ⟨e1, e2, e3⟩ := h.edges
  obtain ⟨p1, p2, p3⟩ := h.pos
  obtain ⟨t1, t2, t3⟩ := h.one
  have hi : i < s.atoms.length := by omega
  obtain ⟨i1, i2, i3⟩ := h.inside i hi
  obtain ⟨j1, j2, j3⟩ := h.inside j hj
  have hdv : s.distOf i j = V3.norm (s.diffOf i j) := rfl
  rw [hdv] at hd
  have hv : s.diffOf i j = ⟨wrap L1 ((s.posOf j).x - (s.posOf i).x), wrap L2 ((s.posOf j).y - (s.posOf i).y),
      wrap L3 ((s.posOf j).z - (s.posOf i).z)⟩ := by
    simp only [System.diffOf, System.diffIdx, System.image, h.ortho, Bool.false_eq_true, if_false, e1, e2, e3]
    rfl
  have hcomp : ∀ v : V3, |v.x| ≤ V3.norm v ∧ |v.y| ≤ V3.norm v ∧ |v.z| ≤ V3.norm v := by
    intro v
    have hsq := V3.norm_sq v
    have hn := V3.norm_nonneg v
    have hns : V3.normSq v = v.x * v.x + v.y * v.y + v.z * v.z := rfl
    refine ⟨abs_le_of_sq_le_sq ?_ hn, abs_le_of_sq_le_sq ?_ hn, abs_le_of_sq_le_sq ?_ hn⟩ <;> rw [sq (V3.norm v), hsq, hns] <;>
      nlinarith [sq_nonneg v.x, sq_nonneg v.y, sq_nonneg v.z]
  obtain ⟨c1, c2, c3⟩ := hcomp (s.diffOf i j)
  have w1 := lt_of_le_of_lt c1 hd
  have w2 := lt_of_le_of_lt c2 hd
  have w3 := lt_of_le_of_lt c3 hd
  rw [hv] at w1 w2 w3
  dsimp only at w1 w2 w3
  rw [h.mem_visited]
  refine ⟨hij, hj, ?_⟩
  have q1 : 1 ≤ cellCount L1 s.neighbordistance := by rw [← e1]; exact t1
  have q2 : 1 ≤ cellCount L2 s.neighbordistance := by rw [← e2]; exact t2
  have q3 : 1 ≤ cellCount L3 s.neighbordistance := by rw [← e3]; exact t3
  obtain ⟨d1, a1, b1, f1⟩ := cellCoord_near p1 h.nd q1 i1 j1 w1
  obtain ⟨d2, a2, b2, f2⟩ := cellCoord_near p2 h.nd q2 i2 j2 w2
  obtain ⟨d3, a3, b3, f3⟩ := cellCoord_near p3 h.nd q3 i3 j3 w3
  rw [mem_neighborCells]
  refine ⟨d1, d2, d3, ⟨a1, b1⟩, ⟨a2, b2⟩, ⟨a3, b3⟩, ?_⟩
  rw [atomCell_eq]
  simp only [cell3, System.nx, System.ny, System.nz, e1, e2, e3]
  rw [f1, f2, f3]

/-- Contributions of the cell loops are those of the double loop in another order, for any loop
body that only reacts to pairs closer than the cutoff. -/
theorem visited_contrib (h : CellsOK s L1 L2 L3) (h3 : ThreeCells s) {τ : Type} (hit : ℕ → ℕ → Option (τ × τ))
    (hh : ∀ i j, ¬ s.distOf i j < s.neighbordistance → hit i j = none) (k : ℕ) :
    ((visited s).flatMap (contrib hit k)).Perm ((pairs s.atoms.length).flatMap (contrib hit k)) := by
  classical
  have red : ∀ l : List (ℕ × ℕ), l.flatMap (contrib hit k) =
      (l.filter fun p => s.distOf p.1 p.2 < s.neighbordistance).flatMap (contrib hit k) := by
    intro l
    induction l with
    | nil => rfl
    | cons p l ih =>
      rw [List.flatMap_cons, List.filter_cons, ih]
      by_cases hp : s.distOf p.1 p.2 < s.neighbordistance
      · simp [hp]
      · simp [hp, contrib, hh _ _ hp]
  rw [red, red (pairs _)]
  refine List.Perm.flatMap_right _ ?_
  rw [List.perm_ext_iff_of_nodup ((h.visited_nodup h3).filter _) ((pairs_nodup _).filter _)]
  rintro ⟨i, j⟩
  simp only [List.mem_filter, decide_eq_true_eq]
  constructor
  · rintro ⟨h1, h2⟩
    obtain ⟨a, b, -⟩ := h.mem_visited.1 h1
    exact ⟨mem_pairs.2 ⟨a, b⟩, h2⟩
  · rintro ⟨h1, h2⟩
    obtain ⟨a, b⟩ := mem_pairs.1 h1
    exact ⟨h.near_visited a b h2, h2⟩

theorem visited_ne (s : System) : ∀ p ∈ visited s, p.1 ≠ p.2 := by
  intro p hp
  simp only [visited, List.mem_flatMap, List.mem_map, List.mem_filter, decide_eq_true_eq] at hp
  obtain ⟨c, _, ti, _, sub, _, tj, ⟨_, hlt⟩, rfl⟩ := hp
  exact hlt.ne

theorem singleton_sublist_flatMap {α β : Type} {l : List α} {f : α → List β} {a : α} (ha : a ∈ l) :
    (f a).Sublist (l.flatMap f) := by
  induction l with
  | nil => cases ha
  | cons b l ih =>
    rw [List.flatMap_cons]
    rcases List.mem_cons.1 ha with rfl | h
    · exact List.sublist_append_left _ _
    · exact (ih h).trans (List.sublist_append_right _ _)

theorem sublist_flatMap {α β : Type} {l l' : List α} (h : l.Sublist l') (f : α → List β) :
    (l.flatMap f).Sublist (l'.flatMap f) := by
  induction h with
  | slnil => exact List.Sublist.refl _
  | cons a _ ih => rw [List.flatMap_cons]; exact ih.trans (List.sublist_append_right _ _)
  | cons_cons a _ ih => rw [List.flatMap_cons, List.flatMap_cons]; exact (List.Sublist.refl _).append ih

/-- With two cells along x, atoms in cells differing only in x are compared twice. -/
theorem two_cells_dup (h : CellsOK s L1 L2 L3) (h2 : s.nx = 2) {i j : ℕ} (hij : i < j)
    (hj : j < s.atoms.length) (hc1 : (cell3 s i).1 = 1) (hc2 : (cell3 s j).1 = 0)
    (hy : (cell3 s j).2 = (cell3 s i).2) : [(i, j), (i, j)].Sublist (visited s) := by
  have hi : i < s.atoms.length := by omega
  obtain ⟨a1, a2, a3⟩ := mem_allCells.1 (h.cell3_mem hi)
  set c := cell3 s i with hc
  have hsub : (((neighborCells s.nx s.ny s.nz c)).flatMap fun sub =>
          ((s.members sub).filter fun tj => i < tj).map fun tj => (i, tj)).Sublist (visited s) := by
    refine List.Sublist.trans ?_ (singleton_sublist_flatMap (a := c) (h.cell3_mem hi))
    exact singleton_sublist_flatMap (f := fun ti => (neighborCells s.nx s.ny s.nz c).flatMap fun sub =>
          ((s.members sub).filter fun tj => ti < tj).map fun tj => (ti, tj)) (a := i) (mem_members.2 ⟨hi, rfl⟩)
  refine List.Sublist.trans ?_ hsub
  have hx : [s.atomCell j, s.atomCell j].Sublist (neighborCells s.nx s.ny s.nz c) := by
    have hr : intRange (c.1 - 1) (c.1 + 2) = [0, 1, 2] := by rw [hc1]; decide
    have hA : ∀ si, cellPeriodic 2 si = 0 → s.atomCell j ∈
        ((intRange (c.2.1 - 1) (c.2.1 + 2)).flatMap fun sj =>
          (intRange (c.2.2 - 1) (c.2.2 + 2)).map fun sk =>
            cellIndex s.ny s.nz (cellPeriodic s.nx si) (cellPeriodic s.ny sj) (cellPeriodic s.nz sk)) := by
      intro si hsi
      simp only [List.mem_flatMap, List.mem_map, mem_intRange]
      refine ⟨c.2.1, by omega, c.2.2, by omega, ?_⟩
      rw [atomCell_eq, hc2, hy, h2, hsi]
      unfold cellPeriodic
      rw [if_neg (by omega), if_neg (by omega), if_neg (by omega), if_neg (by omega)]
    unfold neighborCells
    rw [hr]
    simp only [List.flatMap_cons, List.flatMap_nil, List.append_nil]
    have e0 := List.singleton_sublist.2 (hA 0 (by decide))
    have e2 := List.singleton_sublist.2 (hA 2 (by decide))
    exact e0.append (e2.trans (List.sublist_append_right _ _))
  refine List.Sublist.trans ?_ (sublist_flatMap hx _)
  have hm : (i, j) ∈ ((s.members (s.atomCell j)).filter fun tj => i < tj).map fun tj => (i, tj) := by
    rw [List.mem_map]
    exact ⟨j, List.mem_filter.2 ⟨mem_members.2 ⟨hj, rfl⟩, by simpa using hij⟩, rfl⟩
  simp only [List.flatMap_cons, List.flatMap_nil, List.append_nil]
  exact (List.singleton_sublist.2 hm).append (List.singleton_sublist.2 hm)

end CellsOK

theorem cellCount_ge_three {L R : ℝ} (hR : 0 < R) (h : 3 * R ≤ L) : 3 ≤ cellCount L R := by
  have h3 : (3 : ℝ) ≤ L / R := by rwa [le_div_iff₀ hR]
  unfold cellCount truncZ
  rw [if_pos (by linarith), Int.le_floor]
  exact_mod_cast h3

/-- The specified conditions give well formed cell lists. -/
theorem cellsOK_of {s : System} {R : ℝ} (h : Spec.CellConditions s R) :
    ∃ L1 L2 L3, CellsOK { s with neighbordistance := R } L1 L2 L3 ∧ ThreeCells { s with neighbordistance := R } := by
  obtain ⟨L1, L2, L3, hb, ht, hR, h1, h2, h3, hin⟩ := h
  have hpos : 0 < R := by linarith [show (0 : ℝ) < 1e-6 by norm_num]
  have e1 : System.boxx { s with neighbordistance := R } = L1 := by
    simp only [System.boxx, hb, Spec.diagBox]; exact norm_axis_x _ (by linarith)
  have e2 : System.boxy { s with neighbordistance := R } = L2 := by
    simp only [System.boxy, hb, Spec.diagBox]; exact norm_axis_y _ (by linarith)
  have e3 : System.boxz { s with neighbordistance := R } = L3 := by
    simp only [System.boxz, hb, Spec.diagBox]; exact norm_axis_z _ (by linarith)
  have n3 : ThreeCells { s with neighbordistance := R } := by
    refine ⟨?_, ?_, ?_⟩
    · simp only [System.nx, e1]; exact cellCount_ge_three hpos h1
    · simp only [System.ny, e2]; exact cellCount_ge_three hpos h2
    · simp only [System.nz, e3]; exact cellCount_ge_three hpos h3
  refine ⟨L1, L2, L3, ⟨⟨by linarith, by linarith, by linarith⟩, hb, ht, hR, ?_, ?_⟩, n3⟩
  · obtain ⟨a, b, c⟩ := n3; omega
  · intro i hi
    have hm : System.posOf { s with neighbordistance := R } i = (s.atoms[i]'hi).pos := by
      simp [System.posOf, System.mem, List.getElem?_eq_getElem (show i < s.atoms.length from hi)]
    rw [hm]
    exact hin _ (List.getElem_mem _)

end Pyscal
