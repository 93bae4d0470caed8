import Verif.Props.Number

/-! Systems with integer coordinates far from the boundary of a cubic box, for concrete examples. -/

namespace Pyscal

/-- Integer coordinates of atom `i`. -/
def intAt (ps : List (ℤ × ℤ × ℤ)) (i : ℕ) : ℤ × ℤ × ℤ := ps.getD i (0, 0, 0)

/-- Squared distance. -/
def intSq (ps : List (ℤ × ℤ × ℤ)) (i j : ℕ) : ℤ :=
  ((intAt ps i).1 - (intAt ps j).1) ^ 2 + ((intAt ps i).2.1 - (intAt ps j).2.1) ^ 2 +
    ((intAt ps i).2.2 - (intAt ps j).2.2) ^ 2

/-- Position vector. -/
def intVec (p : ℤ × ℤ × ℤ) : V3 := ⟨p.1, p.2.1, p.2.2⟩

/-- The system in a cubic box of edge `L`. -/
noncomputable def intSystem (ps : List (ℤ × ℤ × ℤ)) (L : ℤ) : System :=
  { atoms := ps.map fun p => { pos := intVec p }, nop := ps.length, realNop := ps.length, box := Spec.diagBox L L L }

/-- All coordinates lie between 0 and half the box edge. -/
def IntOK (ps : List (ℤ × ℤ × ℤ)) (L : ℤ) : Prop :=
  0 ≤ L ∧ ∀ p ∈ ps, 0 ≤ p.1 ∧ 2 * p.1 ≤ L ∧ 0 ≤ p.2.1 ∧ 2 * p.2.1 ≤ L ∧ 0 ≤ p.2.2 ∧ 2 * p.2.2 ≤ L

instance (ps : List (ℤ × ℤ × ℤ)) (L : ℤ) : Decidable (IntOK ps L) := by unfold IntOK; infer_instance

variable {ps : List (ℤ × ℤ × ℤ)} {L : ℤ}

theorem intSystem_length : (intSystem ps L).atoms.length = ps.length := by simp [intSystem]

theorem intSystem_pos (i : ℕ) : (intSystem ps L).posOf i = intVec (intAt ps i) := by
  unfold System.posOf System.mem intSystem intAt
  by_cases hi : i < ps.length
  · simp [hi]
  · simp only [List.getD_eq_getElem?_getD, List.getElem?_map]
    rw [List.getElem?_eq_none (by omega)]
    simp [intVec]; rfl

theorem intAt_ok (h : IntOK ps L) (i : ℕ) :
    0 ≤ (intAt ps i).1 ∧ 2 * (intAt ps i).1 ≤ L ∧ 0 ≤ (intAt ps i).2.1 ∧ 2 * (intAt ps i).2.1 ≤ L ∧
      0 ≤ (intAt ps i).2.2 ∧ 2 * (intAt ps i).2.2 ≤ L := by
  unfold intAt
  by_cases hi : i < ps.length
  · have : ps.getD i (0, 0, 0) = ps[i] := by simp [hi]
    rw [this]
    exact h.2 _ (List.getElem_mem hi)
  · have : ps.getD i (0, 0, 0) = (0, 0, 0) := by simp [hi]
    rw [this]
    simpa using h.1

theorem wrap_small (a b : ℤ) (L : ℤ) (h1 : 0 ≤ a) (h2 : 2 * a ≤ L) (h3 : 0 ≤ b) (h4 : 2 * b ≤ L) :
    wrap (L : ℝ) ((a : ℝ) - b) = a - b := by
  have h1 : (0 : ℝ) ≤ a := by exact_mod_cast h1
  have h2 : 2 * (a : ℝ) ≤ L := by exact_mod_cast h2
  have h3 : (0 : ℝ) ≤ b := by exact_mod_cast h3
  have h4 : 2 * (b : ℝ) ≤ L := by exact_mod_cast h4
  unfold wrap
  have e : (if (a : ℝ) - b > L / 2 then (a : ℝ) - b - L else a - b) = a - b := if_neg (by linarith)
  dsimp only
  rw [e, if_neg (by linarith)]

theorem intSystem_diff (h : IntOK ps L) (i j : ℕ) :
    (intSystem ps L).diffOf i j = ⟨(intAt ps j).1 - (intAt ps i).1, (intAt ps j).2.1 - (intAt ps i).2.1,
      (intAt ps j).2.2 - (intAt ps i).2.2⟩ := by
  have hL : (0 : ℝ) ≤ L := by exact_mod_cast h.1
  unfold System.diffOf System.diffIdx
  rw [intSystem_pos, intSystem_pos, image_diag _ L L L hL hL hL rfl rfl]
  obtain ⟨a1, a2, a3, a4, a5, a6⟩ := intAt_ok h i
  obtain ⟨b1, b2, b3, b4, b5, b6⟩ := intAt_ok h j
  have e : intVec (intAt ps j) - intVec (intAt ps i) = ⟨((intAt ps j).1 : ℝ) - (intAt ps i).1,
    ((intAt ps j).2.1 : ℝ) - (intAt ps i).2.1, ((intAt ps j).2.2 : ℝ) - (intAt ps i).2.2⟩ := rfl
  rw [e]
  dsimp only
  rw [wrap_small _ _ L b1 b2 a1 a2, wrap_small _ _ L b3 b4 a3 a4, wrap_small _ _ L b5 b6 a5 a6]

theorem intSystem_dist (h : IntOK ps L) (i j : ℕ) :
    (intSystem ps L).distOf i j = Real.sqrt (intSq ps i j : ℤ) := by
  have : (intSystem ps L).distOf i j = V3.norm ((intSystem ps L).diffOf i j) := rfl
  rw [this, intSystem_diff h, V3.norm]
  congr 1
  unfold intSq V3.normSq
  push_cast
  ring

theorem sqrt_int_le (n : ℤ) (hn : 0 ≤ n) (c : ℝ) (hc : 0 ≤ c) (m : ℤ) (h1 : (m : ℝ) ≤ c ^ 2) (h2 : c ^ 2 < m + 1) :
    Real.sqrt (n : ℝ) ≤ c ↔ n ≤ m := by
  rw [Real.sqrt_le_left hc]
  constructor
  · intro h
    have : (n : ℝ) < m + 1 := lt_of_le_of_lt h h2
    have : n < m + 1 := by exact_mod_cast this
    omega
  · intro h
    have : (n : ℝ) ≤ m := by exact_mod_cast h
    linarith

theorem intSq_nonneg (i j : ℕ) : 0 ≤ intSq ps i j := by
  unfold intSq; positivity

theorem intSystem_guess (h : IntOK ps L) (t : ℝ) (ht : 0 ≤ t) (hn : 0 < ps.length) (m : ℤ)
    (hV : m ^ 3 * ps.length ≤ L ^ 3) : t * m ≤ (intSystem ps L).guessDist t := by
  have hL : (0 : ℝ) ≤ L := by exact_mod_cast h.1
  unfold System.guessDist
  refine mul_le_mul_of_nonneg_left ?_ ht
  have hv : (intSystem ps L).boxVol = (L : ℝ) ^ 3 := by
    have h0 : (intSystem ps L).triclinic = false := rfl
    simp only [System.boxVol, h0, System.boxx, System.boxy, System.boxz]
    simp only [intSystem, Spec.diagBox, norm_axis_x _ hL, norm_axis_y _ hL, norm_axis_z _ hL]
    simp; ring
  rw [hv, intSystem_length]
  have hcube := cbrt_cube ((L : ℝ) ^ 3 / ps.length)
  have hle : (m : ℝ) ^ 3 ≤ (L : ℝ) ^ 3 / ps.length := by
    rw [le_div_iff₀ (by exact_mod_cast hn)]
    exact_mod_cast hV
  rw [← hcube] at hle
  exact (Odd.strictMono_pow (n := 3) (by decide)).le_iff_le.1 hle

/-- All other atoms are candidates of each atom, when the search radius is large enough. -/
theorem intSystem_cands (h : IntOK ps L) (t : ℝ) (ht : 0 ≤ t) (hn : 0 < ps.length) (m : ℤ) (hm : 0 ≤ m)
    (hV : m ^ 3 * ps.length ≤ L ^ 3) (hd : ∀ i < ps.length, ∀ j < ps.length, (intSq ps i j : ℝ) ≤ (t * m) ^ 2)
    (k : ℕ) (hk : k < ps.length) :
    cands ((intSystem ps L).candSettings false t) k =
      ((List.range ps.length).filter fun j => decide (j ≠ k)).map fun j => ⟨Real.sqrt (intSq ps k j : ℤ), j⟩ := by
  have hg := intSystem_guess h t ht hn m hV
  unfold cands
  have h1 : ((intSystem ps L).candSettings false t).atoms.length = ps.length := intSystem_length (L := L)
  rw [h1]
  have h2 : ∀ j, ((intSystem ps L).candSettings false t).distOf k j = Real.sqrt (intSq ps k j : ℤ) :=
    fun j => intSystem_dist h k j
  have h3 : ((intSystem ps L).candSettings false t).usecells = false := rfl
  have h4 : ((intSystem ps L).candSettings false t).neighbordistance = (intSystem ps L).guessDist t := rfl
  simp only [h2, h3, h4, Bool.false_eq_true, if_false]
  congr 1
  refine List.filter_congr fun j hj => ?_
  have hle : Real.sqrt (intSq ps k j : ℤ) ≤ (intSystem ps L).guessDist t := by
    refine le_trans ?_ hg
    have hm' : (0 : ℝ) ≤ m := by exact_mod_cast hm
    rw [Real.sqrt_le_left (by positivity)]
    exact hd k hk j (List.mem_range.1 hj)
  simp [hle]

end Pyscal
