import Verif.Spec.Rounding
import Mathlib.Data.Int.Log
import Mathlib.Algebra.Order.Round
import Mathlib.Tactic.Linarith
import Mathlib.Tactic.NormNum
import Mathlib.Tactic.Positivity
import Mathlib.Tactic.Ring
import Mathlib.Tactic.FieldSimp
import Mathlib.Algebra.Order.Archimedean.Real.Basic

/-! Facts about rounding to nearest. -/

namespace Pyscal

open Spec (IsDouble RoundsToNearest)

theorem isDouble_int {m : ℤ} (h : |m| < 2 ^ 53) : IsDouble m := ⟨m, 0, h, by simp⟩

theorem isDouble_scale {m : ℤ} (h : |m| < 2 ^ 53) (e : ℤ) : IsDouble (m * (2 : ℝ) ^ e) := ⟨m, e, h, rfl⟩

theorem isDouble_pow (e : ℤ) : IsDouble ((2 : ℝ) ^ e) := ⟨1, e, by norm_num, by simp⟩

theorem double_neg {x : ℝ} (h : IsDouble x) : IsDouble (-x) := by
  obtain ⟨m, e, hm, rfl⟩ := h
  exact ⟨-m, e, by rwa [abs_neg], by push_cast; ring⟩

theorem double_scale {x : ℝ} (h : IsDouble x) (k : ℤ) : IsDouble (x * (2 : ℝ) ^ k) := by
  obtain ⟨m, e, hm, rfl⟩ := h
  exact ⟨m, e + k, hm, by rw [zpow_add₀ (by norm_num), mul_assoc]⟩

/-- Above `2^k` the floating-point numbers are multiples of `2^(k-52)`. -/
theorem double_multiple {y : ℝ} (h : IsDouble y) {k : ℤ} (hk : (2 : ℝ) ^ k ≤ |y|) : ∃ m : ℤ, y = m * (2 : ℝ) ^ (k - 52) := by
  obtain ⟨m, e, hm, rfl⟩ := h
  have he : k - 52 ≤ e := by
    by_contra hlt
    have h1 : e + 53 ≤ k := by omega
    have h2 : |(m : ℝ) * (2 : ℝ) ^ e| < (2 : ℝ) ^ (e + 53) := by
      rw [abs_mul, abs_of_pos (zpow_pos (by norm_num : (0 : ℝ) < 2) e), zpow_add₀ (by norm_num), mul_comm]
      refine mul_lt_mul_of_pos_left ?_ (zpow_pos (by norm_num) e)
      have h3 : ((|m| : ℤ) : ℝ) < ((2 ^ 53 : ℤ) : ℝ) := by exact_mod_cast hm
      rw [Int.cast_abs] at h3
      refine h3.trans_eq ?_
      norm_num
    have h3 : (2 : ℝ) ^ (e + 53) ≤ (2 : ℝ) ^ k := zpow_le_zpow_right₀ (by norm_num) h1
    linarith
  obtain ⟨j, rfl⟩ : ∃ j : ℕ, e = k - 52 + j := ⟨(e - (k - 52)).toNat, by omega⟩
  refine ⟨m * 2 ^ j, ?_⟩
  rw [zpow_add₀ (by norm_num)]
  push_cast
  rw [zpow_natCast]
  ring

variable {fl : ℝ → ℝ}

theorem fl_double (h : RoundsToNearest fl) {x : ℝ} (hx : IsDouble x) : fl x = x := by
  have := (h x).2 x hx
  rw [sub_self, abs_zero] at this
  linarith [abs_nonpos_iff.1 this]

theorem fl_le (h : RoundsToNearest fl) {x y : ℝ} (hy : IsDouble y) (hxy : x ≤ y) : fl x ≤ y := by
  by_contra hlt
  have := (h x).2 y hy
  rw [abs_of_nonneg (by linarith), abs_of_nonneg (by linarith)] at this
  linarith

theorem le_fl (h : RoundsToNearest fl) {x y : ℝ} (hy : IsDouble y) (hxy : y ≤ x) : y ≤ fl x := by
  by_contra hlt
  have := (h x).2 y hy
  rw [abs_of_nonpos (by linarith), abs_of_nonpos (by linarith)] at this
  linarith

/-- The result of rounding a number that is not half-way between two floating-point numbers. -/
theorem fl_eq (h : RoundsToNearest fl) {x : ℝ} {k M : ℤ} (hM : |M| < 2 ^ 53) (hx : (2 : ℝ) ^ k ≤ x) (hd : |M * (2 : ℝ) ^ (k - 52) - x| < (2 : ℝ) ^ (k - 52) / 2) :
    fl x = M * (2 : ℝ) ^ (k - 52) := by
  have h1 := le_fl h (isDouble_pow k) hx
  obtain ⟨m, hm⟩ := double_multiple (h x).1 (h1.trans (le_abs_self _))
  have h2 := (h x).2 _ (isDouble_scale hM (k - 52))
  rw [hm] at h2
  have hu : (0 : ℝ) < 2 ^ (k - 52) := zpow_pos (by norm_num) _
  have h3 : |((m - M : ℤ) : ℝ) * (2 : ℝ) ^ (k - 52)| < 2 ^ (k - 52) := by
    have e : ((m - M : ℤ) : ℝ) * (2 : ℝ) ^ (k - 52) = (m * (2 : ℝ) ^ (k - 52) - x) - (M * (2 : ℝ) ^ (k - 52) - x) := by push_cast; ring
    rw [e]
    have := abs_sub (m * (2 : ℝ) ^ (k - 52) - x) (M * (2 : ℝ) ^ (k - 52) - x)
    linarith
  rw [abs_mul, abs_of_pos hu] at h3
  have h4 : |((m - M : ℤ) : ℝ)| < 1 := by
    by_contra hge
    nlinarith [not_lt.1 hge]
  have h5 : |m - M| < 1 := by exact_mod_cast h4
  have h6 : m = M := by have := abs_lt.1 h5; omega
  rw [hm, h6]

/-- A way of rounding to nearest. -/
noncomputable def flExample (x : ℝ) : ℝ := round (x / (2 : ℝ) ^ (Int.log 2 |x| - 52)) * (2 : ℝ) ^ (Int.log 2 |x| - 52)

theorem flExample_rounds : RoundsToNearest flExample := by
  intro x
  by_cases h0 : x = 0
  · subst h0
    have e : flExample 0 = 0 := by simp [flExample]
    rw [e]
    refine ⟨⟨0, 0, by norm_num, by simp⟩, fun y _ => by simp⟩
  have hx : 0 < |x| := abs_pos.2 h0
  set k := Int.log 2 |x| with hk
  have hlo : (2 : ℝ) ^ k ≤ |x| := by
    have := Int.zpow_log_le_self (b := 2) (r := |x|) (by norm_num) hx
    exact_mod_cast this
  have hhi : |x| < (2 : ℝ) ^ (k + 1) := by
    have := Int.lt_zpow_succ_log_self (b := 2) (by norm_num) |x|
    exact_mod_cast this
  have hu : (0 : ℝ) < 2 ^ (k - 52) := zpow_pos (by norm_num) _
  set u : ℝ := 2 ^ (k - 52) with hud
  have e : flExample x = round (x / u) * u := rfl
  have hpow : (2 : ℝ) ^ k = 2 ^ 52 * u := by
    rw [hud, show k = (52 : ℤ) + (k - 52) by ring, zpow_add₀ (by norm_num)]
    norm_num
  have hnear : ∀ z : ℤ, |flExample x - x| ≤ |z * u - x| := by
    intro z
    have h1 := round_le (x / u) z
    have e1 : ∀ w : ℝ, |w * u - x| = |x / u - w| * u := by
      intro w
      rw [abs_sub_comm, ← abs_of_pos hu, ← abs_mul, abs_of_pos hu, sub_mul, div_mul_cancel₀ _ hu.ne']
    rw [e, e1, e1]
    exact mul_le_mul_of_nonneg_right h1 hu.le
  refine ⟨?_, fun y hy => ?_⟩
  · rw [e]
    have h1 : |x / u| < 2 ^ 53 := by
      rw [abs_div, abs_of_pos hu, div_lt_iff₀ hu]
      rw [zpow_add₀ (by norm_num), hpow] at hhi
      linarith
    have h2 := abs_sub_round (x / u)
    have h3 : |(round (x / u) : ℝ)| < 2 ^ 53 + 1 := by
      have := abs_sub_abs_le_abs_sub (round (x / u) : ℝ) (x / u)
      rw [abs_sub_comm] at this
      linarith
    have h4 : |round (x / u)| ≤ 2 ^ 53 := by
      have : |round (x / u)| < 2 ^ 53 + 1 := by exact_mod_cast h3
      omega
    rcases h4.lt_or_eq with h5 | h5
    · exact ⟨_, _, h5, rfl⟩
    · rcases abs_eq (by norm_num) |>.1 h5 with h6 | h6
      · rw [h6]
        exact ⟨1, k + 1, by norm_num, by rw [zpow_add₀ (by norm_num), hpow]; push_cast; ring⟩
      · rw [h6]
        exact ⟨-1, k + 1, by norm_num, by rw [zpow_add₀ (by norm_num), hpow]; push_cast; ring⟩
  · by_cases hy2 : (2 : ℝ) ^ k ≤ |y|
    · obtain ⟨m, rfl⟩ := double_multiple hy hy2
      exact hnear m
    · have hy2 := not_le.1 hy2
      rcases le_total 0 x with hs | hs
      · refine (hnear (2 ^ 52)).trans ?_
        rw [show (((2 ^ 52 : ℤ) : ℝ)) = 2 ^ 52 by norm_num, ← hpow]
        rw [abs_of_nonneg hs] at hlo
        have := le_abs_self y
        rw [abs_of_nonpos (by linarith), abs_of_nonpos (by linarith)]
        linarith
      · refine (hnear (-2 ^ 52)).trans ?_
        rw [show (((-2 ^ 52 : ℤ) : ℝ)) = -2 ^ 52 by norm_num, neg_mul, ← hpow]
        rw [abs_of_nonpos hs] at hlo
        have := neg_abs_le y
        rw [abs_of_nonneg (by linarith), abs_of_nonneg (by linarith)]
        linarith

end Pyscal
