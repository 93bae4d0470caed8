import Verif.Model.Harmonics
import Verif.Spec.Harmonics

/-! The addition theorem as a polynomial identity, for every `l` the code accepts. -/

namespace Pyscal

/-- `PLM (m + n) m x` without the factor `pmm`. -/
noncomputable def plmPoly (m : ℕ) (x : ℝ) : ℕ → ℝ
  | 0 => 1
  | 1 => x * (2 * m + 1)
  | n + 2 => (x * (2 * ((m + 2 + n : ℕ) : ℝ) - 1) * plmPoly m x (n + 1)
      - (((m + 2 + n : ℕ) : ℝ) + m - 1) * plmPoly m x n) / (((m + 2 + n : ℕ) : ℝ) - m)

/-- Real part of `w ^ n` as a polynomial in `re w` and `|w|^2`. -/
noncomputable def rePow (a ρ : ℝ) : ℕ → ℝ
  | 0 => 1
  | 1 => a
  | n + 2 => 2 * a * rePow a ρ (n + 1) - ρ * rePow a ρ n

/-- `pmm / somx2 ^ m`. -/
noncomputable def pmmCoef : ℕ → ℝ
  | 0 => 1
  | n + 1 => -(pmmCoef n * (2 * n + 1))

/-- One term of the addition theorem. -/
noncomputable def addTerm (l : ℕ) (z z' a : ℝ) (m : ℕ) : ℝ :=
  dfactorial l m * pmmCoef m ^ 2 *
    (plmPoly m z (l - m) * plmPoly m z' (l - m) * rePow a ((1 - z ^ 2) * (1 - z' ^ 2)) m)

/-- The sum over `m`. -/
noncomputable def addSum (l : ℕ) (z z' a : ℝ) : ℝ :=
  addTerm l z z' a 0 + 2 * ((List.range l).map fun m => addTerm l z z' a (m + 1)).sum

theorem addSum_2 (z z' a : ℝ) : addSum 2 z z' a = Spec.legendre 2 (a + z * z') := by
  simp only [addSum, addTerm, List.range_succ, List.range_zero, List.nil_append, List.map_cons, List.map_nil,
    List.sum_cons, List.sum_nil, plmPoly, pmmCoef, rePow, Spec.legendre, dfactorial, List.foldl_cons,
    List.foldl_nil, List.cons_append, Nat.reduceAdd, Nat.reduceMul, Nat.reduceSub]
  push_cast
  ring

theorem addSum_3 (z z' a : ℝ) : addSum 3 z z' a = Spec.legendre 3 (a + z * z') := by
  simp only [addSum, addTerm, List.range_succ, List.range_zero, List.nil_append, List.map_cons, List.map_nil,
    List.sum_cons, List.sum_nil, plmPoly, pmmCoef, rePow, Spec.legendre, dfactorial, List.foldl_cons,
    List.foldl_nil, List.cons_append, Nat.reduceAdd, Nat.reduceMul, Nat.reduceSub]
  push_cast
  ring

theorem addSum_4 (z z' a : ℝ) : addSum 4 z z' a = Spec.legendre 4 (a + z * z') := by
  simp only [addSum, addTerm, List.range_succ, List.range_zero, List.nil_append, List.map_cons, List.map_nil,
    List.sum_cons, List.sum_nil, plmPoly, pmmCoef, rePow, Spec.legendre, dfactorial, List.foldl_cons,
    List.foldl_nil, List.cons_append, Nat.reduceAdd, Nat.reduceMul, Nat.reduceSub]
  push_cast
  ring

theorem addSum_5 (z z' a : ℝ) : addSum 5 z z' a = Spec.legendre 5 (a + z * z') := by
  simp only [addSum, addTerm, List.range_succ, List.range_zero, List.nil_append, List.map_cons, List.map_nil,
    List.sum_cons, List.sum_nil, plmPoly, pmmCoef, rePow, Spec.legendre, dfactorial, List.foldl_cons,
    List.foldl_nil, List.cons_append, Nat.reduceAdd, Nat.reduceMul, Nat.reduceSub]
  push_cast
  ring

theorem addSum_6 (z z' a : ℝ) : addSum 6 z z' a = Spec.legendre 6 (a + z * z') := by
  simp only [addSum, addTerm, List.range_succ, List.range_zero, List.nil_append, List.map_cons, List.map_nil,
    List.sum_cons, List.sum_nil, plmPoly, pmmCoef, rePow, Spec.legendre, dfactorial, List.foldl_cons,
    List.foldl_nil, List.cons_append, Nat.reduceAdd, Nat.reduceMul, Nat.reduceSub]
  push_cast
  ring

theorem addSum_7 (z z' a : ℝ) : addSum 7 z z' a = Spec.legendre 7 (a + z * z') := by
  simp only [addSum, addTerm, List.range_succ, List.range_zero, List.nil_append, List.map_cons, List.map_nil,
    List.sum_cons, List.sum_nil, plmPoly, pmmCoef, rePow, Spec.legendre, dfactorial, List.foldl_cons,
    List.foldl_nil, List.cons_append, Nat.reduceAdd, Nat.reduceMul, Nat.reduceSub]
  push_cast
  ring

theorem addSum_8 (z z' a : ℝ) : addSum 8 z z' a = Spec.legendre 8 (a + z * z') := by
  simp only [addSum, addTerm, List.range_succ, List.range_zero, List.nil_append, List.map_cons, List.map_nil,
    List.sum_cons, List.sum_nil, plmPoly, pmmCoef, rePow, Spec.legendre, dfactorial, List.foldl_cons,
    List.foldl_nil, List.cons_append, Nat.reduceAdd, Nat.reduceMul, Nat.reduceSub]
  push_cast
  ring

theorem addSum_9 (z z' a : ℝ) : addSum 9 z z' a = Spec.legendre 9 (a + z * z') := by
  simp only [addSum, addTerm, List.range_succ, List.range_zero, List.nil_append, List.map_cons, List.map_nil,
    List.sum_cons, List.sum_nil, plmPoly, pmmCoef, rePow, Spec.legendre, dfactorial, List.foldl_cons,
    List.foldl_nil, List.cons_append, Nat.reduceAdd, Nat.reduceMul, Nat.reduceSub]
  push_cast
  ring

theorem addSum_10 (z z' a : ℝ) : addSum 10 z z' a = Spec.legendre 10 (a + z * z') := by
  simp only [addSum, addTerm, List.range_succ, List.range_zero, List.nil_append, List.map_cons, List.map_nil,
    List.sum_cons, List.sum_nil, plmPoly, pmmCoef, rePow, Spec.legendre, dfactorial, List.foldl_cons,
    List.foldl_nil, List.cons_append, Nat.reduceAdd, Nat.reduceMul, Nat.reduceSub]
  push_cast
  ring

theorem addSum_11 (z z' a : ℝ) : addSum 11 z z' a = Spec.legendre 11 (a + z * z') := by
  simp only [addSum, addTerm, List.range_succ, List.range_zero, List.nil_append, List.map_cons, List.map_nil,
    List.sum_cons, List.sum_nil, plmPoly, pmmCoef, rePow, Spec.legendre, dfactorial, List.foldl_cons,
    List.foldl_nil, List.cons_append, Nat.reduceAdd, Nat.reduceMul, Nat.reduceSub]
  push_cast
  ring

theorem addSum_12 (z z' a : ℝ) : addSum 12 z z' a = Spec.legendre 12 (a + z * z') := by
  simp only [addSum, addTerm, List.range_succ, List.range_zero, List.nil_append, List.map_cons, List.map_nil,
    List.sum_cons, List.sum_nil, plmPoly, pmmCoef, rePow, Spec.legendre, dfactorial, List.foldl_cons,
    List.foldl_nil, List.cons_append, Nat.reduceAdd, Nat.reduceMul, Nat.reduceSub]
  push_cast
  ring

/-- The addition theorem for every accepted `l`. -/
theorem addSum_eq (l : ℕ) (h2 : 2 ≤ l) (h12 : l ≤ 12) (z z' a : ℝ) :
    addSum l z z' a = Spec.legendre l (a + z * z') := by
  obtain rfl | rfl | rfl | rfl | rfl | rfl | rfl | rfl | rfl | rfl | rfl :
    l = 2 ∨ l = 3 ∨ l = 4 ∨ l = 5 ∨ l = 6 ∨ l = 7 ∨ l = 8 ∨ l = 9 ∨ l = 10 ∨ l = 11 ∨ l = 12 := by omega
  · exact addSum_2 z z' a
  · exact addSum_3 z z' a
  · exact addSum_4 z z' a
  · exact addSum_5 z z' a
  · exact addSum_6 z z' a
  · exact addSum_7 z z' a
  · exact addSum_8 z z' a
  · exact addSum_9 z z' a
  · exact addSum_10 z z' a
  · exact addSum_11 z z' a
  · exact addSum_12 z z' a

end Pyscal
