import Verif.Model.System
import Mathlib.Analysis.Real.Sqrt
import Mathlib.Algebra.BigOperators.Group.Finset.Basic

/-! Independent specification of bond correlations and solid atoms. -/

namespace Pyscal.Spec

/-- Real scalar product of two complex component vectors of degree `l`. -/
noncomputable def inner (l : ℕ) (c d : ℕ → ℝ × ℝ) : ℝ :=
  ∑ k ∈ Finset.range (2 * l + 1), ((c k).1 * (d k).1 + (c k).2 * (d k).2)

/-- `x` is the correlation of the `q_l` vectors of two atoms: the scalar product of the normalised
vectors; NaN if a vector is undefined or zero. -/
def IsCorrelation (l : ℕ) (a b : Option (ℕ → ℝ × ℝ)) (x : Option ℝ) : Prop :=
  (∃ c d, a = some c ∧ b = some d ∧ inner l c c ≠ 0 ∧ inner l d d ≠ 0 ∧
    x = some (inner l c d / (Real.sqrt (inner l c c) * Real.sqrt (inner l d d)))) ∨
  ((∀ c d, a = some c → b = some d → inner l c c = 0 ∨ inner l d d = 0) ∧ x = none)

/-- `m` is the mean of a non-empty list of numbers that are all defined. -/
def IsMean (xs : List (Option ℝ)) (m : ℝ) : Prop :=
  ∃ vs : List ℝ, xs = vs.map some ∧ vs ≠ [] ∧ m = vs.sum / vs.length

end Pyscal.Spec
