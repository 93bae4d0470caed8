import Mathlib.Data.Real.Basic
import Mathlib.Algebra.Order.Field.Basic

/-! Floating-point numbers and rounding to nearest, without limits on the exponent. -/

namespace Pyscal.Spec

/-- A number with a significand of 53 bits, as in the type `double` of C and the floats of Python; overflow and underflow are left out. -/
def IsDouble (x : ℝ) : Prop := ∃ m e : ℤ, |m| < 2 ^ 53 ∧ x = m * (2 : ℝ) ^ e

/-- `fl x` is a floating-point number, and no other one is closer to `x`.  Nothing is said about ties. -/
def RoundsToNearest (fl : ℝ → ℝ) : Prop := ∀ x, IsDouble (fl x) ∧ ∀ y, IsDouble y → |fl x - x| ≤ |y - x|

end Pyscal.Spec
