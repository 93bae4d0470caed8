import Verif.Model.Harmonics
import Mathlib.Algebra.BigOperators.Group.Finset.Basic
import Mathlib.Analysis.Real.Sqrt
import Mathlib.Analysis.SpecialFunctions.Log.Basic

/-! Independent specification of the pair entropy parameter: smeared pair correlation, integrand,
trapezoid rule. -/

namespace Pyscal.Spec

open Finset

/-- The smeared pair correlation `g(r) = 1/(4 π ρ r²) Σ_j 1/√(2πσ²) exp(-(r-r_j)²/(2σ²))` of an atom with
neighbours at distances `ds`. -/
noncomputable def pairCorrelation (ds : List ℝ) (σ ρ r : ℝ) : ℝ :=
  (ds.map fun d => Real.exp (-((r - d) ^ 2 / (2 * σ ^ 2)))).sum / (4 * PI * ρ * r ^ 2 * Real.sqrt (2 * PI * σ ^ 2))

/-- The integrand `(g ln g - g + 1) r²`. -/
noncomputable def entropyIntegrand (ds : List ℝ) (σ ρ r : ℝ) : ℝ :=
  (pairCorrelation ds σ ρ r * Real.log (pairCorrelation ds σ ρ r) - pairCorrelation ds σ ρ r + 1) * r ^ 2

/-- The trapezoid rule with `n` intervals of width `h` starting at `x`. -/
noncomputable def trapezoidRule (f : ℝ → ℝ) (x h : ℝ) (n : ℕ) : ℝ :=
  ∑ j ∈ range n, h * (f (x + j * h) + f (x + (j + 1) * h)) / 2

/-- Local density of an atom with `n` neighbours in a sphere of radius `c`; the constant is the code's
value of `4π/3`. -/
noncomputable def localDensity (n : ℕ) (c : ℝ) : ℝ := n / (4.1887902047863905 * c ^ 3)

end Pyscal.Spec
