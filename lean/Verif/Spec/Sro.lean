import Verif.Model.System
import Mathlib.Data.List.Count

/-! Independent specification of the short range order parameters. -/

namespace Pyscal.Spec

/-- Cowley's value `1 - n/(c m)` of a shell of `c` atoms, `n` of them counted, with concentration `m`;
undefined for an empty shell. -/
noncomputable def cowley (n c : ℕ) (m : ℝ) : Option ℝ := if c = 0 then none else some (1 - n / (c * m))

/-- De Fontaine's value `(n/c - m)/(1 - m)` for equal species; undefined for an empty shell. -/
noncomputable def fontaine (n c : ℕ) (m : ℝ) : Option ℝ := if c = 0 then none else some ((n / c - m) / (1 - m))

/-- Mean of a function over the neighbours. -/
noncomputable def meanOver (l : List Nb) (d : Nb → ℝ) : ℝ := (l.map d).sum / l.length

open Classical in
/-- The neighbours in the first shell: not farther than the mean distance. -/
noncomputable def shell1 (l : List Nb) (d : Nb → ℝ) : List Nb := l.filter fun x => d x ≤ meanOver l d

open Classical in
/-- The neighbours in the second shell: farther than the mean distance. -/
noncomputable def shell2 (l : List Nb) (d : Nb → ℝ) : List Nb := l.filter fun x => meanOver l d < d x

end Pyscal.Spec
