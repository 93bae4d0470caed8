import Verif.Model.System
import Mathlib.Logic.Relation

/-! Independent specification of clusters. -/

namespace Pyscal.Spec

/-- Atom number `i` is a real atom whose condition is true. -/
def Member (s : System) (i : ℕ) : Prop :=
  ∃ a v, s.atoms[i]? = some a ∧ a.ghost = false ∧ a.condition = some v ∧ v ≠ 0

/-- Atoms `i` and `j` are real, satisfy the condition, and `j` is in the neighbour list of `i` at a
distance within the cutoff of `i`; a non-zero `c` replaces the cutoffs of all atoms. -/
def Bond (s : System) (c : ℝ) (i j : ℕ) : Prop :=
  Member s i ∧ Member s j ∧ ∃ a x, s.atoms[i]? = some a ∧ x ∈ a.nbrs ∧ x.idx = j ∧
    (c ≠ 0 → x.dist ≤ c) ∧ (c = 0 → ∃ r, a.cutoff = some r ∧ x.dist ≤ r)

/-- `lab` numbers the connected components of the graph `bond` on the members among `0..n-1`:
`-1` for the others, equal numbers exactly for connected members, and the numbers are `1..k`. -/
structure ComponentLabels (n : ℕ) (member : ℕ → Prop) (bond : ℕ → ℕ → Prop) (lab : ℕ → ℤ) : Prop where
  outside : ∀ i < n, lab i = -1 ↔ ¬ member i
  same : ∀ i < n, ∀ j < n, member i → member j → (lab i = lab j ↔ Relation.ReflTransGen bond i j)
  ids : ∃ k : ℕ, ∀ c : ℤ, (∃ i < n, member i ∧ lab i = c) ↔ 1 ≤ c ∧ c ≤ k

end Pyscal.Spec
