import Verif.Model.Num

/-! Independent specification of Steinhardt parameters through Legendre polynomials of the
angles between neighbour vectors. -/

namespace Pyscal.Spec

/-- Legendre polynomials by Bonnet's recursion. -/
noncomputable def legendre : ℕ → ℝ → ℝ
  | 0, _ => 1
  | 1, x => x
  | n + 2, x => ((2 * n + 3) * x * legendre (n + 1) x - (n + 1) * legendre n x) / (n + 2)

/-- Cosine of the angle between two vectors. -/
noncomputable def cosAngle (u v : V3) : ℝ := V3.dot u v / (u.norm * v.norm)

/-- `Σ_i Σ_j w_i w'_j P_l(cos angle(v_i, v'_j))` for two lists of weighted vectors. -/
noncomputable def crossSum (l : ℕ) (L L' : List (ℝ × V3)) : ℝ :=
  (L.map fun p => (L'.map fun p' => p.1 * p'.1 * legendre l (cosAngle p.2 p'.2)).sum).sum

/-- `Σ_i Σ_j w_i w_j P_l(cos angle(v_i, v_j))` for a list of weighted vectors. -/
noncomputable def pairSum (l : ℕ) (L : List (ℝ × V3)) : ℝ := crossSum l L L

/-- An orthogonal matrix (rotation or reflection). -/
def Orthogonal (M : Mat3) : Prop := ∀ u v, V3.dot (M.mulVec u) (M.mulVec v) = V3.dot u v

end Pyscal.Spec
