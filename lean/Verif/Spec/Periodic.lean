import Verif.Model.System
import Verif.Spec.Geometry

/-!
Specification of infinite periodic structures and of the abstract atom list.
-/

namespace Pyscal.Spec

/-- The infinite crystal generated by a list of atoms and a box: the set of (position, type)
pairs obtained by translating each atom by all lattice vectors. -/
def crystal (b : Mat3) (l : List Atom) : Set (V3 × ℤ) :=
  {pt | ∃ a ∈ l, ∃ n1 n2 n3 : ℤ, pt.1 = a.pos + latticeVec b n1 n2 n3 ∧ pt.2 = a.type}

end Pyscal.Spec
