import Verif.Model.System
import Verif.Spec.Geometry
import Mathlib.Data.Set.Finite.Basic
import Mathlib.Data.Fintype.Card
import Mathlib.Data.Set.Card

/-! Independent specification of neighbour lists. -/

namespace Pyscal.Spec

/-- The documented meaning of `filter`: 'type' (1) keeps like atoms, 'type_r' (2) unlike ones. -/
def FilterAllows (f : ℕ) (host nb : Atom) : Prop :=
  (f = 1 → nb.type = host.type) ∧ (f = 2 → nb.type ≠ host.type)

/-- `b` (number `j`) is a neighbour of atom number `k` for cutoff `r`. -/
def Near (s : System) (r : ℝ) (f k j : ℕ) (host nb : Atom) : Prop :=
  j ≠ k ∧ s.getDistance nb host < r ∧ FilterAllows f host nb

/-- `l` is the list of neighbours of `host`, atom number `k` of `s`, for cutoff `r`: every atom
satisfying `Near` exactly once and nothing else, with its distance, weight one and the vector
from host to neighbour. -/
def CutoffList (s : System) (r : ℝ) (f k : ℕ) (host : Atom) (l : List Nb) : Prop :=
  (l.map Nb.idx).Nodup ∧
  (∀ j nb, s.atoms[j]? = some nb → Near s r f k j host nb → ∃ x ∈ l, x.idx = j) ∧
  ∀ x ∈ l, ∃ nb, s.atoms[x.idx]? = some nb ∧ Near s r f k x.idx host nb ∧
    x.dist = s.getDistance nb host ∧ x.weight = 1 ∧ x.vec = s.getDistanceVector nb host

/-- The indices of the neighbours of atom `k` for cutoff `r`. -/
def nearSet (s : System) (r : ℝ) (f k : ℕ) : Set ℕ :=
  {j | ∃ host nb, s.atoms[k]? = some host ∧ s.atoms[j]? = some nb ∧ Near s r f k j host nb}

/-- Two systems with the same atoms' positions and types and the same box. -/
def SameGeometry (s s' : System) : Prop :=
  s'.atoms.map (fun a => (a.pos, a.type)) = s.atoms.map (fun a => (a.pos, a.type)) ∧
  ∀ a b, s'.getDistanceVector a b = s.getDistanceVector a b

end Pyscal.Spec

namespace Pyscal.Spec

/-- `x` is a correct entry for some other atom of `s` in the list of `host`, atom number `k`. -/
def GoodEntry (s : System) (k : ℕ) (host : Atom) (x : Nb) : Prop :=
  ∃ nb, s.atoms[x.idx]? = some nb ∧ x.idx ≠ k ∧ x.dist = s.getDistance nb host ∧ x.weight = 1 ∧
    x.vec = s.getDistanceVector nb host

/-- `l` lists the `n` nearest atoms of `host`, atom number `k`, in order of distance: `n` distinct
other atoms, and no atom left out is nearer than one listed. -/
def NearestList (s : System) (k : ℕ) (host : Atom) (n : ℕ) (l : List Nb) : Prop :=
  l.length = n ∧ (l.map Nb.idx).Nodup ∧ (∀ x ∈ l, GoodEntry s k host x) ∧
  l.Pairwise (fun x y => x.dist ≤ y.dist) ∧
  ∀ j nb, s.atoms[j]? = some nb → j ≠ k → (∀ x ∈ l, x.idx ≠ j) → ∀ x ∈ l, x.dist ≤ s.getDistance nb host

/-- Distances from atom `k` to the atoms (other than `k`) no farther than `R`: the number of them. -/
noncomputable def countWithin (s : System) (R : ℝ) (k : ℕ) : ℕ :=
  {j | j ≠ k ∧ ∃ host nb, s.atoms[k]? = some host ∧ s.atoms[j]? = some nb ∧ s.getDistance nb host ≤ R}.ncard

/-- `l` (with atom cutoff `cut`) is the outcome of the adaptive rule for `host`, atom number `k`, when
only atoms closer than `R` are looked at: the cutoff is `padding` times the mean distance of the
`nlimit` nearest atoms, every listed atom is nearer than it and passes the filter, every such atom
closer than `R` is listed, once. -/
def AdaptiveList (s : System) (nlimit : ℕ) (padding R : ℝ) (f k : ℕ) (host : Atom) (l : List Nb)
    (cut : Option ℝ) : Prop :=
  ∃ N dcut, NearestList s k host nlimit N ∧ dcut = padding * ((N.map Nb.dist).sum / nlimit) ∧
    (l.map Nb.idx).Nodup ∧
    (∀ x ∈ l, GoodEntry s k host x ∧ ∃ nb, s.atoms[x.idx]? = some nb ∧ Near s dcut f k x.idx host nb) ∧
    (∀ j nb, s.atoms[j]? = some nb → Near s dcut f k j host nb → s.getDistance nb host < R →
      ∃ x ∈ l, x.idx = j) ∧
    (l ≠ [] → cut = some dcut)

/-- The volume of the cell: triple product in triclinic mode, product of the edges otherwise. -/
noncomputable def searchVolume (s : System) : ℝ :=
  if s.triclinic then volume s.rot else s.box.r0.norm * s.box.r1.norm * s.box.r2.norm

/-- `R` is the radius in which the searches without a cutoff look for candidates: `threshold` times
the edge of a cube with the volume per atom. -/
def SearchRadius (s : System) (threshold R : ℝ) : Prop :=
  R ^ 3 = threshold ^ 3 * (searchVolume s / s.atoms.length)

/-- A coordinate for which the cell of an atom is computed correctly: within one box length of the
box and not slightly negative. -/
def CellBinned (L x : ℝ) : Prop := -L ≤ x ∧ x < 2 * L ∧ (0 ≤ x ∨ x ≤ -1e-6)

/-- The conditions under which cell lists for a search radius `R` find every pair once: the box is
orthogonal along the axes, every edge is at least three times the radius, and all atoms are near
the box. -/
def CellConditions (s : System) (R : ℝ) : Prop :=
  ∃ L1 L2 L3 : ℝ, s.box = diagBox L1 L2 L3 ∧ s.triclinic = false ∧ 1e-6 ≤ R ∧
    3 * R ≤ L1 ∧ 3 * R ≤ L2 ∧ 3 * R ≤ L3 ∧
    ∀ a ∈ s.atoms, CellBinned L1 a.pos.x ∧ CellBinned L2 a.pos.y ∧ CellBinned L3 a.pos.z

/-- The atoms within the search radius for `threshold` are found: no cell lists are used, or they are
used in suitable conditions. -/
def SearchExact (s : System) (cells : Bool) (threshold : ℝ) : Prop :=
  cells = true → ∀ R, SearchRadius s threshold R → CellConditions s R

end Pyscal.Spec
