import Verif.Spec.Harmonics
import Verif.Spec.Geometry
import Verif.Model.Neighbors

/-! Specification vocabulary for symmetries: rigid motions, uniform scaling and renumbering. -/

namespace Pyscal.Spec

/-- A rotation: an orthogonal matrix of determinant one. -/
def Rotation (M : Mat3) : Prop := Orthogonal M ∧ M.det = 1

/-- The unit matrix. -/
def unitMat : Mat3 := ⟨⟨1, 0, 0⟩, ⟨0, 1, 0⟩, ⟨0, 0, 1⟩⟩

/-- Map a vector by `M` and stretch it by `c`. -/
def moveVec (M : Mat3) (c : ℝ) (v : V3) : V3 := V3.smul c (M.mulVec v)

/-- Move a box: every box vector is mapped. -/
def moveBox (M : Mat3) (c : ℝ) (b : Mat3) : Mat3 := ⟨moveVec M c b.r0, moveVec M c b.r1, moveVec M c b.r2⟩

/-- Move an atom: its position is mapped, then shifted by `t`. -/
def moveAtom (M : Mat3) (c : ℝ) (t : V3) (a : Atom) : Atom := { a with pos := moveVec M c a.pos + t }

/-- What becomes of a neighbour entry: same neighbour and weight, stretched distance, mapped vector. -/
def moveNb (M : Mat3) (c : ℝ) (x : Nb) : Nb := ⟨x.idx, c * x.dist, x.weight, moveVec M c x.vec⟩

/-- The arguments of `find_neighbors` in the new unit of length: only a numeric cutoff is a length. -/
def moveMethod (c : ℝ) : Method → Method
  | .cutoff r => .cutoff (c * r)
  | .adaptive t n p => .adaptive t n p
  | .sann t => .sann t
  | .number t n a => .number t n a

/-- A sort that looks at the distances only through comparisons: changing the unit of length does
not change the resulting order. -/
def SortScales (σ : StdSort) (c : ℝ) : Prop :=
  ∀ l, σ.sort (l.map fun x => ⟨c * x.dist, x.idx⟩) = (σ.sort l).map fun x => ⟨c * x.dist, x.idx⟩

/-- The sizes for which `find_neighbors` compares all pairs instead of using cell lists. -/
def AllPairs (natoms ntotal : ℕ) : Method → Prop
  | .cutoff r => if r = 0 then ntotal ≤ 4000 else natoms ≤ 2300
  | .adaptive _ _ _ => ntotal ≤ 4000
  | .sann _ => natoms ≤ 4000
  | .number _ _ _ => natoms ≤ 4000

/-- The atoms of two analyses agree up to a motion: atom by atom the neighbours, weights, distances
and vectors correspond, and the requested Steinhardt values are equal. -/
def SameAnalysis (M : Mat3) (c : ℝ) (ls : List ℤ) (av : Bool) (A B : List Atom) : Prop :=
  List.Forall₂ (fun a b : Atom => b.type = a.type ∧ b.nbrs = a.nbrs.map (moveNb M c) ∧
    ∀ l : ℕ, (l : ℤ) ∈ ls → b.q l = a.q l ∧ (av = true → b.aq l = a.aq l)) A B

/-- `l'` is `l` translated by `t`, after which every atom may have been put back into the cell, or into
any other cell, by a lattice vector of its own. -/
def Rewrapped (b : Mat3) (t : V3) (l l' : List Atom) : Prop :=
  List.Forall₂ (fun a a' : Atom => a'.type = a.type ∧ a'.ghost = a.ghost ∧ IsImage b (a.pos + t) a'.pos) l l'

/-- Any two atoms are at most one and a half cells apart in every direction. -/
def Compact (b : Mat3) (l : List Atom) : Prop := ∀ a ∈ l, ∀ a' ∈ l, FracBound b (a'.pos - a.pos) (3 / 2)

/-- No two atoms are half a cell apart in any direction, up to whole cells. -/
def NoHalfCell (b : Mat3) (l : List Atom) : Prop :=
  ∀ a ∈ l, ∀ a' ∈ l, ∀ f : V3, a'.pos - a.pos = ofFrac b f → ∀ n : ℤ, f.x ≠ n + 1 / 2 ∧ f.y ≠ n + 1 / 2 ∧ f.z ≠ n + 1 / 2

/-- Renumbering `n` atoms by `π` renumbers their periodic copies, which are stored in blocks of `n`, in
the same way within every block. -/
def relabelIndex (n : ℕ) (π : ℕ → ℕ) (k : ℕ) : ℕ := n * (k / n) + π (k % n)

/-- `l'` is `l` in another order: atom `i` of `l` is atom `π i` of `l'`. -/
def Reordered (π : Equiv.Perm ℕ) (l l' : List Atom) : Prop :=
  l'.length = l.length ∧ (∀ i, π i < l.length ↔ i < l.length) ∧ ∀ i < l.length, l'[π i]? = l[i]?

end Pyscal.Spec
