import Verif.Spec.Periodic
import Mathlib.Data.Rat.Defs

/-! Independent specifications for crystals and boxes. -/

namespace Pyscal.Spec

/-- Edges of the conventional cells: cubic except hcp, which is described in its orthorhombic cell `a, √3 a, c`. -/
noncomputable def cellEdges (name : String) (a ca : ℝ) : V3 := if name = "hcp" then ⟨a, Real.sqrt 3 * a, ca * a⟩ else ⟨a, a, a⟩

/-- Sites of the conventional cells in fractions of the edges, with their types. -/
def basis : String → List ((ℚ × ℚ × ℚ) × ℤ)
  | "sc" => [((0, 0, 0), 1)]
  | "bcc" => [((0, 0, 0), 1), ((1/2, 1/2, 1/2), 1)]
  | "b2" => [((0, 0, 0), 1), ((1/2, 1/2, 1/2), 2)]
  | "fcc" => [((0, 0, 0), 1), ((1/2, 0, 1/2), 1), ((0, 1/2, 1/2), 1), ((1/2, 1/2, 0), 1)]
  | "l12" => [((0, 0, 0), 1), ((1/2, 0, 1/2), 2), ((0, 1/2, 1/2), 2), ((1/2, 1/2, 0), 2)]
  | "hcp" => [((0, 0, 0), 1), ((1/2, 1/2, 0), 1), ((1/2, 1/6, 1/2), 1), ((0, 2/3, 1/2), 1)]
  | "diamond" => [((0, 0, 0), 1), ((1/4, 1/4, 1/4), 1), ((1/2, 1/2, 0), 1), ((3/4, 3/4, 1/4), 1), ((1/2, 0, 1/2), 1), ((0, 1/2, 1/2), 1),
      ((3/4, 1/4, 3/4), 1), ((1/4, 3/4, 3/4), 1)]
  | "a15" => [((0, 0, 0), 1), ((1/2, 1/2, 1/2), 1), ((1/4, 1/2, 0), 1), ((3/4, 1/2, 0), 1), ((0, 1/4, 1/2), 1), ((0, 3/4, 1/2), 1),
      ((1/2, 0, 1/4), 1), ((1/2, 0, 3/4), 1)]
  | _ => []

/-- The eight structures. -/
def structures : List String := ["sc", "bcc", "fcc", "hcp", "diamond", "a15", "l12", "b2"]

/-- The infinite ideal crystal. -/
def idealCrystal (e : V3) (B : List ((ℚ × ℚ × ℚ) × ℤ)) : Set (V3 × ℤ) :=
  {pt | ∃ b ∈ B, ∃ n1 n2 n3 : ℤ,
    pt.1 = ⟨((b.1.1 : ℝ) + n1) * e.x, ((b.1.2.1 : ℝ) + n2) * e.y, ((b.1.2.2 : ℝ) + n3) * e.z⟩ ∧ pt.2 = b.2}

/-- The point lies in the box with edges `lx, ly, lz`, upper faces excluded. -/
def InBox (lx ly lz : ℝ) (p : V3) : Prop := (0 ≤ p.x ∧ p.x < lx) ∧ (0 ≤ p.y ∧ p.y < ly) ∧ (0 ≤ p.z ∧ p.z < lz)

/-- A coordinate is moved by at most one box length, into the box if it was less than one length outside. -/
def MovedCoord (L x x' : ℝ) : Prop := (x' = x ∨ x' = x + L ∨ x' = x - L) ∧ (-L ≤ x → x < 2 * L → 0 ≤ x' ∧ x' < L)

/-- Only the position of the atom is changed, each coordinate by at most one box length. -/
def Moved (lx ly lz : ℝ) (a a' : Atom) : Prop :=
  a' = { a with pos := a'.pos } ∧ MovedCoord lx a.pos.x a'.pos.x ∧ MovedCoord ly a.pos.y a'.pos.y ∧ MovedCoord lz a.pos.z a'.pos.z

/-- Less than one box length outside the box. -/
def WithinOneLength (lx ly lz : ℝ) (p : V3) : Prop :=
  (-lx ≤ p.x ∧ p.x < 2 * lx) ∧ (-ly ≤ p.y ∧ p.y < 2 * ly) ∧ (-lz ≤ p.z ∧ p.z < 2 * lz)

/-- Some periodic images of the two atoms are at most `d` apart. -/
def PeriodicNear (b : Mat3) (d : ℝ) (a a' : Atom) : Prop := ∃ n1 n2 n3 : ℤ, V3.norm (a.pos - a'.pos + latticeVec b n1 n2 n3) ≤ d

open Classical in
/-- The list without the atoms that have a later atom related to them. -/
noncomputable def keepLast (near : Atom → Atom → Prop) : List Atom → List Atom
  | [] => []
  | a :: l => if ∃ b ∈ l, near a b then keepLast near l else a :: keepLast near l

open Classical in
/-- What `remap_atoms` leaves of the moved atoms. -/
noncomputable def remapKept (lx ly lz dtol : ℝ) (images remove : Bool) (moved : List Atom) : List Atom :=
  let inside := if remove then moved.filter fun a => decide (InBox lx ly lz a.pos) else moved
  if images then keepLast (PeriodicNear (diagBox lx ly lz) dtol) inside else inside

end Pyscal.Spec
