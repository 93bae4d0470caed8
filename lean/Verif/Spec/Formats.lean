import Verif.Model.Formats

/-!
What the conversions to and from other programs mean.
-/

namespace Pyscal.Spec

open Pyscal

/-- The atoms in groups: all of them, one group for each type that occurs, types increasing, the order within a
group as before. -/
structure Grouped (atoms : List Atom) (groups : List (List Atom)) : Prop where
  perm : groups.flatten.Perm atoms
  sub : ∀ g ∈ groups, g.Sublist atoms
  nonempty : ∀ g ∈ groups, g ≠ []
  same : ∀ g ∈ groups, ∀ a ∈ g, ∀ b ∈ g, a.type = b.type
  increasing : groups.Pairwise fun g h => ∀ a ∈ g, ∀ b ∈ h, a.type < b.type

/-- The line holds the three numbers of `v` up to `tol`. -/
def HoldsVec (C : Codec) (tol : ℝ) (l : String) (v : V3) : Prop :=
  ∃ x y z, (words l).map C.float = [some x, some y, some z] ∧ |x - v.x| ≤ tol ∧ |y - v.y| ≤ tol ∧ |z - v.z| ≤ tol

/-- A POSCAR file without species line: comment, scale 1, cell vectors, counts, `Cartesian`, positions. -/
structure HoldsPoscar (C : Codec) (tol : ℝ) (lines : List String) (cell : Mat3) (counts : List ℕ) (rows : List V3) : Prop where
  length : lines.length = 7 + rows.length
  scale : ∃ l, lines[1]? = some l ∧ words l = ["1.00000000000000"]
  r0 : ∃ l, lines[2]? = some l ∧ HoldsVec C tol l cell.r0
  r1 : ∃ l, lines[3]? = some l ∧ HoldsVec C tol l cell.r1
  r2 : ∃ l, lines[4]? = some l ∧ HoldsVec C tol l cell.r2
  counts : ∃ l, lines[5]? = some l ∧ (words l).map C.int = counts.map fun (c : ℕ) => some (c : ℤ)
  mode : ∃ l, lines[6]? = some l ∧ words l = ["Cartesian"]
  rows : ∀ (k : ℕ) (v : V3), rows[k]? = some v → ∃ l, lines[7 + k]? = some l ∧ HoldsVec C tol l v

/-- The argument and format name make pyscal read the object `o`: an ASE object, an mdtraj object, or a
file from which ASE gets `o`. -/
inductive Delivers (W : World) (o : AseAtoms) : Source → String → Prop where
  | ase : Delivers W o (.ase o) "ase"
  | mdtraj : Delivers W o (.mdtraj o) "mdtraj"
  | aseFile (name : String) (h : W.aseRead none name = .ok o) : Delivers W o (.path name) "ase"
  | poscar (name : String) (h : W.aseRead (some "vasp") name = .ok o) : Delivers W o (.path name) "poscar"

/-- The outcome of looking up one name on an atom: stored values first, then attributes, then the
bond-orientational parameters `q<l>` and `aq<l>` with `l` from 2 to 12. -/
inductive Lookup (C : Codec) (attr : String → Atom → Option Val) (a : Atom) (key : String) : Except Fault Val → Prop where
  | stored (v : String) (h : dictGet a.custom key = some v) : Lookup C attr a key (.ok (.text v))
  | attr (v : Val) (h : dictGet a.custom key = none) (h' : attr key a = some v) : Lookup C attr a key (.ok v)
  | q (w : String) (l : ℤ) (h : dictGet a.custom key = none) (h' : attr key a = none) (hk : key = "q" ++ w) (hl : C.int w = some l) (hr : 2 ≤ l ∧ l ≤ 12) :
      Lookup C attr a key (.ok (.num (a.q l.toNat)))
  | aq (w : String) (l : ℤ) (h : dictGet a.custom key = none) (h' : attr key a = none) (hk : key = "aq" ++ w) (hl : C.int w = some l) (hr : 2 ≤ l ∧ l ≤ 12) :
      Lookup C attr a key (.ok (.num (a.aq l.toNat)))
  | badIndex (w : String) (l : ℤ) (h : dictGet a.custom key = none) (h' : attr key a = none) (hk : key = "q" ++ w ∨ key = "aq" ++ w) (hl : C.int w = some l)
      (hr : ¬ (2 ≤ l ∧ l ≤ 12)) : Lookup C attr a key (.error .invalidArgument)
  | notNumber (w : String) (h : dictGet a.custom key = none) (h' : attr key a = none) (hk : key = "q" ++ w ∨ key = "aq" ++ w) (hl : C.int w = none) :
      Lookup C attr a key (.error .valueError)
  | empty (h : dictGet a.custom key = none) (h' : attr key a = none) (hk : key = "") : Lookup C attr a key (.error .indexError)
  | other (h : dictGet a.custom key = none) (h' : attr key a = none) (h0 : key ≠ "") (hk : ∀ w, key ≠ "q" ++ w ∧ key ≠ "aq" ++ w) :
      Lookup C attr a key (.error .attributeError)

end Pyscal.Spec
