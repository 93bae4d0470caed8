import Verif.Model.Text
import Verif.Model.System
import Verif.Spec.Geometry
import Mathlib.Order.Bounds.Basic

/-!
What a lammps-dump snapshot is, stated on the lines of the file: a count, three lines of bounds, the
names of the columns in any order, and rows whose `j`-th word belongs to the `j`-th column.
-/

namespace Pyscal.Spec

open Pyscal

/-- A line with two bounds and possibly a tilt factor. -/
def BoundsLine (C : Codec) (line : String) (b : ℝ × ℝ) (tilt : Option ℝ) : Prop :=
  ∃ w0 w1, C.float w0 = some b.1 ∧ C.float w1 = some b.2 ∧
    ((tilt = none ∧ words line = [w0, w1]) ∨ ∃ w2 t, tilt = some t ∧ C.float w2 = some t ∧ words line = [w0, w1, w2])

/-- The lines hold a snapshot with columns `cols`; row `k` gives the text `f c` for the column `c`,
where `f` is the `k`-th entry of `rows`.  Words after the
last column and lines after the last row are irrelevant. -/
structure DumpFile (C : Codec) (lines cols : List String) (rows : List (String → String)) (bx by' bz : ℝ × ℝ) (tilt : Option (ℝ × ℝ × ℝ)) : Prop where
  count : ∃ l, lines[3]? = some l ∧ C.int (strip l) = some (rows.length : ℤ)
  xline : ∃ l, lines[5]? = some l ∧ BoundsLine C l bx (tilt.map fun t => t.1)
  yline : ∃ l, lines[6]? = some l ∧ BoundsLine C l by' (tilt.map fun t => t.2.1)
  zline : ∃ l, lines[7]? = some l ∧ BoundsLine C l bz (tilt.map fun t => t.2.2)
  header : ∃ l, lines[8]? = some l ∧ words l = "ITEM:" :: "ATOMS" :: cols
  row : ∀ (k : ℕ) (f : String → String), rows[k]? = some f → ∃ l rest, lines[9 + k]? = some l ∧ words l = cols.map f ++ rest
  nodup : cols.Nodup

/-- The texts of a row are numbers where numbers are needed. -/
def Numeric (C : Codec) (cx cy cz : String) (f : String → String) : Prop :=
  (C.int (f "id")).isSome ∧ (C.int (f "type")).isSome ∧ (C.float (f cx)).isSome ∧ (C.float (f cy)).isSome ∧ (C.float (f cz)).isSome

/-- The atom carries the identity and the requested custom columns of the row. -/
structure RowFields (C : Codec) (ck : List String) (f : String → String) (a : Atom) : Prop where
  id : C.int (f "id") = some a.id
  type : C.int (f "type") = some a.type
  real : a.ghost = false
  custom : ∀ k, dictGet a.custom k = if k ∈ ck then some (f k) else none

/-- The lines are complete frames of `n` lines each, followed by an incomplete one. -/
structure Tiling {α : Type} (n : ℕ) (lines : List α) (frames : List (List α)) (stray : List α) : Prop where
  eq : lines = frames.flatten ++ stray
  size : ∀ b ∈ frames, b.length = n
  short : stray.length < n

/-- The cell of a triclinic box with edges `lx, ly, lz` and tilt factors, in the convention of LAMMPS. -/
def lammpsCell (l : V3) (xy xz yz : ℝ) : Mat3 := ⟨⟨l.x, 0, 0⟩, ⟨xy, l.y, 0⟩, ⟨xz, yz, l.z⟩⟩

/-- The eight corners of the cell `b` with origin `o`. -/
def corners (o : V3) (b : Mat3) : Set V3 :=
  { p | ∃ f : V3, (f.x = 0 ∨ f.x = 1) ∧ (f.y = 0 ∨ f.y = 1) ∧ (f.z = 0 ∨ f.z = 1) ∧ p = o + ofFrac b f }

/-- The bounds are those of the smallest box along the axes that contains the cell; this is what
LAMMPS writes. -/
structure BoundsOf (o : V3) (b : Mat3) (bx by' bz : ℝ × ℝ) : Prop where
  xlo : IsLeast (V3.x '' corners o b) bx.1
  xhi : IsGreatest (V3.x '' corners o b) bx.2
  ylo : IsLeast (V3.y '' corners o b) by'.1
  yhi : IsGreatest (V3.y '' corners o b) by'.2
  zlo : IsLeast (V3.z '' corners o b) bz.1
  zhi : IsGreatest (V3.z '' corners o b) bz.2

/-- The row gives the position of the atom with fractional coordinates `fr`: scaled columns hold the
fractions, plain columns the Cartesian position. -/
def RowPosition (C : Codec) (o : V3) (b : Mat3) (scaled : Bool) (fr : V3) (f : String → String) : Prop :=
  if scaled then C.float (f "xs") = some fr.x ∧ C.float (f "ys") = some fr.y ∧ C.float (f "zs") = some fr.z
  else C.float (f "x") = some (o + ofFrac b fr).x ∧ C.float (f "y") = some (o + ofFrac b fr).y ∧ C.float (f "z") = some (o + ofFrac b fr).z

end Pyscal.Spec
