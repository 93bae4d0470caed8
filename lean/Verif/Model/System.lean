import Verif.Model.Num

/-!
The `Atom` and `System` records and the geometric core of `System`
(atom.h, system.h, system.cpp 16-303, core.py 79-126).
-/

namespace Pyscal

/-- One slot of the parallel neighbour arrays of an atom (atom.h 103-112):
`neighbors`, `neighbordist`, `neighborweight`, `n_diffx/y/z`.
Simplification: `n_r`, `n_phi`, `n_theta` are not stored; the code always assigns them
together with the vector, from the vector, so they are recomputed where they are used. -/
structure Nb where
  idx : ℕ
  dist : ℝ
  weight : ℝ
  vec : V3

/-- One entry of `temp_neighbors`, `struct datom` (atom.h 25-28). -/
structure DAtom where
  dist : ℝ
  idx : ℕ

/-- `class Atom` (atom.h 38-247, constructor atom.cpp 14-63).  Only the fields used by the
modelled functions are kept.  `condition`, `cutoff` are not initialised by the constructor:
`none` is an indeterminate value.  The arrays `realq[l-2]`, `imgq[l-2]` are
`qlm l : Option (ℕ → ℝ × ℝ)`, where `none` means that the entries are NaN (they are NaN for
all `m` or for none, because the divisor and the angles are common to all `m`).
The neighbour arrays have 300 slots in C++; here the list is unbounded and the overrun is
made explicit by `overrun` below. -/
structure Atom where
  pos : V3
  id : ℤ := 0
  loc : ℕ := 0
  type : ℤ := 0
  ghost : Bool := false
  condition : Option ℤ := none
  custom : List (String × String) := []
  nbrs : List Nb := []
  temp : List DAtom := []
  cutoff : Option ℝ := none
  q : ℕ → Option ℝ := fun _ => some (-1)
  aq : ℕ → Option ℝ := fun _ => some (-1)
  qlm : ℕ → Option (ℕ → ℝ × ℝ) := fun _ => some (fun _ => (-1, -1))
  aqlm : ℕ → Option (ℕ → ℝ × ℝ) := fun _ => some (fun _ => (-1, -1))
  sij : List (Option ℝ) := []
  frenkel : ℕ := 0
  avq : Option ℝ := none
  issolid : Bool := false
  issurface : Bool := false
  lcluster : Bool := false
  belongsto : ℤ := -1
  struct : ℤ := 0
  cna : List (ℕ × ℕ × ℕ × ℕ) := []
  lneigh : ℕ := 0
  nn1 : List ℕ := []
  centro : ℝ := 0
  entropy : Option ℝ := some 0
  avgEntropy : Option ℝ := some 0
  energy : ℝ := 0
  avgEnergy : ℝ := 0
  disorder : Option ℝ := none
  avgDisorder : Option ℝ := none
  volume : ℝ := 0
  avgVolume : ℝ := 0
  angular : Option ℝ := some 0
  chi : List ℕ := []
  sro : List (Option ℝ) := []
  vorovector : List ℕ := []
  faceVertices : List ℤ := []
  vertexNumbers : List ℕ := []
  vertexVectors : List ℝ := []
  vertexPositions : List V3 := []

instance : Inhabited Atom := ⟨{ pos := 0 }⟩

/-- `class System` (system.h 27-184, constructor system.cpp 16-41) together with the Python
attributes of `core.System.__init__` (core.py 79-86). -/
structure System where
  atoms : List Atom := []
  nop : ℕ := 0
  realNop : ℕ := 0
  ghostNop : ℕ := 0
  box : Mat3 := 0
  rot : Mat3 := 0
  rotinv : Mat3 := 0
  triclinic : Bool := false
  actualBox : Option Mat3 := none
  neighborsFound : Bool := false
  ghostsCreated : Bool := false
  filter : ℕ := 0
  usecells : Bool := false
  neighbordistance : ℝ := 0
  voronoiused : Bool := false
  alpha : ℤ := 1
  solidq : ℕ := 6
  criteria : ℕ := 0
  comparecriteria : ℕ := 0
  minfrenkel : ℝ := 0
  threshold : ℝ := 0
  avgthreshold : ℝ := 0
  maxclusterid : ℤ := -1
  latticeConstant : ℝ := 0

/-- `System()` (core.py 79-86, system.cpp 16-41). -/
def System.init : System := {}

namespace System

/-- `boxx` (system.cpp 83-93): the length of the first box vector. -/
noncomputable def boxx (s : System) : ℝ := V3.norm s.box.r0
/-- `boxy` (system.cpp 83-94). -/
noncomputable def boxy (s : System) : ℝ := V3.norm s.box.r1
/-- `boxz` (system.cpp 83-95). -/
noncomputable def boxz (s : System) : ℝ := V3.norm s.box.r2

end System

/-- One coordinate of the nearest-image step, both `if`s in sequence (system.cpp 294-295). -/
noncomputable def wrap (b d : ℝ) : ℝ :=
  let d1 := if d > b / 2 then d - b else d
  if d1 < -b / 2 then d1 + b else d1

/-- The displacement computed from a raw difference of positions
(system.cpp 252-301, identical in 313-363 and 376-424).
When `triclinic` is set and a box vector is zero the code divides 0 by 0; theorems about the
triclinic branch assume the box vectors are non-zero. -/
noncomputable def System.image (s : System) (diff : V3) : V3 :=
  if s.triclinic then
    let a := s.rotinv.mulVec diff
    let dx := wrap s.boxx (a.x * s.boxx)
    let dy := wrap s.boxy (a.y * s.boxy)
    let dz := wrap s.boxz (a.z * s.boxz)
    s.rot.mulVec ⟨dx / s.boxx, dy / s.boxy, dz / s.boxz⟩
  else
    ⟨wrap s.boxx diff.x, wrap s.boxy diff.y, wrap s.boxz diff.z⟩

/-- The `diffx, diffy, diffz` outputs of `get_abs_distance(ti, tj, ...)` for atoms at `pi`, `pj`
(system.cpp 245-303): `pos[tj] - pos[ti]`. -/
noncomputable def System.diffIdx (s : System) (pi pj : V3) : V3 := s.image (pj - pi)

/-- The value of `get_abs_distance(ti, tj, ...)` (system.cpp 245-303). -/
noncomputable def System.distIdx (s : System) (pi pj : V3) : ℝ := V3.norm (s.diffIdx pi pj)

/-- `System.get_distance(atom1, atom2)` (core.py 362-389, system.cpp 306-366):
`atom1 - atom2`. -/
noncomputable def System.getDistance (s : System) (a b : Atom) : ℝ :=
  V3.norm (s.image (a.pos - b.pos))

/-- `System.get_distance(atom1, atom2, vector=True)[1]` (core.py 362-389, system.cpp 369-432). -/
noncomputable def System.getDistanceVector (s : System) (a b : Atom) : V3 :=
  s.image (a.pos - b.pos)

/-- `summ += dot / (|.| |.|)` for one pair of box vectors (core.py 115-118);
`none` is NaN (a zero vector). -/
noncomputable def cosine (u v : V3) : Option ℝ := fdiv (V3.dot u v) (V3.norm u * V3.norm v)

/-- The sum tested by the box setter (core.py 114-118). -/
noncomputable def cosSum (b : Mat3) : Option ℝ := do
  let c0 ← cosine b.r2 b.r0
  let c1 ← cosine b.r0 b.r1
  let c2 ← cosine b.r1 b.r2
  return c0 + c1 + c2

/-- `abs(summ) > 1e-6` (core.py 120); false for NaN. -/
def Skewed (b : Mat3) : Prop := ∃ c, cosSum b = some c ∧ |c| > 1e-6

open Classical in
/-- `System.box = userbox` (core.py 106-126, system.cpp 49-59, 75-96).  `numpy.linalg.inv`
raises for a singular matrix (`valueError` stands for `LinAlgError`).  `actual_box` is not
touched and `triclinic` is never reset. -/
noncomputable def System.setBox (s : System) (b : Mat3) : Except Fault System :=
  if Skewed b then
    let rot := b.transpose
    if rot.det = 0 then .error .valueError
    else .ok { s with rot := rot, rotinv := rot.inv, triclinic := true, box := b }
  else .ok { s with box := b }

/-- `System.box` (core.py 97-104). -/
def System.getBox (s : System) : Mat3 := s.actualBox.getD s.box

end Pyscal
