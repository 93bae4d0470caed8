import Verif.Model.System
import Mathlib.Data.Nat.Find

/-!
The atom store: `set_atoms`, `get_atoms`, `add_atoms`, `get_atom`, `set_atom`
(system.cpp 117-239), `System.atoms` (core.py 128-152) and `System.repeat` (core.py 1909-1972).
-/

namespace Pyscal

/-- Number of atoms with `ghost == 0` (system.cpp 125-135). -/
def countReal (l : List Atom) : ℕ := (l.filter fun a => !a.ghost).length
/-- Number of atoms with `ghost != 0` (system.cpp 156-222). -/
def countGhost (l : List Atom) : ℕ := (l.filter fun a => a.ghost).length

namespace System

/-- `set_atoms` (system.cpp 117-142). -/
def setAtoms (s : System) (l : List Atom) : System :=
  { s with atoms := l, nop := l.length, realNop := countReal l, ghostNop := countGhost l }

/-- `get_atoms` (system.cpp 146-154): the first `real_nop` entries; reading past the end of the
vector is an out-of-bounds access. -/
def getAtoms (s : System) : Except Fault (List Atom) :=
  if s.realNop ≤ s.atoms.length then .ok (s.atoms.take s.realNop) else .error .oob

/-- `get_all_atoms` (system.cpp 225-233). -/
def getAllAtoms (s : System) : Except Fault (List Atom) :=
  if s.nop ≤ s.atoms.length then .ok (s.atoms.take s.nop) else .error .oob

/-- `natoms` is bound to `real_nop`, `ntotal` to `nop` (system_binding.cpp) (system_binding.cpp
35-36). -/
def natoms (s : System) : ℕ := s.realNop
/-- `ntotal` (system_binding.cpp 35-36). -/
def ntotal (s : System) : ℕ := s.nop

/-- `add_atoms` (system.cpp 156-222, core.py 154-166).  The branch `ghost_nop == 0` with
ghosts in the argument appends nothing but still increments the counters. -/
def addAtoms (s : System) (l : List Atom) : System :=
  let tg := countGhost l
  let tl := countReal l
  let atoms :=
    if s.ghostNop = 0 then
      if tg = 0 then s.atoms ++ l else s.atoms
    else
      let old := s.atoms.take s.nop
      ((old.filter fun a => !a.ghost) ++ (l.filter fun a => !a.ghost))
        ++ ((old.filter fun a => a.ghost) ++ (l.filter fun a => a.ghost))
  { s with atoms := atoms, ghostNop := s.ghostNop + tg, realNop := s.realNop + tl,
           nop := s.nop + l.length }

/-- `get_atom` (core.py 221-243, system.cpp 235). -/
def getAtom (s : System) (i : ℕ) : Except Fault Atom :=
  match s.atoms[i]? with
  | some a => .ok a
  | none => .error .oob

/-- `set_atom` (core.py 246-268, system.cpp 236-239): writes at `atom.loc`. -/
def setAtom (s : System) (a : Atom) : Except Fault System :=
  if a.loc < s.atoms.length then .ok { s with atoms := s.atoms.set a.loc a } else .error .oob

end System

/-- `range(-r, r+1)` (core.py 1936-1949). -/
def repRange (r : ℕ) : List ℤ := (List.range (2 * r + 1)).map fun (t : ℕ) => (t : ℤ) - r

/-- The cells visited by the triple loop, without the origin (core.py 1947-1951). -/
def repCells (rx ry rz : ℕ) : List (ℤ × ℤ × ℤ) :=
  ((repRange rx).flatMap fun i => (repRange ry).flatMap fun j => (repRange rz).map fun k => (i, j, k)).filter
    fun c => !(c.1 = 0 && c.2.1 = 0 && c.2.2 = 0)

/-- The new atom made for `atom` in cell `(i, j, k)` (core.py 1953-1962); `id` is set by the
caller.  `Atom()` leaves `loc = 0`. -/
noncomputable def repAtom (b : Mat3) (ghost : Bool) (c : ℤ × ℤ × ℤ) (atom : Atom) : Atom :=
  { pos := atom.pos + V3.smul c.1 b.r0 + V3.smul c.2.1 b.r1 + V3.smul c.2.2 b.r2,
    type := atom.type, ghost := ghost }

/-- `a.id = i` (core.py 1958). -/
def Atom.withId (a : Atom) (i : ℤ) : Atom := { a with id := i }

/-- The `newatoms` list of `repeat`; ids count up from `len(atoms) + 1` (core.py 1934-1962). -/
noncomputable def repNew (b : Mat3) (ghost : Bool) (rx ry rz : ℕ) (atoms : List Atom) : List Atom :=
  ((repCells rx ry rz).flatMap fun c => atoms.map (repAtom b ghost c)).mapIdx
    fun (k : ℕ) a => a.withId ((atoms.length : ℤ) + 1 + k)

/-- Scaling of the box by `2 r + 1` along each vector (core.py 1964-1967). -/
noncomputable def scaleBox (b : Mat3) (rx ry rz : ℕ) : Mat3 :=
  ⟨V3.smul ((2 * rx + 1 : ℕ) : ℝ) b.r0, V3.smul ((2 * ry + 1 : ℕ) : ℝ) b.r1,
    V3.smul ((2 * rz + 1 : ℕ) : ℝ) b.r2⟩

namespace System

/-- `System.repeat` (core.py 1909-1972) with an explicit atom list.  Repetition counts are
natural numbers (negative counts give empty ranges and are not modelled). -/
noncomputable def repeatAtoms (s : System) (rx ry rz : ℕ) (atoms : List Atom) (ghost scale : Bool) :
    Except Fault (System × List Atom) := do
  let b := s.getBox
  let s1 := { s with actualBox := some b }
  let new := repNew b ghost rx ry rz atoms
  let s2 ← if scale then s1.setBox (scaleBox b rx ry rz) else .ok s1
  let s3 := if ghost then { s2 with ghostsCreated := true } else s2
  return (s3, atoms ++ new)

/-- `System.repeat(reps, ghost=..., scale_box=...)` on the atoms of the system (core.py 1909-1973). -/
noncomputable def «repeat» (s : System) (rx ry rz : ℕ) (ghost scale : Bool) :
    Except Fault (System × List Atom) := do
  let atoms ← s.getAtoms
  s.repeatAtoms rx ry rz atoms ghost scale

end System

/-- `int(c**(1/3))` (core.py 140): the integer cube root.  Doubles can round an exact cube
root down; among the cell counts that occur (`ceil((200-n)/n)`, n = 1..199) the only exact cube
above 1 is 8, for which the final `nx` is 1 either way. -/
def cbrtFloor (c : ℕ) : ℕ := Nat.findGreatest (fun k => k ^ 3 ≤ c) c

/-- `nx` of the atoms setter for `n` atoms (core.py 135-141). -/
def padReps (n : ℕ) : ℕ :=
  let needed := 200 - n
  let cells := (needed + n - 1) / n
  (cbrtFloor cells + 1) / 2

/-- `np.sum(box)` (core.py 143). -/
noncomputable def boxSum (b : Mat3) : ℝ :=
  b.r0.x + b.r0.y + b.r0.z + b.r1.x + b.r1.y + b.r1.z + b.r2.x + b.r2.y + b.r2.z

/-- `sys.atoms = atoms` (core.py 128-152). -/
noncomputable def System.assignAtoms (s : System) (l : List Atom) : Except Fault System :=
  if l.length < 200 then
    if l.length = 0 then .error .zeroDivision
    else if boxSum s.getBox = 0 then .error .valueError
    else do
      let nx := padReps l.length
      let (s', all) ← s.repeatAtoms nx nx nx l true true
      return s'.setAtoms all
  else .ok (s.setAtoms l)

end Pyscal
