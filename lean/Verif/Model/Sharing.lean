import Verif.Model.OrderParams
import Verif.Model.Text

/-! Several systems and the `custom` dictionaries of their atoms.

`custom` is a `py::dict` (atom.h 89), a reference to a Python object: copying an `Atom`, as `sys.atoms` and its
setter do for every atom (system.cpp 117-122, 146-154), copies the reference, not the dictionary.  A `Objects` has the
dictionaries as numbered objects, and for every stored atom of every system the number of its dictionary.

Simplifications: the field `custom` of the record `Atom`, which holds the dictionary where sharing does not matter, is not used here;
dictionaries that nothing refers to any more stay in the world. -/

namespace Pyscal

/-- A value in a `custom` dictionary: a text, as read from files, or the list of cosines (core.py 1232). -/
inductive CVal where
  | text (s : String)
  | nums (l : List (Option ℝ))

/-- A `custom` dictionary (atom.h 89). -/
abbrev PyDict := List (String × CVal)

/-- A `System` with the dictionary of each of its stored atoms (atom.h 89). -/
structure Shared where
  sys : System
  refs : List ℕ

/-- The Python objects: the dictionaries (those from `next` on are not yet in use) and the systems (atom.h 89, core.py 68-87). -/
structure Objects where
  heap : ℕ → PyDict
  next : ℕ
  systems : ℕ → Shared

/-- `atom.custom[key] = v` (core.py 1232). -/
def setItem (heap : ℕ → PyDict) (r : ℕ) (key : String) (v : CVal) : ℕ → PyDict :=
  Function.update heap r (dictSet (heap r) key v)

/-- `costhetas` (core.py 1217-1225). -/
noncomputable def costhetas (a : Atom) : List (Option ℝ) := (pairs a.nbrs.length).map fun p => pyCos (a.nbVec p.1) (a.nbVec p.2)

namespace Objects

/-- Before anything is done: every system is `System()`. -/
noncomputable def init : Objects := ⟨fun _ => [], 0, fun _ => ⟨System.init, []⟩⟩

/-- `sys.atoms` (core.py 129-133): copies of the real atoms, with the same dictionaries. -/
def getAtoms (w : Objects) (k : ℕ) : Except Fault (List (Atom × ℕ)) :=
  match (w.systems k).sys.getAtoms with
  | .error e => .error e
  | .ok l => .ok (l.zip (w.systems k).refs)

/-- `sys.atoms = l` (core.py 136-152): the atoms keep their dictionaries, the periodic copies added to small systems are new
atoms with new dictionaries (core.py 1953). -/
noncomputable def assign (w : Objects) (k : ℕ) (l : List (Atom × ℕ)) : Except Fault Objects :=
  match (w.systems k).sys.assignAtoms (l.map Prod.fst) with
  | .error e => .error e
  | .ok s => .ok {
      heap := fun r => if w.next ≤ r then [] else w.heap r
      next := w.next + (s.atoms.length - l.length)
      systems := Function.update w.systems k ⟨s, l.map Prod.snd ++ List.range' w.next (s.atoms.length - l.length)⟩ }

/-- `calculate_chiparams(angles)` (core.py 1203-1233).  The cosines are stored in the dictionaries of the copies, which are those
of the system's atoms, before the atoms are assigned. -/
noncomputable def calculateChi (w : Objects) (k : ℕ) (angles : Bool) : Objects × Except Fault Unit :=
  match w.getAtoms k with
  | .error e => (w, .error e)
  | .ok l =>
    let w := { w with heap := if angles then l.foldl (fun h (p : Atom × ℕ) => setItem h p.2 "cosines" (.nums (costhetas p.1))) w.heap else w.heap }
    match w.assign k (l.map fun (p : Atom × ℕ) => (chi1 p.1, p.2)) with
    | .error e => (w, .error e)
    | .ok w => (w, .ok ())

/-- `sys.box = b` (core.py 108-126). -/
noncomputable def setBox (w : Objects) (k : ℕ) (b : Mat3) : Objects × Except Fault Unit :=
  match (w.systems k).sys.setBox b with
  | .error e => (w, .error e)
  | .ok s => ({ w with systems := Function.update w.systems k ⟨s, (w.systems k).refs⟩ }, .ok ())

/-- `sys.find_neighbors(...)` (core.py 332-475).  What a failed search does to the neighbours (C87) is left out. -/
noncomputable def findNeighbors (w : Objects) (σ : StdSort) (k filter : ℕ) (m : Method) : Objects × Except Fault Unit :=
  match (w.systems k).sys.findNeighbors σ filter m with
  | .error e => (w, .error e)
  | .ok s => ({ w with systems := Function.update w.systems k ⟨s, (w.systems k).refs⟩ }, .ok ())

/-- `sys.atoms = [Atom(...), ...]`, atoms made by the caller or by a reader, each with its own dictionary (core.py 136-152). -/
noncomputable def assignNew (w : Objects) (k : ℕ) (l : List Atom) : Objects × Except Fault Unit :=
  let w' := { w with heap := fun r => if w.next ≤ r then [] else w.heap r, next := w.next + l.length }
  match w'.assign k (l.zip (List.range' w.next l.length)) with
  | .error e => (w', .error e)
  | .ok w => (w, .ok ())

/-- `sys_k.atoms = sys_j.atoms` (core.py 129-152). -/
noncomputable def assignFrom (w : Objects) (j k : ℕ) : Objects × Except Fault Unit :=
  match w.getAtoms j with
  | .error e => (w, .error e)
  | .ok l =>
    match w.assign k l with
    | .error e => (w, .error e)
    | .ok w => (w, .ok ())

/-- `sys.atoms[i].custom[key] = v` (core.py 129-133, atom.h 89). -/
def editCustom (w : Objects) (k i : ℕ) (key : String) (v : CVal) : Objects × Except Fault Unit :=
  match w.getAtoms k with
  | .error e => (w, .error e)
  | .ok l => match l[i]? with
    | none => (w, .error .indexError)
    | some p => ({ w with heap := setItem w.heap p.2 key v }, .ok ())

end Objects

end Pyscal
