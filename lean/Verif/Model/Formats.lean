import Verif.Model.Dump
import Verif.Model.OrderParams
import Mathlib.Data.String.Basic

/-!
Conversion from and to ASE objects (formats/ase.py), mdtraj objects (formats/mdtraj.py), the POSCAR writer
(formats/vasp.py) and the dispatch on the format name (traj_process.py).
-/

namespace Pyscal

/-- The parts of `ase.Atoms` used by pyscal: the cell and for every atom its symbol and position.
Also used for an mdtraj object, with the names of the atoms as symbols (used in ase.py 11-58, 66-143 and mdtraj.py 10-52). -/
structure AseAtoms where
  cell : Mat3
  atoms : List (String × V3)

/-- `np.unique(symbols)`: the distinct symbols in the order of their code points (ase.py 40,
mdtraj.py 34). -/
def uniqueSymbols (xs : List String) : List String := xs.dedup.mergeSort fun a b => decide (a ≤ b)

/-- `typedict[symbol]` (formats/ase.py 39-42): numbers from 1 along the sorted symbols. -/
def typeNumber (xs : List String) (x : String) : ℤ := (uniqueSymbols xs).idxOf x + 1

/-- The atom made for number `i` (formats/ase.py 46-55). -/
def aseAtom (symbols : List String) (i : ℕ) (p : String × V3) : Atom :=
  { pos := p.2, id := (i : ℤ) + 1, type := typeNumber symbols p.1, loc := i, custom := dictSet [] "species" p.1 }

/-- `read_snap(aseobject)` (formats/ase.py 11-58, formats/mdtraj.py 10-55). -/
def readAse (o : AseAtoms) : List Atom × Mat3 :=
  (o.atoms.mapIdx fun (i : ℕ) p => aseAtom (o.atoms.map Prod.fst) i p, o.cell)

/-! ### convert_snap -/

/-- `custom['species'] = x` (formats/ase.py 107-109). -/
def Atom.withSpecies (a : Atom) (x : String) : Atom := { a with custom := dictSet a.custom "species" x }

/-- The loop over the atoms writing `custom['species']` (formats/ase.py 107-109): `species[int(atom.type-1)]` is
Python indexing.  The atoms up to the first failure are changed. -/
def assignSpecies (species : List String) : List Atom → List Atom × Except Fault Unit
  | [] => ([], .ok ())
  | a :: l => match pyItem species (a.type - 1) with
    | none => (a :: l, .error .indexError)
    | some x => let r := assignSpecies species l; (a.withSpecies x :: r.1, r.2)

/-- The loop over the unique types (formats/ase.py 118-126): the first atom of each type must have a species. -/
noncomputable def typesKnown (l : List Atom) : Except Fault (List String) :=
  (uniqueTypes l).mapM fun t => match l.find? fun a => a.type = t with
    | none => .ok ""
    | some a => match dictGet a.custom "species" with
      | some x => .ok x
      | none => .error .keyError

/-- `Atom(atom.custom['species'], atom.pos)` (formats/ase.py 138-140): `known` are the symbols ASE accepts, others
raise KeyError. -/
def aseRow (known : String → Bool) (a : Atom) : Except Fault (String × V3) :=
  match dictGet a.custom "species" with
  | none => .error .keyError
  | some x => if known x then .ok (x, a.pos) else .error .keyError

/-- `convert_snap(sys, species)` (formats/ase.py 66-143), the body of `System.to_ase` (core.py 1826-1839).
`sys.atoms` returns copies of the atoms, but a copy refers to the same Python dictionary `custom`; so what is
written to it stays in the system.  It is assumed that different atoms have different dictionaries. -/
noncomputable def System.convertSnap (known : String → Bool) (s : System) (species : Option (List String)) : System × Except Fault AseAtoms :=
  match s.getAtoms with
  | .error e => (s, .error e)
  | .ok atoms => match atoms with
    | [] => (s, .error .indexError)
    | a :: _ =>
      let finish (s : System) (l : List Atom) : System × Except Fault AseAtoms :=
        (s, (l.mapM (aseRow known)).map fun rows => { cell := s.getBox, atoms := rows })
      match dictGet a.custom "species" with
      | some _ => match typesKnown atoms with
        | .error e => (s, .error e)
        | .ok _ => finish s atoms
      | none => match species with
        | none => (s, .error .valueError)
        | some sp =>
          if (uniqueTypes atoms).length ≠ sp.length then (s, .error .valueError)
          else
            let r := assignSpecies sp atoms
            let s' := { s with atoms := r.1 ++ s.atoms.drop s.realNop }
            match r.2 with
            | .error e => (s', .error e)
            | .ok _ => finish s' r.1

/-! ### POSCAR -/

/-- `write_poscar(sys, outfile, comments)` (formats/vasp.py 67-107): the lines of the file; `f` is `"%1.14f"`. -/
noncomputable def System.writePoscar (C : Codec) (f : ℝ → String) (s : System) (comments : String) : Except Fault (List String) := do
  let b := s.getBox
  let vec (v : V3) := "      " ++ textLine [f v.x, f v.y, f v.z]
  let atoms ← s.getAtoms
  let tt := uniqueTypes atoms
  let groups := tt.map fun t => atoms.filter fun a => a.type = t
  return [comments ++ "\n", "   1.00000000000000\n", vec b.r0, vec b.r1, vec b.r2,
      "  " ++ String.join (tt.map fun t => C.fmtD (countType atoms t) ++ "   ") ++ "\n", "Cartesian\n"]
    ++ groups.flatMap fun g => g.map fun a => " " ++ textLine [f a.pos.x, f a.pos.y, f a.pos.z]

/-! ### Dispatch -/

/-- What pyscal uses from outside: text conversions, the files, and ASE's reader, writer and table
of symbols.  External to /repo; used in traj_process.py 27-182. -/
structure World where
  C : Codec
  f14 : ℝ → String
  attr : String → Atom → Option Val
  files : String → Option (List String)
  known : String → Bool
  aseRead : Option String → String → Except Fault AseAtoms
  aseWrite : String → AseAtoms → Except Fault (List String)

/-- The `filename` argument: a name or an object (traj_process.py 27-73). -/
inductive Source where
  | path (name : String)
  | ase (o : AseAtoms)
  | mdtraj (o : AseAtoms)

/-- `read_file(filename, format, customkeys)` (traj_process.py 22-77).  `warnings.info` does not exist, and the
bare `except` turns the AttributeError into TypeError. -/
noncomputable def World.readFile (W : World) (src : Source) (format : String) (keys : List String) : Except Fault (List Atom × Mat3) :=
  if format = "lammps-dump" then
    match src with
    | .path name => match W.files name with
      | none => .error .fileNotFound
      | some lines => (W.C.readSnap lines keys).map fun r => (r.1, r.2.1)
    | _ => .error .typeError
  else if format = "ase" then
    match src with
    | .path name => (W.aseRead none name).map readAse
    | .ase o => .ok (readAse o)
    | .mdtraj _ => .error .attributeError
  else if format = "mdtraj" then
    match src with
    | .mdtraj o => .ok (readAse o)
    | _ => .error .attributeError
  else if format = "poscar" then  -- formats/vasp.py 12-45
    match src with
    | .path name => (W.aseRead (some "vasp") name).map readAse
    | _ => .error .typeError
  else
    let tried : Except Fault (List Atom × Mat3) := do
      let o ← match src with
        | .path name => W.aseRead (some format) name
        | _ => .error .typeError
      let _ := readAse o
      .error .attributeError
    match tried with
    | .ok r => .ok r
    | .error _ => .error .typeError

/-- `System.read_inputfile(filename, format, customkeys)` (core.py 168-218). -/
noncomputable def System.readInput (W : World) (s : System) (src : Source) (format : String) (keys : List String) : Except Fault System := do
  let r ← W.readFile src format keys
  let s1 ← s.setBox r.2
  s1.assignAtoms r.1

/-- What a call of `to_file` did: the system afterwards, the lines put into the file (`none` if it was not
written), and the exception if any (traj_process.py 75-135). -/
structure WriteResult where
  system : System
  file : Option (List String)
  result : Except Fault Unit

/-- Convert to ASE and write (traj_process.py 123-125, 136-137; formats/vasp.py 57-59). -/
noncomputable def World.convertWrite (W : World) (s : System) (format : String) (species : Option (List String)) : WriteResult :=
  let r := s.convertSnap W.known species
  match r.2 with
  | .error e => ⟨r.1, none, .error e⟩
  | .ok o => match W.aseWrite format o with
    | .error e => ⟨r.1, none, .error e⟩
    | .ok lines => ⟨r.1, some lines, .ok ()⟩

/-- `System.to_file(outfile, format, ...)` (core.py 1768-1824, traj_process.py 79-141).  The partly written file of a
failing dump writer is not modelled.  As in `read_file`, `warnings.info` raises AttributeError after the file
has been written, and the bare `except` turns it into TypeError. -/
noncomputable def World.writeFile (W : World) (s : System) (format : String) (keys : List String) (vals : Option (List (List String))) (timestep : ℤ)
    (species : Option (List String)) : WriteResult :=
  if format = "lammps-dump" then
    match W.C.writeSnap W.attr s keys vals timestep with
    | .error e => ⟨s, none, .error e⟩
    | .ok lines => ⟨s, some lines, .ok ()⟩
  else if format = "lammps-data" then W.convertWrite s "lammps-data" species
  else if format = "poscar" then
    match species with
    | none => match s.writePoscar W.C W.f14 "pyscal" with
      | .error e => ⟨s, none, .error e⟩
      | .ok lines => ⟨s, some lines, .ok ()⟩
    | some _ => W.convertWrite s "vasp" species
  else
    let r := W.convertWrite s format species
    let tried : Except Fault Unit := r.result.bind fun _ => .error .attributeError
    match tried with
    | .ok _ => ⟨r.system, r.file, .ok ()⟩
    | .error _ => ⟨r.system, r.file, .error .typeError⟩

end Pyscal
