import Verif.Model.Text
import Verif.Model.Harmonics

/-!
The lammps-dump format: `read_snap`, `write_snap`, `split_snaps` (formats/lammps.py),
`System.read_inputfile` (core.py 168-218) and `System.get_custom` (core.py 1642-1688).
-/

namespace Pyscal

/-! ### read_snap -/

/-- One of the lines 5, 6, 7: two bounds and, if the line has exactly three words, a tilt factor
(formats/lammps.py 105-119). -/
def Codec.readBounds (C : Codec) (line : String) : Except Fault (ℝ × ℝ × Option ℝ) :=
  match words line with
  | [] => .error .indexError
  | [w0] => do
    let _ ← C.readFloat w0
    .error .indexError
  | w0 :: w1 :: rest => do
    let lo ← C.readFloat w0
    let hi ← C.readFloat w1
    match rest with
    | [w2] => do
      let t ← C.readFloat w2
      return (lo, hi, some t)
    | _ => return (lo, hi, none)

/-- `headerdict[k]` right after the dictionary comprehension (formats/lammps.py 127): the last word
equal to `k`, counted from the third word. -/
def headerIdx (raw : List String) (k : String) : Option ℤ :=
  ((List.range raw.length).reverse.find? fun x => raw[x]? = some k).map fun (x : ℕ) => (x : ℤ) - 2

/-- The header line (formats/lammps.py 125-141): the column of every name, and whether the
coordinates are scaled. -/
def readHeader (customkeys : List String) (line : String) : Except Fault ((String → Option ℤ) × Bool) :=
  let raw := words line
  let hd := headerIdx raw
  if customkeys.any (fun k => (hd k).isNone) then .error .keyError
  else if (hd "x").isSome then .ok (hd, false)
  else if (hd "xs").isSome then
    if (hd "ys").isNone then .error .keyError
    else if (hd "zs").isNone then .error .keyError
    else .ok (fun k => if k = "x" then hd "xs" else if k = "y" then hd "ys" else if k = "z" then hd "zs"
      else if k = "xs" then none else if k = "ys" then none else if k = "zs" then none else hd k, true)
  else .error .valueError

/-- `raw[headerdict[k]]` (formats/lammps.py 148-152, 164). -/
def column (hd : String → Option ℤ) (raw : List String) (k : String) : Except Fault String :=
  match hd k with
  | none => .error .keyError
  | some i => match pyItem raw i with
    | none => .error .indexError
    | some w => .ok w

/-- One row (formats/lammps.py 147-167); `loc` is `count - 8`. -/
def Codec.readRow (C : Codec) (hd : String → Option ℤ) (customkeys : List String) (loc : ℕ) (line : String) : Except Fault Atom := do
  let raw := words line
  let idd ← column hd raw "id" >>= C.readInt
  let typ ← column hd raw "type" >>= C.readInt
  let x ← column hd raw "x" >>= C.readFloat
  let y ← column hd raw "y" >>= C.readFloat
  let z ← column hd raw "z" >>= C.readFloat
  let cs ← customkeys.mapM fun k => column hd raw k
  return { pos := ⟨x, y, z⟩, id := idd, type := typ, loc := loc,
           custom := (customkeys.zip cs).foldl (fun d p => dictSet d p.1 p.2) [] }

/-- The rows read: the loop stops when `count == natoms + 9` (formats/lammps.py 145-146), which never
happens for a negative number of atoms. -/
def dumpRows (natoms : ℤ) (lines : List String) : List String :=
  if 0 ≤ natoms then (lines.drop 9).take natoms.toNat else lines.drop 9

/-- The cell of a triclinic dump (formats/lammps.py 175-189). -/
noncomputable def tricCell (bx by' bz : ℝ × ℝ) (xy xz yz : ℝ) : Mat3 :=
  let amin := min 0 (min xy (min xz (xy + xz)))
  let amax := max 0 (max xy (max xz (xy + xz)))
  let bmin := min 0 yz
  let bmax := max 0 yz
  ⟨⟨(bx.2 - amax) - (bx.1 - amin), 0, 0⟩, ⟨xy, (by'.2 - bmax) - (by'.1 - bmin), 0⟩, ⟨xz, yz, bz.2 - bz.1⟩⟩

/-- The cell of an orthogonal dump (formats/lammps.py 203). -/
def orthoCell (bx by' bz : ℝ × ℝ) : Mat3 :=
  ⟨⟨bx.2 - bx.1, 0, 0⟩, ⟨0, by'.2 - by'.1, 0⟩, ⟨0, 0, bz.2 - bz.1⟩⟩

/-- `dist[0]*box[0] + dist[1]*box[1] + dist[2]*box[2]` (formats/lammps.py 206-210). -/
def unscale (b : Mat3) (v : V3) : V3 := V3.smul v.x b.r0 + V3.smul v.y b.r1 + V3.smul v.z b.r2

/-- The last step for one atom (formats/lammps.py 195-198, 206-210). -/
def placeAtom (shift : Option V3) (scaled : Bool) (b : Mat3) (a : Atom) : Atom :=
  let p := match shift with
    | some o => a.pos - o
    | none => a.pos
  { a with pos := if scaled then unscale b p else p }

/-- Line `i` of the file processed by `f`, if there is such a line.  Helper for the line counting
loop of lammps.py 88-190. -/
def atLine {α : Type} (lines : List String) (i : ℕ) (f : String → Except Fault α) : Except Fault (Option α) :=
  match lines[i]? with
  | some l => do
    let v ← f l
    return some v
  | none => .ok none

/-- The values bound by the lines 5, 6, 7 (formats/lammps.py 105-121): `tilts` is set iff line 7 has
three words, and then needs `xy` and `xz`. -/
def tiltsOf (bx by' bz : Option (ℝ × ℝ × Option ℝ)) : Except Fault (Option (ℝ × ℝ × ℝ)) :=
  match bz with
  | some (_, _, some yz) => match bx, by' with
    | some (_, _, some xy), some (_, _, some xz) => .ok (some (xy, xz, yz))
    | _, _ => .error .nameError
  | _ => .ok none

/-- The atoms of the rows after the header (formats/lammps.py 144-167). -/
def Codec.readRows (C : Codec) (customkeys : List String) (lines : List String) (natoms : Option ℤ)
    (head : Option ((String → Option ℤ) × Bool)) : Except Fault (List Atom) :=
  match natoms, head with
  | some n, some h => (dumpRows n lines).zipIdx.mapM fun p => C.readRow h.1 customkeys (p.2 + 1) p.1
  | _, _ => .ok []

open Classical in
/-- Box and final positions (formats/lammps.py 173-210).  A variable that was never assigned raises
NameError (a file with fewer than nine lines); `numpy.linalg.inv` raises for a singular cell. -/
noncomputable def finishDump (atoms : List Atom) (bx by' bz : Option (ℝ × ℝ × Option ℝ)) (tilts : Option (ℝ × ℝ × ℝ))
    (head : Option ((String → Option ℤ) × Bool)) : Except Fault (List Atom × Mat3 × Bool) :=
  match bx, by', bz with
  | some x, some y, some z =>
    match tilts with
    | some (xy, xz, yz) =>
      let b := tricCell (x.1, x.2.1) (y.1, y.2.1) (z.1, z.2.1) xy xz yz
      if b.transpose.det = 0 then .error .valueError
      else match head with
        | none => .error .nameError
        | some h => .ok (atoms.map (placeAtom (some ⟨x.1, y.1, z.1⟩) h.2 b), b, true)
    | none =>
      let b := orthoCell (x.1, x.2.1) (y.1, y.2.1) (z.1, z.2.1)
      match head with
      | none => .error .nameError
      | some h => .ok (atoms.map (placeAtom none h.2 b), b, false)
  | _, _, _ => .error .nameError

/-- `read_snap(infile, check_triclinic=True, customkeys=...)` on the lines of the file
(formats/lammps.py 10-215): atoms, box and whether the box is triclinic. -/
noncomputable def Codec.readSnap (C : Codec) (lines customkeys : List String) : Except Fault (List Atom × Mat3 × Bool) := do
  let natoms ← atLine lines 3 fun l => C.readInt (strip l)
  let bx ← atLine lines 5 C.readBounds
  let by' ← atLine lines 6 C.readBounds
  let bz ← atLine lines 7 C.readBounds
  let tilts ← tiltsOf bx by' bz
  let head ← atLine lines 8 (readHeader customkeys)
  let atoms ← C.readRows customkeys lines natoms head
  finishDump atoms bx by' bz tilts head

/-- `System.read_inputfile(filename, customkeys=...)` for a lammps-dump file
(core.py 168-218, traj_process.py 56-57): `none` is a missing file. -/
noncomputable def System.readDump (C : Codec) (s : System) (file : Option (List String)) (customkeys : List String) : Except Fault System :=
  match file with
  | none => .error .fileNotFound
  | some lines => do
    let r ← C.readSnap lines customkeys
    let s1 ← s.setBox r.2.1
    s1.assignAtoms r.1

/-! ### get_custom -/

/-- A value returned by `get_custom`: a stored text or a number (`none` is NaN).  Attributes that
are lists are not modelled (core.py 1642-1689). -/
inductive Val where
  | text (s : String)
  | num (x : Option ℝ)

/-- `get_custom(atom, [key])[0]` (core.py 1661-1687).  `attr k a` is `getattr(a, k)`, `none` standing
for AttributeError. -/
def Codec.getCustomKey (C : Codec) (attr : String → Atom → Option Val) (a : Atom) (k : String) : Except Fault Val :=
  match dictGet a.custom k with
  | some v => .ok (.text v)
  | none => match attr k a with
    | some v => .ok v
    | none => match k.toList with
      | [] => .error .indexError
      | 'q' :: rest => do
        let n ← C.readInt (String.ofList rest)
        let v ← a.getQ n false
        return .num v
      | 'a' :: 'q' :: rest => do
        let n ← C.readInt (String.ofList rest)
        let v ← a.getQ n true
        return .num v
      | _ => .error .attributeError

/-- `get_custom(atom, customkeys)` (core.py 1642-1688). -/
def Codec.getCustom (C : Codec) (attr : String → Atom → Option Val) (a : Atom) (ks : List String) : Except Fault (List Val) :=
  ks.mapM fun k => C.getCustomKey attr a k

/-! ### write_snap -/

/-- `numpy.array(...).astype(str)` for one value (formats/lammps.py 304).  numpy first gives all the
values of an atom one common type (an integer next to a float is printed as a float); this is
left out. -/
def Codec.showVal (C : Codec) : Val → String
  | .text s => s
  | .num (some x) => C.str x
  | .num none => "nan"

/-- `cvals` (formats/lammps.py 259-269): looked up with `get_custom`, or given by the caller as printed
texts, in which case the shape is checked (the error message itself raises IndexError for an empty
array, which has one dimension). -/
def Codec.customRows (C : Codec) (attr : String → Atom → Option Val) (atoms : List Atom) (keys : List String) (vals : Option (List (List String))) :
    Except Fault (List (List String)) :=
  if keys = [] then .ok (atoms.map fun _ => [])
  else match vals with
    | none => atoms.mapM fun a => do
      let vs ← C.getCustom attr a keys
      return vs.map C.showVal
    | some vs =>
      if vs = [] then .error .indexError
      else if vs.length = atoms.length ∧ ∀ v ∈ vs, v.length = keys.length then .ok vs
      else .error .valueError

/-- One row (formats/lammps.py 301-309).  The custom values are joined to the line as they are. -/
def Codec.writeRow (C : Codec) (a : Atom) (cs : List String) : String :=
  textLine ([C.fmtD a.id, C.fmtD a.type, C.fmtF a.pos.x, C.fmtF a.pos.y, C.fmtF a.pos.z] ++ cs)

/-- The lines written by `write_snap(sys, outfile, customkeys, customvals, timestep)`
(formats/lammps.py 217-312): the box is written as the lengths of the box vectors. -/
noncomputable def Codec.writeSnap (C : Codec) (attr : String → Atom → Option Val) (s : System) (keys : List String) (vals : Option (List (List String)))
    (timestep : ℤ) : Except Fault (List String) := do
  let b := s.getBox
  let atoms ← s.getAtoms
  let cvals ← C.customRows attr atoms keys vals
  return [textLine ["ITEM:", "TIMESTEP"], textLine [C.fmtD timestep], textLine ["ITEM:", "NUMBER", "OF", "ATOMS"],
      textLine [C.fmtD atoms.length], textLine ["ITEM:", "BOX", "BOUNDS"],
      textLine [C.fmtF 0, C.fmtF (V3.norm b.r0)], textLine [C.fmtF 0, C.fmtF (V3.norm b.r1)], textLine [C.fmtF 0, C.fmtF (V3.norm b.r2)],
      textLine (["ITEM:", "ATOMS", "id", "type", "x", "y", "z"] ++ keys)]
    ++ (atoms.zip cvals).map fun p => C.writeRow p.1 p.2

/-! ### split_snaps -/

/-- `".".join([infile, 'snap', str(startblock), 'dat'])` (formats/lammps.py 365). -/
def snapName (infile : String) (k : ℕ) : String := infile ++ ".snap." ++ Nat.repr k ++ ".dat"

/-- The loop over the lines (formats/lammps.py 363-382): `count` lines of the current frame have been
or are being read, `k` is `startblock`, `ff` and `cur` are the current file name and lines.  The
result lists the files written, in order, with their lines. -/
def splitLoop (infile : String) (nblock : ℤ) : List String → ℤ → ℕ → String → List String → List (String × List String)
  | [], _, _, _, _ => []
  | line :: rest, count, k, ff, cur =>
    if count = 1 then splitLoop infile nblock rest (count + 1) k (snapName infile k) [line]
    else if count < nblock then splitLoop infile nblock rest (count + 1) k ff (cur ++ [line])
    else (ff, cur ++ [line]) :: splitLoop infile nblock rest 1 (k + 1) ff (cur ++ [line])

/-- `split_trajectory(infile)` (traj_process.py 164-180, formats/lammps.py 315-386): the files written.
The returned list `snaps` is the list of their names.  A file with fewer than four lines leaves
`natoms` unassigned. -/
def Codec.splitSnaps (C : Codec) (infile : String) (file : Option (List String)) : Except Fault (List (String × List String)) :=
  match file with
  | none => .error .fileNotFound
  | some lines => match lines[3]? with
    | none => .error .nameError
    | some l => do
      let natoms ← C.readInt (strip l)
      return splitLoop infile (natoms + 9) lines 1 0 "" []

end Pyscal
