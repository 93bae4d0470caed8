import Verif.Model.Dump

/-!
Trajectories (trajectory.py): `Trajectory` and `Timeslice`.

A `Trajectory` is the lines of its file, which is taken not to change on disk, with the state of the
object.
-/

namespace Pyscal

/-- The dictionary made by `load` (trajectory.py 441-450): the rows of the box and the columns by name. -/
structure Block where
  box : List (List ℝ)
  atoms : List (String × List ℝ)

/-- A `Trajectory` object (trajectory.py 237-265). -/
structure Traj where
  lines : List String
  natoms : ℤ
  loadlist : List Bool
  data : List (Option Block)

/-- `self.blocksize` (trajectory.py 341). -/
def Traj.blocksize (t : Traj) : ℤ := t.natoms + 9

/-- `self.nblocks` (trajectory.py 342); `//` rounds down. -/
def Traj.nblocks (t : Traj) : ℤ := (t.lines.length : ℤ).fdiv t.blocksize

/-- `Trajectory(filename)` (trajectory.py 241-346): `none` is a missing file; `next` raises
StopIteration for a file with fewer than four lines. -/
def Codec.openTraj (C : Codec) (file : Option (List String)) : Except Fault Traj :=
  match file with
  | none => .error .fileNotFound
  | some lines => match lines[3]? with
    | none => .error .stopIteration
    | some l => match C.int (strip l) with
      | none => .error .valueError
      | some n =>
        if n + 9 = 0 then .error .zeroDivision
        else .ok { lines := lines, natoms := n, loadlist := List.replicate ((lines.length : ℤ).fdiv (n + 9)).toNat false,
                   data := List.replicate ((lines.length : ℤ).fdiv (n + 9)).toNat none }

/-- `get_block(blockno)` (trajectory.py 392-417): `line_offset[start]` is Python indexing, and `readline`
gives an empty text after the end of the file. -/
def Traj.getBlock (t : Traj) (k : ℤ) : Except Fault (List String) :=
  match pyIdx t.lines.length (k * t.blocksize) with
  | none => .error .indexError
  | some i => .ok ((List.range t.blocksize.toNat).map fun j => (t.lines[i + j]?).getD "")

/-! ### Slices -/

/-- `slice(start, stop, step).indices(n)` of Python, used in trajectory.py 278. -/
def sliceIndices (n : ℤ) (start stop step : Option ℤ) : Except Fault (ℤ × ℤ × ℤ) :=
  let st := step.getD 1
  if st = 0 then .error .valueError
  else
    let lower : ℤ := if st < 0 then -1 else 0
    let upper : ℤ := if st < 0 then n - 1 else n
    let fix (x : ℤ) : ℤ := if x < 0 then (if x + n < lower then lower else x + n) else (if x > upper then upper else x)
    let a := match start with
      | none => if st < 0 then upper else lower
      | some x => fix x
    let b := match stop with
      | none => if st < 0 then lower else upper
      | some x => fix x
    .ok (a, b, st)

/-- `range(a, b, c)` as a list.  Python semantics, no code of its own. -/
def pyRange (a b c : ℤ) : List ℤ :=
  let cnt : ℕ := if 0 < c then (if a < b then ((b - a - 1) / c + 1).toNat else 0)
    else (if b < a then ((a - b - 1) / (-c) + 1).toNat else 0)
  (List.range cnt).map fun (j : ℕ) => a + (j : ℤ) * c

/-- The blocks of `traj[start:stop:step]` (trajectory.py 273-284). -/
def Traj.sliceBlocks (t : Traj) (start stop step : Option ℤ) : Except Fault (List ℤ) := do
  let r ← sliceIndices t.nblocks start stop step
  return pyRange r.1 r.2.1 r.2.2

/-! ### Loading -/

/-- `np.loadtxt(lines)` (trajectory.py 441-442): blank lines are skipped, rows of different lengths raise
ValueError.  Comments (`#`) are not modelled. -/
def Codec.loadRows (C : Codec) (lines : List String) : Except Fault (List (List ℝ)) := do
  let rows ← ((lines.map words).filter fun ws => ws ≠ []).mapM fun ws => ws.mapM C.readFloat
  match rows with
  | [] => .ok []
  | r :: rest => if ∀ x ∈ rest, x.length = r.length then .ok (r :: rest) else .error .valueError

/-- The columns by name (trajectory.py 443-450).  An array with a single row or a single column is
squeezed to one dimension by `loadtxt`, and `columns[:,count]` raises IndexError. -/
def namedColumns (header : List String) (rows : List (List ℝ)) : Except Fault (List (String × List ℝ)) :=
  let width := (rows.head?.map List.length).getD 0
  if header = [] then .ok []
  else if rows.length < 2 ∨ width < 2 then .error .indexError
  else if width < header.length then .error .indexError
  else .ok (header.zipIdx.foldl (fun d p => dictSet d p.1 (rows.map fun r => r.getD p.2 0)) [])

/-- The dictionary of a block (trajectory.py 440-450).  A header of one word is a scalar, which cannot
be sliced. -/
def Codec.loadBlock (C : Codec) (data : List String) : Except Fault Block := do
  let box ← C.loadRows ((data.drop 5).take 3)
  let rows ← C.loadRows (data.drop 9)
  let hw := words ((data[8]?).getD "")
  if hw.length = 1 then .error .indexError
  else
    let cols ← namedColumns (hw.drop 2) rows
    return { box := box, atoms := cols }

/-- `xs[i] = v` for a Python list.  Python semantics, no code of its own. -/
def pySet {α : Type} (xs : List α) (i : ℤ) (v : α) : Option (List α) := (pyIdx xs.length i).map fun k => xs.set k v

/-- `load(blockno)` (trajectory.py 419-453).  Nothing is changed if it raises. -/
def Codec.load (C : Codec) (t : Traj) (k : ℤ) : Except Fault Traj := do
  let lines ← t.getBlock k
  let b ← C.loadBlock lines
  match pySet t.data k (some b), pySet t.loadlist k true with
  | some d, some l => .ok { t with data := d, loadlist := l }
  | _, _ => .error .indexError

/-- `unload(blockno)` (trajectory.py 455-470). -/
def Traj.unload (t : Traj) (k : ℤ) : Except Fault Traj :=
  match pySet t.data k none, pySet t.loadlist k false with
  | some d, some l => .ok { t with data := d, loadlist := l }
  | _, _ => .error .indexError

/-- A change made by the user to the loaded data, `traj.data[blockno][...] = ...`, which the comment in
trajectory.py 433-438 invites; data that is not loaded is `None`. -/
def Traj.edit (t : Traj) (k : ℤ) (f : Block → Block) : Except Fault Traj :=
  match pyItem t.data k with
  | none => .error .indexError
  | some none => .error .typeError
  | some (some b) => match pySet t.data k (some (f b)) with
    | some d => .ok { t with data := d }
    | none => .error .indexError

/-! ### Writing -/

open Classical in
/-- `"%d" % x` of a float truncates (trajectory.py 472-540). -/
noncomputable def truncate (x : ℝ) : ℤ := if 0 ≤ x then ⌊x⌋ else ⌈x⌉

/-- The columns `id` and `type` (trajectory.py 504-511). -/
def isIntKey (p : String × List ℝ) : Bool := p.1 = "id" || p.1 = "type"

/-- The words of the integer columns, row by row (trajectory.py 513-519). -/
noncomputable def Codec.intWords (C : Codec) (xd : List (String × List ℝ)) : Except Fault (List (List String)) :=
  match xd with
  | [] => .ok []
  | p :: _ => (List.range p.2.length).mapM fun i => xd.mapM fun q => match q.2[i]? with
    | some v => Except.ok (C.fmtD (truncate v))
    | none => Except.error Fault.indexError

/-- `_convert_data_to_lines` for loaded data (trajectory.py 472-540).  If there is no integer column or no
other column the header line has additional blanks, which are left out here. -/
noncomputable def Codec.blockLines (C : Codec) (natoms : ℤ) (b : Block) : Except Fault (List String) := do
  let xd := b.atoms.filter isIntKey
  let xf := b.atoms.filter fun p => !isIntKey p
  let xdw ← C.intWords xd
  let n := (xf.head?.map fun p => p.2.length).getD 0
  if ¬ ∀ q ∈ xf, q.2.length = n then .error .valueError
  else
    let rows ← (List.range n).mapM fun i => match xdw[i]? with
      | none => Except.error Fault.indexError
      | some ws => Except.ok (textLine (ws ++ xf.map fun q => C.str (q.2.getD i 0)))
    return [textLine ["ITEM:", "TIMESTEP"], textLine [C.fmtD 0], textLine ["ITEM:", "NUMBER", "OF", "ATOMS"], textLine [C.fmtD natoms],
        textLine ["ITEM:", "BOX", "BOUNDS", "pp", "pp", "pp"]] ++ b.box.map (fun r => textLine (r.map C.str))
      ++ [textLine (["ITEM:", "ATOMS"] ++ xd.map Prod.fst ++ xf.map Prod.fst)] ++ rows

/-- The lines written for one block (trajectory.py 602-607). -/
noncomputable def Codec.exportBlock (C : Codec) (t : Traj) (k : ℤ) : Except Fault (List String) :=
  match pyItem t.loadlist k with
  | none => .error .indexError
  | some false => t.getBlock k
  | some true => match pyItem t.data k with
    | some (some b) => C.blockLines t.natoms b
    | some none => .error .typeError
    | none => .error .indexError

/-! ### Timeslices -/

/-- A `Timeslice`: the lists `trajectories` and `blocklists`, which always have the same length.  A
trajectory is given by its index in the list of all trajectory objects (trajectory.py 65-78). -/
abbrev Slices := List (ℕ × List ℤ)

/-- All pairs of a trajectory and a block, in order (the loops of trajectory.py 111-188). -/
def Slices.pairs (ts : Slices) : List (ℕ × ℤ) := ts.flatMap fun e => e.2.map fun k => (e.1, k)

/-- The trajectory objects.  Model device for object identity. -/
abbrev TrajHeap := ℕ → Traj

/-- `Timeslice.to_file(outfile)` (trajectory.py 165-187, 585-610): the lines written.  If an error occurs
the part written before it stays in the file; this is not modelled. -/
noncomputable def Codec.sliceToFile (C : Codec) (h : TrajHeap) (ts : Slices) : Except Fault (List String) := do
  let parts ← ts.pairs.mapM fun p => C.exportBlock (h p.1) p.2
  return parts.flatten

/-- The loop of `to_dict` (trajectory.py 153-163). -/
def Codec.toDictLoop (C : Codec) : List (ℕ × ℤ) → TrajHeap → TrajHeap × Except Fault (List Block)
  | [], h => (h, .ok [])
  | (i, k) :: rest, h =>
    match C.load (h i) k with
    | .error e => (h, .error e)
    | .ok t => match pyItem t.data k with
      | some (some b) => match t.unload k with
        | .error e => (Function.update h i t, .error e)
        | .ok t' =>
          let r := C.toDictLoop rest (Function.update h i t')
          (r.1, r.2.map fun bs => b :: bs)
      | _ => (Function.update h i t, .error .indexError)

/-- `Timeslice.to_dict()` (trajectory.py 153-164). -/
def Codec.sliceToDict (C : Codec) (h : TrajHeap) (ts : Slices) : TrajHeap × Except Fault (List Block) := C.toDictLoop ts.pairs h

/-- `Timeslice.to_system(customkeys)` (trajectory.py 111-129, 542-561): the blocks are read from the file. -/
noncomputable def Codec.sliceToSystem (C : Codec) (h : TrajHeap) (ts : Slices) (customkeys : List String) : Except Fault (List System) :=
  ts.pairs.mapM fun p => do
    let lines ← (h p.1).getBlock p.2
    System.init.readDump C (some lines) customkeys

/-- A loop `for x in other: self.append(x)` (trajectory.py 93-97) at position `pos`; if `aliased`, the two lists are the same
object.  `none`: not finished after `fuel` steps. -/
def appendLoop {α : Type} (aliased : Bool) : ℕ → ℕ → List α → List α → Option (List α)
  | 0, _, _, _ => none
  | fuel + 1, pos, self, other =>
    match (if aliased then self else other)[pos]? with
    | none => some self
    | some x => appendLoop aliased fuel (pos + 1) (self ++ [x]) other

/-- The timeslice objects.  Model device for object identity. -/
abbrev SliceHeap := ℕ → Slices

/-- `a + b` for the timeslice objects `a`, `b` (trajectory.py 89-99): the new state and the object returned;
`none`: not finished with the given fuel. -/
def addSlices (fuel : ℕ) (h : SliceHeap) (a b : ℕ) : Option (SliceHeap × ℕ) :=
  (appendLoop (a = b) fuel 0 (h a) (h b)).map fun l => (Function.update h a l, a)

/-- `sum([t₁, t₂, …])`: `0 + t₁` is `t₁` (trajectory.py 102-109), then additions from the left. -/
def sumSlices (fuel : ℕ) (h : SliceHeap) : List ℕ → Option (SliceHeap × Option ℕ)
  | [] => some (h, none)
  | a :: rest => (rest.foldlM (fun (p : SliceHeap × ℕ) b => addSlices fuel p.1 p.2 b) (h, a)).map fun p => (p.1, some p.2)

/-! ### iter -/

/-- The methods of `Trajectory.iter`; `random` carries the shuffled list of blocks (trajectory.py 356-391). -/
inductive IterMethod where
  | ascending
  | descending
  | random (shuffled : List ℤ)
  | unknown

/-- `xs[:n]` of Python.  Python semantics, no code of its own. -/
def takePy {α : Type} (xs : List α) (n : ℤ) : List α := if 0 ≤ n then xs.take n.toNat else xs.take (xs.length + n).toNat

/-- `list(traj.iter(method, n_slices))` (trajectory.py 356-390). -/
def Traj.iter (t : Traj) (m : IterMethod) (nslices : Option ℤ) : Except Fault (List ℤ) :=
  let n := nslices.getD t.nblocks
  match m with
  | .ascending => .ok ((List.range n.toNat).map fun (i : ℕ) => (i : ℤ))
  | .descending => .ok ((List.range n.toNat).map fun (i : ℕ) => t.nblocks - (i : ℤ))
  | .random sh => .ok (takePy sh n)
  | .unknown => .error .valueError

/-- The argument `output` of `iter`: "index", "system" or any other text (trajectory.py 348-352). -/
inductive IterOutput where
  | index
  | system
  | other

/-- What a step of the generator gives: a number, a system or `None` (trajectory.py 348-352). -/
inductive Yielded where
  | index (k : ℤ)
  | system (s : System)
  | nothing

/-- `_yield(index, output)` (trajectory.py 348-352): a system is read from the file without custom keys
(trajectory.py 111-129, 542-561); an unknown `output` falls through both branches and gives `None`. -/
noncomputable def Codec.yieldOne (C : Codec) (t : Traj) (o : IterOutput) (k : ℤ) : Except Fault Yielded :=
  match o with
  | .index => .ok (.index k)
  | .system => do
    let lines ← t.getBlock k
    let s ← System.init.readDump C (some lines) []
    return .system s
  | .other => .ok .nothing

/-- The loops of the generator (trajectory.py 377-388): what has been given when it ends or raises. -/
noncomputable def Codec.yieldAll (C : Codec) (t : Traj) (o : IterOutput) : List ℤ → List Yielded × Option Fault
  | [] => ([], none)
  | k :: ks => match C.yieldOne t o k with
    | .error e => ([], some e)
    | .ok y => let r := C.yieldAll t o ks; (y :: r.1, r.2)

/-- `for y in traj.iter(method, n_slices, output)` (trajectory.py 356-390): the values given and the exception that
ends the loop, if any. -/
noncomputable def Codec.iterOut (C : Codec) (t : Traj) (m : IterMethod) (nslices : Option ℤ) (o : IterOutput) : List Yielded × Option Fault :=
  match t.iter m nslices with
  | .error e => ([], some e)
  | .ok ks => C.yieldAll t o ks

end Pyscal
