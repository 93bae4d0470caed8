import Verif.Model.Voronoi
import Verif.Model.Solids
import Mathlib.Algebra.Order.Round
import Mathlib.Data.String.Basic

/-!
misc.py (`compare_atomic_env`, `find_tetrahedral_voids`) and `System.store_neighbor_info` (system.cpp 1050-1080).
-/

namespace Pyscal

/-- `numpy.rint`: the nearest integer, ties to even. -/
noncomputable def rintEven (x : ℝ) : ℤ :=
  if Int.fract x < 1 / 2 then ⌊x⌋ else if 1 / 2 < Int.fract x then ⌊x⌋ + 1 else if Even ⌊x⌋ then ⌊x⌋ else ⌊x⌋ + 1

/-- `numpy.round(x, decimals=p)` (misc.py 59): scaling by a power of ten and `rint`. -/
noncomputable def npRound (p : ℤ) (x : ℝ) : ℝ := rintEven (x * (10 : ℝ) ^ p) / (10 : ℝ) ^ p

open Classical in
/-- `numpy.unique` of floats (misc.py 60): distinct values in increasing order. -/
noncomputable def uniqueReals (l : List ℝ) : List ℝ := l.dedup.mergeSort fun a b => decide (a ≤ b)

/-- `numpy.unique` of strings (misc.py 61). -/
def uniqueStrings (l : List String) : List String := l.dedup.mergeSort fun a b => decide (a ≤ b)

/-- `" ".join(np.array(atom.vorovector).astype(str))` (misc.py 57). -/
def fingerprint (a : Atom) : String := " ".intercalate (a.vorovector.map toString)

/-- The atoms of the requested type (misc.py 54-55). -/
def ofType (t : ℤ) (l : List Atom) : List Atom := l.filter fun a => a.type = t

/-- The rounded volumes (misc.py 52-59). -/
noncomputable def envVolumes (t p : ℤ) (l : List Atom) : List ℝ := (ofType t l).map fun a => npRound p a.volume

open Classical in
/-- What `compare_atomic_env(..., print_results=False)` returns, from the atoms after the Voronoi analysis (misc.py 51-85): the distinct
volumes, the distinct fingerprints and the number of atoms for each volume.  `np.array` of lists of different lengths raises
ValueError (numpy 1.24 and later).  Simplification: `np.array` of the three lists turns the numbers into their decimal strings;
the numbers are kept. -/
noncomputable def compareEnv (t p : ℤ) (l : List Atom) : Except Fault (List ℝ × List String × List ℕ) :=
  let vols := envVolumes t p l
  let vvx := uniqueReals vols
  let vrx := uniqueStrings ((ofType t l).map fingerprint)
  let vvc := vvx.map fun v => vols.count v
  if vvx.length ≠ vrx.length then .error .valueError else .ok (vvx, vrx, vvc)

/-- `compare_atomic_env(infile, atomtype, precision, print_results=False)` (misc.py 46-85), for a file that is read as `atoms` and
`box`. -/
noncomputable def compareAtomicEnv (T : Tessellation) (box : Mat3) (atoms : List Atom) (t p : ℤ) :
    Except Fault (List ℝ × List String × List ℕ) := do
  let s ← System.init.setBox box
  let s ← s.assignAtoms atoms
  let s ← s.findVoronoi T 0 1
  let s ← s.calculateVorovector (5 / 100) (1 / 100)
  let l ← s.getAtoms
  compareEnv t p l

/-- `numpy.unique(atom.neighbors)` (misc.py 143). -/
def uniqueNeighbors (a : Atom) : List ℕ := (a.nbrs.map Nb.idx).dedup.mergeSort fun a b => decide (a ≤ b)

/-- The distances to the distinct neighbours (misc.py 144): `atoms[x]` is IndexError for a neighbour that is not in `sys.atoms`. -/
noncomputable def voidDists (s : System) (l : List Atom) (a : Atom) : Except Fault (List ℝ) :=
  (uniqueNeighbors a).mapM fun x => match l[x]? with
    | some b => .ok (s.getDistance a b)
    | none => .error .indexError

open Classical in
/-- The test for one atom (misc.py 141-151).  The smallest of no distances is IndexError. -/
noncomputable def isVoid (s : System) (l : List Atom) (prec : ℝ) (a : Atom) : Except Fault Bool :=
  if a.vorovector.getD 1 0 = 4 then do
    let ds ← voidDists s l a
    match ds.min? with
    | none => .error .indexError
    | some m => return (ds.countP fun d => decide (m * (1 - prec) ≤ d ∧ d ≤ m * (1 + prec))) == 4
  else .ok false

/-- `[p[0]/boxx, p[1]/boxy, p[2]/boxz]` with `boxx = box[0][1] - box[0][0]` and so on (misc.py 133-136, 154-155): Python floats, a zero
divisor is ZeroDivisionError. -/
noncomputable def directCoords (b : Mat3) (p : V3) : Except Fault V3 :=
  let bx := b.r0.y - b.r0.x
  let by' := b.r1.y - b.r1.x
  let bz := b.r2.y - b.r2.x
  if bx = 0 ∨ by' = 0 ∨ bz = 0 then .error .zeroDivision else .ok ⟨p.x / bx, p.y / by', p.z / bz⟩

/-- The loop over the atoms (misc.py 140-159). -/
noncomputable def voidLoop (s : System) (l : List Atom) (direct : Bool) (prec : ℝ) : List Atom → Except Fault (List (ℤ × ℝ × V3))
  | [] => .ok []
  | a :: as => do
    let v ← isVoid s l prec a
    if v then do
      let p ← if direct then directCoords s.getBox a.pos else .ok a.pos
      let rest ← voidLoop s l direct prec as
      return (a.type, a.volume, p) :: rest
    else voidLoop s l direct prec as

/-- `find_tetrahedral_voids(infile, direct_coordinates, precision)` (misc.py 121-176) from the system after the Voronoi analysis: type,
volume and position of each atom found. -/
noncomputable def System.tetrahedralVoids (s : System) (direct : Bool) (prec : ℝ) : Except Fault (List (ℤ × ℝ × V3)) := do
  let l ← s.getAtoms
  voidLoop s l direct prec l

/-- The whole function (misc.py 121-176), for a file that is read as `atoms` and `box`. -/
noncomputable def findTetrahedralVoids (T : Tessellation) (box : Mat3) (atoms : List Atom) (direct : Bool) (prec : ℝ) :
    Except Fault (List (ℤ × ℝ × V3)) := do
  let s ← System.init.setBox box
  let s ← s.assignAtoms atoms
  let s ← s.findVoronoi T 0 1
  let s ← s.calculateVorovector (5 / 100) (1 / 100)
  s.tetrahedralVoids direct prec

open Classical in
/-- `sys.store_neighbor_info()` (system.cpp 1050-1080): for each atom the lists `next_neighbors` and `next_neighbor_distances`.
Simplification: returned as a list over the atoms instead of being stored in them. -/
noncomputable def System.storeNeighborInfo (s : System) : Except Fault (List (List (List ℕ × List ℝ))) :=
  if s.NbrsInRange then
    .ok (s.atoms.map fun a => a.nbrs.map fun x => ((s.mem x.idx).nbrs.map Nb.idx, (s.mem x.idx).nbrs.map Nb.dist))
  else .error .oob

end Pyscal
