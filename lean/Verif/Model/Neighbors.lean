import Verif.Model.Store
import Mathlib.Analysis.SpecialFunctions.Pow.Real
import Mathlib.Algebra.Order.Floor.Ring

/-!
Neighbour searches: system.cpp 435-1300 and `find_neighbors` (core.py 392-572).

Conventions.
* `atoms[]` is a memory `Mem := ℕ → Atom`; a loop body writes with `Function.update`.
* Loops run over the stored atoms (`nop` equals the number of stored atoms unless ghosts were
  added to a system without ghosts, see C07; the code then reads out of bounds).
* Positions and types are not written by any of these loops, so they are read from the state
  at the start of the loop.
* `std::sort` with `by_dist` is an arbitrary function returning a sorted permutation.
-/

namespace Pyscal

/-- Any implementation of `sort(temp.begin(), temp.end(), by_dist())` (atom.h 31-35). -/
structure StdSort where
  sort : List DAtom → List DAtom
  perm : ∀ l, (sort l).Perm l
  sorted : ∀ l, (sort l).Pairwise (fun a b => a.dist ≤ b.dist)

/-- The array of atoms as a memory.  Model device for `Atom* atoms` (system.h 40-60). -/
abbrev Mem := ℕ → Atom

namespace System

/-- The atoms as a memory.  Model device, no code. -/
def mem (s : System) : Mem := fun k => s.atoms.getD k default

/-- Write a memory back.  Model device, no code. -/
def ofMem (s : System) (m : Mem) : System :=
  { s with atoms := (List.range s.atoms.length).map m }

/-- Position of atom `i` (`atoms[ti].posx` and so on, system.cpp 376-380). -/
def posOf (s : System) (i : ℕ) : V3 := (s.mem i).pos

/-- Type of atom `i` (`atoms[ti].type`, system.cpp 737-741). -/
def typeOf (s : System) (i : ℕ) : ℤ := (s.mem i).type

/-- `get_abs_distance(ti, tj, ...)` (system.cpp 245-303). -/
noncomputable def distOf (s : System) (i j : ℕ) : ℝ := s.distIdx (s.posOf i) (s.posOf j)

/-- The vector computed by `get_abs_distance(ti, tj, diffx, diffy, diffz)` (system.cpp 245-303). -/
noncomputable def diffOf (s : System) (i j : ℕ) : V3 := s.diffIdx (s.posOf i) (s.posOf j)

end System

/-- The index pairs visited by `for ti, for tj = ti.., skip ti == tj` (system.cpp 735-737). -/
def pairs (n : ℕ) : List (ℕ × ℕ) :=
  (List.range n).flatMap fun i => ((List.range n).filter fun j => i < j).map fun j => (i, j)

/-- The type filter (system.cpp 741-746): `filter == 1` drops unlike types, `filter == 2` drops
equal types. -/
def filterOK (filter : ℕ) (ti tj : ℤ) : Bool :=
  !(filter == 1 && ti != tj) && !(filter == 2 && ti == tj)

/-- Write the next free neighbour slot (system.cpp 783-809). -/
def Atom.pushNb (a : Atom) (x : Nb) : Atom := { a with nbrs := a.nbrs ++ [x] }

/-- Write the next free neighbour slot and the cutoff (system.cpp 748-760). -/
def Atom.pushNbCut (nd : ℝ) (a : Atom) (x : Nb) : Atom :=
  { a with nbrs := a.nbrs ++ [x], cutoff := some nd }

/-- `temp_neighbors.emplace_back` (system.cpp 828). -/
def Atom.pushTemp (a : Atom) (x : DAtom) : Atom := { a with temp := a.temp ++ [x] }

/-- A loop over index pairs that appends one item to each of the two atoms of a hit (the loops of
system.cpp 651-720, 725-781, 811-905). -/
def pairLoop {τ : Type} (add : Atom → τ → Atom) (hit : ℕ → ℕ → Option (τ × τ))
    (ps : List (ℕ × ℕ)) (m : Mem) : Mem :=
  ps.foldl (fun m p =>
    match hit p.1 p.2 with
    | none => m
    | some (x, y) =>
      let m1 := Function.update m p.1 (add (m p.1) x)
      Function.update m1 p.2 (add (m1 p.2) y)) m

open Classical in
/-- What the body of the cutoff loop finds for a pair (system.cpp 739-774, 674-710): distance
strictly below the cutoff and types passing the filter; the second atom gets the negated
vector. -/
noncomputable def cutoffHit (s : System) (i j : ℕ) : Option (Nb × Nb) :=
  let d := s.distOf i j
  let v := s.diffOf i j
  if d < s.neighbordistance then
    if filterOK s.filter (s.typeOf i) (s.typeOf j) then
      some (⟨j, d, 1, v⟩, ⟨i, d, 1, -v⟩)
    else none
  else none

open Classical in
/-- Body of the candidate loop with `<=` (system.cpp 825-831). -/
noncomputable def tempHitLe (s : System) (i j : ℕ) : Option (DAtom × DAtom) :=
  if s.distOf i j ≤ s.neighbordistance then some (⟨s.distOf i j, j⟩, ⟨s.distOf i j, i⟩) else none

open Classical in
/-- Body of the cell-list candidate loop with `<` (system.cpp 866-872). -/
noncomputable def tempHitLt (s : System) (i j : ℕ) : Option (DAtom × DAtom) :=
  if s.distOf i j < s.neighbordistance then some (⟨s.distOf i j, j⟩, ⟨s.distOf i j, i⟩) else none

/-! ### Cell lists -/

/-- C++ conversion of a double to int: truncation towards zero (system.cpp 497-499, 536-560). -/
noncomputable def truncZ (x : ℝ) : ℤ := if 0 ≤ x then ⌊x⌋ else ⌈x⌉

/-- `cell_index` (system.cpp 485-487). -/
def cellIndex (ny nz cx cy cz : ℤ) : ℤ := cx * ny * nz + cy * nz + cz

/-- One component of `cell_periodic` (system.cpp 630-644). -/
def cellPeriodic (n i : ℤ) : ℤ := if i < 0 then i + n else if i > n - 1 then i - n else i

/-- The coordinate used for binning: snap to 0 within 1e-6, then one wrap into the box
(system.cpp 537-554). -/
noncomputable def binCoord (L x : ℝ) : ℝ :=
  let d := if |x - 0| < 1e-6 then 0 else x
  if d < 0 then d + L else if d ≥ L then d - L else d

/-- Number of cells along an axis (system.cpp 497-499). -/
noncomputable def cellCount (L nd : ℝ) : ℤ := truncZ (L / nd)

/-- Cell coordinate of an atom along an axis (system.cpp 501-503, 557-559). -/
noncomputable def cellCoord (L : ℝ) (n : ℤ) (x : ℝ) : ℤ := truncZ (binCoord L x / (L / n))

namespace System

/-- `nx, ny, nz` (system.cpp 497-499). -/
noncomputable def nx (s : System) : ℤ := cellCount s.boxx s.neighbordistance
/-- See `nx` (system.cpp 497-499). -/
noncomputable def ny (s : System) : ℤ := cellCount s.boxy s.neighbordistance
/-- See `nx` (system.cpp 497-499). -/
noncomputable def nz (s : System) : ℤ := cellCount s.boxz s.neighbordistance

/-- Cell index of atom `i` (system.cpp 536-562). -/
noncomputable def atomCell (s : System) (i : ℕ) : ℤ :=
  let p := s.posOf i
  cellIndex s.ny s.nz (cellCoord s.boxx s.nx p.x) (cellCoord s.boxy s.ny p.y)
    (cellCoord s.boxz s.nz p.z)

/-- Members of the cell with index `c`, in the order they are added (system.cpp 534-567). -/
noncomputable def members (s : System) (c : ℤ) : List ℕ :=
  (List.range s.atoms.length).filter fun i => s.atomCell i = c

end System

/-- `for (int i = lo; i < hi; i++)` (system.cpp 510-560). -/
def intRange (lo hi : ℤ) : List ℤ := (List.range (hi - lo).toNat).map fun (t : ℕ) => lo + t

/-- All cells in the order of the loops (system.cpp 510-512); this is also the order of the
cell indices. -/
def allCells (nx ny nz : ℤ) : List (ℤ × ℤ × ℤ) :=
  (intRange 0 nx).flatMap fun i => (intRange 0 ny).flatMap fun j => (intRange 0 nz).map fun k => (i, j, k)

/-- Indices of the 27 cells around a cell (system.cpp 514-524). -/
def neighborCells (nx ny nz : ℤ) (c : ℤ × ℤ × ℤ) : List ℤ :=
  (intRange (c.1 - 1) (c.1 + 2)).flatMap fun si =>
    (intRange (c.2.1 - 1) (c.2.1 + 2)).flatMap fun sj =>
      (intRange (c.2.2 - 1) (c.2.2 + 2)).map fun sk =>
        cellIndex ny nz (cellPeriodic nx si) (cellPeriodic ny sj) (cellPeriodic nz sk)

open Classical in
/-- The pairs `(ti, tj)`, `ti < tj`, compared by the cell loops, in order
(system.cpp 660-673, 852-865).  A cell count that is not positive makes the code allocate an
array of non-positive size (and divide by zero), and an atom whose cell index falls outside the
array writes out of bounds: both are `oob`. -/
noncomputable def System.cellPairs (s : System) : Except Fault (List (ℕ × ℕ)) :=
  if s.nx ≤ 0 ∨ s.ny ≤ 0 ∨ s.nz ≤ 0 then .error .oob
  else if ∃ i < s.atoms.length, s.atomCell i < 0 ∨ s.nx * s.ny * s.nz ≤ s.atomCell i then .error .oob
  else .ok <|
    (allCells s.nx s.ny s.nz).flatMap fun c =>
      (s.members (cellIndex s.ny s.nz c.1 c.2.1 c.2.2)).flatMap fun ti =>
        (neighborCells s.nx s.ny s.nz c).flatMap fun sub =>
          ((s.members sub).filter fun tj => ti < tj).map fun tj => (ti, tj)

/-! ### The searches -/

namespace System

/-- `reset_all_neighbors` (system.cpp 435-448). -/
def resetAllNeighbors (s : System) : System :=
  { s with atoms := s.atoms.map fun a => { a with nbrs := [], temp := [], condition := some 0 } }

/-- `reset_main_neighbors` (system.cpp 450-463). -/
def resetMainNeighbors (s : System) : System :=
  { s with atoms := s.atoms.map fun a => { a with nbrs := [], condition := some 0 } }

/-- `get_all_neighbors_normal` (system.cpp 725-781). -/
noncomputable def neighborsNormal (s : System) : System :=
  let s := { s with voronoiused := false }
  s.ofMem (pairLoop (Atom.pushNbCut s.neighbordistance) (cutoffHit s) (pairs s.atoms.length) s.mem)

/-- `get_all_neighbors_cells` (system.cpp 647-721). -/
noncomputable def neighborsCells (s : System) : Except Fault System := do
  let s := { s with voronoiused := false }
  let ps ← s.cellPairs
  return s.ofMem (pairLoop (Atom.pushNbCut s.neighbordistance) (cutoffHit s) ps s.mem)

/-- `get_temp_neighbors_brute` (system.cpp 815-835). -/
noncomputable def tempBrute (s : System) : System :=
  s.ofMem (pairLoop Atom.pushTemp (tempHitLe s) (pairs s.atoms.length) s.mem)

/-- `get_temp_neighbors_cells` (system.cpp 841-881). -/
noncomputable def tempCells (s : System) : Except Fault System := do
  let ps ← s.cellPairs
  return s.ofMem (pairLoop Atom.pushTemp (tempHitLt s) ps s.mem)

end System

/-- `cbrt` (C library, called in system.cpp 929, 1130, 1229, 1956). -/
noncomputable def cbrt (x : ℝ) : ℝ := if 0 ≤ x then x ^ (1 / 3 : ℝ) else -((-x) ^ (1 / 3 : ℝ))

namespace System

/-- Box volume used for the guess (system.cpp 907-923): signed triple product of the columns of
`rot` in triclinic mode, product of the edge lengths otherwise. -/
noncomputable def boxVol (s : System) : ℝ :=
  if s.triclinic then
    let a1 := s.rot.r0.x
    let a2 := s.rot.r1.x
    let a3 := s.rot.r2.x
    let b1 := s.rot.r0.y
    let b2 := s.rot.r1.y
    let b3 := s.rot.r2.y
    let c1 := s.rot.r0.z
    let c2 := s.rot.r1.z
    let c3 := s.rot.r2.z
    c1 * (a2 * b3 - a3 * b2) - c2 * (a1 * b3 - b1 * a3) + c3 * (a1 * b2 - a2 * b1)
  else s.boxx * s.boxy * s.boxz

/-- `guessdist` (system.cpp 926-933); with no atoms the code divides by zero, but then no loop
runs. -/
noncomputable def guessDist (s : System) (prefactor : ℝ) : ℝ :=
  prefactor * cbrt (s.boxVol / s.atoms.length)

/-- The common beginning of the three candidate based searches: guess a distance and fill the
candidate lists (system.cpp 907-940, 1101-1139, 1203-1246). -/
noncomputable def fillTemp (s : System) (prefactor : ℝ) : Except Fault System :=
  let s := { s with neighbordistance := s.guessDist prefactor }
  if s.usecells then s.tempCells else .ok s.tempBrute

/-- The neighbour entry made by `process_neighbor(ti, tj)` (system.cpp 783-809). -/
noncomputable def mkNb (s : System) (i j : ℕ) : Nb := ⟨j, s.distOf i j, 1, s.diffOf i j⟩

/-- Loop of `get_all_neighbors_bynumber` (system.cpp 941-957); the Boolean is the return value,
an early `return 0` leaves the atoms done so far. -/
noncomputable def byNumberLoop (σ : StdSort) (s : System) (nns : ℕ) (assign : Bool) :
    List ℕ → Mem → Mem × Bool
  | [], m => (m, true)
  | i :: is, m =>
    if (m i).temp.length < nns then (m, false)
    else
      let t := σ.sort (m i).temp
      let a : Atom := { m i with temp := t }
      let a := if assign then (t.take nns).foldl (fun a x => a.pushNb (s.mkNb i x.idx)) a else a
      byNumberLoop σ s nns assign is (Function.update m i a)

/-- `get_all_neighbors_bynumber` (system.cpp 882-963).  `nns` is a natural number; a negative
value is converted to a huge unsigned one by the comparison and makes the search fail. -/
noncomputable def neighborsByNumber (σ : StdSort) (s : System) (prefactor : ℝ) (nns : ℕ) (assign : Bool) :
    Except Fault (System × Bool) := do
  let s ← { s with voronoiused := false }.fillTemp prefactor
  let r := byNumberLoop σ s nns assign (List.range s.atoms.length) s.mem
  return (s.ofMem r.1, r.2)

/-- `dcut = padding*(1.0/float(nlimit))*summ` (system.cpp 1262-1266). -/
noncomputable def adaptiveCut (padding : ℝ) (nlimit : ℕ) (t : List DAtom) : ℝ :=
  padding * (1 / (nlimit : ℝ)) * ((t.take nlimit).map DAtom.dist).sum

open Classical in
/-- Loop of `get_all_neighbors_adaptive` (system.cpp 1252-1296). -/
noncomputable def adaptiveLoop (σ : StdSort) (s : System) (nlimit : ℕ) (padding : ℝ) :
    List ℕ → Mem → Mem × Bool
  | [], m => (m, true)
  | i :: is, m =>
    if (m i).temp.length < nlimit then (m, false)
    else
      let t := σ.sort (m i).temp
      let dcut := adaptiveCut padding nlimit t
      let a : Atom := { m i with temp := t }
      let a := t.foldl (fun a x =>
        if x.dist < dcut then
          if filterOK s.filter (s.typeOf i) (s.typeOf x.idx) then a.pushNbCut dcut (s.mkNb i x.idx) else a
        else a) a
      adaptiveLoop σ s nlimit padding is (Function.update m i a)

/-- `get_all_neighbors_adaptive` (system.cpp 1196-1300).  `voronoiused` is not reset. -/
noncomputable def neighborsAdaptive (σ : StdSort) (s : System) (prefactor : ℝ) (nlimit : ℕ)
    (padding : ℝ) : Except Fault (System × Bool) := do
  let s ← s.fillTemp prefactor
  let r := adaptiveLoop σ s nlimit padding (List.range s.atoms.length) s.mem
  return (s.ofMem r.1, r.2)

end System

open Classical in
/-- The `while` loop of the SANN search for one atom (system.cpp 1159-1172) on its sorted
candidate list `t`: `acc` are the candidates selected so far.  After `m = m+1` the code reads
`temp_neighbors[m]`, which is out of bounds when `m` reaches the size. -/
noncomputable def sannGo (t : List DAtom) (m : ℕ) (summ dcut : ℝ) (acc : List DAtom) (cut : Option ℝ) :
    Except Fault (ℕ × List DAtom × Option ℝ) :=
  if h : m < t.length then
    if dcut ≥ t[m].dist then
      if h' : m + 1 < t.length then
        let x := t[m + 1]
        let summ' := summ + x.dist
        let dcut' := summ' / ((m + 1 - 2 : ℕ) : ℝ)
        sannGo t (m + 1) summ' dcut' (acc ++ [x]) (some dcut')
      else .error .oob
    else .ok (m, acc, cut)
  else .ok (m, acc, cut)
termination_by t.length - m

/-- The selection made for one atom (system.cpp 1146-1172); `cut` is the previous cutoff, which
is only overwritten inside the loop. -/
noncomputable def sannSelect (t : List DAtom) (cut : Option ℝ) : Except Fault (ℕ × List DAtom × Option ℝ) :=
  let summ := ((t.take 3).map DAtom.dist).sum
  sannGo t 3 summ (summ / 1) (t.take 3) cut

namespace System

/-- Loop of `get_all_neighbors_sann` (system.cpp 1141-1184).  The filter is not consulted. -/
noncomputable def sannLoop (σ : StdSort) (s : System) : List ℕ → Mem → Except Fault (Mem × Bool)
  | [], m => .ok (m, true)
  | i :: is, m =>
    if (m i).temp.length < 3 then .ok (m, false)
    else do
      let t := σ.sort (m i).temp
      let (mm, sel, cut) ← sannSelect t (m i).cutoff
      let a : Atom := { m i with temp := t, cutoff := cut }
      let a := sel.foldl (fun a x => a.pushNb (s.mkNb i x.idx)) a
      let m' := Function.update m i a
      if mm = t.length then .ok (m', false) else sannLoop σ s is m'

/-- `get_all_neighbors_sann` (system.cpp 1081-1192). -/
noncomputable def neighborsSann (σ : StdSort) (s : System) (prefactor : ℝ) :
    Except Fault (System × Bool) := do
  let s ← { s with voronoiused := false }.fillTemp prefactor
  let r ← sannLoop σ s (List.range s.atoms.length) s.mem
  return (s.ofMem r.1, r.2)

/-- The retries of `find_neighbors(cutoff='sann')` (core.py 503-517): thresholds `threshold * i`
for the listed `i`, resetting before each. -/
noncomputable def sannRetry (σ : StdSort) (threshold : ℝ) : List ℕ → System → Except Fault System
  | [], _ => .error .runtimeError
  | i :: is, s => do
    let (s', ok) ← s.resetAllNeighbors.neighborsSann σ (threshold * i)
    if ok then return s' else sannRetry σ threshold is s'

end System

/-- The arguments selecting a neighbour search (core.py 392-395).  The Voronoi method is in
`Model/Voronoi`. -/
inductive Method where
  | cutoff (r : ℝ)
  | adaptive (threshold : ℝ) (nlimit : ℕ) (padding : ℝ)
  | sann (threshold : ℝ)
  | number (threshold : ℝ) (nmax : ℕ) (assign : Bool)

open Classical in
/-- The fixed neighbour arrays hold 300 entries (atom.h 21, 103-112). -/
noncomputable def System.checkCapacity (s : System) : Except Fault System :=
  if ∃ a ∈ s.atoms, a.nbrs.length > 300 then .error .oob else .ok s

/-- The branch `cutoff == 'adaptive' or cutoff == 0` (core.py 521-531). -/
noncomputable def System.searchAdaptive (σ : StdSort) (s : System) (threshold : ℝ) (nlimit : ℕ)
    (padding : ℝ) : Except Fault System :=
  if threshold < 1 then .error .valueError
  else do
    let s := { s with usecells := decide (s.nop > 4000) }
    let (s', ok) ← s.neighborsAdaptive σ threshold nlimit padding
    if ok then return s' else .error .runtimeError

/-- The branch with a numeric cutoff (core.py 532-539). -/
noncomputable def System.searchCutoff (s : System) (r : ℝ) : Except Fault System := do
  let s := { s with neighbordistance := r }
  let l ← s.getAtoms
  if l.length > 2300 then s.neighborsCells else return s.neighborsNormal

/-- The branch `cutoff == 'sann'` (core.py 497-520). -/
noncomputable def System.searchSann (σ : StdSort) (s : System) (threshold : ℝ) :
    Except Fault System :=
  if threshold < 1 then .error .valueError
  else do
    let l ← s.getAtoms
    let s := { s with usecells := decide (l.length > 4000) }
    let (s', ok) ← s.neighborsSann σ threshold
    if ok then return s' else s'.sannRetry σ threshold [1, 2, 3, 4, 5, 6, 7, 8, 9]

/-- The branch `method == 'number'` (core.py 541-548). -/
noncomputable def System.searchNumber (σ : StdSort) (s : System) (threshold : ℝ) (nmax : ℕ)
    (assign : Bool) : Except Fault System :=
  if threshold < 1 then .error .valueError
  else do
    let l ← s.getAtoms
    let s := { s with usecells := decide (l.length > 4000) }
    let (s', ok) ← s.neighborsByNumber σ threshold nmax assign
    if ok then return s' else .error .runtimeError

/-- The search selected by the arguments (core.py 496-548), without the reset and the final
flag.  A numeric cutoff 0 selects the adaptive search, here with the default arguments
`threshold=2, nlimit=6, padding=1.2` (core.py 392-394). -/
noncomputable def System.search (σ : StdSort) (s : System) : Method → Except Fault System
  | .cutoff r => if r = 0 then s.searchAdaptive σ 2 6 1.2 else s.searchCutoff r
  | .adaptive threshold nlimit padding => s.searchAdaptive σ threshold nlimit padding
  | .sann threshold => s.searchSann σ threshold
  | .number threshold nmax assign => s.searchNumber σ threshold nmax assign

/-- `find_neighbors(method, filter=...)` (core.py 392-572).  `filter` is 0 (None), 1 ('type') or
2 ('type_r').  On an exception only the exception is returned. -/
noncomputable def System.findNeighbors (σ : StdSort) (s : System) (filter : ℕ) (meth : Method) :
    Except Fault System := do
  let s := { s.resetAllNeighbors with filter := filter }
  let s ← s.search σ meth
  let s ← s.checkCapacity
  return { s with neighborsFound := true }

end Pyscal
