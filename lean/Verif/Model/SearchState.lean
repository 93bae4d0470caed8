import Verif.Model.Cna
import Verif.Model.Solids

/-! `find_neighbors` with the state it leaves when it raises. -/

namespace Pyscal

namespace System

/-- Result of a search of the C++ part: an out-of-bounds access has no meaningful state (the state before
is returned), a `return 0` leaves what was done so far and makes core.py raise RuntimeError
(core.py 524, 535, 552). -/
def finishSearch (s : System) : Except Fault (System × Bool) → System × Except Fault Unit
  | .error e => (s, .error e)
  | .ok (s', true) => (s', .ok ())
  | .ok (s', false) => (s', .error .runtimeError)

/-- The branch `cutoff == 'adaptive' or cutoff == 0` (core.py 527-535). -/
noncomputable def searchAdaptiveS (σ : StdSort) (threshold : ℝ) (nlimit : ℕ) (padding : ℝ) : Py Unit := fun s =>
  if threshold < 1 then (s, .error .valueError)
  else
    let s := { s with usecells := decide (s.nop > 4000) }
    s.finishSearch (s.neighborsAdaptive σ threshold nlimit padding)

/-- The branch with a numeric cutoff (core.py 536-543). -/
noncomputable def searchCutoffS (r : ℝ) : Py Unit := fun s =>
  let s := { s with neighbordistance := r }
  match s.getAtoms with
  | .error e => (s, .error e)
  | .ok l =>
    if l.length > 2300 then
      match s.neighborsCells with
      | .error e => (s, .error e)
      | .ok s' => (s', .ok ())
    else (s.neighborsNormal, .ok ())

/-- The retries of the SANN search (core.py 511-526); after the last one the state of that attempt stays. -/
noncomputable def sannRetryS (σ : StdSort) (threshold : ℝ) : List ℕ → Py Unit
  | [] => fun s => (s, .error .runtimeError)
  | i :: is => fun s =>
    match s.resetAllNeighbors.neighborsSann σ (threshold * i) with
    | .error e => (s, .error e)
    | .ok (s', true) => (s', .ok ())
    | .ok (s', false) => sannRetryS σ threshold is s'

/-- The branch `cutoff == 'sann'` (core.py 505-526). -/
noncomputable def searchSannS (σ : StdSort) (threshold : ℝ) : Py Unit := fun s =>
  if threshold < 1 then (s, .error .valueError)
  else
    match s.getAtoms with
    | .error e => (s, .error e)
    | .ok l =>
      let s := { s with usecells := decide (l.length > 4000) }
      match s.neighborsSann σ threshold with
      | .error e => (s, .error e)
      | .ok (s', true) => (s', .ok ())
      | .ok (s', false) => sannRetryS σ threshold [1, 2, 3, 4, 5, 6, 7, 8, 9] s'

/-- The branch `method == 'number'` (core.py 545-552). -/
noncomputable def searchNumberS (σ : StdSort) (threshold : ℝ) (nmax : ℕ) (assign : Bool) : Py Unit := fun s =>
  if threshold < 1 then (s, .error .valueError)
  else
    match s.getAtoms with
    | .error e => (s, .error e)
    | .ok l =>
      let s := { s with usecells := decide (l.length > 4000) }
      s.finishSearch (s.neighborsByNumber σ threshold nmax assign)

/-- The search selected by the arguments (core.py 504-552). -/
noncomputable def searchS (σ : StdSort) : Method → Py Unit
  | .cutoff r => if r = 0 then searchAdaptiveS σ 2 6 1.2 else searchCutoffS r
  | .adaptive threshold nlimit padding => searchAdaptiveS σ threshold nlimit padding
  | .sann threshold => searchSannS σ threshold
  | .number threshold nmax assign => searchNumberS σ threshold nmax assign

/-- `find_neighbors(method, filter=...)` (core.py 494-572) with the state after an exception: the neighbours
are cleared and the filter is set before the arguments are looked at, and `neighbors_found` is only written at
the end. -/
noncomputable def findNeighborsS (σ : StdSort) (filter : ℕ) (meth : Method) : Py Unit := fun s =>
  match searchS σ meth { s.resetAllNeighbors with filter := filter } with
  | (s1, .error e) => (s1, .error e)
  | (s1, .ok ()) =>
    match s1.checkCapacity with
    | .error e => (s1, .error e)
    | .ok s2 => ({ s2 with neighborsFound := true }, .ok ())

/-- `find_diamond_neighbors` (core.py 574-600) with the state after an exception. -/
noncomputable def findDiamondNeighborsS (σ : StdSort) : Py Unit := fun s =>
  match findNeighborsS σ 0 (.number 2 4 false) s.resetNeighbors with
  | (s1, .error e) => (s1, .error e)
  | (s1, .ok ()) =>
    match s1.diamondNeighbors with
    | .error e => (s1, .error e)
    | .ok s2 => (s2, .ok ())

end System

end Pyscal
