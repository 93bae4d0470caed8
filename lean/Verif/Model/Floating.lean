import Verif.Model.OrderParams

/-!
Distances and the direct neighbour search with floating-point numbers: every operation is followed by the rounding `fl`.  Sums are rounded from left to right, as written in
the code (a compiler that contracts products and sums to one operation is not modelled).
-/

namespace Pyscal

/-- One coordinate of the nearest-image step, rounded (system.cpp 294-295). -/
noncomputable def flWrap (fl : ℝ → ℝ) (b d : ℝ) : ℝ :=
  let d1 := if d > fl (b / 2) then fl (d - b) else d
  if d1 < fl (-b / 2) then fl (d1 + b) else d1

/-- The raw difference of two positions, rounded (system.cpp 248-250, 309-311). -/
def flSub (fl : ℝ → ℝ) (p q : V3) : V3 := ⟨fl (p.x - q.x), fl (p.y - q.y), fl (p.z - q.z)⟩

/-- A matrix times a vector, rounded (system.cpp 255-257, 279-281). -/
def flMulVec (fl : ℝ → ℝ) (m : Mat3) (v : V3) : V3 := ⟨flDot fl m.r0 v, flDot fl m.r1 v, flDot fl m.r2 v⟩

/-- The displacement computed from a raw difference of positions, rounded (system.cpp 252-301); the box lengths are computed as in system.cpp 82-95. -/
noncomputable def System.flImage (fl : ℝ → ℝ) (s : System) (diff : V3) : V3 :=
  let bx := flNorm fl s.box.r0
  let bz := flNorm fl s.box.r2
  let by' := flNorm fl s.box.r1
  if s.triclinic then
    let a := flMulVec fl s.rotinv diff
    let dx := flWrap fl bx (fl (a.x * bx))
    let dy := flWrap fl by' (fl (a.y * by'))
    let dz := flWrap fl bz (fl (a.z * bz))
    flMulVec fl s.rot ⟨fl (dx / bx), fl (dy / by'), fl (dz / bz)⟩
  else
    ⟨flWrap fl bx diff.x, flWrap fl by' diff.y, flWrap fl bz diff.z⟩

/-- `System.get_distance(atom1, atom2, vector=True)[1]`, rounded (core.py 362-389, system.cpp 369-432). -/
noncomputable def System.flDistanceVector (fl : ℝ → ℝ) (s : System) (a b : Atom) : V3 := s.flImage fl (flSub fl a.pos b.pos)

/-- `System.get_distance(atom1, atom2)`, rounded (core.py 362-389, system.cpp 306-366). -/
noncomputable def System.flDistance (fl : ℝ → ℝ) (s : System) (a b : Atom) : ℝ := flNorm fl (s.flDistanceVector fl a b)

open Classical in
/-- The body of the cutoff loop, rounded (system.cpp 739-774). -/
noncomputable def flCutoffHit (fl : ℝ → ℝ) (s : System) (i j : ℕ) : Option (Nb × Nb) :=
  let v := s.flImage fl (flSub fl (s.posOf j) (s.posOf i))
  let d := flNorm fl v
  if d < s.neighbordistance then
    if filterOK s.filter (s.typeOf i) (s.typeOf j) then
      some (⟨j, d, 1, v⟩, ⟨i, d, 1, -v⟩)
    else none
  else none

/-- `get_all_neighbors_normal`, rounded (system.cpp 725-781). -/
noncomputable def System.flNeighborsNormal (fl : ℝ → ℝ) (s : System) : System :=
  let s := { s with voronoiused := false }
  s.ofMem (pairLoop (Atom.pushNbCut s.neighbordistance) (flCutoffHit fl s) (pairs s.atoms.length) s.mem)

/-- `find_neighbors(method='cutoff', cutoff=r, filter=...)` with at most 2300 atoms, rounded (core.py 392-572). -/
noncomputable def System.flFindNeighbors (fl : ℝ → ℝ) (s : System) (filter : ℕ) (r : ℝ) : Except Fault System := do
  let s := { s.resetAllNeighbors with filter := filter, neighbordistance := r }
  let _ ← s.getAtoms
  let s ← (s.flNeighborsNormal fl).checkCapacity
  return { s with neighborsFound := true }

end Pyscal
