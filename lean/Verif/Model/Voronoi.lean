import Verif.Model.Harmonics
import Verif.Model.OrderParams

/-!
Voronoi neighbours: `find_neighbors(method='voronoi')` (core.py 552-570), `embed_in_cubic_box`,
`get_all_neighbors_voronoi`, `find_average_volume`, `calculate_vorovector`.

Voro++ itself is not modelled: a tessellation is any function from the container and the points put
in it to one optional cell per point.
-/

namespace Pyscal

/-- One face of a cell as Voro++ reports it: the point on the other side, the area, and the numbers of its
vertices in cyclic order (system.cpp 1933-1937). -/
structure VFace where
  nb : ℕ
  area : ℝ
  verts : List ℕ

/-- A cell (`voronoicell_neighbor`): volume, vertices relative to the point, faces (system.cpp
1931-1937). -/
structure VCell where
  volume : ℝ
  vertices : List V3
  faces : List VFace

namespace VCell

/-- `c.face_orders` : number of vertices of each face (system.cpp 1935). -/
def faceOrders (c : VCell) : List ℤ := c.faces.map fun f => (f.verts.length : ℤ)

/-- `c.face_vertices`: for each face the number of its vertices followed by their numbers
(system.cpp 1936). -/
def faceVertices (c : VCell) : List ℕ := c.faces.flatMap fun f => f.verts.length :: f.verts

/-- `c.vertices(x,y,z,v)`: the coordinates in one list.  The code passes uninitialised `x`, `y`, `z` as the
origin added to every vertex (system.cpp 1913, 1937); they are taken to be zero. -/
def flatVertices (c : VCell) : List ℝ := c.vertices.flatMap fun v => [v.x, v.y, v.z]

end VCell

/-- The result of the tessellation of points in a periodic container with given edges; `none` if
`compute_cell` fails for the point (system.cpp 1919-1931). -/
abbrev Tessellation := V3 → List V3 → ℕ → Option VCell

namespace System

/-- `remap_atom` (system.cpp 571-628). -/
noncomputable def remapAtom (s : System) (p : V3) : V3 :=
  if s.triclinic then s.image p
  else
    let f (b d : ℝ) : ℝ := if d < 0 then d + b else if d ≥ b then d - b else d
    ⟨f s.boxx p.x, f s.boxy p.y, f s.boxz p.z⟩

/-- `embed_in_cubic_box` (core.py 1975-2024): the box assigned.  Zero box vectors and `ly = 0` (divisions by
zero) are not modelled. -/
noncomputable def embedBox (b : Mat3) : Mat3 :=
  let na := V3.norm b.r0
  let nb := V3.norm b.r1
  let nc := V3.norm b.r2
  let cosa := V3.dot b.r1 b.r2 / (nb * nc)
  let cosb := V3.dot b.r2 b.r0 / (nc * na)
  let cosc := V3.dot b.r0 b.r1 / (na * nb)
  let lx := na
  let xy := nb * cosc
  let xz := nc * cosb
  let ly := Real.sqrt (nb * nb - xy * xy)
  let yz := (nb * nc * cosa - xy * xz) / ly
  let lz := Real.sqrt (nc * nc - xz * xz - yz * yz)
  let xlo := min (min 0 xy) (min xz (xy + xz))
  let xhi := lx + max (max 0 xy) (max xz (xy + xz))
  let ylo := min 0 yz
  let yhi := ly + max 0 yz
  ⟨⟨xhi - xlo, 0, 0⟩, ⟨0, yhi - ylo, 0⟩, ⟨0, 0, lz⟩⟩

/-- The preparation of a triclinic system (core.py 558-563). -/
noncomputable def voronoiPrepare (s : System) : Except Fault System :=
  if s.triclinic = true ∧ s.ghostsCreated = false then do
    let atoms ← s.getAtoms
    let (s1, l) ← s.repeatAtoms 1 1 1 atoms true true
    let s2 := s1.setAtoms l
    s2.setBox (embedBox s2.box)
  else .ok s

/-- `pow(facearea[i], alpha)`.  An area 0 with a negative exponent gives infinity in C++ and 0 here
(system.cpp 1948, 1993). -/
noncomputable def faceWeight (s : System) (f : VFace) : ℝ := f.area ^ s.alpha

/-- `weightsum` (system.cpp 1946-1949). -/
noncomputable def weightSum (s : System) (c : VCell) : ℝ := (c.faces.map s.faceWeight).sum

/-- The faces kept by the filter (system.cpp 1980-1986).  The test compares the type of the atom with that
of the atom whose number is the *face* number; `none` if that number is out of range. -/
def keptFaces (s : System) (i : ℕ) (c : VCell) : Option (List (ℕ × VFace)) :=
  if s.filter = 0 then some (c.faces.zipIdx.map fun p => (p.2, p.1))
  else if c.faces.length ≤ s.atoms.length then
    some ((c.faces.zipIdx.map fun p => (p.2, p.1)).filter fun p => filterOK s.filter (s.typeOf i) (s.typeOf p.1))
  else none

/-- The neighbour entry of a face (system.cpp 1987-2003).  A weight with `weightsum = 0` is NaN in C++ and
0 here. -/
noncomputable def voronoiNb (s : System) (i : ℕ) (c : VCell) (f : VFace) : Nb :=
  ⟨f.nb, s.distOf i f.nb, s.faceWeight f / s.weightSum c, s.diffOf i f.nb⟩

/-- The loop body for one cell (system.cpp 1931-2006).  Entries are stored at the position of the face while
`n_neighbors` counts the kept faces: if a kept face follows a dropped one, the list read later contains
a slot that was not written (index NILVALUE, read out of bounds by `find_average_volume`). -/
noncomputable def voronoiAtom (s : System) (i : ℕ) (c : VCell) (a : Atom) : Except Fault Atom :=
  match s.keptFaces i c with
  | none => .error .oob
  | some kept =>
    if kept.map Prod.fst = List.range kept.length then
      .ok { a with
        volume := c.volume
        vertexVectors := c.flatVertices
        vertexNumbers := c.faceVertices
        cutoff := some (cbrt (3 * c.volume / (4 * PI)))
        vertexPositions := a.vertexPositions ++ c.vertices.map fun v => v + a.pos
        nbrs := a.nbrs ++ kept.map fun p => s.voronoiNb i c p.2
        faceVertices := kept.map fun p => (p.2.verts.length : ℤ) }
    else .error .oob

/-- `find_average_volume` (system.cpp 2016-2029) for one atom. -/
noncomputable def avgVolume1 (s : System) (a : Atom) : Atom :=
  { a with avgVolume := ((a.nbrs.map fun x => (s.mem x.idx).volume).sum + a.volume) / (a.nbrs.length + 1) }

/-- The loop over all cells (system.cpp 1928-2008).  The order of the cells does not matter: each step reads positions
and types only and writes one atom. -/
noncomputable def voronoiCells (T : Tessellation) (s : System) : Except Fault (List Atom) :=
  let cell := T ⟨s.boxx, s.boxy, s.boxz⟩ (s.atoms.map fun a => s.remapAtom a.pos)
  s.atoms.zipIdx.mapM fun p => match cell p.2 with
    | none => .ok p.1
    | some c => s.voronoiAtom p.2 c p.1

open Classical in
/-- `get_all_neighbors_voronoi` (system.cpp 1896-2013), with the limit of 300 neighbours. -/
noncomputable def neighborsVoronoi (T : Tessellation) (s : System) : Except Fault System := do
  let s := { s with voronoiused := true }
  let atoms ← s.voronoiCells T
  let s ← System.checkCapacity { s with atoms := atoms }
  if s.NbrsInRange then .ok { s with atoms := s.atoms.map s.avgVolume1 } else .error .oob

/-- `find_neighbors(method='voronoi', voroexp=..., filter=...)` (core.py 485-496, 552-572). -/
noncomputable def findVoronoi (T : Tessellation) (s : System) (filter : ℕ) (voroexp : ℤ) : Except Fault System := do
  let s := { s.resetAllNeighbors with filter := filter, alpha := voroexp }
  let backup := s.box
  let s ← s.voronoiPrepare
  let s ← s.neighborsVoronoi T
  let s ← s.setBox backup
  return { s with neighborsFound := true }

end System

/-! ### Voronoi vector -/

/-- `atom.face_vertices` (atom.cpp 334-340): one value per neighbour; slots never written hold -1. -/
def Atom.getFaceVertices (a : Atom) : List ℤ := (List.range a.nbrs.length).map fun i => a.faceVertices.getD i (-1)

/-- The slices `vertex_numbers[st:st+vno]` (core.py 669-671, 689). -/
def faceSlices (nums : List ℕ) : ℕ → List ℤ → List (List ℕ)
  | _, [] => []
  | st, v :: vs => ((nums.drop st).take v.toNat) :: faceSlices nums (st + (v + 1).toNat) vs

/-- The pairs `(vphase[i], vphase[i+1])` for `i` from -1 (core.py 676-680). -/
def cyclicPairs (l : List ℕ) : List (ℕ × ℕ) := match l.getLast? with
  | none => []
  | some x => (x :: l.dropLast).zip l

/-- `vertex_vectors[3*v:3*v+3]` and its three components (core.py 679-683). -/
def vertexAt (vv : List ℝ) (v : ℕ) : Except Fault V3 := match (vv.drop (v * 3)).take 3 with
  | [x, y, z] => .ok ⟨x, y, z⟩
  | _ => .error .indexError

/-- The length of one edge (core.py 679-683). -/
noncomputable def edgeLength (vv : List ℝ) (p : ℕ × ℕ) : Except Fault ℝ := do
  let i ← vertexAt vv p.1
  let j ← vertexAt vv p.2
  return Real.sqrt ((i.x - j.x) ^ 2 + (i.y - j.y) ^ 2 + (i.z - j.z) ^ 2)

/-- `len([... for x in ed/np.sum(ed) if x > edge_cutoff])` (core.py 694, 698). -/
noncomputable def longEdges (ed : List ℝ) (cut : ℝ) : ℕ :=
  (ed.filterMap fun x => fdiv x ed.sum).countP fun x => decide (x > cut)

/-- `refined_edges` (core.py 692-699). -/
noncomputable def refinedEdges (w : List ℝ) (eds : List (List ℝ)) (edgeCut areaCut : ℝ) : List ℕ :=
  ((eds.zip w).filter fun p => decide (p.2 > areaCut)).map fun p => longEdges p.1 edgeCut

/-- The loop body of `calculate_vorovector` (core.py 662-713). -/
noncomputable def vorovector1 (edgeCut areaCut : ℝ) (a : Atom) : Except Fault Atom := do
  let eds ← (faceSlices a.vertexNumbers 1 a.getFaceVertices).mapM fun vp => (cyclicPairs vp).mapM (edgeLength a.vertexVectors)
  let r := refinedEdges (a.nbrs.map Nb.weight) eds edgeCut areaCut
  return { a with vorovector := [r.count 3, r.count 4, r.count 5, r.count 6] }

/-- `calculate_vorovector(edge_cutoff, area_cutoff)` (core.py 623-714). -/
noncomputable def System.calculateVorovector (s : System) (edgeCut areaCut : ℝ) : Except Fault System := do
  let atoms ← s.getAtoms
  let new ← atoms.mapM (vorovector1 edgeCut areaCut)
  s.assignAtoms new

end Pyscal
