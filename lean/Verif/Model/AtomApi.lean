import Verif.Model.System
import Verif.Model.Harmonics

/-!
The Python class `Atom` (atom.h, atom.cpp, atom_binding.cpp): its arrays with 300 slots, the getters and setters,
and the table of attributes registered with pybind11.
-/

namespace Pyscal

/-- Python values accepted or returned by the attributes (pybind11/stl.h conversions).
Simplification: `custom` dictionaries hold strings. -/
inductive Value where
  | int (v : ℤ)
  | flt (v : ℝ)
  | bool (v : Bool)
  | ints (v : List ℤ)
  | flts (v : List ℝ)
  | ints2 (v : List (List ℤ))
  | flts2 (v : List (List ℝ))
  | dict (v : List (String × String))

/-- The C++ type of a member or of the argument of a setter. -/
inductive Kind where
  | int | flt | bool | ints | flts | ints2 | flts2 | dict
  deriving DecidableEq

/-- The kind of a value.  Simplification: implicit conversions of pybind11 (an `int` given for a `float`)
are not modelled; a value of another kind is refused. -/
def Value.kind : Value → Kind
  | .int _ => .int
  | .flt _ => .flt
  | .bool _ => .bool
  | .ints _ => .ints
  | .flts _ => .flts
  | .ints2 _ => .ints2
  | .flts2 _ => .flts2
  | .dict _ => .dict

/-- MAXNUMBEROFNEIGHBORS (atom.h 21). -/
def maxNeighbors : ℕ := 300

/-- The memory of one `Atom` object (atom.h 74-247).  Arrays are functions of the slot; only the first 300 (neighbour
arrays) or 11 (`q`, `aq`) slots exist.  Members exposed with `def_readwrite` are `fields`, by C++ name. -/
structure RawAtom where
  x : ℝ
  y : ℝ
  z : ℝ
  n : ℕ
  neighbors : ℕ → ℤ
  dist : ℕ → ℝ
  weight : ℕ → ℝ
  vec : ℕ → V3
  phi : ℕ → ℝ
  theta : ℕ → ℝ
  sij : ℕ → ℝ
  q : ℕ → ℝ
  aq : ℕ → ℝ
  qlm : ℕ → ℕ → ℝ × ℝ
  aqlm : ℕ → ℕ → ℝ × ℝ
  faceVertices : ℕ → ℤ
  facePerimeters : ℕ → ℝ
  edgeLengths : List (List ℝ)
  vertexPositions : List (List ℝ)
  n3 : ℤ
  n4 : ℤ
  n5 : ℤ
  n6 : ℤ
  fields : String → Value

namespace RawAtom

/-- `Atom(pos, id, type)` (atom.cpp 14-63).  `junk` is the content of the memory before the constructor runs; members
that the constructor does not write keep it.  A position with fewer than three entries is read out of bounds;
further entries are ignored. -/
def new (junk : RawAtom) (pos : List ℝ) (id typ : ℤ) : Except Fault RawAtom :=
  match pos with
  | x :: y :: z :: _ => .ok { junk with
      x := x, y := y, z := z, n := 0
      neighbors := fun _ => -1, dist := fun _ => -1, weight := fun _ => -1, sij := fun _ => -1
      faceVertices := fun _ => -1, facePerimeters := fun _ => -1
      q := fun _ => -1, aq := fun _ => -1, qlm := fun _ _ => (-1, -1), aqlm := fun _ _ => (-1, -1)
      edgeLengths := [], vertexPositions := []
      fields := fun m =>
        if m = "id" then .int id
        else if m = "type" then .int typ
        else if m = "ghost" then .int 0
        else if m = "belongsto" then .int (-1)
        else if m = "issolid" ∨ m = "issurface" ∨ m = "lcluster" then .bool false
        else if m = "loc" then .int 0
        else if m = "entropy" ∨ m = "avg_entropy" ∨ m = "energy" ∨ m = "avg_energy" then .flt 0
        else if m = "next_neighbors" ∨ m = "cna" ∨ m = "common" ∨ m = "bonds" then .ints2 []
        else if m = "next_neighbor_distances" then .flts2 []
        else if m = "vertex_numbers" ∨ m = "chiparams" then .ints []
        else if m = "vertex_vectors" ∨ m = "sro" then .flts []
        else if m = "custom" then .dict []
        else junk.fields m }
  | _ => .error .oob

/-- The first `n_neighbors` slots of an array (atom.cpp 92-111, 138-145, 150-164, 169-196, 334-341, 348-355). -/
def slots {α : Type} (a : RawAtom) (f : ℕ → α) : List α := (List.range a.n).map f

/-- `l` written into the first slots of an array. -/
def fill {α : Type} (l : List α) (f : ℕ → α) : ℕ → α := fun k => l.getD k (f k)

/-- `gneighbors` (atom.cpp 92-99). -/
def getNeighbors (a : RawAtom) : List ℤ := a.slots a.neighbors

/-- `gneighdist` (atom.cpp 104-110). -/
def getDist (a : RawAtom) : List ℝ := a.slots a.dist

/-- `gneighborweights` (atom.cpp 138-144). -/
def getWeights (a : RawAtom) : List ℝ := a.slots a.weight

/-- `gdistvecs` (atom.cpp 150-163). -/
def getVecs (a : RawAtom) : List (List ℝ) := a.slots fun k => [(a.vec k).x, (a.vec k).y, (a.vec k).z]

/-- `glocalangles` (atom.cpp 169-181). -/
def getAngles (a : RawAtom) : List (List ℝ) := a.slots fun k => [a.phi k, a.theta k]

/-- `gsij` (atom.cpp 189-195). -/
def getSij (a : RawAtom) : List ℝ := a.slots a.sij

/-- `gfacevertices` (atom.cpp 334-340). -/
def getFaceVertices (a : RawAtom) : List ℤ := a.slots a.faceVertices

/-- `gfaceperimeters` (atom.cpp 348-354). -/
def getFacePerimeters (a : RawAtom) : List ℝ := a.slots a.facePerimeters

/-- `sneighbors` (atom.cpp 112-130): all slots are reset to NILVALUE = 333333 (atom.h 22) and -1, weights of the given
neighbours become 1.  More than 300 entries are written out of bounds. -/
def setNeighbors (a : RawAtom) (l : List ℤ) : Except Fault RawAtom :=
  if maxNeighbors < l.length then .error .oob
  else .ok { a with
    neighbors := fill l (fun k => if k < maxNeighbors then 333333 else a.neighbors k)
    dist := fun k => if k < maxNeighbors then -1 else a.dist k
    weight := fill (l.map fun _ => 1) a.weight
    n := l.length }

/-- `sneighborweights` (atom.cpp 132-136): the length is not compared with the number of neighbours. -/
def setWeights (a : RawAtom) (l : List ℝ) : Except Fault RawAtom :=
  if maxNeighbors < l.length then .error .oob else .ok { a with weight := fill l a.weight }

/-- `sfacevertices` (atom.cpp 328-332). -/
def setFaceVertices (a : RawAtom) (l : List ℤ) : Except Fault RawAtom :=
  if maxNeighbors < l.length then .error .oob else .ok { a with faceVertices := fill l a.faceVertices }

/-- `sfaceperimeters` (atom.cpp 342-346). -/
def setFacePerimeters (a : RawAtom) (l : List ℝ) : Except Fault RawAtom :=
  if maxNeighbors < l.length then .error .oob else .ok { a with facePerimeters := fill l a.facePerimeters }

/-- `sx` (atom.cpp 81-85). -/
def setPos (a : RawAtom) : List ℝ → Except Fault RawAtom
  | x :: y :: z :: _ => .ok { a with x := x, y := y, z := z }
  | _ => .error .oob

/-- `svorovector` (atom.cpp 383-389). -/
def setVoro (a : RawAtom) : List ℤ → Except Fault RawAtom
  | n3 :: n4 :: n5 :: n6 :: _ => .ok { a with n3 := n3, n4 := n4, n5 := n5, n6 := n6 }
  | _ => .error .oob

/-- The eleven entries of `q` or `aq` (`gallq`, `gallaq`, atom.cpp 197-211). -/
def elevenOf (f : ℕ → ℝ) : List ℝ := (List.range 11).map f

/-- `sallq` (atom.cpp 213-217): eleven entries are read from the argument whatever its length. -/
def setAllQ (a : RawAtom) (l : List ℝ) : Except Fault RawAtom :=
  if l.length < 11 then .error .oob else .ok { a with q := fun k => if k < 11 then l.getD k 0 else a.q k }

/-- `sallaq` (atom.cpp 219-223). -/
def setAllAq (a : RawAtom) (l : List ℝ) : Except Fault RawAtom :=
  if l.length < 11 then .error .oob else .ok { a with aq := fun k => if k < 11 then l.getD k 0 else a.aq k }

/-- `gq`, `gaq` (atom.cpp 224, 227): slot `l - 2`. -/
def qAt (a : RawAtom) (averaged : Bool) (l : ℤ) : ℝ := if averaged then a.aq (l - 2).toNat else a.q (l - 2).toNat

/-- `sq`, `saq` (atom.cpp 225, 228). -/
def putQ (a : RawAtom) (averaged : Bool) (l : ℤ) (v : ℝ) : RawAtom :=
  if averaged then { a with aq := Function.update a.aq (l - 2).toNat v }
  else { a with q := Function.update a.q (l - 2).toNat v }

/-- `get_q(l, averaged)` for a number (atom.cpp 230-237). -/
def getQ (a : RawAtom) (l : ℤ) (averaged : Bool) : Except Fault ℝ :=
  if l < 2 ∨ l > 12 then .error .invalidArgument else .ok (a.qAt averaged l)

/-- `get_q(ls, averaged)` for a list (atom.cpp 249-271). -/
def getQs (a : RawAtom) (ls : List ℤ) (averaged : Bool) : Except Fault (List ℝ) :=
  ls.mapM fun l => a.getQ l averaged

/-- `set_q(l, v, averaged)` for numbers (atom.cpp 239-246). -/
def setQ (a : RawAtom) (l : ℤ) (v : ℝ) (averaged : Bool) : RawAtom × Except Fault Unit :=
  if l < 2 ∨ l > 12 then (a, .error .invalidArgument) else (a.putQ averaged l v, .ok ())

/-- `set_q(ls, vs, averaged)` for lists (atom.cpp 274-297).  The object keeps what was written before an exception.
`setvals[i]` beyond the end of the list is read out of bounds. -/
def setQs (a : RawAtom) (averaged : Bool) : List ℤ → List ℝ → RawAtom × Except Fault Unit
  | [], _ => (a, .ok ())
  | l :: ls, vs =>
    if l < 2 ∨ l > 12 then (a, .error .invalidArgument)
    else match vs with
      | [] => (a, .error .oob)
      | v :: vs => setQs (a.putQ averaged l v) averaged ls vs

/-- `get_qlm(l, averaged)` (atom.cpp 300-317).  The number is not checked: rows outside 0..10 are read out of bounds, and
for negative numbers the size given to `reserve` is too large (`length_error`, ValueError in Python). -/
def getQlm (a : RawAtom) (l : ℤ) (averaged : Bool) : Except Fault (List (ℝ × ℝ)) :=
  if l < 0 then .error .valueError
  else if l < 2 ∨ l > 12 then .error .oob
  else .ok ((List.range (2 * l + 1).toNat).map (if averaged then a.aqlm (l - 2).toNat else a.qlm (l - 2).toNat))

/-- How an attribute is registered (atom_binding.cpp): a member, a getter/setter pair, or read only. -/
inductive Access where
  | member (name : String) (k : Kind)
  | pos | neighbors | dist | coordination | weights | vecs | angles | allq | allaq | sij
  | faceVertices | facePerimeters | vertexPositions | edgeLengths | vorovector
  deriving DecidableEq

/-- All `def_property`, `def_readwrite` and `def_readonly` of the class, in order (atom_binding.cpp 77-457). -/
def registrations : List (String × Access) :=
  [("pos", .pos), ("id", .member "id" .int), ("condition", .member "condition" .int), ("mask", .member "mask" .bool),
   ("loc", .member "loc" .int), ("type", .member "type" .int), ("ghost", .member "ghost" .int), ("custom", .member "custom" .dict),
   ("neighbors", .neighbors), ("neighbor_distance", .dist), ("coordination", .coordination), ("neighbor_weights", .weights),
   ("cutoff", .member "cutoff" .flt), ("next_neighbors", .member "next_neighbors" .ints2),
   ("next_neighbor_distances", .member "next_neighbor_distances" .flts2), ("neighbor_vector", .vecs), ("local_angles", .angles),
   ("allq", .allq), ("allaq", .allaq), ("sij", .sij), ("avg_sij", .member "avq6q6" .flt), ("disorder", .member "disorder" .flt),
   ("avg_disorder", .member "avgdisorder" .flt), ("cluster", .member "belongsto" .int), ("bonds", .member "frenkelnumber" .int),
   ("solid", .member "issolid" .bool), ("surface", .member "issurface" .bool), ("largest_cluster", .member "lcluster" .bool),
   ("structure", .member "structure" .int), ("volume", .member "volume" .flt), ("avg_volume", .member "avgvolume" .flt),
   ("face_vertices", .faceVertices), ("face_perimeters", .facePerimeters), ("vertex_numbers", .member "vertex_numbers" .ints),
   ("vertex_vectors", .member "vertex_vectors" .flts), ("vertex_positions", .vertexPositions), ("edge_lengths", .edgeLengths),
   ("vorovector", .vorovector), ("angular", .member "angular" .flt), ("avg_angular", .member "avg_angular" .flt),
   ("chiparams", .member "chiparams" .ints), ("cna", .member "cna" .ints2), ("common", .member "common" .ints2),
   ("bonds", .member "bonds" .ints2), ("sro", .member "sro" .flts), ("centrosymmetry", .member "centrosymmetry" .flt),
   ("entropy", .member "entropy" .flt), ("avg_entropy", .member "avg_entropy" .flt), ("energy", .member "energy" .flt),
   ("avg_energy", .member "avg_energy" .flt)]

/-- The attribute of the Python class: pybind11 sets an attribute of the class object at each registration, so the last
one counts. -/
def access (name : String) : Option Access := (registrations.reverse.find? fun p => p.1 = name).map Prod.snd

/-- Reading through one registration. -/
def read (a : RawAtom) : Access → Value
  | .member m _ => a.fields m
  | .pos => .flts [a.x, a.y, a.z]
  | .neighbors => .ints a.getNeighbors
  | .dist => .flts a.getDist
  | .coordination => .int a.n
  | .weights => .flts a.getWeights
  | .vecs => .flts2 a.getVecs
  | .angles => .flts2 a.getAngles
  | .allq => .flts (elevenOf a.q)
  | .allaq => .flts (elevenOf a.aq)
  | .sij => .flts a.getSij
  | .faceVertices => .ints a.getFaceVertices
  | .facePerimeters => .flts a.getFacePerimeters
  | .vertexPositions => .flts2 a.vertexPositions
  | .edgeLengths => .flts2 a.edgeLengths
  | .vorovector => .ints [a.n3, a.n4, a.n5, a.n6]

/-- Assigning through one registration.  The setters of `neighbor_distance`, `neighbor_vector`, `local_angles` and `sij`
have empty bodies (atom.cpp 101-102, 146-148, 165-167, 186-187). -/
def write (a : RawAtom) : Access → Value → Except Fault RawAtom
  | .member m k, v => if v.kind = k then .ok { a with fields := Function.update a.fields m v } else .error .typeError
  | .pos, .flts l => a.setPos l
  | .neighbors, .ints l => a.setNeighbors l
  | .dist, .flts _ => .ok a
  | .weights, .flts l => a.setWeights l
  | .vecs, .flts2 _ => .ok a
  | .angles, .flts2 _ => .ok a
  | .allq, .flts l => a.setAllQ l
  | .allaq, .flts l => a.setAllAq l
  | .sij, .flts _ => .ok a
  | .faceVertices, .ints l => a.setFaceVertices l
  | .facePerimeters, .flts l => a.setFacePerimeters l
  | .vertexPositions, .flts2 l => .ok { a with vertexPositions := l }
  | .edgeLengths, .flts2 l => .ok { a with edgeLengths := l }
  | .vorovector, .ints l => a.setVoro l
  | .coordination, _ => .error .attributeError
  | _, _ => .error .typeError

/-- `atom.name`. -/
def getAttr (a : RawAtom) (name : String) : Except Fault Value :=
  match access name with
  | some acc => .ok (a.read acc)
  | none => .error .attributeError

/-- `atom.name = v`. -/
def setAttr (a : RawAtom) (name : String) (v : Value) : Except Fault RawAtom :=
  match access name with
  | some acc => a.write acc v
  | none => .error .attributeError

/-- `n_neighbors = 0` and the reset of the slots (system.cpp 434-448). -/
def resetNeighbors (a : RawAtom) : RawAtom :=
  { a with n := 0, neighbors := fun k => if k < maxNeighbors then 333333 else a.neighbors k,
           dist := fun k => if k < maxNeighbors then -1 else a.dist k }

/-- One neighbour appended by a search (system.cpp 684-695, 748-759, 796-807, 1274-1285): the slot `n_neighbors` of every
array is written, out of bounds when all 300 are in use.  Simplification: for a zero vector the code stores NaN as
`n_theta`. -/
noncomputable def pushNeighbor (a : RawAtom) (x : Nb) : Except Fault RawAtom :=
  if maxNeighbors ≤ a.n then .error .oob
  else .ok { a with
    neighbors := Function.update a.neighbors a.n x.idx
    dist := Function.update a.dist a.n x.dist
    weight := Function.update a.weight a.n x.weight
    vec := Function.update a.vec a.n x.vec
    phi := Function.update a.phi a.n x.vec.phi
    theta := Function.update a.theta a.n x.vec.theta
    n := a.n + 1 }

/-- The loop of `calculate_frenkel_numbers` over the neighbours writes one value after the other into the slots of `sij`
(system.cpp 1713-1716).  A NaN is not distinguished here. -/
def putSij (a : RawAtom) (vs : List ℝ) : RawAtom := { a with sij := fun k => vs.getD k (a.sij k) }

end RawAtom

end Pyscal
