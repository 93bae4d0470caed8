import Verif.Model.AtomApi

/-! Vocabulary for C80 and C81: attributes of an `Atom`, stated by their Python names. -/

namespace Pyscal.Spec

/-- Attributes that list one entry per neighbour, and the number of neighbours. -/
def neighbourAttrs : List String :=
  ["neighbors", "coordination", "neighbor_distance", "neighbor_weights", "neighbor_vector", "local_angles", "sij", "face_vertices",
   "face_perimeters"]

/-- Attributes whose assignment has no effect in the code. -/
def ignoredAttrs : List String := ["neighbor_distance", "neighbor_vector", "local_angles", "sij"]

/-- The number of entries of a list value. -/
def valueLength : Value → ℕ
  | .ints l => l.length
  | .flts l => l.length
  | _ => 0

/-- A value has the number of entries that the attribute is meant to have: three for a position, four for a Voronoi vector,
eleven for all q values, one per neighbour (`n`) for weights and Voronoi faces. -/
def WellSized (n : ℤ) (name : String) (v : Value) : Prop :=
  (name = "pos" → valueLength v = 3) ∧ (name = "vorovector" → valueLength v = 4) ∧
  (name = "allq" ∨ name = "allaq" → valueLength v = 11) ∧
  (name = "neighbor_weights" ∨ name = "face_vertices" ∨ name = "face_perimeters" → (valueLength v : ℤ) = n)

/-- The value of the last assignment to `name`, if there is one. -/
def lastAssigned (ops : List (String × Value)) (name : String) : Option Value :=
  (ops.reverse.find? fun p => p.1 = name).map Prod.snd

/-- Assignments carried out one after the other; the first that fails ends the run. -/
def assignAll (a : RawAtom) : List (String × Value) → Except Fault RawAtom
  | [] => .ok a
  | (n, v) :: ops => match a.setAttr n v with
    | .ok a' => assignAll a' ops
    | .error e => .error e

/-- What is done to the neighbour arrays: a search resets and appends, the user assigns. -/
inductive NbOp where
  | reset
  | push (x : Nb)
  | assign (l : List ℤ)
  | weights (w : List ℝ)

/-- One such operation. -/
noncomputable def stepNb (a : RawAtom) : NbOp → Except Fault RawAtom
  | .reset => .ok a.resetNeighbors
  | .push x => a.pushNeighbor x
  | .assign l => a.setAttr "neighbors" (.ints l)
  | .weights w => a.setAttr "neighbor_weights" (.flts w)

/-- Running such operations on an object. -/
noncomputable def runNb (a : RawAtom) : List NbOp → Except Fault RawAtom
  | [] => .ok a
  | op :: ops => match stepNb a op with
    | .ok a' => runNb a' ops
    | .error e => .error e

/-- An object reports exactly the neighbours `l`: in every attribute, entry `i` is about neighbour `i`. -/
def Reports (a : RawAtom) (l : List Nb) : Prop :=
  a.getAttr "coordination" = .ok (.int l.length) ∧
  a.getAttr "neighbors" = .ok (.ints (l.map fun x => (x.idx : ℤ))) ∧
  a.getAttr "neighbor_distance" = .ok (.flts (l.map Nb.dist)) ∧
  a.getAttr "neighbor_weights" = .ok (.flts (l.map Nb.weight)) ∧
  a.getAttr "neighbor_vector" = .ok (.flts2 (l.map fun x => [x.vec.x, x.vec.y, x.vec.z])) ∧
  a.getAttr "local_angles" = .ok (.flts2 (l.map fun x => [x.vec.phi, x.vec.theta]))

/-- The attributes of an atom, by their Python names. -/
def attributeNames : List String :=
  ["pos", "id", "condition", "mask", "loc", "type", "ghost", "custom", "neighbors", "neighbor_distance", "coordination", "neighbor_weights",
   "cutoff", "next_neighbors", "next_neighbor_distances", "neighbor_vector", "local_angles", "allq", "allaq", "sij", "avg_sij", "disorder",
   "avg_disorder", "cluster", "bonds", "solid", "surface", "largest_cluster", "structure", "volume", "avg_volume", "face_vertices",
   "face_perimeters", "vertex_numbers", "vertex_vectors", "vertex_positions", "edge_lengths", "vorovector", "angular", "avg_angular",
   "chiparams", "cna", "common", "sro", "centrosymmetry", "entropy", "avg_entropy", "energy", "avg_energy"]

end Pyscal.Spec
