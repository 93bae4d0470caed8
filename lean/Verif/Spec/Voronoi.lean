import Verif.Model.Voronoi

/-! Independent specifications for Voronoi neighbours: weights from face areas, edges of a polygon. -/

namespace Pyscal.Spec

/-- The coordinate `y` is `x` moved by whole lengths `L`, and lies in the container if `x` is at most one length outside. -/
def InRange1 (L x y : ℝ) : Prop := (∃ n : ℤ, y = x + n * L) ∧ (-L ≤ x → x < 2 * L → 0 ≤ y ∧ y < L)

/-- The point `q` represents `p` in a periodic container with edges `E`. -/
def InContainer (E p q : V3) : Prop := InRange1 E.x p.x q.x ∧ InRange1 E.y p.y q.y ∧ InRange1 E.z p.z q.z

/-- The container and the points for the atoms of an orthogonal system: the edges are the lengths of the box
vectors, the points are the atoms moved into it. -/
def IsContainer (s : System) (E : V3) (P : List V3) : Prop :=
  E = ⟨V3.norm s.box.r0, V3.norm s.box.r1, V3.norm s.box.r2⟩ ∧ List.Forall₂ (InContainer E) (s.atoms.map Atom.pos) P

/-- The weight of a face among the faces of a cell: its area to the power `α`, normalised. -/
noncomputable def weight (c : VCell) (α : ℤ) (f : VFace) : ℝ := f.area ^ α / (c.faces.map fun g => g.area ^ α).sum

/-- The corners of a face, in cyclic order. -/
def polygon (c : VCell) (f : VFace) : List V3 := f.verts.map fun v => c.vertices.getD v 0

/-- The lengths of the edges of a polygon: from each corner to the next, the last joined to the first. -/
noncomputable def edges (p : List V3) : List ℝ := (p.zip (p.rotate 1)).map fun q => V3.norm (q.2 - q.1)

open Classical in
/-- The number of edges longer than the fraction `cut` of the perimeter (none if the perimeter is zero). -/
noncomputable def numLongEdges (p : List V3) (cut : ℝ) : ℕ :=
  ((edges p).filter fun x => decide (0 < (edges p).sum ∧ cut * (edges p).sum < x)).length

open Classical in
/-- The number of faces of weight above `areaCut` with exactly `n` long edges. -/
noncomputable def numFaces (c : VCell) (α : ℤ) (edgeCut areaCut : ℝ) (n : ℕ) : ℕ :=
  (c.faces.filter fun f => decide (areaCut < weight c α f ∧ numLongEdges (polygon c f) edgeCut = n)).length

/-- The vertex numbers of the faces refer to vertices of the cell. -/
def ValidCell (c : VCell) : Prop := ∀ f ∈ c.faces, ∀ v ∈ f.verts, v < c.vertices.length

end Pyscal.Spec
