import Verif.Model.Num

/-!
Independent specification of periodic geometry: lattice translations, periodic images and
shortest images.  Nothing here refers to the system model.
-/

namespace Pyscal.Spec

/-- `n1 a + n2 b + n3 c` for the box with rows `a, b, c`. -/
def latticeVec (b : Mat3) (n1 n2 n3 : ℤ) : V3 :=
  V3.smul n1 b.r0 + V3.smul n2 b.r1 + V3.smul n3 b.r2

/-- `v` is a periodic image of the displacement `d`. -/
def IsImage (b : Mat3) (d v : V3) : Prop := ∃ n1 n2 n3 : ℤ, v = d + latticeVec b n1 n2 n3

/-- `v` is a periodic image of `d`, and no image is shorter. -/
def IsShortestImage (b : Mat3) (d v : V3) : Prop :=
  IsImage b d v ∧ ∀ w, IsImage b d w → V3.norm v ≤ V3.norm w

/-- The orthogonal box with edges `lx, ly, lz` along the axes. -/
def diagBox (lx ly lz : ℝ) : Mat3 := ⟨⟨lx, 0, 0⟩, ⟨0, ly, 0⟩, ⟨0, 0, lz⟩⟩

/-- The point with fractional coordinates `f` in the box with rows `a, b, c`. -/
def ofFrac (b : Mat3) (f : V3) : V3 :=
  V3.smul f.x b.r0 + V3.smul f.y b.r1 + V3.smul f.z b.r2

/-- `v` has fractional coordinates of absolute value at most `r`. -/
def FracBound (b : Mat3) (v : V3) (r : ℝ) : Prop :=
  ∃ f : V3, v = ofFrac b f ∧ |f.x| ≤ r ∧ |f.y| ≤ r ∧ |f.z| ≤ r

/-- Vector product. -/
def cross (a b : V3) : V3 :=
  ⟨a.y * b.z - a.z * b.y, a.z * b.x - a.x * b.z, a.x * b.y - a.y * b.x⟩

/-- Volume of the cell (signed). -/
def volume (b : Mat3) : ℝ := V3.dot b.r0 (cross b.r1 b.r2)

/-- The vector is shorter than half of each of the three heights of the cell; the height
over the face spanned by two vectors is volume / area. -/
def ShorterThanHalfHeights (b : Mat3) (v : V3) : Prop :=
  2 * V3.norm v * V3.norm (cross b.r1 b.r2) < |volume b|
  ∧ 2 * V3.norm v * V3.norm (cross b.r2 b.r0) < |volume b|
  ∧ 2 * V3.norm v * V3.norm (cross b.r0 b.r1) < |volume b|

/-- The box vectors are non-zero and the cosines of the three angles between them do not add up to
zero within `1e-6`; this is the documented notion of a triclinic box. -/
def Skew (b : Mat3) : Prop :=
  b.r0 ≠ 0 ∧ b.r1 ≠ 0 ∧ b.r2 ≠ 0 ∧
  |V3.dot b.r2 b.r0 / (b.r2.norm * b.r0.norm) + V3.dot b.r0 b.r1 / (b.r0.norm * b.r1.norm)
    + V3.dot b.r1 b.r2 / (b.r1.norm * b.r2.norm)| > 1 / 1000000

end Pyscal.Spec
