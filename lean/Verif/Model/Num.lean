import Mathlib.Analysis.Real.Sqrt
import Mathlib.Tactic.Ring
import Mathlib.Tactic.Linarith
import Mathlib.Tactic.NormNum

/-!
Numbers, 3-vectors, 3x3 matrices and exceptions used by the model.

`double` is modelled by `ℝ` (no rounding).  A quotient with zero denominator is
NaN or infinite in the code; it is `none` here (`fdiv`).
-/

namespace Pyscal

/-- What a Python exception or an out-of-bounds C++ access becomes in the model.  No code; the
exceptions raised in core.py, trajectory.py and formats. -/
inductive Fault where
  | oob | valueError | typeError | runtimeError | indexError | keyError
  | zeroDivision | fileNotFound | notImplemented | attributeError | invalidArgument
  | nonTermination | assertion | nameError | stopIteration
  deriving DecidableEq, Repr

/-- Cartesian triple: `posx, posy, posz` (atom.h 85) or `diffx, diffy, diffz`. -/
@[ext] structure V3 where
  x : ℝ
  y : ℝ
  z : ℝ

namespace V3

instance : Zero V3 := ⟨⟨0, 0, 0⟩⟩
instance : Add V3 := ⟨fun a b => ⟨a.x + b.x, a.y + b.y, a.z + b.z⟩⟩
instance : Sub V3 := ⟨fun a b => ⟨a.x - b.x, a.y - b.y, a.z - b.z⟩⟩
instance : Neg V3 := ⟨fun a => ⟨-a.x, -a.y, -a.z⟩⟩
instance : Inhabited V3 := ⟨0⟩

/-- Scaling of a vector.  Arithmetic, no code of its own. -/
def smul (k : ℝ) (a : V3) : V3 := ⟨k * a.x, k * a.y, k * a.z⟩

@[simp] theorem zero_x : (0 : V3).x = 0 := rfl
@[simp] theorem zero_y : (0 : V3).y = 0 := rfl
@[simp] theorem zero_z : (0 : V3).z = 0 := rfl
@[simp] theorem add_x (a b : V3) : (a + b).x = a.x + b.x := rfl
@[simp] theorem add_y (a b : V3) : (a + b).y = a.y + b.y := rfl
@[simp] theorem add_z (a b : V3) : (a + b).z = a.z + b.z := rfl
@[simp] theorem sub_x (a b : V3) : (a - b).x = a.x - b.x := rfl
@[simp] theorem sub_y (a b : V3) : (a - b).y = a.y - b.y := rfl
@[simp] theorem sub_z (a b : V3) : (a - b).z = a.z - b.z := rfl
@[simp] theorem neg_x (a : V3) : (-a).x = -a.x := rfl
@[simp] theorem neg_y (a : V3) : (-a).y = -a.y := rfl
@[simp] theorem neg_z (a : V3) : (-a).z = -a.z := rfl
@[simp] theorem smul_x (k : ℝ) (a : V3) : (smul k a).x = k * a.x := rfl
@[simp] theorem smul_y (k : ℝ) (a : V3) : (smul k a).y = k * a.y := rfl
@[simp] theorem smul_z (k : ℝ) (a : V3) : (smul k a).z = k * a.z := rfl

/-- Scalar product.  Arithmetic, no code of its own. -/
def dot (a b : V3) : ℝ := a.x * b.x + a.y * b.y + a.z * b.z

/-- Squared length, as the code writes it (`diffx*diffx + diffy*diffy + diffz*diffz`) (system.cpp
289). -/
def normSq (a : V3) : ℝ := a.x * a.x + a.y * a.y + a.z * a.z

/-- Euclidean length (system.cpp 289, 300). -/
noncomputable def norm (a : V3) : ℝ := Real.sqrt (normSq a)

theorem normSq_nonneg (a : V3) : 0 ≤ normSq a := by
  unfold normSq; nlinarith [mul_self_nonneg a.x, mul_self_nonneg a.y, mul_self_nonneg a.z]

theorem norm_nonneg (a : V3) : 0 ≤ norm a := Real.sqrt_nonneg _

theorem normSq_neg (a : V3) : normSq (-a) = normSq a := by
  simp [normSq]

theorem norm_neg (a : V3) : norm (-a) = norm a := by
  simp [norm, normSq_neg]

theorem norm_sq (a : V3) : norm a * norm a = normSq a :=
  Real.mul_self_sqrt (normSq_nonneg a)

theorem norm_zero : norm 0 = 0 := by simp [norm, normSq]

theorem normSq_eq_zero (a : V3) : normSq a = 0 ↔ a = 0 := by
  constructor
  · intro h
    unfold normSq at h
    have hx := mul_self_nonneg a.x
    have hy := mul_self_nonneg a.y
    have hz := mul_self_nonneg a.z
    ext
    · exact mul_self_eq_zero.mp (by linarith)
    · exact mul_self_eq_zero.mp (by linarith)
    · exact mul_self_eq_zero.mp (by linarith)
  · rintro rfl; simp [normSq]

theorem norm_eq_zero (a : V3) : norm a = 0 ↔ a = 0 := by
  rw [norm, Real.sqrt_eq_zero (normSq_nonneg a), normSq_eq_zero]

theorem norm_pos_of_ne {a : V3} (h : a ≠ 0) : 0 < norm a :=
  lt_of_le_of_ne (norm_nonneg a) (fun e => h ((norm_eq_zero a).1 e.symm))

end V3

/-- A 3x3 matrix by rows, `double m[3][3]` (system.h 43-48). -/
@[ext] structure Mat3 where
  r0 : V3
  r1 : V3
  r2 : V3

namespace Mat3

instance : Zero Mat3 := ⟨⟨0, 0, 0⟩⟩
instance : Inhabited Mat3 := ⟨0⟩

/-- Matrix times column vector, as written in system.cpp 255-257 and 279-281. -/
def mulVec (m : Mat3) (v : V3) : V3 := ⟨V3.dot m.r0 v, V3.dot m.r1 v, V3.dot m.r2 v⟩

/-- Transpose (numpy, core.py 122). -/
def transpose (m : Mat3) : Mat3 :=
  ⟨⟨m.r0.x, m.r1.x, m.r2.x⟩, ⟨m.r0.y, m.r1.y, m.r2.y⟩, ⟨m.r0.z, m.r1.z, m.r2.z⟩⟩

/-- Determinant (used by numpy.linalg.inv, core.py 123). -/
def det (m : Mat3) : ℝ :=
  m.r0.x * (m.r1.y * m.r2.z - m.r1.z * m.r2.y)
  - m.r0.y * (m.r1.x * m.r2.z - m.r1.z * m.r2.x)
  + m.r0.z * (m.r1.x * m.r2.y - m.r1.y * m.r2.x)

/-- Inverse by cofactors; stands for `numpy.linalg.inv` (core.py 122), which raises
`LinAlgError` when the determinant is zero (the caller checks). -/
noncomputable def inv (m : Mat3) : Mat3 :=
  let d := det m
  ⟨⟨(m.r1.y * m.r2.z - m.r1.z * m.r2.y) / d, (m.r0.z * m.r2.y - m.r0.y * m.r2.z) / d,
    (m.r0.y * m.r1.z - m.r0.z * m.r1.y) / d⟩,
   ⟨(m.r1.z * m.r2.x - m.r1.x * m.r2.z) / d, (m.r0.x * m.r2.z - m.r0.z * m.r2.x) / d,
    (m.r0.z * m.r1.x - m.r0.x * m.r1.z) / d⟩,
   ⟨(m.r1.x * m.r2.y - m.r1.y * m.r2.x) / d, (m.r0.y * m.r2.x - m.r0.x * m.r2.y) / d,
    (m.r0.x * m.r1.y - m.r0.y * m.r1.x) / d⟩⟩

end Mat3

/-- Division of the code: a zero denominator gives NaN/inf, which is `none`.  C++ semantics, no code
of its own. -/
noncomputable def fdiv (a b : ℝ) : Option ℝ := if b = 0 then none else some (a / b)

end Pyscal
