import Mathlib.Data.Real.Basic
import Mathlib.Analysis.Real.Sqrt
import Mathlib.Tactic.Ring
import Mathlib.Tactic.Linarith
import Mathlib.Tactic.FieldSimp

/-!
# 3-vectors and 3x3 matrices

Model of the numpy arrays of shape (3,) and (3,3) that RAINBOW passes around, and of
`rainbow/math/vector3.py`.  float64 is modelled by ℝ (see DESIGN.md).
-/

namespace Verif

/-- numpy array of shape (3,); rainbow/math/vector3.py:13 (`make`). -/
@[ext] structure V3 where
  x : ℝ
  y : ℝ
  z : ℝ

/-- numpy array of shape (3,3); rainbow/math/matrix3.py:27-30 (`make`). -/
@[ext] structure M3 where
  m00 : ℝ
  m01 : ℝ
  m02 : ℝ
  m10 : ℝ
  m11 : ℝ
  m12 : ℝ
  m20 : ℝ
  m21 : ℝ
  m22 : ℝ

namespace V3

/-- vector3.py:5-6 `zero`. -/
def zero : V3 := ⟨0, 0, 0⟩
/-- vector3.py:9-10 `ones`. -/
def ones : V3 := ⟨1, 1, 1⟩
/-- vector3.py:63-64 `i`. -/
def i : V3 := ⟨1, 0, 0⟩
/-- vector3.py:67-68 `j`. -/
def j : V3 := ⟨0, 1, 0⟩
/-- vector3.py:71-72 `k`. -/
def k : V3 := ⟨0, 0, 1⟩

/-- numpy `a + b` on shape (3,). -/
instance : Add V3 := ⟨fun a b => ⟨a.x + b.x, a.y + b.y, a.z + b.z⟩⟩
/-- numpy `a - b` on shape (3,). -/
instance : Sub V3 := ⟨fun a b => ⟨a.x - b.x, a.y - b.y, a.z - b.z⟩⟩
/-- numpy `-a` on shape (3,). -/
instance : Neg V3 := ⟨fun a => ⟨-a.x, -a.y, -a.z⟩⟩
/-- numpy `s * a`, `a * s` with a scalar s on shape (3,). -/
instance : SMul ℝ V3 := ⟨fun s a => ⟨s * a.x, s * a.y, s * a.z⟩⟩
instance : Zero V3 := ⟨zero⟩

@[simp] theorem add_x (a b : V3) : (a + b).x = a.x + b.x := rfl
@[simp] theorem add_y (a b : V3) : (a + b).y = a.y + b.y := rfl
@[simp] theorem add_z (a b : V3) : (a + b).z = a.z + b.z := rfl
@[simp] theorem sub_x (a b : V3) : (a - b).x = a.x - b.x := rfl
@[simp] theorem sub_y (a b : V3) : (a - b).y = a.y - b.y := rfl
@[simp] theorem sub_z (a b : V3) : (a - b).z = a.z - b.z := rfl
@[simp] theorem neg_x (a : V3) : (-a).x = -a.x := rfl
@[simp] theorem neg_y (a : V3) : (-a).y = -a.y := rfl
@[simp] theorem neg_z (a : V3) : (-a).z = -a.z := rfl
@[simp] theorem smul_x (s : ℝ) (a : V3) : (s • a).x = s * a.x := rfl
@[simp] theorem smul_y (s : ℝ) (a : V3) : (s • a).y = s * a.y := rfl
@[simp] theorem smul_z (s : ℝ) (a : V3) : (s • a).z = s * a.z := rfl
@[simp] theorem zero_x : (0 : V3).x = 0 := rfl
@[simp] theorem zero_y : (0 : V3).y = 0 := rfl
@[simp] theorem zero_z : (0 : V3).z = 0 := rfl

/-- numpy `np.dot(a, b)`. -/
def dot (a b : V3) : ℝ := a.x * b.x + a.y * b.y + a.z * b.z

/-- vector3.py:116-117 `cross` (np.cross). -/
def cross (a b : V3) : V3 :=
  ⟨a.y * b.z - a.z * b.y, a.z * b.x - a.x * b.z, a.x * b.y - a.y * b.x⟩

/-- np.linalg.norm on shape (3,); vector3.py:123-124 `norm`. -/
noncomputable def norm (a : V3) : ℝ := Real.sqrt (dot a a)

/-- numpy `a / s` for a scalar s (division by zero: see DESIGN.md). -/
noncomputable def divs (a : V3) (s : ℝ) : V3 := ⟨a.x / s, a.y / s, a.z / s⟩

/-- vector3.py:120-121 `unit`. -/
noncomputable def unit (a : V3) : V3 := divs a (norm a)

instance : AddCommGroup V3 where
  add_assoc a b c := by ext <;> simp [add_assoc]
  zero_add a := by ext <;> simp
  add_zero a := by ext <;> simp
  add_comm a b := by ext <;> simp [add_comm]
  neg_add_cancel a := by ext <;> simp
  sub_eq_add_neg a b := by ext <;> simp [sub_eq_add_neg]
  nsmul := nsmulRec
  zsmul := zsmulRec

instance : Module ℝ V3 where
  one_smul a := by ext <;> simp
  mul_smul a b v := by ext <;> simp [mul_assoc]
  smul_zero a := by ext <;> simp
  smul_add a v w := by ext <;> simp [mul_add]
  add_smul a b v := by ext <;> simp [add_mul]
  zero_smul a := by ext <;> simp

end V3

namespace M3

/-- matrix3.py:7-8 `identity`. -/
def identity : M3 := ⟨1, 0, 0, 0, 1, 0, 0, 0, 1⟩
/-- matrix3.py:19-20 `zero`. -/
def zero : M3 := ⟨0, 0, 0, 0, 0, 0, 0, 0, 0⟩
/-- matrix3.py:15-16 `diag`. -/
def diag (a b c : ℝ) : M3 := ⟨a, 0, 0, 0, b, 0, 0, 0, c⟩
/-- matrix3.py:11-12 `diag_from_array`. -/
def diag_from_array (v : V3) : M3 := ⟨v.x, 0, 0, 0, v.y, 0, 0, 0, v.z⟩

/-- matrix3.py:33-34 `make_from_rows`. -/
def make_from_rows (r0 r1 r2 : V3) : M3 :=
  ⟨r0.x, r0.y, r0.z, r1.x, r1.y, r1.z, r2.x, r2.y, r2.z⟩

/-- matrix3.py:37-40 `make_from_cols`. -/
def make_from_cols (c0 c1 c2 : V3) : M3 :=
  ⟨c0.x, c1.x, c2.x, c0.y, c1.y, c2.y, c0.z, c1.z, c2.z⟩

/-- numpy `A @ B` / np.dot / np.matmul on shape (3,3). -/
def mul (A B : M3) : M3 :=
  ⟨A.m00 * B.m00 + A.m01 * B.m10 + A.m02 * B.m20,
   A.m00 * B.m01 + A.m01 * B.m11 + A.m02 * B.m21,
   A.m00 * B.m02 + A.m01 * B.m12 + A.m02 * B.m22,
   A.m10 * B.m00 + A.m11 * B.m10 + A.m12 * B.m20,
   A.m10 * B.m01 + A.m11 * B.m11 + A.m12 * B.m21,
   A.m10 * B.m02 + A.m11 * B.m12 + A.m12 * B.m22,
   A.m20 * B.m00 + A.m21 * B.m10 + A.m22 * B.m20,
   A.m20 * B.m01 + A.m21 * B.m11 + A.m22 * B.m21,
   A.m20 * B.m02 + A.m21 * B.m12 + A.m22 * B.m22⟩

/-- numpy `A @ v`. -/
def mulVec (A : M3) (v : V3) : V3 :=
  ⟨A.m00 * v.x + A.m01 * v.y + A.m02 * v.z,
   A.m10 * v.x + A.m11 * v.y + A.m12 * v.z,
   A.m20 * v.x + A.m21 * v.y + A.m22 * v.z⟩

/-- numpy `A.T`. -/
def transpose (A : M3) : M3 :=
  ⟨A.m00, A.m10, A.m20, A.m01, A.m11, A.m21, A.m02, A.m12, A.m22⟩

/-- np.linalg.det on shape (3,3), by its documented value. -/
def det (A : M3) : ℝ :=
  A.m00 * (A.m11 * A.m22 - A.m12 * A.m21) - A.m01 * (A.m10 * A.m22 - A.m12 * A.m20)
    + A.m02 * (A.m10 * A.m21 - A.m11 * A.m20)

/-- np.trace. -/
def trace (A : M3) : ℝ := A.m00 + A.m11 + A.m22

instance : Add M3 := ⟨fun A B => ⟨A.m00 + B.m00, A.m01 + B.m01, A.m02 + B.m02, A.m10 + B.m10,
  A.m11 + B.m11, A.m12 + B.m12, A.m20 + B.m20, A.m21 + B.m21, A.m22 + B.m22⟩⟩
instance : Sub M3 := ⟨fun A B => ⟨A.m00 - B.m00, A.m01 - B.m01, A.m02 - B.m02, A.m10 - B.m10,
  A.m11 - B.m11, A.m12 - B.m12, A.m20 - B.m20, A.m21 - B.m21, A.m22 - B.m22⟩⟩
instance : Neg M3 := ⟨fun A => ⟨-A.m00, -A.m01, -A.m02, -A.m10, -A.m11, -A.m12, -A.m20, -A.m21,
  -A.m22⟩⟩
instance : SMul ℝ M3 := ⟨fun s A => ⟨s * A.m00, s * A.m01, s * A.m02, s * A.m10,
  s * A.m11, s * A.m12, s * A.m20, s * A.m21, s * A.m22⟩⟩
instance : Zero M3 := ⟨zero⟩

@[simp] theorem add_def (A B : M3) : A + B = ⟨A.m00 + B.m00, A.m01 + B.m01, A.m02 + B.m02,
  A.m10 + B.m10, A.m11 + B.m11, A.m12 + B.m12, A.m20 + B.m20, A.m21 + B.m21, A.m22 + B.m22⟩ := rfl
@[simp] theorem sub_def (A B : M3) : A - B = ⟨A.m00 - B.m00, A.m01 - B.m01, A.m02 - B.m02,
  A.m10 - B.m10, A.m11 - B.m11, A.m12 - B.m12, A.m20 - B.m20, A.m21 - B.m21, A.m22 - B.m22⟩ := rfl
@[simp] theorem neg_def (A : M3) : -A = ⟨-A.m00, -A.m01, -A.m02, -A.m10, -A.m11, -A.m12,
  -A.m20, -A.m21, -A.m22⟩ := rfl
@[simp] theorem smul_def (s : ℝ) (A : M3) : s • A = ⟨s * A.m00, s * A.m01, s * A.m02, s * A.m10,
  s * A.m11, s * A.m12, s * A.m20, s * A.m21, s * A.m22⟩ := rfl
@[simp] theorem zero_def : (0 : M3) = ⟨0, 0, 0, 0, 0, 0, 0, 0, 0⟩ := rfl

end M3

/-- Python exceptions that the modelled code raises (or that Python itself raises). -/
inductive PyErr
  | valueError
  | runtimeError
  | typeError
  | indexError
  | keyError
  | attributeError
  | assertionError
  | zeroDivision
  | notImplemented
  | linAlgError
  | runtimeWarning
  /-- not an exception: stands for a loop that never exits (see Model/While.lean) -/
  | diverges
  deriving DecidableEq, Repr

end Verif
