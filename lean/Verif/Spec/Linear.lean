import Verif.Model.Quaternion
import Mathlib.Algebra.Quaternion
import Mathlib.LinearAlgebra.Matrix.Notation
import Mathlib.LinearAlgebra.UnitaryGroup
import Mathlib.LinearAlgebra.CrossProduct

/-! Reading the model's vectors, matrices and quaternions as Mathlib's, so that properties can be
stated with Mathlib's own notions (quaternion algebra, special orthogonal group, cross product). -/

namespace Verif

open Matrix

/-- The vector as a function on `Fin 3`. -/
def V3.toFun (a : V3) : Fin 3 → ℝ := ![a.x, a.y, a.z]

/-- The matrix as a Mathlib matrix. -/
def M3.toMat (A : M3) : Matrix (Fin 3) (Fin 3) ℝ :=
  !![A.m00, A.m01, A.m02; A.m10, A.m11, A.m12; A.m20, A.m21, A.m22]

/-- The 4-array as a Hamilton quaternion. -/
def Quat.toH (q : Quat) : Quaternion ℝ := ⟨q.s, q.x, q.y, q.z⟩

/-- A proper rotation matrix: an element of SO(3). -/
def IsRotation (A : M3) : Prop := A.toMat ∈ Matrix.specialOrthogonalGroup (Fin 3) ℝ

/-- A unit quaternion (sum of squares one). -/
def IsUnitQ (q : Quat) : Prop := q.s ^ 2 + q.x ^ 2 + q.y ^ 2 + q.z ^ 2 = 1

/-- Euclidean distance of two points. -/
noncomputable def euclid (p q : V3) : ℝ :=
  Real.sqrt ((p.x - q.x) ^ 2 + (p.y - q.y) ^ 2 + (p.z - q.z) ^ 2)

end Verif
