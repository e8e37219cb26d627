import Verif.Spec.Linear
import Mathlib.Tactic.LinearCombination
import Mathlib.Tactic.NormNum
import Mathlib.Tactic.Positivity

namespace Verif
open Matrix

theorem M3.toMat_injective : Function.Injective M3.toMat := by
  intro A B h
  have := fun i j => congrFun (congrFun h i) j
  have h00 := this 0 0
  have h01 := this 0 1
  have h02 := this 0 2
  have h10 := this 1 0
  have h11 := this 1 1
  have h12 := this 1 2
  have h20 := this 2 0
  have h21 := this 2 1
  have h22 := this 2 2
  simp [M3.toMat] at h00 h01 h02 h10 h11 h12 h20 h21 h22
  ext <;> assumption

theorem M3.toMat_mul (A B : M3) : (A.mul B).toMat = A.toMat * B.toMat := by
  ext i j
  fin_cases i <;> fin_cases j <;> simp [M3.toMat, M3.mul, Matrix.mul_apply, Fin.sum_univ_three]

theorem M3.toMat_transpose (A : M3) : (A.transpose).toMat = A.toMatᵀ := by
  ext i j
  fin_cases i <;> fin_cases j <;> simp [M3.toMat, M3.transpose]

theorem M3.toMat_identity : M3.identity.toMat = 1 := by
  ext i j
  fin_cases i <;> fin_cases j <;> simp [M3.toMat, M3.identity]

theorem M3.toMat_det (A : M3) : A.toMat.det = A.det := by
  simp [M3.toMat, Matrix.det_fin_three, M3.det]; ring

theorem M3.toMat_mulVec (A : M3) (v : V3) : (A.mulVec v).toFun = A.toMat *ᵥ v.toFun := by
  ext i
  fin_cases i <;> simp [M3.toMat, M3.mulVec, V3.toFun, Matrix.mulVec, dotProduct, Fin.sum_univ_three]

theorem V3.toFun_injective : Function.Injective V3.toFun := by
  intro a b h
  have h0 := congrFun h 0
  have h1 := congrFun h 1
  have h2 := congrFun h 2
  simp [V3.toFun] at h0 h1 h2
  ext <;> assumption

theorem V3.toFun_dot (a b : V3) : a.toFun ⬝ᵥ b.toFun = V3.dot a b := by
  simp [V3.toFun, V3.dot, dotProduct, Fin.sum_univ_three]

theorem V3.toFun_cross (a b : V3) : (V3.cross a b).toFun = crossProduct a.toFun b.toFun := by
  simp [V3.toFun, V3.cross, cross_apply]

theorem Quat.toH_injective : Function.Injective Quat.toH := by
  intro a b h
  have h0 := congrArg QuaternionAlgebra.re h
  have h1 := congrArg QuaternionAlgebra.imI h
  have h2 := congrArg QuaternionAlgebra.imJ h
  have h3 := congrArg QuaternionAlgebra.imK h
  ext <;> assumption

@[simp] theorem Quat.toH_re (q : Quat) : q.toH.re = q.s := rfl
@[simp] theorem Quat.toH_imI (q : Quat) : q.toH.imI = q.x := rfl
@[simp] theorem Quat.toH_imJ (q : Quat) : q.toH.imJ = q.y := rfl
@[simp] theorem Quat.toH_imK (q : Quat) : q.toH.imK = q.z := rfl

/-- SO(3) in entries: Rᵀ R = 1 and det R = 1. -/
theorem isRotation_iff (A : M3) :
    IsRotation A ↔ (A.transpose.mul A = M3.identity ∧ A.det = 1) := by
  unfold IsRotation
  rw [Matrix.mem_specialOrthogonalGroup_iff, Matrix.mem_orthogonalGroup_iff', M3.toMat_det]
  constructor
  · rintro ⟨h, hd⟩
    refine ⟨M3.toMat_injective ?_, hd⟩
    rw [M3.toMat_mul, M3.toMat_transpose, M3.toMat_identity]; exact h
  · rintro ⟨h, hd⟩
    refine ⟨?_, hd⟩
    rw [← M3.toMat_identity, ← h, M3.toMat_mul, M3.toMat_transpose]

theorem isRotation_iff' (A : M3) :
    IsRotation A ↔ (A.mul A.transpose = M3.identity ∧ A.det = 1) := by
  unfold IsRotation
  rw [Matrix.mem_specialOrthogonalGroup_iff, Matrix.mem_orthogonalGroup_iff, M3.toMat_det]
  constructor
  · rintro ⟨h, hd⟩
    refine ⟨M3.toMat_injective ?_, hd⟩
    rw [M3.toMat_mul, M3.toMat_transpose, M3.toMat_identity]; exact h
  · rintro ⟨h, hd⟩
    refine ⟨?_, hd⟩
    rw [← M3.toMat_identity, ← h, M3.toMat_mul, M3.toMat_transpose]

namespace Quat

theorem dot_self (q : Quat) : dot q q = q.s ^ 2 + q.x ^ 2 + q.y ^ 2 + q.z ^ 2 := by
  simp [dot]; ring

theorem norm_nonneg (q : Quat) : 0 ≤ norm q := Real.sqrt_nonneg _

theorem dot_self_nonneg (q : Quat) : 0 ≤ dot q q := by rw [dot_self]; positivity

theorem norm_sq (q : Quat) : norm q ^ 2 = dot q q := Real.sq_sqrt (dot_self_nonneg q)

theorem norm_eq_one {q : Quat} (h : IsUnitQ q) : norm q = 1 := by
  unfold norm; rw [dot_self, h]; simp

theorem isUnitQ_iff_norm (q : Quat) : IsUnitQ q ↔ norm q = 1 := by
  constructor
  · exact norm_eq_one
  · intro h
    have := norm_sq q
    rw [h, dot_self] at this
    unfold IsUnitQ; linarith

theorem norm_pos_of_ne {q : Quat} (h : q ≠ ⟨0, 0, 0, 0⟩) : 0 < norm q := by
  apply Real.sqrt_pos.mpr
  rcases lt_or_eq_of_le (dot_self_nonneg q) with h1 | h1
  · exact h1
  · exfalso
    apply h
    rw [dot_self] at h1
    have a1 := sq_nonneg q.s
    have a2 := sq_nonneg q.x
    have a3 := sq_nonneg q.y
    have a4 := sq_nonneg q.z
    have e1 : q.s ^ 2 = 0 := by linarith
    have e2 : q.x ^ 2 = 0 := by linarith
    have e3 : q.y ^ 2 = 0 := by linarith
    have e4 : q.z ^ 2 = 0 := by linarith
    ext
    · simpa using e1
    · simpa using e2
    · simpa using e3
    · simpa using e4

theorem unit_of_isUnit {q : Quat} (h : IsUnitQ q) : unit q = q := by
  unfold unit
  simp [norm_eq_one h]

theorem unit_isUnit (q : Quat) : IsUnitQ (unit q) := by
  unfold unit
  by_cases h : norm q > 0
  · simp only [h, if_true]
    have := norm_sq q
    rw [dot_self] at this
    unfold IsUnitQ
    simp only
    field_simp
    linarith
  · simp only [h, if_false]
    simp [IsUnitQ, identity]

theorem unit_zero : unit ⟨0, 0, 0, 0⟩ = identity := by
  unfold unit
  simp [norm, dot]

/-- Entries of the matrix of a unit quaternion. -/
theorem to_matrix_of_unit {q : Quat} (h : IsUnitQ q) : to_matrix q =
  { m00 := 1 - 2 * (q.y * q.y + q.z * q.z)
    m11 := 1 - 2 * (q.x * q.x + q.z * q.z)
    m22 := 1 - 2 * (q.y * q.y + q.x * q.x)
    m10 := 2 * (q.x * q.y + q.s * q.z)
    m01 := 2 * (q.x * q.y - q.s * q.z)
    m20 := 2 * (-q.s * q.y + q.x * q.z)
    m02 := 2 * (q.s * q.y + q.x * q.z)
    m21 := 2 * (q.z * q.y + q.s * q.x)
    m12 := 2 * (q.z * q.y - q.s * q.x) } := by
  simp [to_matrix, unit_of_isUnit h]

theorem to_matrix_unit (q : Quat) : to_matrix (unit q) = to_matrix q := by
  simp [to_matrix, unit_of_isUnit (unit_isUnit q)]

theorem isRotation_of_unit {q : Quat} (h : IsUnitQ q) : IsRotation (to_matrix q) := by
  rw [isRotation_iff, to_matrix_of_unit h]
  unfold IsUnitQ at h
  have hs : q.s ^ 2 = 1 - q.x ^ 2 - q.y ^ 2 - q.z ^ 2 := by linarith
  constructor
  · ext <;> simp only [M3.mul, M3.transpose, M3.identity] <;> ring_nf <;> rw [hs] <;> ring
  · simp only [M3.det]
    have hs4 : q.s ^ 4 = (1 - q.x ^ 2 - q.y ^ 2 - q.z ^ 2) ^ 2 := by rw [← hs]; ring
    ring_nf
    rw [hs]
    ring

end Quat
end Verif
