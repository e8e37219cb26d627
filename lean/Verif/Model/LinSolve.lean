import Verif.Model.Vec

/-! np.linalg.solve on 3x3 systems, as used by barycentric.py, by its documented value: the unique
solution for a nonsingular matrix, LinAlgError for a singular one. -/

namespace Verif.M3

/-- Cramer's rule. -/
noncomputable def cramer (A : M3) (b : V3) : V3 :=
  ⟨det ⟨b.x, A.m01, A.m02, b.y, A.m11, A.m12, b.z, A.m21, A.m22⟩ / det A,
   det ⟨A.m00, b.x, A.m02, A.m10, b.y, A.m12, A.m20, b.z, A.m22⟩ / det A,
   det ⟨A.m00, A.m01, b.x, A.m10, A.m11, b.y, A.m20, A.m21, b.z⟩ / det A⟩

open Classical in
/-- `np.linalg.solve(A, b)`. -/
noncomputable def solve (A : M3) (b : V3) : Except PyErr V3 :=
  if det A = 0 then .error .linAlgError else .ok (cramer A b)

theorem mulVec_cramer {A : M3} (h : det A ≠ 0) (b : V3) : A.mulVec (cramer A b) = b := by
  have h' := h
  unfold det at h'
  ext <;> simp only [mulVec, cramer] <;> simp only [mul_div_assoc', ← add_div] <;>
    rw [div_eq_iff h] <;> unfold det <;> ring

theorem cramer_mulVec {A : M3} (h : det A ≠ 0) (x : V3) : cramer A (A.mulVec x) = x := by
  ext <;> simp only [cramer] <;> rw [div_eq_iff h] <;> simp only [mulVec, det] <;> ring

theorem mulVec_inj {A : M3} (h : det A ≠ 0) {x y : V3} (e : A.mulVec x = A.mulVec y) : x = y := by
  rw [← cramer_mulVec h x, e, cramer_mulVec h y]

theorem solve_ok {A : M3} (h : det A ≠ 0) (b : V3) :
    ∃ x, solve A b = .ok x ∧ A.mulVec x = b :=
  ⟨_, if_neg h, mulVec_cramer h b⟩

end Verif.M3
