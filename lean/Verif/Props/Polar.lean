import Mathlib.LinearAlgebra.Matrix.PosDef
import Mathlib.Analysis.Matrix.Order
import Mathlib.Analysis.SpecialFunctions.ContinuousFunctionalCalculus.Rpow.Basic
import Verif.Model.SoftMech
import Verif.Lemmas.Soft
import Verif.Lemmas.Quaternion
import Verif.Props.MassXform

/-! C70: polar decomposition. -/

namespace Verif

open Matrix M3

/-- The contract of `np.linalg.eigh` on symmetric matrices: real eigenvalues d and orthonormal eigenvectors (the columns of Q). -/
def EighSpec (eigh : M3 → V3 × M3) : Prop :=
  ∀ A : M3, A.toMatᵀ = A.toMat →
    (eigh A).2.toMatᵀ * (eigh A).2.toMat = 1 ∧
    A.toMat * (eigh A).2.toMat = (eigh A).2.toMat * diagonal (eigh A).1.toFun

namespace Polar

theorem polarS_toMat (d : V3) (Q : M3) :
    (polarS d Q).toMat = Q.toMat * diagonal ![√d.x, √d.y, √d.z] * Q.toMatᵀ := by
  ext i j
  rw [Matrix.mul_apply, Fin.sum_univ_three]
  simp only [Matrix.mul_diagonal]
  fin_cases i <;> fin_cases j <;> simp [polarS, M3.toMat, outer, col0, col1, col2] <;> ring

variable {eigh : M3 → V3 × M3}

/-- The eigen decomposition of AᵀA. -/
theorem eigh_gram (he : EighSpec eigh) (A : M3) :
    let d := (eigh (A.transpose.mul A)).1
    let Q := (eigh (A.transpose.mul A)).2
    Q.toMatᵀ * Q.toMat = 1 ∧ Q.toMat * Q.toMatᵀ = 1 ∧ A.toMatᵀ * A.toMat = Q.toMat * diagonal d.toFun * Q.toMatᵀ ∧
      diagonal d.toFun = (A.toMat * Q.toMat)ᵀ * (A.toMat * Q.toMat) := by
  have hs : (A.transpose.mul A).toMatᵀ = (A.transpose.mul A).toMat := by
    rw [M3.toMat_mul, M3.toMat_transpose, Matrix.transpose_mul, Matrix.transpose_transpose]
  obtain ⟨h1, h2⟩ := he _ hs
  rw [M3.toMat_mul, M3.toMat_transpose] at h2
  have h1' := mul_eq_one_comm.mp h1
  refine ⟨h1, h1', ?_, ?_⟩
  · rw [← h2, Matrix.mul_assoc, h1', Matrix.mul_one]
  · rw [Matrix.transpose_mul, Matrix.mul_assoc, ← Matrix.mul_assoc A.toMatᵀ, h2, ← Matrix.mul_assoc, h1, Matrix.one_mul]

theorem prod_eig (he : EighSpec eigh) (A : M3) :
    (eigh (A.transpose.mul A)).1.x * (eigh (A.transpose.mul A)).1.y * (eigh (A.transpose.mul A)).1.z = A.det ^ 2 := by
  obtain ⟨h1, h1', h3, -⟩ := eigh_gram he A
  have := congrArg Matrix.det h3
  rw [Matrix.det_mul, Matrix.det_mul, Matrix.det_mul, Matrix.det_transpose, Matrix.det_transpose, Matrix.det_diagonal,
    M3.toMat_det] at this
  have hq := congrArg Matrix.det h1
  rw [Matrix.det_mul, Matrix.det_transpose, Matrix.det_one] at hq
  simp only [Fin.prod_univ_three, V3.toFun, Matrix.cons_val_zero, Matrix.cons_val_one, Matrix.cons_val] at this
  rw [pow_two, this]
  linear_combination (-(eigh (A.transpose.mul A)).1.x * (eigh (A.transpose.mul A)).1.y * (eigh (A.transpose.mul A)).1.z) * hq

theorem eig_nonneg (he : EighSpec eigh) (A : M3) (i : Fin 3) : 0 ≤ (eigh (A.transpose.mul A)).1.toFun i := by
  obtain ⟨-, -, -, h4⟩ := eigh_gram he A
  have := congrFun (congrFun h4 i) i
  rw [Matrix.diagonal_apply_eq, Matrix.mul_apply] at this
  rw [this]
  exact Finset.sum_nonneg fun k _ => by rw [Matrix.transpose_apply]; exact mul_self_nonneg _

theorem eig_pos (he : EighSpec eigh) (A : M3) (h : A.det ≠ 0) (i : Fin 3) : 0 < (eigh (A.transpose.mul A)).1.toFun i := by
  refine lt_of_le_of_ne (eig_nonneg he A i) fun h0 => h ?_
  have := prod_eig he A
  have hz : (eigh (A.transpose.mul A)).1.x * (eigh (A.transpose.mul A)).1.y * (eigh (A.transpose.mul A)).1.z = 0 := by
    fin_cases i <;> simp [V3.toFun] at h0 <;> simp [← h0]
  rw [hz] at this
  exact pow_eq_zero_iff (two_ne_zero) |>.mp this.symm

theorem posDef_polarS {d : V3} {Q : M3} (hd : ∀ i, 0 < d.toFun i) (hQ : Q.toMat * Q.toMatᵀ = 1) :
    (polarS d Q).toMat.PosDef := by
  rw [polarS_toMat]
  have hD : (diagonal ![√d.x, √d.y, √d.z] : Matrix (Fin 3) (Fin 3) ℝ).PosDef := by
    refine Matrix.PosDef.diagonal fun i => ?_
    have := hd i
    fin_cases i <;> simpa [V3.toFun] using this
  have hu : IsUnit Q.toMatᵀ := (Matrix.isUnit_iff_isUnit_det _).mpr (by
    have := congrArg Matrix.det hQ
    rw [Matrix.det_mul, Matrix.det_one] at this
    exact IsUnit.of_mul_eq_one _ ((mul_comm _ _).trans this))
  have := hD.conjTranspose_mul_mul_same (B := Q.toMatᵀ) (Matrix.mulVec_injective_of_isUnit hu)
  simpa [Matrix.conjTranspose_eq_transpose_of_trivial] using this

theorem polarS_sq {d : V3} {Q : M3} (hd : ∀ i, 0 < d.toFun i) (hQ : Q.toMatᵀ * Q.toMat = 1) :
    (polarS d Q).toMat * (polarS d Q).toMat = Q.toMat * diagonal d.toFun * Q.toMatᵀ := by
  rw [polarS_toMat]
  have hD : (diagonal ![√d.x, √d.y, √d.z] : Matrix (Fin 3) (Fin 3) ℝ) * diagonal ![√d.x, √d.y, √d.z] = diagonal d.toFun := by
    rw [Matrix.diagonal_mul_diagonal]
    congr 1; funext i
    have := (hd i).le
    fin_cases i <;> simpa [V3.toFun] using Real.mul_self_sqrt this
  calc _ = Q.toMat * diagonal ![√d.x, √d.y, √d.z] * (Q.toMatᵀ * Q.toMat) * diagonal ![√d.x, √d.y, √d.z] * Q.toMatᵀ := by
        simp only [Matrix.mul_assoc]
    _ = _ := by rw [hQ, Matrix.mul_one, Matrix.mul_assoc Q.toMat, hD]

end Polar

open Polar

/-- **C70.** For every invertible A the polar decomposition succeeds: A = R S with R orthogonal, S symmetric positive definite, and
det R = 1 or -1 according to the sign of det A. -/
theorem C70_polar {eigh : M3 → V3 × M3} (he : EighSpec eigh) (A : M3) (hA : A.toMat.det ≠ 0) :
    ∃ R S, polar_decomposition eigh A = .ok (R, S) ∧ A.toMat = R.toMat * S.toMat ∧
      R.toMatᵀ * R.toMat = 1 ∧ S.toMat.PosDef ∧ R.toMat.det = SignType.sign A.toMat.det := by
  have hA' : A.det ≠ 0 := by rwa [M3.toMat_det] at hA
  obtain ⟨h1, h1', h3, -⟩ := eigh_gram he A
  have hd := eig_pos he A hA'
  set d := (eigh (A.transpose.mul A)).1 with hdd
  set Q := (eigh (A.transpose.mul A)).2 with hQQ
  have hP := posDef_polarS hd h1'
  have hsq := polarS_sq hd h1
  set S := polarS d Q with hS
  have hSdet : 0 < S.toMat.det := hP.det_pos
  obtain ⟨Si, hSi⟩ := inv_exists (A := S) (by rw [← M3.toMat_det]; exact hSdet.ne')
  obtain ⟨-, hi1, hi2⟩ := inv_ok hSi
  have hi1' := congrArg M3.toMat hi1
  have hi2' := congrArg M3.toMat hi2
  rw [M3.toMat_mul, M3.toMat_identity] at hi1' hi2'
  have hsym : S.toMatᵀ = S.toMat := by
    have := hP.isHermitian
    rwa [Matrix.IsHermitian, Matrix.conjTranspose_eq_transpose_of_trivial] at this
  have hAR : A.toMat = (A.mul Si).toMat * S.toMat := by
    rw [M3.toMat_mul, Matrix.mul_assoc, hi2', Matrix.mul_one]
  have hR : (A.mul Si).toMatᵀ * (A.mul Si).toMat = 1 := by
    rw [M3.toMat_mul, Matrix.transpose_mul, Matrix.mul_assoc, ← Matrix.mul_assoc A.toMatᵀ, h3, ← hsq, Matrix.mul_assoc S.toMat, hi1',
      Matrix.mul_one]
    have := congrArg Matrix.transpose hi1'
    rwa [Matrix.transpose_mul, hsym, Matrix.transpose_one] at this
  refine ⟨A.mul Si, S, ?_, hAR, hR, hP, ?_⟩
  · have hpos : 0 < d.x ∧ 0 < d.y ∧ 0 < d.z := ⟨hd 0, hd 1, hd 2⟩
    unfold polar_decomposition
    simp only [← hdd, ← hQQ, ← hS]
    rw [if_neg (not_not.mpr hpos), hSi]
    rfl
  · have hdet := congrArg Matrix.det hAR
    rw [Matrix.det_mul] at hdet
    have hR1 := congrArg Matrix.det hR
    rw [Matrix.det_mul, Matrix.det_transpose, Matrix.det_one] at hR1
    generalize (A.mul Si).toMat.det = r at *
    rcases mul_self_eq_one_iff.mp hR1 with rfl | rfl
    · rw [hdet, one_mul, sign_pos hSdet]; simp
    · rw [hdet, sign_neg (by linarith)]; simp

/-- **C70.** It raises ValueError exactly for singular matrices. -/
theorem C70_raises {eigh : M3 → V3 × M3} (he : EighSpec eigh) (A : M3) :
    polar_decomposition eigh A = .error .valueError ↔ A.toMat.det = 0 := by
  constructor
  · intro h
    by_contra hA
    obtain ⟨R, S, h', -⟩ := C70_polar he A hA
    rw [h'] at h; cases h
  · intro h
    rw [M3.toMat_det] at h
    have := prod_eig he A
    unfold polar_decomposition
    refine if_pos fun hp => ?_
    have h2 := mul_pos (mul_pos hp.1 hp.2.1) hp.2.2
    rw [this, h] at h2
    norm_num at h2

open scoped MatrixOrder in
/-- Symmetric positive semidefinite square roots are unique. -/
theorem psd_sq_unique {S T : Matrix (Fin 3) (Fin 3) ℝ} (hS : S.PosSemidef) (hT : T.PosSemidef) (h : S * S = T * T) : S = T := by
  exact (CFC.sqrt_unique h hS.nonneg).symm.trans (CFC.sqrt_unique rfl hT.nonneg)

/-- **C70.** The factors are unique: whatever other decomposition of A into an orthogonal and a symmetric positive semidefinite
factor one writes down, it is the returned one (in particular a rotation comes back as itself, with S the identity, and a
positive definite matrix with R the identity). -/
theorem C70_unique {eigh : M3 → V3 × M3} (he : EighSpec eigh) (A : M3) (hA : A.toMat.det ≠ 0) (R S : M3)
    (hAR : A.toMat = R.toMat * S.toMat) (hR : R.toMatᵀ * R.toMat = 1) (hS : S.toMat.PosSemidef) :
    polar_decomposition eigh A = .ok (R, S) := by
  obtain ⟨R', S', h, hAR', hR', hS', -⟩ := C70_polar he A hA
  have gram : ∀ {R S : Matrix (Fin 3) (Fin 3) ℝ}, Rᵀ * R = 1 → S.PosSemidef → (R * S)ᵀ * (R * S) = S * S := by
    intro R S hR hS
    have : Sᵀ = S := by
      have := hS.isHermitian
      rwa [Matrix.IsHermitian, Matrix.conjTranspose_eq_transpose_of_trivial] at this
    rw [Matrix.transpose_mul, Matrix.mul_assoc, ← Matrix.mul_assoc Rᵀ, hR, Matrix.one_mul, this]
  have hSS : S'.toMat = S.toMat :=
    psd_sq_unique hS'.posSemidef hS (by rw [← gram hR' hS'.posSemidef, ← gram hR hS, ← hAR', hAR])
  have hu : IsUnit S.toMat.det := by rw [← hSS]; exact hS'.det_pos.ne'.isUnit
  have hRR : R'.toMat = R.toMat := by
    have : R'.toMat * S.toMat = R.toMat * S.toMat := by rw [← hAR, hAR', hSS]
    have := congrArg (· * S.toMat⁻¹) this
    simpa [Matrix.mul_assoc, Matrix.mul_nonsing_inv _ hu] using this
  rw [h, M3.toMat_injective hSS, M3.toMat_injective hRR]

/-- **C70.** The docstring promises det R = 1; that holds exactly when det A > 0: a mirrored (inverted) matrix gets a reflection. -/
theorem C70_rotation {eigh : M3 → V3 × M3} (he : EighSpec eigh) (A R S : M3) (h : polar_decomposition eigh A = .ok (R, S)) :
    IsRotation R ↔ 0 < A.toMat.det := by
  have hA : A.toMat.det ≠ 0 := fun h0 => by rw [(C70_raises he A).mpr h0] at h; cases h
  obtain ⟨R', S', h', -, hR, -, hd⟩ := C70_polar he A hA
  obtain ⟨rfl, rfl⟩ : R' = R ∧ S' = S := by rw [h'] at h; cases h; exact ⟨rfl, rfl⟩
  unfold IsRotation
  rw [Matrix.mem_specialOrthogonalGroup_iff, Matrix.mem_orthogonalGroup_iff', hd]
  constructor
  · rintro ⟨-, h1⟩
    rcases lt_trichotomy A.toMat.det 0 with hn | hz | hp
    · rw [sign_neg hn] at h1; norm_num at h1
    · exact absurd hz hA
    · exact hp
  · intro hp
    rw [sign_pos hp]
    exact ⟨hR, by simp⟩

/-- **C70.** The array version decomposes every matrix of a stack as the scalar version does; one singular matrix anywhere makes
the call raise; and the two versions differ on a single matrix, for which the array version always raises. -/
theorem C70_array {eigh : M3 → V3 × M3} (he : EighSpec eigh) (As : List M3) :
    ((∀ A ∈ As, A.toMat.det ≠ 0) → ∃ RS : List (M3 × M3),
      polar_decomposition_array eigh (.stack As) = .ok (.stack (RS.map (·.1)), .stack (RS.map (·.2))) ∧
      RS.length = As.length ∧ ∀ (i : ℕ) (A : M3) (r : M3 × M3), As[i]? = some A → RS[i]? = some r → polar_decomposition eigh A = .ok r) ∧
    ((∃ A ∈ As, A.toMat.det = 0) → polar_decomposition_array eigh (.stack As) = .error .valueError) ∧
    ∀ A, polar_decomposition_array eigh (.mat A) = .error .valueError := by
  refine ⟨?_, ?_, fun _ => rfl⟩
  · intro h
    have key : ∃ RS : List (M3 × M3), As.mapM (polar_decomposition eigh) = .ok RS ∧ RS.length = As.length ∧
        ∀ (i : ℕ) (A : M3) (r : M3 × M3), As[i]? = some A → RS[i]? = some r → polar_decomposition eigh A = .ok r := by
      induction As with
      | nil => exact ⟨[], rfl, rfl, by simp⟩
      | cons A As ih =>
        obtain ⟨RS, h1, h2, h3⟩ := ih fun B hB => h B (List.mem_cons_of_mem _ hB)
        obtain ⟨R, S, hA, -⟩ := C70_polar he A (h A List.mem_cons_self)
        refine ⟨(R, S) :: RS, ?_, by simp [h2], ?_⟩
        · rw [List.mapM_cons, hA, h1]; rfl
        · intro i B r hB hr
          cases i with
          | zero => simp at hB hr; rw [← hB, ← hr]; exact hA
          | succ i => exact h3 i B r (by simpa using hB) (by simpa using hr)
    obtain ⟨RS, h1, h2, h3⟩ := key
    exact ⟨RS, by simp only [polar_decomposition_array, h1]; rfl, h2, h3⟩
  · intro h
    have key : As.mapM (polar_decomposition eigh) = .error .valueError := by
      induction As with
      | nil => simp at h
      | cons A As ih =>
        rw [List.mapM_cons]
        by_cases hA : A.toMat.det = 0
        · rw [(C70_raises he A).mpr hA]; rfl
        · obtain ⟨R, S, hR, -⟩ := C70_polar he A hA
          obtain ⟨B, hB, hB0⟩ := h
          rw [hR, ih ⟨B, (List.mem_cons.mp hB).resolve_left (fun e => hA (e ▸ hB0)), hB0⟩]; rfl
    simp only [polar_decomposition_array, key]; rfl

/-- The assumption on `eigh` can be met. -/
theorem eighSpec_exists : ∃ eigh, EighSpec eigh := by
  obtain ⟨eig, he⟩ := eigSpec_exists
  refine ⟨fun A => (⟨(eig A).1 0, (eig A).1 1, (eig A).1 2⟩, (eig A).2), fun A hA => ?_⟩
  obtain ⟨h1, h2⟩ := he A hA
  refine ⟨h1, h2.trans ?_⟩
  congr 2
  funext i; fin_cases i <;> rfl

/-- A stretched quarter turn (about z, stretched along x): the turn and the stretch come back. -/
example {eigh : M3 → V3 × M3} (he : EighSpec eigh) :
    polar_decomposition eigh ⟨0, -1, 0, 2, 0, 0, 0, 0, 3⟩ = .ok (⟨0, -1, 0, 1, 0, 0, 0, 0, 1⟩, ⟨2, 0, 0, 0, 1, 0, 0, 0, 3⟩) := by
  refine C70_unique he _ ?_ _ _ ?_ ?_ ?_
  · rw [M3.toMat_det]; norm_num [M3.det]
  · ext i j; fin_cases i <;> fin_cases j <;> simp [M3.toMat, Matrix.mul_apply, Fin.sum_univ_three]
  · ext i j; fin_cases i <;> fin_cases j <;> simp [M3.toMat, Matrix.mul_apply, Fin.sum_univ_three]
  · have : (⟨2, 0, 0, 0, 1, 0, 0, 0, 3⟩ : M3).toMat = diagonal ![2, 1, 3] := by
      ext i j; fin_cases i <;> fin_cases j <;> rfl
    rw [this]
    exact Matrix.PosSemidef.diagonal fun i => by fin_cases i <;> simp

/-- **C70.** The mirror image of space: R is the reflection itself, so det R = -1. -/
theorem C70_reflection {eigh : M3 → V3 × M3} (he : EighSpec eigh) :
    ∃ R S, polar_decomposition eigh ⟨-1, 0, 0, 0, 1, 0, 0, 0, 1⟩ = .ok (R, S) ∧ R.toMat.det = -1 := by
  have hd : (⟨-1, 0, 0, 0, 1, 0, 0, 0, 1⟩ : M3).toMat.det = -1 := by rw [M3.toMat_det]; norm_num [M3.det]
  obtain ⟨R, S, h, -, -, -, hR⟩ := C70_polar he _ (by rw [hd]; norm_num)
  exact ⟨R, S, h, by rw [hR, hd]; simp⟩

end Verif
