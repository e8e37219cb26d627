import Mathlib.LinearAlgebra.Matrix.PosDef
import Mathlib.Analysis.Matrix.Spectrum
import Mathlib.Data.Real.StarOrdered
import Verif.Props.Mass
import Verif.Props.Quaternion
import Verif.Props.StateStorage
import Verif.Props.MeshShapes

/-! C49: mass property transforms; C68: non-vacuity. -/

namespace Verif

open VMesh (Tri)
open Mass Matrix Rigid

theorem solid_mul (V : List V3) (T : List Tri) (m l : Fin 3) (p q : ℝ) :
    solidIntegral (fun r => (comp r m - p) * (comp r l - q)) V T =
      solidIntegral (fun r => comp r m * comp r l) V T - q * solidIntegral (fun r => comp r m) V T -
      p * solidIntegral (fun r => comp r l) V T + p * q * solidIntegral (fun _ => 1) V T := by
  have h : ∀ a b c : V3, tetIntegral (fun r => (comp r m - p) * (comp r l - q)) a b c =
      tetIntegral (fun r => comp r m * comp r l) a b c - q * tetIntegral (fun r => comp r m) a b c -
      p * tetIntegral (fun r => comp r l) a b c + p * q * tetIntegral (fun _ => 1) a b c := by
    intro a b c
    rw [tetIntegral_affine _ a b c (-p) (comp a m) (comp b m) (comp c m) (-q) (comp a l) (comp b l) (comp c l)
      (by intro s t u; rw [comp_comb, comp_comb]; ring), tet_quad, tet_lin, tet_lin, tet_one]
    ring
  unfold solidIntegral
  simp only [h]
  induction T with
  | nil => simp
  | cons t T ih =>
    simp only [List.map_cons, List.sum_cons]
    linear_combination ih

/-- **C49.** Parallel-axis theorem: translating mass properties that are the integrals of a solid with respect to the model origin
gives the integrals with respect to the centre of mass (products of inertia of magnitude below 1e-10 are reported as 0). -/
theorem C49_parallel_axis (V : List V3) (T : List Tri) (ρ : ℝ) (p : MassProperties)
    (hV : 0 < solidIntegral (fun _ => 1) V T)
    (hm : p.mass = ρ * solidIntegral (fun _ => 1) V T)
    (hx : p.x = solidIntegral (fun r => r.x) V T / solidIntegral (fun _ => 1) V T)
    (hy : p.y = solidIntegral (fun r => r.y) V T / solidIntegral (fun _ => 1) V T)
    (hz : p.z = solidIntegral (fun r => r.z) V T / solidIntegral (fun _ => 1) V T)
    (hxx : p.Ixx = ρ * (solidIntegral (fun r => r.y * r.y) V T + solidIntegral (fun r => r.z * r.z) V T))
    (hyy : p.Iyy = ρ * (solidIntegral (fun r => r.z * r.z) V T + solidIntegral (fun r => r.x * r.x) V T))
    (hzz : p.Izz = ρ * (solidIntegral (fun r => r.x * r.x) V T + solidIntegral (fun r => r.y * r.y) V T))
    (hxy : p.Ixy = -ρ * solidIntegral (fun r => r.x * r.y) V T)
    (hyz : p.Iyz = -ρ * solidIntegral (fun r => r.y * r.z) V T)
    (hxz : p.Ixz = -ρ * solidIntegral (fun r => r.z * r.x) V T) :
    ∃ b, translate_to_body_space_origin p = (⟨-p.x, -p.y, -p.z⟩, b) ∧ b.mass = p.mass ∧ b.x = 0 ∧ b.y = 0 ∧ b.z = 0 ∧
      b.Ixx = ρ * (solidIntegral (fun r => (r.y - p.y) * (r.y - p.y)) V T + solidIntegral (fun r => (r.z - p.z) * (r.z - p.z)) V T) ∧
      b.Iyy = ρ * (solidIntegral (fun r => (r.z - p.z) * (r.z - p.z)) V T + solidIntegral (fun r => (r.x - p.x) * (r.x - p.x)) V T) ∧
      b.Izz = ρ * (solidIntegral (fun r => (r.x - p.x) * (r.x - p.x)) V T + solidIntegral (fun r => (r.y - p.y) * (r.y - p.y)) V T) ∧
      b.Ixy = snap (-ρ * solidIntegral (fun r => (r.x - p.x) * (r.y - p.y)) V T) ∧
      b.Iyz = snap (-ρ * solidIntegral (fun r => (r.y - p.y) * (r.z - p.z)) V T) ∧
      b.Ixz = snap (-ρ * solidIntegral (fun r => (r.x - p.x) * (r.z - p.z)) V T) := by
  have exx := solid_mul V T 0 0 p.x p.x
  have eyy := solid_mul V T 1 1 p.y p.y
  have ezz := solid_mul V T 2 2 p.z p.z
  have exy := solid_mul V T 0 1 p.x p.y
  have eyz := solid_mul V T 1 2 p.y p.z
  have ezx := solid_mul V T 2 0 p.z p.x
  simp only [Mass.comp, Matrix.cons_val_zero, Matrix.cons_val_one, Matrix.cons_val] at exx eyy ezz exy eyz ezx
  have hzx' : solidIntegral (fun r => (r.x - p.x) * (r.z - p.z)) V T = solidIntegral (fun r => (r.z - p.z) * (r.x - p.x)) V T := by
    congr 1; funext r; ring
  rw [exx, eyy, ezz, exy, eyz, hzx', ezx]
  have hV' := hV.ne'
  generalize solidIntegral (fun _ => 1) V T = v at *
  have hx' : solidIntegral (fun r => r.x) V T = p.x * v := by rw [hx]; field_simp
  have hy' : solidIntegral (fun r => r.y) V T = p.y * v := by rw [hy]; field_simp
  have hz' : solidIntegral (fun r => r.z) V T = p.z * v := by rw [hz]; field_simp
  refine ⟨_, rfl, rfl, lit0, lit0, lit0, ?_, ?_, ?_, ?_, ?_, ?_⟩
  · show p.Ixx - p.mass * (-p.y * -p.y + -p.z * -p.z) = _
    rw [hxx, hm, hy', hz']; ring
  · show p.Iyy - p.mass * (-p.x * -p.x + -p.z * -p.z) = _
    rw [hyy, hm, hx', hz']; ring
  · show p.Izz - p.mass * (-p.x * -p.x + -p.y * -p.y) = _
    rw [hzz, hm, hx', hy']; ring
  · show clampAbs (p.Ixy + p.mass * (-p.x * -p.y)) = _
    rw [clampAbs_eq, hxy, hm, hx', hy']; congr 1; ring
  · show clampAbs (p.Iyz + p.mass * (-p.y * -p.z)) = _
    rw [clampAbs_eq, hyz, hm, hy', hz']; congr 1; ring
  · show clampAbs (p.Ixz + p.mass * (-p.x * -p.z)) = _
    rw [clampAbs_eq, hxz, hm, hx', hz']; congr 1; ring

/-- What is assumed of `np.linalg.eig` on a symmetric matrix: the eigenvectors are orthonormal columns R, and A R = R diag(d). -/
def EigSpec (eig : M3 → (Fin 3 → ℝ) × M3) : Prop :=
  ∀ A : M3, A.toMatᵀ = A.toMat →
    (eig A).2.toMatᵀ * (eig A).2.toMat = 1 ∧ A.toMat * (eig A).2.toMat = (eig A).2.toMat * diagonal (eig A).1

theorem sortOrder_spec (d : Fin 3 → ℝ) : sortOrder d ∈ permutations ∧ d (sortOrder d 0) ≥ d (sortOrder d 1) ∧
    d (sortOrder d 1) ≥ d (sortOrder d 2) := by
  unfold sortOrder
  cases h : permutations.find? (fun p => decide (d (p 0) ≥ d (p 1) ∧ d (p 1) ≥ d (p 2))) with
  | some p =>
    have h1 := List.mem_of_find?_eq_some h
    have h2 := List.find?_some h
    simp only [decide_eq_true_eq] at h2
    exact ⟨h1, h2⟩
  | none =>
    exfalso
    rw [List.find?_eq_none] at h
    simp [permutations] at h
    obtain ⟨h1, h2, h3, h4, h5, h6⟩ := h
    rcases le_total (d 0) (d 1) with a | a <;> rcases le_total (d 1) (d 2) with b | b <;> rcases le_total (d 0) (d 2) with c | c <;>
      first
        | (have := h1 (by assumption); linarith)
        | (have := h2 (by assumption); linarith)
        | (have := h3 (by assumption); linarith)
        | (have := h4 (by assumption); linarith)
        | (have := h5 (by assumption); linarith)
        | (have := h6 (by assumption); linarith)

/-- the spectral sum of columns -/
theorem columns_spectral (R : M3) (d : Fin 3 → ℝ) (o : Fin 3 → Fin 3) (ho : o ∈ permutations) :
    (columns R o).toMat * diagonal (fun i => d (o i)) * (columns R o).toMatᵀ = R.toMat * diagonal d * R.toMatᵀ ∧
    (columns R o).toMatᵀ * (columns R o).toMat = (R.toMatᵀ * R.toMat).submatrix o o := by
  have hc : (columns R o).toMat = R.toMat.submatrix id o := by
    simp only [permutations, List.mem_cons, List.not_mem_nil, or_false] at ho
    rcases ho with rfl | rfl | rfl | rfl | rfl | rfl <;> ext i j <;> fin_cases i <;> fin_cases j <;> rfl
  rw [hc]
  have hbij : Function.Bijective o := by
    simp only [permutations, List.mem_cons, List.not_mem_nil, or_false] at ho
    rcases ho with rfl | rfl | rfl | rfl | rfl | rfl <;> decide
  constructor
  · have hd : diagonal (fun i => d (o i)) = (diagonal d).submatrix o o := by
      rw [Matrix.submatrix_diagonal _ _ hbij.1]; rfl
    rw [hd, ← Matrix.submatrix_mul _ _ id o o hbij, Matrix.transpose_submatrix, ← Matrix.submatrix_mul _ _ id o id hbij]
    rfl
  · rw [Matrix.transpose_submatrix]
    rw [← Matrix.submatrix_mul _ _ o id o Function.bijective_id]

theorem toMat_flip (R : M3) : (flipFirst R).toMat = R.toMat * diagonal ![-1, 1, 1] := by
  ext i j
  rw [Matrix.mul_diagonal]
  fin_cases i <;> fin_cases j <;> simp [flipFirst, M3.toMat]

/-- **C49.** Principal axes: the returned quaternion is a unit quaternion whose rotation, with the returned moments, reproduces
the inertia tensor, R diag(I) Rᵀ = A; the moments are in descending order. -/
theorem C49_principal_axes {eig : M3 → (Fin 3 → ℝ) × M3} (he : EigSpec eig) (p : MassProperties) :
    ∃ q I, rotate_to_model_space_orientation eig p = (q, I) ∧ IsUnitQ q ∧ IsRotation (Quat.to_matrix q) ∧
      (Quat.to_matrix q).toMat * diagonal ![I.x, I.y, I.z] * (Quat.to_matrix q).toMatᵀ =
        !![p.Ixx, p.Ixy, p.Ixz; p.Ixy, p.Iyy, p.Iyz; p.Ixz, p.Iyz, p.Izz] ∧
      I.x ≥ I.y ∧ I.y ≥ I.z := by
  have hA : (inertiaMatrix p).toMat = !![p.Ixx, p.Ixy, p.Ixz; p.Ixy, p.Iyy, p.Iyz; p.Ixz, p.Iyz, p.Izz] := by
    ext i j
    fin_cases i <;> fin_cases j <;> rfl
  have hsym : (inertiaMatrix p).toMatᵀ = (inertiaMatrix p).toMat := by
    ext i j
    fin_cases i <;> fin_cases j <;> rfl
  obtain ⟨h1, h2⟩ := he _ hsym
  rw [← hA]
  unfold rotate_to_model_space_orientation
  simp only []
  generalize inertiaMatrix p = A at *
  generalize eig A = e at *
  obtain ⟨d, R⟩ := e
  simp only [] at h1 h2 ⊢
  obtain ⟨hs1, hs2, hs3⟩ := sortOrder_spec d
  generalize sortOrder d = o at *
  obtain ⟨hc1, hc2⟩ := columns_spectral R d o hs1
  have hRR : R.toMat * R.toMatᵀ = 1 := mul_eq_one_comm.1 h1
  have hsp : R.toMat * diagonal d * R.toMatᵀ = A.toMat := by
    rw [← h2, Matrix.mul_assoc, hRR, Matrix.mul_one]
  have hdv : (fun i => d (o i)) = ![d (o 0), d (o 1), d (o 2)] := by
    funext i; fin_cases i <;> rfl
  have hinj : Function.Injective o := by
    simp only [permutations, List.mem_cons, List.not_mem_nil, or_false] at hs1
    rcases hs1 with rfl | rfl | rfl | rfl | rfl | rfl <;> decide
  rw [h1, Matrix.submatrix_one _ hinj] at hc2
  rw [hsp, hdv] at hc1
  generalize columns R o = C at *
  -- the matrix after the sign flip
  have hrot : IsRotation (if C.det < 0.0 then flipFirst C else C) ∧
      (if C.det < 0.0 then flipFirst C else C).toMat * diagonal ![d (o 0), d (o 1), d (o 2)] *
        (if C.det < 0.0 then flipFirst C else C).toMatᵀ = A.toMat := by
    have hdet2 : C.toMat.det * C.toMat.det = 1 := by
      have := congrArg Matrix.det hc2
      rwa [Matrix.det_mul, Matrix.det_transpose, Matrix.det_one] at this
    split_ifs with h
    · rw [lit0, ← M3.toMat_det] at h
      have hdet : C.toMat.det = -1 := by
        rcases mul_self_eq_one_iff.1 hdet2 with e | e
        · rw [e] at h; norm_num at h
        · exact e
      constructor
      · unfold IsRotation
        rw [Matrix.mem_specialOrthogonalGroup_iff, Matrix.mem_orthogonalGroup_iff', toMat_flip]
        constructor
        · rw [Matrix.transpose_mul, Matrix.diagonal_transpose]
          calc diagonal ![-1, 1, 1] * C.toMatᵀ * (C.toMat * diagonal ![-1, 1, 1])
              = diagonal ![-1, 1, 1] * (C.toMatᵀ * C.toMat) * diagonal ![-1, 1, 1] := by simp only [Matrix.mul_assoc]
            _ = 1 := by
              rw [hc2, Matrix.mul_one, Matrix.diagonal_mul_diagonal, ← Matrix.diagonal_one]
              congr 1; funext i; fin_cases i <;> simp
        · rw [Matrix.det_mul, hdet, Matrix.det_diagonal, Fin.prod_univ_three]
          simp
      · rw [toMat_flip, Matrix.transpose_mul, Matrix.diagonal_transpose, ← hc1]
        have : diagonal ![-1, 1, 1] * diagonal ![d (o 0), d (o 1), d (o 2)] * diagonal ![-1, 1, 1] =
            (diagonal ![d (o 0), d (o 1), d (o 2)] : Matrix (Fin 3) (Fin 3) ℝ) := by
          rw [Matrix.diagonal_mul_diagonal, Matrix.diagonal_mul_diagonal]
          congr 1; funext i; fin_cases i <;> simp
        calc C.toMat * diagonal ![-1, 1, 1] * diagonal ![d (o 0), d (o 1), d (o 2)] * (diagonal ![-1, 1, 1] * C.toMatᵀ)
            = C.toMat * (diagonal ![-1, 1, 1] * diagonal ![d (o 0), d (o 1), d (o 2)] * diagonal ![-1, 1, 1]) * C.toMatᵀ := by
              simp only [Matrix.mul_assoc]
          _ = _ := by rw [this]
    · refine ⟨?_, hc1⟩
      rw [lit0, ← M3.toMat_det] at h
      unfold IsRotation
      rw [Matrix.mem_specialOrthogonalGroup_iff, Matrix.mem_orthogonalGroup_iff']
      refine ⟨hc2, ?_⟩
      rcases mul_self_eq_one_iff.1 hdet2 with e | e
      · exact e
      · rw [e] at h; norm_num at h
  obtain ⟨hr1, hr2⟩ := hrot
  obtain ⟨hq1, hq2⟩ := C04_from_matrix_correct _ hr1
  refine ⟨_, _, rfl, hq1, ?_, ?_, hs2, hs3⟩
  · rw [hq2]; exact hr1
  · rw [hq2]; exact hr2

/-- **C49.** `xform_model_2_body_space`: origin at the centre of mass, unchanged mass, axes along the principal axes of the translated
inertia tensor. -/
theorem C49_xform {eig : M3 → (Fin 3 → ℝ) × M3} (he : EigSpec eig) (p : MassProperties) :
    ∃ q I b, xform_model_2_body_space eig p = (⟨p.x, p.y, p.z⟩, q, p.mass, I) ∧
      translate_to_body_space_origin p = (⟨-p.x, -p.y, -p.z⟩, b) ∧
      IsUnitQ q ∧ IsRotation (Quat.to_matrix q) ∧
      (Quat.to_matrix q).toMat * diagonal ![I.x, I.y, I.z] * (Quat.to_matrix q).toMatᵀ =
        !![b.Ixx, b.Ixy, b.Ixz; b.Ixy, b.Iyy, b.Iyz; b.Ixz, b.Iyz, b.Izz] ∧
      I.x ≥ I.y ∧ I.y ≥ I.z := by
  obtain ⟨q, I, h1, h2, h3, h4, h5⟩ := C49_principal_axes he (translate_to_body_space_origin p).2
  refine ⟨q, I, (translate_to_body_space_origin p).2, ?_, rfl, h2, h3, h4, h5⟩
  unfold xform_model_2_body_space
  simp only []
  rw [h1]
  simp only [translate_to_body_space_origin]
  congr 1
  ext <;> simp

/-- **C49.** The world inertia of a body with positive principal moments is symmetric positive definite. -/
theorem C49_world_inertia_posDef {R : M3} (hR : IsRotation R) {I : V3} (hx : 0 < I.x) (hy : 0 < I.y) (hz : 0 < I.z) :
    (update_inertia_tensor R I).toMat.PosDef := by
  rw [C46_inertia_tensor]
  have hd : (diagonal I.toFun : Matrix (Fin 3) (Fin 3) ℝ).PosDef := by
    rw [Matrix.posDef_diagonal_iff]
    intro i; fin_cases i <;> assumption
  have hRR : R.toMat * R.toMatᵀ = 1 := by
    have := (Matrix.mem_specialOrthogonalGroup_iff.1 hR).1
    rw [Matrix.mem_orthogonalGroup_iff] at this
    exact this
  have hinj : Function.Injective R.toMat.vecMul := by
    intro a b hab
    have := congrArg (fun w => w ᵥ* R.toMatᵀ) hab
    simpa [Matrix.vecMul_vecMul, hRR] using this
  have := hd.mul_mul_conjTranspose_same hinj
  rwa [Matrix.conjTranspose_eq_transpose_of_trivial] at this

/-- The assumption on `eig` can be met. -/
theorem eigSpec_exists : ∃ eig, EigSpec eig := by
  have h : ∀ A : M3, ∃ e : (Fin 3 → ℝ) × M3, A.toMatᵀ = A.toMat →
      e.2.toMatᵀ * e.2.toMat = 1 ∧ A.toMat * e.2.toMat = e.2.toMat * diagonal e.1 := by
    intro A
    by_cases hs : A.toMatᵀ = A.toMat
    · have hH : A.toMat.IsHermitian := by
        unfold Matrix.IsHermitian
        rw [Matrix.conjTranspose_eq_transpose_of_trivial, hs]
      let U : Matrix (Fin 3) (Fin 3) ℝ := (hH.eigenvectorUnitary : Matrix (Fin 3) (Fin 3) ℝ)
      let R : M3 := ⟨U 0 0, U 0 1, U 0 2, U 1 0, U 1 1, U 1 2, U 2 0, U 2 1, U 2 2⟩
      have hR : R.toMat = U := by
        ext i j
        fin_cases i <;> fin_cases j <;> rfl
      have hU : Uᵀ * U = 1 := by
        have := (Matrix.mem_unitaryGroup_iff').1 hH.eigenvectorUnitary.2
        rw [Matrix.star_eq_conjTranspose, Matrix.conjTranspose_eq_transpose_of_trivial] at this
        exact this
      refine ⟨(hH.eigenvalues, R), fun _ => ⟨by rw [hR]; exact hU, ?_⟩⟩
      rw [hR]
      ext i j
      have := congrFun (hH.mulVec_eigenvectorBasis j) i
      rw [Matrix.mul_diagonal, Matrix.mul_apply]
      simp only [Matrix.mulVec, dotProduct, Pi.smul_apply, smul_eq_mul] at this
      simp only [U, Matrix.IsHermitian.eigenvectorUnitary_apply]
      rw [this, mul_comm]
    · exact ⟨(0, M3.zero), fun h => absurd h hs⟩
  choose f hf using h
  exact ⟨f, hf⟩

/-- A corner tetrahedron. -/
def cornerV : List V3 := [⟨0, 0, 0⟩, ⟨1, 0, 0⟩, ⟨0, 1, 0⟩, ⟨0, 0, 1⟩]
def cornerT : List Tri := [⟨0, 2, 1⟩, ⟨0, 1, 3⟩, ⟨0, 3, 2⟩, ⟨1, 2, 3⟩]

/-- Non-vacuity of C68: the corner tetrahedron of volume 1/6 has mass ρ/6 and centre of mass (1/4, 1/4, 1/4). -/
theorem mass_example : ∃ p, compute_mass_properties cornerV cornerT 6 = .ok p ∧ p.mass = 1 ∧ p.x = 1 / 4 := by
  have hc : ClosedOriented cornerT := by
    refine ⟨by decide, ?_⟩
    intro a b h
    have hs : ∀ e ∈ dirEdges cornerT, (e.2, e.1) ∈ dirEdges cornerT := by decide
    exact hs (a, b) h
  have hi : IndicesBelow cornerT cornerV.length := by
    intro t ht
    simp only [cornerT, List.mem_cons, List.not_mem_nil, or_false] at ht
    rcases ht with rfl | rfl | rfl | rfl <;> decide
  have hN : ∀ t ∈ cornerT, ¬ ZeroArea cornerV t := by
    intro t ht h
    simp only [cornerT, List.mem_cons, List.not_mem_nil, or_false] at ht
    unfold ZeroArea at h
    rw [V3.ext_iff] at h
    rcases ht with rfl | rfl | rfl | rfl <;> norm_num [cornerV, V3.cross] at h
  have hv : solidIntegral (fun _ => 1) cornerV cornerT = 1 / 6 := by
    rw [solidIntegral_one]
    norm_num [enclosedVolume, cornerT, cornerV, det3]
  have hx : solidIntegral (fun r => r.x) cornerV cornerT = 1 / 24 := by
    have : solidIntegral (fun r => r.x) cornerV cornerT = solidIntegral (fun r => Mass.comp r 0) cornerV cornerT := rfl
    rw [this]
    unfold solidIntegral
    simp only [tet_lin]
    norm_num [cornerT, cornerV, det3, Mass.comp]
  obtain ⟨p, h1, h2, h3, -⟩ := C68_mass_integrals cornerV cornerT 6 hc hi hN (by rw [hv]; norm_num)
  refine ⟨p, h1, ?_, ?_⟩
  · rw [h2, hv]; unfold snapPos; norm_num
  · rw [h3, hv, hx]; unfold snap; norm_num [abs_of_pos]

end Verif
