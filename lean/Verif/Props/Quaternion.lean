import Verif.Lemmas.Quaternion

/-!
# C01 – C05: quaternions

The specification side uses only Mathlib's quaternion algebra `Quaternion ℝ`, the special
orthogonal group, the dot product `⬝ᵥ` and the cross product, through the readings in
`Verif/Spec/Linear.lean`.
-/

namespace Verif
open Matrix Quat

/-! ## C01 -/

/-- C01: `prod` is Hamilton's product, `conjugate` the quaternion conjugate, `identity` the one. -/
theorem C01_prod_is_hamilton (a b : Quat) : (prod a b).toH = a.toH * b.toH := by
  apply Quaternion.ext <;>
    simp only [Quaternion.re_mul, Quaternion.imI_mul, Quaternion.imJ_mul, Quaternion.imK_mul,
      toH_re, toH_imI, toH_imJ, toH_imK, prod, vec, V3.dot, V3.cross, V3.add_x, V3.add_y,
      V3.add_z, V3.smul_x, V3.smul_y, V3.smul_z] <;> ring

theorem C01_conjugate_is_star (q : Quat) : (conjugate q).toH = star q.toH := by
  apply Quaternion.ext <;> simp [conjugate]

theorem C01_identity_is_one : identity.toH = 1 := by
  apply Quaternion.ext <;> rfl

/-- C01: associativity (for all quaternions). -/
theorem C01_prod_assoc (a b c : Quat) : prod (prod a b) c = prod a (prod b c) := by
  apply toH_injective
  simp only [C01_prod_is_hamilton, mul_assoc]

/-- C01: `identity` is a two-sided unit. -/
theorem C01_identity_unit (a : Quat) : prod identity a = a ∧ prod a identity = a := by
  constructor <;> apply toH_injective <;> simp [C01_prod_is_hamilton, C01_identity_is_one]

/-- C01: conjugation is an involutive anti-automorphism. -/
theorem C01_conjugate_antihom (a b : Quat) :
    conjugate (prod a b) = prod (conjugate b) (conjugate a) ∧ conjugate (conjugate a) = a := by
  constructor
  · apply toH_injective
    simp only [C01_prod_is_hamilton, C01_conjugate_is_star, star_mul]
  · apply toH_injective
    simp only [C01_conjugate_is_star, star_star]

/-- C01: the norm is multiplicative. -/
theorem C01_norm_mul (a b : Quat) : norm (prod a b) = norm a * norm b := by
  unfold Quat.norm
  rw [← Real.sqrt_mul (dot_self_nonneg a)]
  congr 1
  simp only [prod, dot, vec, V3.dot, V3.cross, V3.add_x, V3.add_y, V3.add_z, V3.smul_x, V3.smul_y,
    V3.smul_z]
  ring

/-- C01: unit quaternions are closed under product, and conjugation inverts them on both sides. -/
theorem C01_unit_group {a b : Quat} (ha : IsUnitQ a) (hb : IsUnitQ b) :
    IsUnitQ (prod a b) ∧ IsUnitQ (conjugate a) ∧
      prod a (conjugate a) = identity ∧ prod (conjugate a) a = identity := by
  refine ⟨?_, ?_, ?_, ?_⟩
  · rw [isUnitQ_iff_norm, C01_norm_mul, norm_eq_one ha, norm_eq_one hb, mul_one]
  · unfold IsUnitQ conjugate at *; simp only; linarith
  · unfold IsUnitQ at ha
    ext <;> simp only [prod, vec, conjugate, identity, V3.dot, V3.cross, V3.add_x, V3.add_y,
      V3.add_z, V3.smul_x, V3.smul_y, V3.smul_z] <;> linarith
  · unfold IsUnitQ at ha
    ext <;> simp only [prod, vec, conjugate, identity, V3.dot, V3.cross, V3.add_x, V3.add_y,
      V3.add_z, V3.smul_x, V3.smul_y, V3.smul_z] <;> linarith

/-- C01: `unit` always returns a unit quaternion, is the identity on unit quaternions, and is a
positive rescaling of a non-zero argument. -/
theorem C01_unit_spec (q : Quat) :
    IsUnitQ (unit q) ∧ (IsUnitQ q → unit q = q) ∧
      (q ≠ ⟨0, 0, 0, 0⟩ → ∃ c : ℝ, 0 < c ∧ q = c • unit q) := by
  refine ⟨unit_isUnit q, unit_of_isUnit, ?_⟩
  intro h
  have hn := norm_pos_of_ne h
  refine ⟨norm q, hn, ?_⟩
  unfold unit
  have hn' := hn.ne'
  simp only [gt_iff_lt, hn, if_true, smul_def]
  ext <;> simp only <;> field_simp

/-- Non-vacuity for `C01_unit_group`: a non-axis-aligned unit quaternion. -/
example : IsUnitQ ⟨1/2, 1/2, -1/2, 1/2⟩ := by norm_num [IsUnitQ]

/-! ## C02 -/

/-- C02: rotation by a product is the composition of the rotations (any quaternions). -/
theorem C02_rotate_prod (a b : Quat) (r : V3) :
    rotate (prod a b) r = rotate a (rotate b r) := by
  ext <;> simp only [rotate, prod, vec, conjugate, V3.dot, V3.cross, V3.add_x, V3.add_y,
      V3.add_z, V3.smul_x, V3.smul_y, V3.smul_z] <;> ring

/-- C02: rotation is linear (any quaternion). -/
theorem C02_rotate_linear (q : Quat) (s : ℝ) (r r' : V3) :
    rotate q (r + r') = rotate q r + rotate q r' ∧ rotate q (s • r) = s • rotate q r := by
  constructor <;> ext <;> simp only [rotate, prod, vec, conjugate, V3.dot, V3.cross, V3.add_x,
      V3.add_y, V3.add_z, V3.smul_x, V3.smul_y, V3.smul_z] <;> ring

theorem rotate_eq_mulVec {q : Quat} (h : IsUnitQ q) (r : V3) :
    rotate q r = (to_matrix q).mulVec r := by
  rw [to_matrix_of_unit h]
  unfold IsUnitQ at h
  have hs : q.s ^ 2 = 1 - q.x ^ 2 - q.y ^ 2 - q.z ^ 2 := by linarith
  ext <;> simp only [rotate, prod, vec, conjugate, M3.mulVec, V3.dot, V3.cross, V3.add_x, V3.add_y,
      V3.add_z, V3.smul_x, V3.smul_y, V3.smul_z] <;> ring_nf <;> rw [hs] <;> ring

/-- C02: rotation by a unit quaternion preserves dot products. -/
theorem C02_rotate_dot {q : Quat} (h : IsUnitQ q) (a b : V3) :
    (rotate q a).toFun ⬝ᵥ (rotate q b).toFun = a.toFun ⬝ᵥ b.toFun := by
  have hR := isRotation_of_unit h
  rw [isRotation_iff] at hR
  rw [rotate_eq_mulVec h, rotate_eq_mulVec h, M3.toMat_mulVec, M3.toMat_mulVec,
    Matrix.dotProduct_mulVec, Matrix.vecMul_mulVec]
  have := congrArg M3.toMat hR.1
  rw [M3.toMat_mul, M3.toMat_transpose, M3.toMat_identity] at this
  rw [this, Matrix.vecMul_one]

/-- C02: rotation by a unit quaternion preserves distances. -/
theorem C02_rotate_isometry {q : Quat} (h : IsUnitQ q) (a b : V3) :
    euclid (rotate q a) (rotate q b) = euclid a b := by
  have e : rotate q (a - b) = rotate q a - rotate q b := by
    rw [sub_eq_add_neg, sub_eq_add_neg, (C02_rotate_linear q 1 a (-b)).1]
    congr 1
    have := (C02_rotate_linear q (-1) b b).2
    simpa using this
  have := C02_rotate_dot h (a - b) (a - b)
  rw [e, V3.toFun_dot, V3.toFun_dot] at this
  unfold euclid
  congr 1
  simp only [V3.dot, V3.sub_x, V3.sub_y, V3.sub_z] at this
  linarith

/-- C02: no reflection: rotation by a unit quaternion commutes with the cross product. -/
theorem C02_rotate_cross {q : Quat} (h : IsUnitQ q) (a b : V3) :
    (rotate q (V3.cross a b)).toFun = crossProduct (rotate q a).toFun (rotate q b).toFun := by
  rw [← V3.toFun_cross]
  congr 1
  rw [rotate_eq_mulVec h, rotate_eq_mulVec h, rotate_eq_mulVec h, to_matrix_of_unit h]
  unfold IsUnitQ at h
  have hs : q.s ^ 2 = 1 - q.x ^ 2 - q.y ^ 2 - q.z ^ 2 := by linarith
  ext <;> simp only [M3.mulVec, V3.cross] <;> ring_nf <;> rw [hs] <;> ring

/-- C02: the vector part of the quaternion (the axis) is fixed. -/
theorem C02_rotate_fixes_axis {q : Quat} (h : IsUnitQ q) : rotate q q.vec = q.vec := by
  rw [rotate_eq_mulVec h, to_matrix_of_unit h]
  ext <;> simp only [M3.mulVec, vec] <;> ring

/-- C02: the conjugate undoes the rotation. -/
theorem C02_rotate_conjugate {q : Quat} (h : IsUnitQ q) (r : V3) :
    rotate (conjugate q) (rotate q r) = r ∧ rotate q (rotate (conjugate q) r) = r := by
  have hid : rotate identity r = r := by
    ext <;> simp [rotate, prod, vec, conjugate, identity, V3.dot, V3.cross]
  have hg := C01_unit_group h h
  rw [← C02_rotate_prod, ← C02_rotate_prod, hg.2.2.1, hg.2.2.2]
  exact ⟨hid, hid⟩

/-- Non-vacuity: the quaternion (1/2,1/2,1/2,1/2) is unit and really moves vectors: it permutes the
coordinate axes cyclically. -/
example : IsUnitQ ⟨1/2, 1/2, 1/2, 1/2⟩ ∧ rotate ⟨1/2, 1/2, 1/2, 1/2⟩ ⟨1, 2, 3⟩ = ⟨3, 1, 2⟩ := by
  constructor
  · norm_num [IsUnitQ]
  · ext <;> simp [rotate, prod, vec, conjugate, V3.dot, V3.cross] <;> norm_num

/-! ## C03 -/

/-- C03: `to_matrix` returns an element of SO(3) for every quaternion whatsoever. -/
theorem C03_to_matrix_rotation (Q : Quat) : IsRotation (to_matrix Q) := by
  rw [← to_matrix_unit]
  exact isRotation_of_unit (unit_isUnit Q)

/-- C03: the zero quaternion maps to the identity matrix. -/
theorem C03_to_matrix_zero : (to_matrix ⟨0, 0, 0, 0⟩).toMat = 1 := by
  rw [← M3.toMat_identity]
  congr 1
  simp only [to_matrix, unit_zero, identity, M3.identity]
  ext <;> norm_num

/-- C03: `to_matrix` does not depend on the length (or sign) of the quaternion. -/
theorem C03_to_matrix_scale (Q : Quat) (c : ℝ) (hc : c ≠ 0) : to_matrix (c • Q) = to_matrix Q := by
  by_cases h0 : Q = ⟨0, 0, 0, 0⟩
  · subst h0; simp
  · have hn := norm_pos_of_ne h0
    have hcn : norm (c • Q) = |c| * norm Q := by
      unfold Quat.norm
      rw [← Real.sqrt_sq_eq_abs, ← Real.sqrt_mul (sq_nonneg c)]
      congr 1
      simp [dot]; ring
    have hcpos : 0 < |c| := abs_pos.mpr hc
    have hp : norm (c • Q) > 0 := by rw [hcn]; positivity
    have hu : unit (c • Q) = (c / |c|) • unit Q := by
      unfold unit
      rw [if_pos hp, if_pos hn, hcn]
      ext <;> simp only [smul_def] <;> field_simp
    have hcc : (c / |c|) * (c / |c|) = 1 := by
      have : c * c = |c| * |c| := (abs_mul_abs_self c).symm
      field_simp
      nlinarith [this]
    unfold to_matrix
    rw [hu]
    generalize unit Q = q
    generalize c / |c| = e at hcc
    simp only [smul_def]
    ext <;> simp only
    · linear_combination (-2 * (q.y * q.y + q.z * q.z)) * hcc
    · linear_combination (2 * (q.x * q.y - q.s * q.z)) * hcc
    · linear_combination (2 * (q.s * q.y + q.x * q.z)) * hcc
    · linear_combination (2 * (q.x * q.y + q.s * q.z)) * hcc
    · linear_combination (-2 * (q.x * q.x + q.z * q.z)) * hcc
    · linear_combination (2 * (q.z * q.y - q.s * q.x)) * hcc
    · linear_combination (2 * (-q.s * q.y + q.x * q.z)) * hcc
    · linear_combination (2 * (q.z * q.y + q.s * q.x)) * hcc
    · linear_combination (-2 * (q.y * q.y + q.x * q.x)) * hcc

/-- C03: on unit quaternions the matrix acts as `rotate`. -/
theorem C03_to_matrix_acts {q : Quat} (h : IsUnitQ q) (r : V3) :
    (to_matrix q).toMat *ᵥ r.toFun = (rotate q r).toFun := by
  rw [rotate_eq_mulVec h, M3.toMat_mulVec]

/-- Non-vacuity / non-triviality: a non-unit quaternion whose matrix is not the identity. -/
example : (to_matrix ⟨0, 0, 0, 3⟩).m00 = -1 := by
  have : to_matrix ⟨0, 0, 0, 3⟩ = to_matrix ⟨0, 0, 0, 1⟩ := by
    have := C03_to_matrix_scale ⟨0, 0, 0, 1⟩ 3 (by norm_num)
    simpa using this
  rw [this, to_matrix_of_unit (by norm_num [IsUnitQ])]
  norm_num

/-! ## C04 -/

theorem rotation_entries {R : M3} (h : IsRotation R) :
    R.m00^2 + R.m10^2 + R.m20^2 = 1 ∧ R.m01^2 + R.m11^2 + R.m21^2 = 1 ∧
    R.m02^2 + R.m12^2 + R.m22^2 = 1 ∧
    R.m00 * R.m01 + R.m10 * R.m11 + R.m20 * R.m21 = 0 ∧
    R.m00 * R.m02 + R.m10 * R.m12 + R.m20 * R.m22 = 0 ∧
    R.m01 * R.m02 + R.m11 * R.m12 + R.m21 * R.m22 = 0 ∧
    R.m00^2 + R.m01^2 + R.m02^2 = 1 ∧ R.m10^2 + R.m11^2 + R.m12^2 = 1 ∧
    R.m20^2 + R.m21^2 + R.m22^2 = 1 ∧
    R.m00 * R.m10 + R.m01 * R.m11 + R.m02 * R.m12 = 0 ∧
    R.m00 * R.m20 + R.m01 * R.m21 + R.m02 * R.m22 = 0 ∧
    R.m10 * R.m20 + R.m11 * R.m21 + R.m12 * R.m22 = 0 ∧ R.det = 1 := by
  have h1 := (isRotation_iff R).mp h
  have h2 := (isRotation_iff' R).mp h
  have a := h1.1
  have b := h2.1
  simp only [M3.mul, M3.transpose, M3.identity, M3.mk.injEq] at a b
  obtain ⟨a1, a2, a3, -, a5, a6, -, -, a9⟩ := a
  obtain ⟨b1, b2, b3, -, b5, b6, -, -, b9⟩ := b
  refine ⟨?_, ?_, ?_, ?_, ?_, ?_, ?_, ?_, ?_, ?_, ?_, ?_, h1.2⟩ <;> linarith

/-- The cofactor identities of a rotation: every entry equals its cofactor. -/
theorem rotation_cofactor {R : M3} (h : IsRotation R) :
    R.m00 = R.m11 * R.m22 - R.m12 * R.m21 ∧ R.m01 = R.m12 * R.m20 - R.m10 * R.m22 ∧
    R.m02 = R.m10 * R.m21 - R.m11 * R.m20 ∧ R.m10 = R.m02 * R.m21 - R.m01 * R.m22 ∧
    R.m11 = R.m00 * R.m22 - R.m02 * R.m20 ∧ R.m12 = R.m01 * R.m20 - R.m00 * R.m21 ∧
    R.m20 = R.m01 * R.m12 - R.m02 * R.m11 ∧ R.m21 = R.m02 * R.m10 - R.m00 * R.m12 ∧
    R.m22 = R.m00 * R.m11 - R.m01 * R.m10 := by
  obtain ⟨c1, c2, c3, c12, c13, c23, r1, r2, r3, r12, r13, r23, hd⟩ := rotation_entries h
  simp only [M3.det] at hd
  refine ⟨?_, ?_, ?_, ?_, ?_, ?_, ?_, ?_, ?_⟩
  · linear_combination (-R.m00) * hd + (R.m11 * R.m22 - R.m12 * R.m21) * c1 + (R.m12 * R.m20 - R.m10 * R.m22) * c12 + (R.m10 * R.m21 - R.m11 * R.m20) * c13
  · linear_combination (-R.m01) * hd + (R.m11 * R.m22 - R.m12 * R.m21) * c12 + (R.m12 * R.m20 - R.m10 * R.m22) * c2 + (R.m10 * R.m21 - R.m11 * R.m20) * c23
  · linear_combination (-R.m02) * hd + (R.m11 * R.m22 - R.m12 * R.m21) * c13 + (R.m12 * R.m20 - R.m10 * R.m22) * c23 + (R.m10 * R.m21 - R.m11 * R.m20) * c3
  · linear_combination (-R.m10) * hd + (R.m11 * R.m22 - R.m12 * R.m21) * r12 + (R.m02 * R.m21 - R.m01 * R.m22) * r2 + (R.m01 * R.m12 - R.m02 * R.m11) * r23
  · linear_combination (-R.m11) * hd + (R.m12 * R.m20 - R.m10 * R.m22) * r12 + (R.m00 * R.m22 - R.m02 * R.m20) * r2 + (R.m02 * R.m10 - R.m00 * R.m12) * r23
  · linear_combination (-R.m12) * hd + (R.m10 * R.m21 - R.m11 * R.m20) * r12 + (R.m01 * R.m20 - R.m00 * R.m21) * r2 + (R.m00 * R.m11 - R.m01 * R.m10) * r23
  · linear_combination (-R.m20) * hd + (R.m11 * R.m22 - R.m12 * R.m21) * r13 + (R.m02 * R.m21 - R.m01 * R.m22) * r23 + (R.m01 * R.m12 - R.m02 * R.m11) * r3
  · linear_combination (-R.m21) * hd + (R.m12 * R.m20 - R.m10 * R.m22) * r13 + (R.m00 * R.m22 - R.m02 * R.m20) * r23 + (R.m02 * R.m10 - R.m00 * R.m12) * r3
  · linear_combination (-R.m22) * hd + (R.m10 * R.m21 - R.m11 * R.m20) * r13 + (R.m01 * R.m20 - R.m00 * R.m21) * r23 + (R.m00 * R.m11 - R.m01 * R.m10) * r3

/-- A unit quaternion times itself, from the matrix: all products `4 q_a q_b` are the entries `K_ab`
below, which are linear in the matrix.  If they agree, the matrix of `q` is `R`. -/
theorem to_matrix_of_products {R : M3} {q : Quat}
    (hss : 4 * (q.s * q.s) = 1 + R.m00 + R.m11 + R.m22)
    (hxx : 4 * (q.x * q.x) = 1 + R.m00 - R.m11 - R.m22)
    (hyy : 4 * (q.y * q.y) = 1 - R.m00 + R.m11 - R.m22)
    (hzz : 4 * (q.z * q.z) = 1 - R.m00 - R.m11 + R.m22)
    (hsx : 4 * (q.s * q.x) = R.m21 - R.m12)
    (hsy : 4 * (q.s * q.y) = R.m02 - R.m20)
    (hsz : 4 * (q.s * q.z) = R.m10 - R.m01)
    (hxy : 4 * (q.x * q.y) = R.m01 + R.m10)
    (hxz : 4 * (q.x * q.z) = R.m02 + R.m20)
    (hyz : 4 * (q.y * q.z) = R.m12 + R.m21) :
    IsUnitQ q ∧ to_matrix q = R := by
  have hu : IsUnitQ q := by unfold IsUnitQ; nlinarith
  refine ⟨hu, ?_⟩
  rw [to_matrix_of_unit hu]
  ext <;> simp only <;> linarith

theorem K_pos_sum {R : M3} (h : IsRotation R) :
    0 ≤ 1 + R.m00 + R.m11 + R.m22 ∧ 0 ≤ 1 + R.m00 - R.m11 - R.m22 ∧
    0 ≤ 1 - R.m00 + R.m11 - R.m22 ∧ 0 ≤ 1 - R.m00 - R.m11 + R.m22 := by
  obtain ⟨c1, c2, c3, c12, c13, c23, r1, r2, r3, r12, r13, r23, -⟩ := rotation_entries h
  obtain ⟨k1, k2, k3, k4, k5, k6, k7, k8, k9⟩ := rotation_cofactor h
  -- each K_aa satisfies (K_aa)^2 + sum of squares of the rest of its row = 4 K_aa
  refine ⟨?_, ?_, ?_, ?_⟩
  · nlinarith [sq_nonneg (R.m21 - R.m12), sq_nonneg (R.m02 - R.m20), sq_nonneg (R.m10 - R.m01),
      sq_nonneg (1 + R.m00 + R.m11 + R.m22)]
  · nlinarith [sq_nonneg (R.m21 - R.m12), sq_nonneg (R.m02 + R.m20), sq_nonneg (R.m10 + R.m01),
      sq_nonneg (1 + R.m00 - R.m11 - R.m22)]
  · nlinarith [sq_nonneg (R.m21 + R.m12), sq_nonneg (R.m02 - R.m20), sq_nonneg (R.m10 + R.m01),
      sq_nonneg (1 - R.m00 + R.m11 - R.m22)]
  · nlinarith [sq_nonneg (R.m21 + R.m12), sq_nonneg (R.m02 + R.m20), sq_nonneg (R.m10 - R.m01),
      sq_nonneg (1 - R.m00 - R.m11 + R.m22)]

/-- One line of the quaternion extraction: `u = Kab * (0.5/r)`, `v = Kac * (0.5/r)`, `r² = Kaa`. -/
theorem line_prod {r a b c d : ℝ} (hr : r ≠ 0) (hr2 : r * r = a) (h : b * c = a * d) :
    4 * (b * (0.5 / r) * (c * (0.5 / r))) = d := by
  subst hr2
  have : 4 * (b * (0.5 / r) * (c * (0.5 / r))) = (b * c) / (r * r) := by field_simp; ring
  rw [this, h]
  field_simp

theorem line_diag {r b : ℝ} (hr : r ≠ 0) : 4 * (0.5 * r * (b * (0.5 / r))) = b := by
  field_simp; ring

theorem line_diag' {r b : ℝ} (hr : r ≠ 0) : 4 * (b * (0.5 / r) * (0.5 * r)) = b := by
  field_simp; ring

theorem line_diag2 {r a : ℝ} (hr2 : r * r = a) : 4 * (0.5 * r * (0.5 * r)) = a := by
  rw [← hr2]; ring

/-- C04: for every proper rotation matrix, `from_matrix` returns a unit quaternion whose matrix is
the given matrix (all four branches). -/
theorem C04_from_matrix_correct (R : M3) (h : IsRotation R) :
    IsUnitQ (from_matrix R) ∧ to_matrix (from_matrix R) = R := by
  obtain ⟨c1, c2, c3, c12, c13, c23, r1, r2, r3, r12, r13, r23, -⟩ := rotation_entries h
  obtain ⟨k1, k2, k3, k4, k5, k6, k7, k8, k9⟩ := rotation_cofactor h
  obtain ⟨p0, p1, p2, p3⟩ := K_pos_sum h
  unfold from_matrix
  by_cases htr : R.m00 + R.m11 + R.m22 < 0
  · simp only [htr, if_true]
    by_cases h10 : R.m11 > R.m00
    · simp only [h10, if_true]
      by_cases h2 : R.m22 > R.m11
      · simp only [one_ne_zero, if_false, h2, if_true, OfNat.ofNat_ne_zero, OfNat.ofNat_ne_one]
        have hpos : 0 < (R.m22 - (R.m00 + R.m11)) + 1 := by linarith
        have hr := (Real.sqrt_pos.mpr hpos).ne'
        have hr2 := Real.mul_self_sqrt hpos.le
        apply to_matrix_of_products <;> simp only
        · exact line_prod hr hr2 (by linarith)
        · exact line_prod hr hr2 (by linarith)
        · exact line_prod hr hr2 (by linarith)
        · rw [line_diag2 hr2]; ring
        · exact line_prod hr hr2 (by linarith)
        · exact line_prod hr hr2 (by linarith)
        · exact line_diag' hr
        · exact line_prod hr hr2 (by linarith)
        · rw [line_diag' hr]; ring
        · exact line_diag' hr
      · simp only [one_ne_zero, if_false, h2, if_true]
        have hpos : 0 < (R.m11 - (R.m22 + R.m00)) + 1 := by linarith
        have hr := (Real.sqrt_pos.mpr hpos).ne'
        have hr2 := Real.mul_self_sqrt hpos.le
        apply to_matrix_of_products <;> simp only
        · exact line_prod hr hr2 (by linarith)
        · exact line_prod hr hr2 (by linarith)
        · rw [line_diag2 hr2]; ring
        · exact line_prod hr hr2 (by linarith)
        · exact line_prod hr hr2 (by linarith)
        · exact line_diag' hr
        · exact line_prod hr hr2 (by linarith)
        · exact line_diag' hr
        · exact line_prod hr hr2 (by linarith)
        · exact line_diag hr
    · simp only [h10, if_false, if_true]
      by_cases h2 : R.m22 > R.m00
      · simp only [h2, if_true, OfNat.ofNat_ne_zero, OfNat.ofNat_ne_one, if_false]
        have hpos : 0 < (R.m22 - (R.m00 + R.m11)) + 1 := by linarith
        have hr := (Real.sqrt_pos.mpr hpos).ne'
        have hr2 := Real.mul_self_sqrt hpos.le
        apply to_matrix_of_products <;> simp only
        · exact line_prod hr hr2 (by linarith)
        · exact line_prod hr hr2 (by linarith)
        · exact line_prod hr hr2 (by linarith)
        · rw [line_diag2 hr2]; ring
        · exact line_prod hr hr2 (by linarith)
        · exact line_prod hr hr2 (by linarith)
        · exact line_diag' hr
        · exact line_prod hr hr2 (by linarith)
        · rw [line_diag' hr]; ring
        · exact line_diag' hr
      · simp only [h2, if_false, if_true]
        have hpos : 0 < (R.m00 - (R.m11 + R.m22)) + 1 := by linarith
        have hr := (Real.sqrt_pos.mpr hpos).ne'
        have hr2 := Real.mul_self_sqrt hpos.le
        apply to_matrix_of_products <;> simp only
        · exact line_prod hr hr2 (by linarith)
        · rw [line_diag2 hr2]; ring
        · exact line_prod hr hr2 (by linarith)
        · exact line_prod hr hr2 (by linarith)
        · exact line_diag' hr
        · exact line_prod hr hr2 (by linarith)
        · exact line_prod hr hr2 (by linarith)
        · exact line_diag hr
        · rw [line_diag hr]; ring
        · exact line_prod hr hr2 (by linarith)
  · simp only [htr, if_false]
    have hpos : 0 < R.m00 + R.m11 + R.m22 + 1 := by linarith
    have hr := (Real.sqrt_pos.mpr hpos).ne'
    have hr2 := Real.mul_self_sqrt hpos.le
    apply to_matrix_of_products <;> simp only
    · rw [line_diag2 hr2]; ring
    · exact line_prod hr hr2 (by linarith)
    · exact line_prod hr hr2 (by linarith)
    · exact line_prod hr hr2 (by linarith)
    · exact line_diag hr
    · exact line_diag hr
    · exact line_diag hr
    · exact line_prod hr hr2 (by linarith)
    · exact line_prod hr hr2 (by linarith)
    · exact line_prod hr hr2 (by linarith)

/-- Two unit quaternions with the same matrix agree up to sign. -/
theorem eq_or_neg_of_to_matrix {p q : Quat} (hp : IsUnitQ p) (hq : IsUnitQ q)
    (h : to_matrix p = to_matrix q) : p = q ∨ p = -q := by
  rw [to_matrix_of_unit hp, to_matrix_of_unit hq] at h
  simp only [M3.mk.injEq] at h
  obtain ⟨e00, e01, e02, e10, e11, e12, e20, e21, e22⟩ := h
  unfold IsUnitQ at hp hq
  -- the dot product squares to one
  have hd : (dot p q) ^ 2 = 1 := by
    have : (dot p q)^2 = (p.s^2)*(q.s^2) + (p.x^2)*(q.x^2) + (p.y^2)*(q.y^2) + (p.z^2)*(q.z^2)
      + 2*((p.s*p.x)*(q.s*q.x) + (p.s*p.y)*(q.s*q.y) + (p.s*p.z)*(q.s*q.z) + (p.x*p.y)*(q.x*q.y)
      + (p.x*p.z)*(q.x*q.z) + (p.y*p.z)*(q.y*q.z)) := by simp only [dot]; ring
    rw [this]
    have f1 : p.s^2 = q.s^2 := by linarith
    have f2 : p.x^2 = q.x^2 := by linarith
    have f3 : p.y^2 = q.y^2 := by linarith
    have f4 : p.z^2 = q.z^2 := by linarith
    have g1 : p.s*p.x = q.s*q.x := by linarith
    have g2 : p.s*p.y = q.s*q.y := by linarith
    have g3 : p.s*p.z = q.s*q.z := by linarith
    have g4 : p.x*p.y = q.x*q.y := by linarith
    have g5 : p.x*p.z = q.x*q.z := by linarith
    have g6 : p.y*p.z = q.y*q.z := by linarith
    rw [f1, f2, f3, f4, g1, g2, g3, g4, g5, g6]
    have : (q.s ^ 2 + q.x ^ 2 + q.y ^ 2 + q.z ^ 2)^2 = 1 := by rw [hq]; norm_num
    linear_combination this
  have hcases : dot p q = 1 ∨ dot p q = -1 := by
    have : (dot p q - 1) * (dot p q + 1) = 0 := by linear_combination hd
    rcases mul_eq_zero.mp this with h | h
    · left; linarith
    · right; linarith
  have key : ∀ a b c d : ℝ, a^2 + b^2 + c^2 + d^2 = 0 → a = 0 ∧ b = 0 ∧ c = 0 ∧ d = 0 := by
    intro a b c d h
    have h1 := sq_nonneg a
    have h2 := sq_nonneg b
    have h3 := sq_nonneg c
    have h4 := sq_nonneg d
    exact ⟨pow_eq_zero_iff (two_ne_zero) |>.mp (by linarith), pow_eq_zero_iff (two_ne_zero) |>.mp (by linarith),
      pow_eq_zero_iff (two_ne_zero) |>.mp (by linarith), pow_eq_zero_iff (two_ne_zero) |>.mp (by linarith)⟩
  rcases hcases with h | h <;> simp only [dot] at h
  · left
    obtain ⟨a, b, c, d⟩ := key (p.s - q.s) (p.x - q.x) (p.y - q.y) (p.z - q.z) (by linear_combination hp + hq - 2 * h)
    ext <;> linarith
  · right
    obtain ⟨a, b, c, d⟩ := key (p.s + q.s) (p.x + q.x) (p.y + q.y) (p.z + q.z) (by linear_combination hp + hq + 2 * h)
    ext <;> simp only [neg_def] <;> linarith

/-- C04: for every unit quaternion, `from_matrix (to_matrix q)` is `q` or `-q`. -/
theorem C04_from_to_matrix {q : Quat} (h : IsUnitQ q) :
    from_matrix (to_matrix q) = q ∨ from_matrix (to_matrix q) = -q := by
  have := C04_from_matrix_correct (to_matrix q) (C03_to_matrix_rotation q)
  exact eq_or_neg_of_to_matrix this.1 h this.2

/-- Non-vacuity: rotation matrices reaching each of the four branches exist: the half turns about
the three axes (trace -1, largest diagonal entry at each place) and the identity. -/
example : IsRotation (M3.diag 1 (-1) (-1)) ∧ IsRotation (M3.diag (-1) 1 (-1)) ∧
    IsRotation (M3.diag (-1) (-1) 1) ∧ IsRotation (M3.diag 1 1 1) := by
  refine ⟨?_, ?_, ?_, ?_⟩ <;> rw [isRotation_iff] <;>
    norm_num [M3.diag, M3.mul, M3.transpose, M3.identity, M3.det]

/-! ## C05 -/

/-- C05: quaternion times array is the scalar product on every row. -/
theorem C05_prod_array_left (q : Quat) (Qs : List Quat) :
    prod_array (.one q) (.many Qs) = .ok (Qs.map (prod q)) := by
  simp only [prod_array]
  congr 2
  funext b
  ext <;> simp only [prod, vec, V3.dot, V3.cross, V3.add_x, V3.add_y,
      V3.add_z, V3.smul_x, V3.smul_y, V3.smul_z] <;> ring

/-- C05: array times quaternion is the scalar product on every row. -/
theorem C05_prod_array_right (q : Quat) (Qs : List Quat) :
    prod_array (.many Qs) (.one q) = .ok (Qs.map (prod · q)) := by
  simp only [prod_array]
  congr 2
  funext b
  ext <;> simp only [prod, vec, V3.dot, V3.cross, V3.add_x, V3.add_y,
      V3.add_z, V3.smul_x, V3.smul_y, V3.smul_z] <;> ring

/-- C05: the two unsupported shapes raise the documented errors. -/
theorem C05_prod_array_errors (a b : Quat) (as bs : List Quat) :
    prod_array (.many as) (.many bs) = .error .notImplemented ∧
      prod_array (.one a) (.one b) = .error .valueError := ⟨rfl, rfl⟩

/-- C05: `rotate_array` never fails and rotates every row by `rotate`. -/
theorem C05_rotate_array (q : Quat) (rs : List V3) :
    rotate_array q rs = .ok (rs.map (rotate q)) := by
  unfold rotate_array
  simp only [C05_prod_array_left, C05_prod_array_right, bind, Except.bind, pure, Except.pure,
    List.map_map]
  rfl

end Verif
