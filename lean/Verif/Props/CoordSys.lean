import Verif.Model.CoordSys
import Verif.Props.Quaternion
import Verif.Lemmas.Vec

/-! # C09, C10: coordinate systems and matrix helpers -/

namespace Verif
open Quat CoordSys Matrix

/-- A rigid coordinate system: its orientation is a unit quaternion. -/
def CoordSys.Rigid (X : CoordSys) : Prop := IsUnitQ X.q

theorem rotate_neg (q : Quat) (r : V3) : rotate q (-r) = -rotate q r := by
  have := (C02_rotate_linear q (-1) r r).2
  simpa using this

theorem rotate_sub (q : Quat) (r s : V3) : rotate q (r - s) = rotate q r - rotate q s := by
  rw [sub_eq_add_neg, (C02_rotate_linear q 1 r (-s)).1, rotate_neg, ← sub_eq_add_neg]

theorem rotate_add (q : Quat) (r s : V3) : rotate q (r + s) = rotate q r + rotate q s :=
  (C02_rotate_linear q 1 r s).1

/-- C09: `inverse` is a two-sided inverse of the point map, and rigid again. -/
theorem C09_inverse (X : CoordSys) (h : X.Rigid) (p : V3) :
    xform_point (inverse X) (xform_point X p) = p ∧
      xform_point X (xform_point (inverse X) p) = p ∧ (inverse X).Rigid := by
  have hr := fun r => C02_rotate_conjugate h r
  refine ⟨?_, ?_, (C01_unit_group h h).2.1⟩
  · simp only [xform_point, inverse]
    rw [rotate_add, rotate_neg, (hr p).1]
    abel
  · simp only [xform_point, inverse]
    rw [rotate_add, rotate_neg, rotate_neg, (hr p).2, (hr X.r).2]
    abel

/-- C09: `concat B A` maps points like "first A, then B", and is rigid. -/
theorem C09_concat (B A : CoordSys) (hB : B.Rigid) (hA : A.Rigid) (p : V3) :
    xform_point (concat B A) p = xform_point B (xform_point A p) ∧
      xform_vector (concat B A) p = xform_vector B (xform_vector A p) ∧ (concat B A).Rigid := by
  have hu : IsUnitQ (prod B.q A.q) := (C01_unit_group hB hA).1
  refine ⟨?_, ?_, unit_isUnit _⟩
  · simp only [xform_point, concat]
    rw [unit_of_isUnit hu, C02_rotate_prod, rotate_add]
    abel
  · simp only [xform_vector, concat]
    rw [unit_of_isUnit hu, C02_rotate_prod]

/-- C09: rigid transforms preserve distances. -/
theorem C09_isometry (X : CoordSys) (h : X.Rigid) (p p' : V3) :
    euclid (xform_point X p) (xform_point X p') = euclid p p' := by
  rw [← C02_rotate_isometry h p p']
  simp [euclid, xform_point]

/-- C09: `xform_matrix` rotates every column: it is multiplication with the rotation of `X`. -/
theorem C09_xform_matrix (X : CoordSys) (h : X.Rigid) (M : M3) (v : V3) :
    (xform_matrix X M).toMat *ᵥ v.toFun = (xform_vector X (M.mulVec v)).toFun := by
  simp only [xform_matrix, xform_vector]
  rw [M3.toMat_mul, ← C03_to_matrix_acts h, M3.toMat_mulVec, Matrix.mulVec_mulVec]

/-- C09: the frame from A to B describes the same world point: mapping A-local coordinates to
B-local coordinates and then to the world is the same as mapping A-local coordinates to the
world. -/
theorem C09_from_to (A B : CoordSys) (hA : A.Rigid) (hB : B.Rigid) (p : V3) :
    xform_point B (xform_point (make_coordsys_from_to A B) p) = xform_point A p ∧
      (make_coordsys_from_to A B).Rigid := by
  have hu : IsUnitQ (prod (conjugate B.q) A.q) := (C01_unit_group (C01_unit_group hB hB).2.1 hA).1
  refine ⟨?_, unit_isUnit _⟩
  simp only [xform_point, make_coordsys_from_to]
  rw [unit_of_isUnit hu, C02_rotate_prod, ← rotate_add, (C02_rotate_conjugate hB _).2]
  abel

/-- C09: transforms form a group: composition with the inverse is the identity transform. -/
theorem C09_concat_inverse (X : CoordSys) (h : X.Rigid) :
    concat X (inverse X) = CoordSys.init ∧ concat (inverse X) X = CoordSys.init := by
  have hg := C01_unit_group h h
  have hid : IsUnitQ identity := by norm_num [IsUnitQ, identity]
  constructor
  · simp only [concat, inverse, CoordSys.init, hg.2.2.1, unit_of_isUnit hid]
    rw [(C02_rotate_conjugate h _).2]
    congr 1
    show -X.r + X.r = 0
    abel
  · simp only [concat, inverse, CoordSys.init, hg.2.2.2, unit_of_isUnit hid]
    rw [rotate_neg]
    congr 1
    show rotate (conjugate X.q) X.r + -rotate (conjugate X.q) X.r = 0
    abel

/-- Non-vacuity: a rigid frame that is neither a pure translation nor axis aligned. -/
example : CoordSys.Rigid ⟨⟨1/2, 1/2, -1/2, 1/2⟩, ⟨1, 2, 3⟩⟩ := by
  norm_num [CoordSys.Rigid, IsUnitQ]

/-! ## C10 -/

/-- C10: `star v` is the matrix of `v × ·`, and is skew-symmetric. -/
theorem C10_star (v w : V3) :
    (M3.star v).toMat *ᵥ w.toFun = crossProduct v.toFun w.toFun ∧
      (M3.star v).toMatᵀ = -(M3.star v).toMat := by
  constructor
  · rw [← V3.toFun_cross, ← M3.toMat_mulVec]
    congr 1
    ext <;> simp [M3.mulVec, M3.star, V3.cross] <;> ring
  · ext i j
    fin_cases i <;> fin_cases j <;> simp [M3.star, M3.toMat]

/-- C10: the three axis rotations are in SO(3) for every angle. -/
theorem C10_axis_rotations (a : ℝ) :
    IsRotation (M3.Rx a) ∧ IsRotation (M3.Ry a) ∧ IsRotation (M3.Rz a) := by
  have h := Real.sin_sq_add_cos_sq a
  refine ⟨?_, ?_, ?_⟩ <;> rw [isRotation_iff] <;>
    refine ⟨?_, by simp [M3.Rx, M3.Ry, M3.Rz, M3.det]; nlinarith⟩
  · simp only [M3.Rx, M3.mul, M3.transpose, M3.identity, M3.mk.injEq]
    refine ⟨?_, ?_, ?_, ?_, ?_, ?_, ?_, ?_, ?_⟩ <;> nlinarith
  · simp only [M3.Ry, M3.mul, M3.transpose, M3.identity, M3.mk.injEq]
    refine ⟨?_, ?_, ?_, ?_, ?_, ?_, ?_, ?_, ?_⟩ <;> nlinarith
  · simp only [M3.Rz, M3.mul, M3.transpose, M3.identity, M3.mk.injEq]
    refine ⟨?_, ?_, ?_, ?_, ?_, ?_, ?_, ?_, ?_⟩ <;> nlinarith

theorem Ru_isUnit (a : ℝ) {n : V3} (hn : n ≠ 0) : IsUnitQ (Quat.Ru a n) := by
  have h1 := V3.unit_dot hn
  have h2 := Real.sin_sq_add_cos_sq (a / 2)
  simp only [Quat.Ru, IsUnitQ]
  change _ ^ 2 + (_ * (V3.unit n).x) ^ 2 + (_ * (V3.unit n).y) ^ 2 + (_ * (V3.unit n).z) ^ 2 = 1
  simp only [V3.dot] at h1
  linear_combination Real.sin (a/2) ^ 2 * h1 + h2

/-- C10: the matrix `Ru` is the matrix of the quaternion `Ru`, for every angle and every non-zero
axis. -/
theorem C10_Ru_matrix_eq_quaternion (a : ℝ) (n : V3) (hn : n ≠ 0) :
    M3.Ru a n = to_matrix (Quat.Ru a n) := by
  rw [to_matrix_of_unit (Ru_isUnit a hn)]
  have h1 := V3.unit_dot hn
  have hc : Real.cos a = 2 * Real.cos (a / 2) ^ 2 - 1 := by
    rw [← Real.cos_two_mul]; congr 1; ring
  have hs : Real.sin a = 2 * Real.sin (a / 2) * Real.cos (a / 2) := by
    rw [← Real.sin_two_mul]; congr 1; ring
  have h2 := Real.sin_sq_add_cos_sq (a / 2)
  have hdef : V3.divs n (V3.norm n) = V3.unit n := rfl
  simp only [M3.Ru, Quat.Ru, hdef]
  generalize V3.unit n = u at h1 ⊢
  rw [hc, hs]
  generalize Real.sin (a/2) = s at h2 ⊢
  generalize Real.cos (a/2) = c at h2 ⊢
  simp only [V3.dot] at h1
  have h3 : c ^ 2 = 1 - s ^ 2 := by linarith
  ext <;> simp only
  · linear_combination (2 * (1 - u.x * u.x)) * h2 + 2 * s ^ 2 * h1
  · linear_combination (-2 * u.x * u.y) * h2
  · linear_combination (-2 * u.x * u.z) * h2
  · linear_combination (-2 * u.x * u.y) * h2
  · linear_combination (2 * (1 - u.y * u.y)) * h2 + 2 * s ^ 2 * h1
  · linear_combination (-2 * u.y * u.z) * h2
  · linear_combination (-2 * u.x * u.z) * h2
  · linear_combination (-2 * u.y * u.z) * h2
  · linear_combination (2 * (1 - u.z * u.z)) * h2 + 2 * s ^ 2 * h1

/-- C10: `Ru` is a proper rotation that fixes its axis. -/
theorem C10_Ru_rotation (a : ℝ) (n : V3) (hn : n ≠ 0) :
    IsRotation (M3.Ru a n) ∧ (M3.Ru a n).toMat *ᵥ n.toFun = n.toFun := by
  refine ⟨by rw [C10_Ru_matrix_eq_quaternion a n hn]; exact C03_to_matrix_rotation _, ?_⟩
  rw [← M3.toMat_mulVec]
  congr 1
  have h1 := V3.unit_dot hn
  have hsc : n = (V3.norm n) • V3.unit n := by
    have := (V3.norm_pos hn).ne'
    ext <;> simp [V3.unit, V3.divs] <;> field_simp
  have hdef : V3.divs n (V3.norm n) = V3.unit n := rfl
  simp only [M3.Ru, hdef]
  have key : M3.mulVec (M3.Ru a n) (V3.unit n) = V3.unit n := by
    simp only [M3.Ru, hdef]
    generalize V3.unit n = u at h1 ⊢
    simp only [V3.dot] at h1
    ext <;> simp only [M3.mulVec]
    · linear_combination (u.x * (1 - Real.cos a)) * h1
    · linear_combination (u.y * (1 - Real.cos a)) * h1
    · linear_combination (u.z * (1 - Real.cos a)) * h1
  simp only [M3.Ru, hdef] at key
  generalize (⟨_, _, _, _, _, _, _, _, _⟩ : M3) = R at key ⊢
  have lin : ∀ (s : ℝ) (v : V3), M3.mulVec R (s • v) = s • M3.mulVec R v := by
    intro s v; ext <;> simp [M3.mulVec] <;> ring
  calc M3.mulVec R n = M3.mulVec R ((V3.norm n) • V3.unit n) := by rw [← hsc]
    _ = (V3.norm n) • V3.unit n := by rw [lin, key]
    _ = n := hsc.symm

/-- C10: rotations about one axis add their angles (quaternions and matrices). -/
theorem C10_Ru_add (a b : ℝ) (n : V3) (hn : n ≠ 0) :
    Quat.prod (Quat.Ru a n) (Quat.Ru b n) = Quat.Ru (a + b) n ∧
      (M3.Ru a n).mul (M3.Ru b n) = M3.Ru (a + b) n := by
  have hq : Quat.prod (Quat.Ru a n) (Quat.Ru b n) = Quat.Ru (a + b) n := by
    have h1 := V3.unit_dot hn
    have hdef : V3.divs n (V3.norm n) = V3.unit n := rfl
    have e : (a + b) / 2 = a / 2 + b / 2 := by ring
    simp only [Quat.Ru, hdef, e, Real.cos_add, Real.sin_add]
    generalize V3.unit n = u at h1 ⊢
    simp only [V3.dot] at h1
    ext <;> simp only [prod, vec, V3.dot, V3.cross, V3.add_x, V3.add_y, V3.add_z, V3.smul_x,
      V3.smul_y, V3.smul_z]
    · linear_combination (-Real.sin (a/2) * Real.sin (b/2)) * h1
    · ring
    · ring
    · ring
  refine ⟨hq, ?_⟩
  apply M3.toMat_injective
  rw [M3.toMat_mul, C10_Ru_matrix_eq_quaternion _ _ hn, C10_Ru_matrix_eq_quaternion _ _ hn,
    C10_Ru_matrix_eq_quaternion _ _ hn, ← hq]
  rw [← M3.toMat_mul]
  congr 1
  have hab := (C01_unit_group (Ru_isUnit a hn) (Ru_isUnit b hn)).1
  have hv : ∀ v : V3, ((to_matrix (Quat.Ru a n)).mul (to_matrix (Quat.Ru b n))).mulVec v =
      (to_matrix (prod (Quat.Ru a n) (Quat.Ru b n))).mulVec v := by
    intro v
    rw [← rotate_eq_mulVec hab, C02_rotate_prod, rotate_eq_mulVec (Ru_isUnit a hn),
      rotate_eq_mulVec (Ru_isUnit b hn)]
    ext <;> simp only [M3.mulVec, M3.mul] <;> ring
  have hi := hv ⟨1, 0, 0⟩
  have hj := hv ⟨0, 1, 0⟩
  have hk := hv ⟨0, 0, 1⟩
  simp only [M3.mulVec, mul_one, mul_zero, add_zero, zero_add, V3.mk.injEq] at hi hj hk
  ext
  · exact hi.1
  · exact hj.1
  · exact hk.1
  · exact hi.2.1
  · exact hj.2.1
  · exact hk.2.1
  · exact hi.2.2
  · exact hj.2.2
  · exact hk.2.2

/-- C10: the axis-specific constructors agree with the general one. -/
theorem C10_axis_special (a : ℝ) :
    Quat.Rx a = Quat.Ru a V3.i ∧ Quat.Ry a = Quat.Ru a V3.j ∧ Quat.Rz a = Quat.Ru a V3.k ∧
    M3.Rx a = to_matrix (Quat.Rx a) ∧ M3.Ry a = to_matrix (Quat.Ry a) ∧
    M3.Rz a = to_matrix (Quat.Rz a) := by
  have ni : V3.i ≠ 0 := by intro h; have := congrArg V3.x h; simp [V3.i] at this
  have nj : V3.j ≠ 0 := by intro h; have := congrArg V3.y h; simp [V3.j] at this
  have nk : V3.k ≠ 0 := by intro h; have := congrArg V3.z h; simp [V3.k] at this
  have e1 : Quat.Rx a = Quat.Ru a V3.i := by
    simp [Quat.Rx, Quat.Ru, V3.i, V3.norm, V3.dot, V3.divs]
  have e2 : Quat.Ry a = Quat.Ru a V3.j := by
    simp [Quat.Ry, Quat.Ru, V3.j, V3.norm, V3.dot, V3.divs]
  have e3 : Quat.Rz a = Quat.Ru a V3.k := by
    simp [Quat.Rz, Quat.Ru, V3.k, V3.norm, V3.dot, V3.divs]
  refine ⟨e1, e2, e3, ?_, ?_, ?_⟩
  · rw [e1, ← C10_Ru_matrix_eq_quaternion a _ ni]
    simp [M3.Rx, M3.Ru, V3.i, V3.norm, V3.dot, V3.divs]
  · rw [e2, ← C10_Ru_matrix_eq_quaternion a _ nj]
    simp [M3.Ry, M3.Ru, V3.j, V3.norm, V3.dot, V3.divs]
  · rw [e3, ← C10_Ru_matrix_eq_quaternion a _ nk]
    simp [M3.Rz, M3.Ru, V3.k, V3.norm, V3.dot, V3.divs]

/-- C10: `ortonormalize` returns a rotation matrix whenever the first two rows are linearly
independent, keeps the direction of the first row and the plane of the first two rows. -/
theorem C10_ortonormalize (A : M3) (h : V3.cross A.row0 A.row1 ≠ 0) :
    IsRotation (M3.ortonormalize A).1 ∧
      (∃ c : ℝ, 0 < c ∧ A.row0 = c • (M3.ortonormalize A).1.row0) ∧
      (∃ c d : ℝ, 0 < d ∧ A.row1 = c • (M3.ortonormalize A).1.row0 +
        d • (M3.ortonormalize A).1.row1) := by
  have h0 : A.row0 ≠ 0 := by
    intro e; apply h; rw [e]; ext <;> simp [V3.cross]
  have hn0 := V3.norm_pos h0
  have hu0 := V3.unit_dot h0
  have hs0 : A.row0 = (V3.norm A.row0) • V3.unit A.row0 := by
    have := hn0.ne'
    ext <;> simp [V3.unit, V3.divs] <;> field_simp
  have hdef : V3.divs A.row0 (V3.norm A.row0) = V3.unit A.row0 := rfl
  have hr1 : A.row1 - (V3.dot (V3.unit A.row0) A.row1) • V3.unit A.row0 ≠ 0 := by
    intro e
    apply h
    have e1 : A.row1 = (V3.dot (V3.unit A.row0) A.row1) • V3.unit A.row0 := sub_eq_zero.mp e
    generalize V3.dot (V3.unit A.row0) A.row1 = d at e1
    generalize V3.unit A.row0 = u at e1 hs0
    generalize V3.norm A.row0 = m at hs0
    rw [e1, hs0]
    ext <;> simp [V3.cross] <;> ring
  have hn1 := V3.norm_pos hr1
  have hdot : V3.dot (V3.unit A.row0)
      (A.row1 - (V3.dot (V3.unit A.row0) A.row1) • V3.unit A.row0) = 0 := by
    rw [V3.dot_sub_right, V3.dot_smul_right, hu0]; ring
  have hdef1 : V3.divs (A.row1 - (V3.dot (V3.unit A.row0) A.row1) • V3.unit A.row0)
      (V3.norm (A.row1 - (V3.dot (V3.unit A.row0) A.row1) • V3.unit A.row0)) =
      V3.unit (A.row1 - (V3.dot (V3.unit A.row0) A.row1) • V3.unit A.row0) := rfl
  have hu1 := V3.unit_dot hr1
  have hu01 : V3.dot (V3.unit A.row0)
      (V3.unit (A.row1 - (V3.dot (V3.unit A.row0) A.row1) • V3.unit A.row0)) = 0 := by
    conv_lhs => rw [V3.unit.eq_1 (A.row1 - _)]
    rw [V3.divs_eq_smul, V3.dot_smul_right, hdot, mul_zero]
  have hs1 : A.row1 = (V3.dot (V3.unit A.row0) A.row1) • V3.unit A.row0 +
      (V3.norm (A.row1 - (V3.dot (V3.unit A.row0) A.row1) • V3.unit A.row0)) •
      V3.unit (A.row1 - (V3.dot (V3.unit A.row0) A.row1) • V3.unit A.row0) := by
    have hx : ∀ w : V3, w ≠ 0 → V3.norm w • V3.unit w = w := by
      intro w hw
      have := (V3.norm_pos hw).ne'
      ext <;> simp [V3.unit, V3.divs] <;> field_simp
    rw [hx _ hr1]
    abel
  have hres : (M3.ortonormalize A).1 = M3.make_from_rows (V3.unit A.row0)
      (V3.unit (A.row1 - (V3.dot (V3.unit A.row0) A.row1) • V3.unit A.row0))
      (V3.cross (V3.unit A.row0)
        (V3.unit (A.row1 - (V3.dot (V3.unit A.row0) A.row1) • V3.unit A.row0))) := by
    simp only [M3.ortonormalize, gt_iff_lt, hn0, if_true, hdef]
    rw [if_pos hn1, hdef1]
  rw [hres]
  generalize V3.unit (A.row1 - (V3.dot (V3.unit A.row0) A.row1) • V3.unit A.row0) = w at *
  generalize V3.unit A.row0 = u at *
  refine ⟨?_, ⟨_, hn0, ?_⟩, ⟨V3.dot u A.row1, _, hn1, ?_⟩⟩
  · rw [isRotation_iff']
    have hcc := V3.cross_dot_cross u w
    rw [hu0, hu1, hu01] at hcc
    simp only [V3.dot] at hu0 hu1 hu01 hcc
    constructor
    · simp only [M3.mul, M3.transpose, M3.make_from_rows, M3.identity, M3.mk.injEq]
      refine ⟨hu0, hu01, ?_, ?_, hu1, ?_, ?_, ?_, ?_⟩
      · simp only [V3.cross]; ring
      · linarith
      · simp only [V3.cross]; ring
      · simp only [V3.cross]; ring
      · simp only [V3.cross]; ring
      · linarith
    · simp only [M3.det, M3.make_from_rows]
      simp only [V3.cross] at hcc ⊢
      linarith
  · simpa [M3.make_from_rows, M3.row0] using hs0
  · simpa [M3.make_from_rows, M3.row0, M3.row1] using hs1

/-- Non-vacuity: a sheared matrix meets the hypothesis. -/
example : V3.cross (M3.row0 ⟨2, 0, 0, 1, 3, 0, 7, 8, 9⟩) (M3.row1 ⟨2, 0, 0, 1, 3, 0, 7, 8, 9⟩) ≠ 0 := by
  intro h; have := congrArg V3.z h; norm_num [V3.cross, M3.row0, M3.row1] at this

/-- C10, observable side effect: `ortonormalize` overwrites the caller's matrix (its rows are numpy
views updated in place): after the call on diag(2,1,1) the argument is no longer diag(2,1,1). -/
theorem C10_ortonormalize_mutates_argument :
    ∃ A : M3, (M3.ortonormalize A).2 ≠ A := by
  refine ⟨M3.diag 2 1 1, ?_⟩
  have hn : V3.norm (⟨2, 0, 0⟩ : V3) = 2 := by
    have : V3.dot (⟨2, 0, 0⟩ : V3) ⟨2, 0, 0⟩ = 2 ^ 2 := by norm_num [V3.dot]
    rw [V3.norm, this, Real.sqrt_sq (by norm_num)]
  intro h
  have := congrArg M3.m00 h
  simp [M3.ortonormalize, M3.make_from_rows, M3.diag, M3.row0, hn, V3.divs] at this

/-- C10: angle conversions are inverse to each other. -/
theorem C10_angle_roundtrip (a : ℝ) :
    radians_to_degrees (degrees_to_radians a) = a ∧ degrees_to_radians (radians_to_degrees a) = a ∧
      degrees_to_radians 180 = Real.pi := by
  have := Real.pi_ne_zero
  refine ⟨?_, ?_, ?_⟩ <;> simp only [radians_to_degrees, degrees_to_radians] <;> field_simp

end Verif
