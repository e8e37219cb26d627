import Verif.Model.ExpMap
import Verif.Props.CoordSys

/-! # C11: Euler angles -/

namespace Verif
open Quat

theorem atan2_cos_sin {x y r : ℝ} (hr : 0 < r) (h : x ^ 2 + y ^ 2 = r ^ 2) :
    Real.cos (atan2 y x) = x / r ∧ Real.sin (atan2 y x) = y / r := by
  have hn : ‖(⟨x, y⟩ : ℂ)‖ = r := by
    rw [Complex.norm_def, Complex.normSq_mk, ← Real.sqrt_sq hr.le, ← h]
    congr 1; ring
  have hne : (⟨x, y⟩ : ℂ) ≠ 0 := by
    intro e; rw [e, norm_zero] at hn; exact hr.ne hn
  unfold atan2
  constructor
  · rw [Complex.cos_arg hne, hn]
  · rw [Complex.sin_arg, hn]

/-- C11: for every rotation matrix the extracted angles rebuild the matrix as
Rz(gamma) Ry(beta) Rx(alpha) (the order documented in euler.py:11), in the generic case and in both
gimbal-lock cases. -/
theorem C11_euler_correct (R : M3) (h : IsRotation R) :
    let e := make_euler_xyz_from_matrix R
    (M3.Rz e.gamma).toMat * ((M3.Ry e.beta).toMat * (M3.Rx e.alpha).toMat) = R.toMat := by
  obtain ⟨c1, c2, c3, c12, c13, c23, r1, r2, r3, r12, r13, r23, -⟩ := rotation_entries h
  obtain ⟨k1, k2, k3, k4, k5, k6, k7, k8, k9⟩ := rotation_cofactor h
  obtain ⟨m00, m01, m02, m10, m11, m12, m20, m21, m22⟩ := R
  simp only at c1 c2 c3 c12 c13 c23 r1 r2 r3 r12 r13 r23 k1 k2 k3 k4 k5 k6 k7 k8 k9
  intro e
  rw [← M3.toMat_mul, ← M3.toMat_mul]
  congr 1
  have b0 : m20 ^ 2 ≤ 1 := by linarith [sq_nonneg m00, sq_nonneg m10]
  obtain ⟨b2, b1⟩ := abs_le.mp ((sq_le_one_iff_abs_le_one _).mp b0)
  have sq0 : ∀ x y : ℝ, x ^ 2 + y ^ 2 = 0 → x = 0 ∧ y = 0 := by
    intro x y hxy
    have hx := sq_nonneg x
    have hy := sq_nonneg y
    exact ⟨pow_eq_zero_iff two_ne_zero |>.mp (by linarith), pow_eq_zero_iff two_ne_zero |>.mp (by linarith)⟩
  by_cases g1 : m20 ≥ 1
  · have e20 : m20 = 1 := le_antisymm b1 g1
    have he : e = ⟨0, -Real.pi / 2, atan2 (-m01) (-m02)⟩ := by
      simp only [e, make_euler_xyz_from_matrix, g1, if_true]
    subst e20
    obtain ⟨z00, z10⟩ := sq0 m00 m10 (by linarith)
    obtain ⟨z21, z22⟩ := sq0 m21 m22 (by linarith)
    subst z00 z10 z21 z22
    obtain ⟨hc, hs⟩ := atan2_cos_sin (x := -m02) (y := -m01) (r := 1) one_pos (by linarith)
    rw [he]
    have hy1 : Real.cos (-Real.pi / 2) = 0 := by rw [neg_div, Real.cos_neg, Real.cos_pi_div_two]
    have hy2 : Real.sin (-Real.pi / 2) = -1 := by rw [neg_div, Real.sin_neg, Real.sin_pi_div_two]
    simp only [M3.Rz, M3.Ry, M3.Rx, hc, hs, hy1, hy2, Real.cos_zero, Real.sin_zero, M3.mul]
    ext <;> simp only <;> linarith
  · by_cases g2 : m20 ≤ -1
    · have e20 : m20 = -1 := le_antisymm g2 b2
      have he : e = ⟨0, Real.pi / 2, atan2 (-m01) m02⟩ := by
        simp only [e, make_euler_xyz_from_matrix, g1, g2, if_true, if_false]
      subst e20
      obtain ⟨z00, z10⟩ := sq0 m00 m10 (by linarith)
      obtain ⟨z21, z22⟩ := sq0 m21 m22 (by linarith)
      subst z00 z10 z21 z22
      obtain ⟨hc, hs⟩ := atan2_cos_sin (x := m02) (y := -m01) (r := 1) one_pos (by linarith)
      rw [he]
      simp only [M3.Rz, M3.Ry, M3.Rx, hc, hs, Real.cos_pi_div_two, Real.sin_pi_div_two,
        Real.cos_zero, Real.sin_zero, M3.mul]
      ext <;> simp only <;> linarith
    · have he : e = ⟨atan2 m21 m22, Real.arcsin (-m20), atan2 m10 m00⟩ := by
        simp only [e, make_euler_xyz_from_matrix, g1, g2, if_false]
      rw [not_le] at g1 g2
      have hpos : 0 < 1 - m20 ^ 2 := by nlinarith only [g1, g2]
      have hr := Real.sqrt_pos.mpr hpos
      have hr2 := Real.sq_sqrt hpos.le
      obtain ⟨hcz, hsz⟩ := atan2_cos_sin (x := m00) (y := m10) hr (by rw [hr2]; linarith)
      obtain ⟨hcx, hsx⟩ := atan2_cos_sin (x := m22) (y := m21) hr (by rw [hr2]; linarith)
      have hsy : Real.sin (Real.arcsin (-m20)) = -m20 :=
        Real.sin_arcsin (by linarith) (by linarith)
      have hcy : Real.cos (Real.arcsin (-m20)) = Real.sqrt (1 - m20 ^ 2) := by
        rw [Real.cos_arcsin]; congr 1; ring
      rw [he]
      simp only [M3.Rz, M3.Ry, M3.Rx, hcz, hsz, hcx, hsx, hsy, hcy, M3.mul]
      generalize Real.sqrt (1 - m20 ^ 2) = q at hr hr2 ⊢
      have hq := hr.ne'
      ext <;> simp only <;> field_simp
      · ring
      · rw [hr2]
        linear_combination (-m00) * c12 - m10 * k9 + m01 * c1
      · rw [hr2]
        linear_combination (-m00) * c13 + m10 * k8 + m02 * c1
      · ring
      · rw [hr2]
        linear_combination (-m10) * c12 + m00 * k9 + m11 * c1
      · rw [hr2]
        linear_combination (-m10) * c13 - m00 * k8 + m12 * c1
      · ring
      · ring
      · ring

/-- C11: the same for the quaternion version, for every quaternion. -/
theorem C11_euler_from_quaternion (Q : Quat) :
    let e := make_euler_xyz_from_quaternion Q
    (M3.Rz e.gamma).toMat * ((M3.Ry e.beta).toMat * (M3.Rx e.alpha).toMat) = (to_matrix Q).toMat :=
  C11_euler_correct (to_matrix Q) (C03_to_matrix_rotation Q)

/-- C11: the angles are in the usual ranges: alpha, gamma in (-π, π], beta in [-π/2, π/2]. -/
theorem C11_euler_ranges (R : M3) :
    let e := make_euler_xyz_from_matrix R
    e.alpha ∈ Set.Ioc (-Real.pi) Real.pi ∧ e.gamma ∈ Set.Ioc (-Real.pi) Real.pi ∧
      e.beta ∈ Set.Icc (-(Real.pi / 2)) (Real.pi / 2) := by
  have hp := Real.pi_pos
  simp only [make_euler_xyz_from_matrix, atan2]
  split_ifs
  · exact ⟨⟨by simp only; linarith, by simp only; linarith⟩,
      ⟨Complex.neg_pi_lt_arg _, Complex.arg_le_pi _⟩, by simp only; linarith, by simp only; linarith⟩
  · exact ⟨⟨by simp only; linarith, by simp only; linarith⟩,
      ⟨Complex.neg_pi_lt_arg _, Complex.arg_le_pi _⟩, by simp only; linarith, by simp only; linarith⟩
  · exact ⟨⟨Complex.neg_pi_lt_arg _, Complex.arg_le_pi _⟩,
      ⟨Complex.neg_pi_lt_arg _, Complex.arg_le_pi _⟩,
      Real.neg_pi_div_two_le_arcsin _, Real.arcsin_le_pi_div_two _⟩

/-- Non-vacuity: rotation matrices reaching each gimbal-lock branch exist (m20 = 1, m20 = -1). -/
example : IsRotation ⟨0, 0, -1, 0, 1, 0, 1, 0, 0⟩ ∧ IsRotation ⟨0, 0, 1, 0, 1, 0, -1, 0, 0⟩ := by
  constructor <;> rw [isRotation_iff] <;>
    norm_num [M3.mul, M3.transpose, M3.identity, M3.det]

end Verif
