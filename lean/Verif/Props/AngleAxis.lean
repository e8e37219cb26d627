import Verif.Model.CoordSys
import Verif.Lemmas.Quaternion
import Verif.Lemmas.Vec
import Verif.Props.Quaternion
import Mathlib.Analysis.SpecialFunctions.Complex.Arg

/-! C80: orthonormalization of a matrix; C81: angle and axis of a quaternion. -/

namespace Verif

open M3

theorem rows_rotation {a b : V3} (ha : V3.dot a a = 1) (hb : V3.dot b b = 1) (hab : V3.dot a b = 0) :
    IsRotation (make_from_rows a b (V3.cross a b)) := by
  rw [isRotation_iff']
  simp only [V3.dot] at ha hb hab
  obtain ⟨a0, a1, a2⟩ := a
  obtain ⟨b0, b1, b2⟩ := b
  simp only at ha hb hab
  have hc : (a1 * b2 - a2 * b1) * (a1 * b2 - a2 * b1) + (a2 * b0 - a0 * b2) * (a2 * b0 - a0 * b2) +
      (a0 * b1 - a1 * b0) * (a0 * b1 - a1 * b0) = 1 := by
    linear_combination (b0 * b0 + b1 * b1 + b2 * b2) * ha + hb - (a0 * b0 + a1 * b1 + a2 * b2) * hab
  constructor
  · ext <;> simp [make_from_rows, M3.mul, M3.transpose, M3.identity, V3.cross]
    · exact ha
    · exact hab
    · ring
    · linear_combination hab
    · exact hb
    · ring
    · ring
    · ring
    · exact hc
  · simp [make_from_rows, M3.det, V3.cross]
    linear_combination hc

namespace Ortho

/-- The part of b orthogonal to the direction of a. -/
noncomputable def rest (a b : V3) : V3 := b - (V3.dot (V3.unit a) b) • V3.unit a

theorem rest_ne {a b : V3} (h : V3.cross a b ≠ 0) (ha : a ≠ 0) : rest a b ≠ 0 := by
  intro h0
  apply h
  unfold rest at h0
  have hu : V3.unit a = (1 / V3.norm a) • a := V3.divs_eq_smul _ _
  rw [hu] at h0
  have hx := congrArg V3.x h0
  have hy := congrArg V3.y h0
  have hz := congrArg V3.z h0
  simp at hx hy hz
  generalize (V3.norm a)⁻¹ = m at *
  generalize V3.dot (m • a) b = k at *
  ext <;> simp [V3.cross]
  all_goals (first | linear_combination a.y * hz - a.z * hy | linear_combination a.z * hx - a.x * hz | linear_combination a.x * hy - a.y * hx)

theorem rest_orth {a : V3} (b : V3) (ha : a ≠ 0) : V3.dot (V3.unit a) (rest a b) = 0 := by
  unfold rest
  rw [V3.dot_sub_right, V3.dot_smul_right, V3.unit_dot ha]; ring

theorem ortonormalize_eq (A : M3) (h0 : A.row0 ≠ 0) (h1 : rest A.row0 A.row1 ≠ 0) :
    ortonormalize A = (make_from_rows (V3.unit A.row0) (V3.unit (rest A.row0 A.row1)) (V3.cross (V3.unit A.row0) (V3.unit (rest A.row0 A.row1))),
      make_from_rows (V3.unit A.row0) (V3.unit (rest A.row0 A.row1)) A.row2) := by
  unfold ortonormalize
  simp only [gt_iff_lt, V3.norm_pos h0, if_true]
  have e : V3.divs A.row0 (V3.norm A.row0) = V3.unit A.row0 := rfl
  rw [e]
  have e2 : A.row1 - V3.dot (V3.unit A.row0) A.row1 • V3.unit A.row0 = rest A.row0 A.row1 := rfl
  simp only [e2, V3.norm_pos h1, if_true]
  rfl

end Ortho
open Ortho

/-- **C80.** If the first two rows of A are linearly independent, the result is a rotation; its first row points along the first row
of A; its second row is in the half plane of the second (Gram-Schmidt). The caller's matrix is changed: its first two rows are
overwritten with those of the result. -/
theorem C80_ortonormalize (A : M3) (h : V3.cross A.row0 A.row1 ≠ 0) :
    ∃ R A', ortonormalize A = (R, A') ∧ IsRotation R ∧ (∃ c : ℝ, 0 < c ∧ R.row0 = c • A.row0) ∧
      (∃ a b : ℝ, 0 < b ∧ R.row1 = a • A.row0 + b • A.row1) ∧
      A'.row0 = R.row0 ∧ A'.row1 = R.row1 ∧ A'.row2 = A.row2 := by
  have h0 : A.row0 ≠ 0 := by
    intro e; apply h; rw [e]; ext <;> simp [V3.cross]
  have h1 := rest_ne h h0
  refine ⟨_, _, ortonormalize_eq A h0 h1, ?_, ?_, ?_, rfl, rfl, rfl⟩
  · refine rows_rotation (V3.unit_dot h0) (V3.unit_dot h1) ?_
    have : V3.unit (rest A.row0 A.row1) = (1 / V3.norm (rest A.row0 A.row1)) • rest A.row0 A.row1 := V3.divs_eq_smul _ _
    rw [this, V3.dot_smul_right, rest_orth _ h0, mul_zero]
  · exact ⟨1 / V3.norm A.row0, by have := V3.norm_pos h0; positivity, V3.divs_eq_smul _ _⟩
  · refine ⟨-(1 / V3.norm (rest A.row0 A.row1) * V3.dot (V3.unit A.row0) A.row1 * (1 / V3.norm A.row0)), 1 / V3.norm (rest A.row0 A.row1),
      by have := V3.norm_pos h1; positivity, ?_⟩
    have e1 : (make_from_rows (V3.unit A.row0) (V3.unit (rest A.row0 A.row1)) (V3.cross (V3.unit A.row0) (V3.unit (rest A.row0 A.row1)))).row1
      = V3.unit (rest A.row0 A.row1) := rfl
    have e2 : V3.unit (rest A.row0 A.row1) = (1 / V3.norm (rest A.row0 A.row1)) • rest A.row0 A.row1 := V3.divs_eq_smul _ _
    have e3 : V3.unit A.row0 = (1 / V3.norm A.row0) • A.row0 := V3.divs_eq_smul _ _
    rw [e1, e2]
    generalize 1 / V3.norm (rest A.row0 A.row1) = k
    unfold rest
    generalize V3.dot (V3.unit A.row0) A.row1 = d
    rw [e3]
    generalize 1 / V3.norm A.row0 = m
    ext <;> simp <;> ring

/-- **C80.** A rotation is returned unchanged. -/
theorem C80_rotation_fixed (A : M3) (hA : IsRotation A) : ortonormalize A = (A, A) := by
  obtain ⟨ho, hd⟩ := (isRotation_iff' A).mp hA
  have e00 := congrArg M3.m00 ho
  have e01 := congrArg M3.m01 ho
  have e11 := congrArg M3.m11 ho
  simp only [M3.mul, M3.transpose, M3.identity] at e00 e01 e11
  have a : V3.dot A.row0 A.row0 = 1 := by simpa [V3.dot, row0] using e00
  have b : V3.dot A.row1 A.row1 = 1 := by simpa [V3.dot, row1] using e11
  have ab : V3.dot A.row0 A.row1 = 0 := by simpa [V3.dot, row0, row1] using e01
  have na : V3.norm A.row0 = 1 := by unfold V3.norm; rw [a, Real.sqrt_one]
  have nb : V3.norm A.row1 = 1 := by unfold V3.norm; rw [b, Real.sqrt_one]
  have unit1 : ∀ v : V3, V3.norm v = 1 → V3.unit v = v := by
    intro v hv; unfold V3.unit; rw [hv, V3.divs_eq_smul]; ext <;> simp
  have hr : rest A.row0 A.row1 = A.row1 := by
    unfold rest; rw [unit1 _ na, ab]; ext <;> simp
  have ne : ∀ v : V3, V3.norm v = 1 → v ≠ 0 := by
    rintro v hv rfl
    rw [V3.norm_eq_zero.mpr rfl] at hv; norm_num at hv
  rw [ortonormalize_eq A (ne _ na) (by rw [hr]; exact ne _ nb), hr, unit1 _ na, unit1 _ nb]
  -- the third row of a rotation is the cross product of the first two
  have hc : V3.cross A.row0 A.row1 = A.row2 := by
    have ht := ((isRotation_iff A).mp hA).1
    have t00 := congrArg M3.m00 ht
    have t01 := congrArg M3.m01 ht
    have t02 := congrArg M3.m02 ht
    have t11 := congrArg M3.m11 ht
    have t12 := congrArg M3.m12 ht
    have t22 := congrArg M3.m22 ht
    simp only [M3.mul, M3.transpose, M3.identity] at t00 t01 t02 t11 t12 t22
    simp only [M3.det] at hd
    obtain ⟨m00, m01, m02, m10, m11, m12, m20, m21, m22⟩ := A
    simp only [row0, row1, row2, V3.cross] at *
    ext <;> simp only
    · linear_combination m20 * hd - (m01 * m12 - m02 * m11) * t00 + (m00 * m12 - m02 * m10) * t01 - (m00 * m11 - m01 * m10) * t02
    · linear_combination m21 * hd - (m01 * m12 - m02 * m11) * t01 + (m00 * m12 - m02 * m10) * t11 - (m00 * m11 - m01 * m10) * t12
    · linear_combination m22 * hd - (m01 * m12 - m02 * m11) * t02 + (m00 * m12 - m02 * m10) * t12 - (m00 * m11 - m01 * m10) * t22
  rw [hc]
  rfl

/-- **C80.** If the first two rows are linearly dependent, the result is no rotation: its determinant is 0 (no exception is raised). -/
theorem C80_degenerate (A : M3) (h : V3.cross A.row0 A.row1 = 0) : (ortonormalize A).1.toMat.det = 0 ∧ ¬ IsRotation (ortonormalize A).1 := by
  have hx := congrArg V3.x h
  have hy := congrArg V3.y h
  have hz := congrArg V3.z h
  have hdet : (ortonormalize A).1.toMat.det = 0 := by
    rw [M3.toMat_det]
    have key : ∀ a b c d : ℝ, (make_from_rows (a • A.row0) (c • A.row1 - d • A.row0) (V3.cross (a • A.row0) (c • A.row1 - d • A.row0))).det = 0 := by
      intro a b c d
      have z0 : (0 : V3).x = 0 ∧ (0 : V3).y = 0 ∧ (0 : V3).z = 0 := ⟨rfl, rfl, rfl⟩
      rw [z0.1] at hx
      rw [z0.2.1] at hy
      rw [z0.2.2] at hz
      simp only [V3.cross] at hx hy hz
      simp [M3.det, make_from_rows, V3.cross]
      generalize A.row0.x = x at *
      generalize A.row0.y = y at *
      generalize A.row0.z = z at *
      generalize A.row1.x = p at *
      generalize A.row1.y = q at *
      generalize A.row1.z = r at *
      have e : (y * r - z * q) ^ 2 + (z * p - x * r) ^ 2 + (x * q - y * p) ^ 2 = 0 := by rw [hx, hy, hz]; ring
      linear_combination (a * a * c * c) * e
    have form : ∃ a b c d : ℝ, (ortonormalize A).1 = make_from_rows (a • A.row0) (c • A.row1 - d • A.row0) (V3.cross (a • A.row0) (c • A.row1 - d • A.row0)) := by
      have h0 : ∃ a : ℝ, (if V3.norm A.row0 > 0 then V3.divs A.row0 (V3.norm A.row0) else A.row0) = a • A.row0 := by
        split_ifs
        · exact ⟨_, V3.divs_eq_smul _ _⟩
        · exact ⟨1, by ext <;> simp⟩
      obtain ⟨a, ha⟩ := h0
      have h1 : ∀ w : V3, ∃ c : ℝ, (if V3.norm w > 0 then V3.divs w (V3.norm w) else w) = c • w := by
        intro w
        split_ifs
        · exact ⟨_, V3.divs_eq_smul _ _⟩
        · exact ⟨1, by ext <;> simp⟩
      unfold ortonormalize
      simp only [ha]
      obtain ⟨c, hc⟩ := h1 (A.row1 - V3.dot (a • A.row0) A.row1 • a • A.row0)
      refine ⟨a, 0, c, c * (V3.dot (a • A.row0) A.row1 * a), ?_⟩
      rw [hc]
      have : c • (A.row1 - V3.dot (a • A.row0) A.row1 • a • A.row0) = c • A.row1 - (c * (V3.dot (a • A.row0) A.row1 * a)) • A.row0 := by
        ext <;> simp <;> ring
      rw [this]
    obtain ⟨a, b, c, d, e⟩ := form
    rw [e]; exact key a b c d
  refine ⟨hdet, fun hR => ?_⟩
  have := (Matrix.mem_specialOrthogonalGroup_iff.1 hR).2
  rw [hdet] at this
  exact one_ne_zero this.symm

/-- A matrix that meets the hypothesis of C80 and is far from orthonormal. -/
example : V3.cross (⟨2, 0, 0, 1, 3, 0, 5, 5, 5⟩ : M3).row0 (⟨2, 0, 0, 1, 3, 0, 5, 5, 5⟩ : M3).row1 ≠ 0 := by
  intro h
  have := congrArg V3.z h
  norm_num [V3.cross, row0, row1] at this

/-! ### C81 -/

namespace Quat

theorem arg_unit {c s : ℝ} (h : c ^ 2 + s ^ 2 = 1) : Real.cos (atan2 s c) = c ∧ Real.sin (atan2 s c) = s := by
  have hn : ‖(⟨c, s⟩ : ℂ)‖ = 1 := by
    rw [Complex.norm_def, Complex.normSq_mk, show c * c + s * s = 1 by linarith, Real.sqrt_one]
  have hne : (⟨c, s⟩ : ℂ) ≠ 0 := by
    intro h0; rw [h0] at hn; simp at hn
  unfold atan2
  refine ⟨?_, ?_⟩
  · rw [Complex.cos_arg hne, hn, div_one]
  · rw [Complex.sin_arg, hn, div_one]

theorem arg_range {c s : ℝ} (hs : 0 ≤ s) : 0 ≤ atan2 s c ∧ atan2 s c ≤ Real.pi :=
  ⟨Complex.arg_nonneg_iff.mpr hs, Complex.arg_le_pi _⟩

end Quat
open Quat

/-- **C81.** Angle and axis of a unit quaternion q: the angle is in [0, 2π]; the axis is a unit vector and `Ru(angle, axis)` is q itself,
unless q = ±1, where the axis is the zero vector and the angle is 0 or 2π. -/
theorem C81_to_angle_axis (q : Quat) (hq : IsUnitQ q) :
    ∃ θ u, to_angle_axis q = (θ, u) ∧ 0 ≤ θ ∧ θ ≤ 2 * Real.pi ∧
      (q.vec ≠ 0 → V3.norm u = 1 ∧ Quat.Ru θ u = q) ∧
      (q.vec = 0 → u = 0 ∧ (q.s = 1 ∧ θ = 0 ∨ q.s = -1 ∧ θ = 2 * Real.pi)) := by
  have hsum : q.s ^ 2 + V3.norm q.vec ^ 2 = 1 := by
    rw [V3.norm_sq]; unfold IsUnitQ at hq; simp only [V3.dot, vec]; linarith
  obtain ⟨hc, hs⟩ := arg_unit hsum
  obtain ⟨r0, r1⟩ := arg_range (c := q.s) (V3.norm_nonneg q.vec)
  by_cases hv : q.vec = 0
  · have h0 : V3.norm q.vec = 0 := V3.norm_eq_zero.mpr hv
    refine ⟨_, _, by unfold to_angle_axis; simp only [h0, gt_iff_lt, lt_irrefl, if_false]; rfl, ?_, ?_, fun h => absurd hv h, fun _ => ⟨rfl, ?_⟩⟩
    · rw [h0] at r0; linarith
    · rw [h0] at r1; linarith
    · rw [h0] at hsum hs hc r0 r1
      have h1 : q.s = 1 ∨ q.s = -1 := by
        have : q.s ^ 2 = 1 := by simpa using hsum
        rcases mul_eq_zero.mp (show (q.s - 1) * (q.s + 1) = 0 by linarith) with h | h
        · left; linarith
        · right; linarith
      rcases h1 with h1 | h1
      · left
        refine ⟨h1, ?_⟩
        rw [h1]
        unfold atan2
        have : (⟨1, 0⟩ : ℂ) = 1 := rfl
        rw [this, Complex.arg_one, mul_zero]
      · right
        refine ⟨h1, ?_⟩
        rw [h1]
        unfold atan2
        have : (⟨-1, 0⟩ : ℂ) = -1 := by apply Complex.ext <;> simp
        rw [this, Complex.arg_neg_one]
  · have hp := V3.norm_pos hv
    refine ⟨2 * atan2 (V3.norm q.vec) q.s, V3.unit q.vec, by unfold to_angle_axis; simp only [gt_iff_lt, hp, if_true]; rfl,
      by linarith, by linarith, fun _ => ?_, fun h => absurd h hv⟩
    have hu : V3.norm (V3.unit q.vec) = 1 := by
      have := V3.unit_dot hv
      unfold V3.norm; rw [this, Real.sqrt_one]
    refine ⟨hu, ?_⟩
    unfold Quat.Ru
    simp only [hu, mul_div_cancel_left₀ _ (two_ne_zero' ℝ), hc, hs]
    have hw : ∀ x : ℝ, V3.norm q.vec * (x / V3.norm q.vec / 1) = x := fun x => by field_simp
    simp only [V3.unit, V3.divs, hw]
    rfl

/-- **C81.** `to_angle` undoes `Ru`: for a unit axis and every angle φ the result is the representative of φ in (-π, π]. -/
theorem C81_to_angle (φ : ℝ) (u : V3) (hu : V3.norm u = 1) :
    -Real.pi < to_angle (Quat.Ru φ u) u ∧ to_angle (Quat.Ru φ u) u ≤ Real.pi ∧
      ∃ n : ℤ, φ = to_angle (Quat.Ru φ u) u + 2 * Real.pi * n := by
  have hvec : (Quat.Ru φ u).vec = Real.sin (φ / 2) • u := by
    unfold Quat.Ru; rw [hu]; ext <;> simp [vec, V3.divs]
  have hs : (Quat.Ru φ u).s = Real.cos (φ / 2) := rfl
  have hn : V3.norm (Quat.Ru φ u).vec = |Real.sin (φ / 2)| := by
    rw [hvec]; unfold V3.norm
    rw [V3.dot_smul_left, V3.dot_smul_right, ← V3.norm_sq, hu, one_pow, mul_one, ← sq, Real.sqrt_sq_eq_abs]
  have hd : V3.dot (Quat.Ru φ u).vec u = Real.sin (φ / 2) := by
    rw [hvec, V3.dot_smul_left, ← V3.norm_sq, hu]; ring
  have hcs := Real.sin_sq_add_cos_sq (φ / 2)
  have hpi := Real.pi_pos
  unfold to_angle
  simp only [hn, hs, hd]
  -- the angle before wrapping
  have key : ∃ (θ : ℝ) (m : ℤ), (if Real.sin (φ / 2) ≥ 0 then 2 * atan2 |Real.sin (φ / 2)| (Real.cos (φ / 2))
      else 2 * atan2 |Real.sin (φ / 2)| (-Real.cos (φ / 2))) = θ ∧ 0 ≤ θ ∧ θ ≤ 2 * Real.pi ∧ φ = θ + 2 * Real.pi * m := by
    have same : ∀ a b : ℝ, Real.cos a = Real.cos b → Real.sin a = Real.sin b → ∃ m : ℤ, b = a + 2 * Real.pi * m := by
      intro a b h1 h2
      have : ((a : ℝ) : Real.Angle) = (b : Real.Angle) := Real.Angle.cos_sin_inj h1 h2
      obtain ⟨m, hm⟩ := Real.Angle.angle_eq_iff_two_pi_dvd_sub.mp this.symm
      exact ⟨m, by linarith⟩
    split_ifs with h
    · rw [abs_of_nonneg h]
      obtain ⟨r0, r1⟩ := arg_range (c := Real.cos (φ / 2)) h
      obtain ⟨hc, hs'⟩ := arg_unit (c := Real.cos (φ / 2)) (s := Real.sin (φ / 2)) (by linarith)
      obtain ⟨m, hm⟩ := same _ _ hc hs'
      exact ⟨_, 2 * m, rfl, by linarith, by linarith, by push_cast; linarith⟩
    · have h' : Real.sin (φ / 2) < 0 := not_le.mp h
      rw [abs_of_neg h']
      obtain ⟨r0, r1⟩ := arg_range (c := -Real.cos (φ / 2)) (s := -Real.sin (φ / 2)) (by linarith)
      obtain ⟨hc, hs'⟩ := arg_unit (c := -Real.cos (φ / 2)) (s := -Real.sin (φ / 2)) (by linarith [neg_sq (Real.cos (φ / 2)), neg_sq (Real.sin (φ / 2))])
      obtain ⟨m, hm⟩ := same _ (φ / 2 + Real.pi) (by rw [hc, Real.cos_add_pi]) (by rw [hs', Real.sin_add_pi])
      exact ⟨_, 2 * m - 1, rfl, by linarith, by linarith, by push_cast; linarith⟩
  obtain ⟨θ, m, hθ, h0, h1, hm⟩ := key
  rw [hθ]
  split_ifs with hgt
  · exact ⟨by linarith, by linarith, m + 1, by push_cast; linarith⟩
  · exact ⟨by linarith, by linarith, m, hm⟩

/-- **C81.** `hat(q)` is orthogonal to q and as long as q. -/
theorem C81_hat (q : Quat) : Quat.dot q (Quat.hat q) = 0 ∧ Quat.norm (Quat.hat q) = Quat.norm q := by
  constructor
  · simp [Quat.dot, Quat.hat]; ring
  · unfold Quat.norm; congr 1; simp [Quat.dot, Quat.hat]; ring

/-- Non-vacuity of C81: the axis (0, 3/5, 4/5) is a unit vector. -/
example : V3.norm ⟨0, 3 / 5, 4 / 5⟩ = 1 := by
  unfold V3.norm V3.dot; norm_num

end Verif
