import Verif.Model.Vec
import Mathlib.Tactic.LinearCombination
import Mathlib.Tactic.Positivity

namespace Verif.V3

theorem dot_self_nonneg (a : V3) : 0 ≤ dot a a := by
  unfold dot; nlinarith [mul_self_nonneg a.x, mul_self_nonneg a.y, mul_self_nonneg a.z]

theorem norm_nonneg (a : V3) : 0 ≤ norm a := Real.sqrt_nonneg _

theorem norm_sq (a : V3) : norm a ^ 2 = dot a a := Real.sq_sqrt (dot_self_nonneg a)

theorem dot_self_eq_zero {a : V3} : dot a a = 0 ↔ a = 0 := by
  constructor
  · intro h
    unfold dot at h
    have hx := mul_self_nonneg a.x
    have hy := mul_self_nonneg a.y
    have hz := mul_self_nonneg a.z
    ext
    · exact mul_self_eq_zero.mp (by linarith)
    · exact mul_self_eq_zero.mp (by linarith)
    · exact mul_self_eq_zero.mp (by linarith)
  · rintro rfl; simp [dot]

theorem norm_pos {a : V3} (h : a ≠ 0) : 0 < norm a := by
  apply Real.sqrt_pos.mpr
  exact lt_of_le_of_ne (dot_self_nonneg a) (fun e => h (dot_self_eq_zero.mp e.symm))

theorem norm_eq_zero {a : V3} : norm a = 0 ↔ a = 0 := by
  constructor
  · intro h; by_contra hne; exact (norm_pos hne).ne' h
  · rintro rfl; simp [norm, dot]

theorem unit_dot {a : V3} (h : a ≠ 0) : dot (unit a) (unit a) = 1 := by
  have := norm_pos h
  have h2 := norm_sq a
  unfold unit divs
  simp only [dot] at *
  field_simp
  linarith

theorem divs_eq_smul (a : V3) (s : ℝ) : divs a s = (1 / s) • a := by
  ext <;> simp [divs] <;> ring

theorem dot_comm (a b : V3) : dot a b = dot b a := by unfold dot; ring

theorem dot_add_left (a b c : V3) : dot (a + b) c = dot a c + dot b c := by simp [dot]; ring
theorem dot_add_right (a b c : V3) : dot a (b + c) = dot a b + dot a c := by simp [dot]; ring
theorem dot_sub_left (a b c : V3) : dot (a - b) c = dot a c - dot b c := by simp [dot]; ring
theorem dot_sub_right (a b c : V3) : dot a (b - c) = dot a b - dot a c := by simp [dot]; ring
theorem dot_smul_left (s : ℝ) (a b : V3) : dot (s • a) b = s * dot a b := by simp [dot]; ring
theorem dot_smul_right (s : ℝ) (a b : V3) : dot a (s • b) = s * dot a b := by simp [dot]; ring

/-- Lagrange's identity. -/
theorem cross_dot_cross (a b : V3) :
    dot (cross a b) (cross a b) = dot a a * dot b b - dot a b ^ 2 := by
  simp [dot, cross]; ring

theorem dot_cross_left (a b : V3) : dot a (cross a b) = 0 := by simp [dot, cross]; ring
theorem dot_cross_right (a b : V3) : dot b (cross a b) = 0 := by simp [dot, cross]; ring

/-- Cauchy-Schwarz. -/
theorem dot_sq_le (a b : V3) : dot a b ^ 2 ≤ dot a a * dot b b := by
  have := dot_self_nonneg (cross a b)
  rw [cross_dot_cross] at this
  linarith

theorem dot_le_norm_mul (a b : V3) : dot a b ≤ norm a * norm b := by
  apply le_of_sq_le_sq _ (mul_nonneg (norm_nonneg a) (norm_nonneg b))
  rw [mul_pow, norm_sq, norm_sq]
  exact dot_sq_le a b
where
  le_of_sq_le_sq {x y : ℝ} (h : x ^ 2 ≤ y ^ 2) (hy : 0 ≤ y) : x ≤ y :=
    abs_le_of_sq_le_sq' h hy |>.2

end Verif.V3
