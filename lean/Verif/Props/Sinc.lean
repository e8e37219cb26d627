import Verif.Model.Sinc
import Mathlib.Analysis.SpecialFunctions.Trigonometric.Bounds
import Mathlib.Analysis.Complex.Exponential

/-! C119: `sinc`. -/

namespace Verif

/-- The sine up to the third power, for small arguments. -/
theorem sin_fifth {x : ℝ} (hx : |x| ≤ 1) : |Real.sin x - (x - x ^ 3 / 6)| ≤ |x| ^ 5 / 100 := by
  have h := Complex.exp_bound (x := (x : ℂ) * Complex.I) (by simpa using hx) (n := 5) (by norm_num)
  have e : (Complex.exp ((x : ℂ) * Complex.I) - ∑ m ∈ Finset.range 5, ((x : ℂ) * Complex.I) ^ m / (m.factorial : ℂ)).im = Real.sin x - (x - x ^ 3 / 6) := by
    rw [Complex.exp_mul_I]
    simp only [Finset.sum_range_succ, Finset.sum_range_zero, mul_pow, Complex.I_sq, Complex.I_pow_three, Complex.I_pow_four]
    norm_num [Nat.factorial, Complex.add_im, Complex.sub_im, Complex.mul_im, Complex.div_im, Complex.cos_ofReal_im, Complex.sin_ofReal_re]
    simp only [← Complex.ofReal_pow, Complex.ofReal_re, Complex.ofReal_im]
    ring
  rw [← e]
  refine (Complex.abs_im_le_norm _).trans (h.trans (le_of_eq ?_))
  simp [Nat.factorial]
  ring

/-- `sinc` is sin x / x: exactly from 1e-4 on, and up to 2·10⁻¹⁸, less than one unit in the last place of a double, below;
at 0, where the quotient has no value, it is the limit 1; and it is even and within [-1, 1]. -/
theorem C119_sinc (x : ℝ) : (x ≠ 0 → |sinc x - Real.sin x / x| ≤ 2 / 10 ^ 18) ∧ (1 / 10 ^ 4 ≤ |x| → sinc x = Real.sin x / x) ∧ sinc 0 = 1 ∧
    sinc (-x) = sinc x ∧ |sinc x| ≤ 1 := by
  have h4 : (1.0e-4 : ℝ) = 1 / 10 ^ 4 := by norm_num
  have hf : (0.166666666666666666667 : ℝ) = 166666666666666666667 / 10 ^ 21 := by norm_num
  have h1 : (1.0 : ℝ) = 1 := by norm_num
  unfold sinc
  dsimp only
  simp only [h4, hf, h1]
  refine ⟨fun hx => ?_, fun hx => if_neg (not_lt.2 hx), by norm_num, ?_, ?_⟩
  · split_ifs with c
    · have ha : 0 < |x| := abs_pos.2 hx
      have hs := sin_fifth (x := x) (c.le.trans (by norm_num))
      have e1 : (1 : ℝ) - x * x * (166666666666666666667 / 10 ^ 21) - Real.sin x / x =
          -((Real.sin x - (x - x ^ 3 / 6)) / x) - x ^ 2 * (1 / (3 * 10 ^ 21)) := by
        field_simp
        ring
      rw [e1]
      have e2 : |(Real.sin x - (x - x ^ 3 / 6)) / x| ≤ 1 / 10 ^ 18 := by
        rw [abs_div, div_le_iff₀ ha]
        refine hs.trans ?_
        have : |x| ^ 4 ≤ (1 / 10 ^ 4) ^ 4 := pow_le_pow_left₀ ha.le c.le 4
        calc |x| ^ 5 / 100 = |x| ^ 4 * |x| / 100 := by ring
          _ ≤ (1 / 10 ^ 4) ^ 4 * |x| / 100 := by gcongr
          _ = 1 / 10 ^ 18 * |x| := by ring
      have e3 : |x ^ 2 * (1 / (3 * 10 ^ 21))| ≤ 1 / 10 ^ 18 := by
        rw [abs_mul, abs_pow]
        have : |x| ^ 2 ≤ 1 := pow_le_one₀ ha.le (c.le.trans (by norm_num))
        rw [abs_of_pos (by norm_num : (0 : ℝ) < 1 / (3 * 10 ^ 21))]
        calc |x| ^ 2 * (1 / (3 * 10 ^ 21)) ≤ 1 * (1 / (3 * 10 ^ 21)) := by gcongr
          _ ≤ 1 / 10 ^ 18 := by norm_num
      calc |-((Real.sin x - (x - x ^ 3 / 6)) / x) - x ^ 2 * (1 / (3 * 10 ^ 21))|
          ≤ |-((Real.sin x - (x - x ^ 3 / 6)) / x)| + |x ^ 2 * (1 / (3 * 10 ^ 21))| := abs_sub _ _
        _ ≤ 1 / 10 ^ 18 + 1 / 10 ^ 18 := by rw [abs_neg]; exact add_le_add e2 e3
        _ = 2 / 10 ^ 18 := by norm_num
    · norm_num
  · rw [abs_neg, Real.sin_neg, neg_div_neg_eq, neg_mul_neg]
  · split_ifs with c
    · have : x * x ≤ 1 := by
        have h2 : |x| ≤ 1 := c.le.trans (by norm_num)
        rw [← abs_mul_abs_self]
        nlinarith [abs_nonneg x]
      have h0 : 0 ≤ x * x := mul_self_nonneg x
      rw [abs_le]
      constructor <;> nlinarith
    · rw [abs_div]
      exact div_le_one_of_le₀ (Real.abs_sin_le_abs) (abs_nonneg x)

/-- An argument below the threshold. -/
example : |sinc (1 / 10 ^ 5) - Real.sin (1 / 10 ^ 5) / (1 / 10 ^ 5)| ≤ 2 / 10 ^ 18 := (C119_sinc _).1 (by norm_num)

end Verif
