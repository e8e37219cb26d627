import Verif.Props.GearVolume
import Verif.Props.MeshTorus

/-! C107: the triangles on the teeth of a gear, seen from the middle of the tooth. -/

namespace Verif

open Gear SMesh

/-- twice the area of the triangle between the point (ρ, 0) and two points -/
def fanArea (ρ : ℝ) (p q : ℝ × ℝ) : ℝ := (p.1 - ρ) * q.2 - p.2 * (q.1 - ρ)

theorem sin_ge_cubic {x : ℝ} (h0 : 0 ≤ x) (h1 : x ≤ 1) : x - x ^ 3 / 6 ≤ Real.sin x := by
  have := Real.sin_bound (show |x| ≤ 1 by rw [abs_of_nonneg h0]; exact h1)
  rw [abs_of_nonneg h0] at this
  have hm : Monotone fun y : ℝ => Real.sin y - y + y ^ 3 / 6 := by
    have hd : ∀ y : ℝ, HasDerivAt (fun y : ℝ => Real.sin y - y + y ^ 3 / 6) (Real.cos y - 1 + y ^ 2 / 2) y := by
      intro y
      have := (((Real.hasDerivAt_sin y).sub (hasDerivAt_id y)).add ((hasDerivAt_pow 3 y).div_const 6))
      refine this.congr_deriv ?_
      norm_num; ring
    refine monotone_of_deriv_nonneg (fun y => (hd y).differentiableAt) fun y => ?_
    rw [(hd y).deriv]
    have := Real.one_sub_sq_div_two_le_cos (x := y)
    linarith
  have := hm h0
  simp at this
  linarith

theorem cos_le_quartic {x : ℝ} (h0 : 0 ≤ x) (h1 : x ≤ 1) : Real.cos x ≤ 1 - x ^ 2 / 2 + x ^ 4 / 24 := by
  have hm : MonotoneOn (fun y : ℝ => 1 - y ^ 2 / 2 + y ^ 4 / 24 - Real.cos y) (Set.Icc 0 1) := by
    have hd : ∀ y : ℝ, HasDerivAt (fun y : ℝ => 1 - y ^ 2 / 2 + y ^ 4 / 24 - Real.cos y) (-y + y ^ 3 / 6 + Real.sin y) y := by
      intro y
      have := (((hasDerivAt_const y (1 : ℝ)).sub ((hasDerivAt_pow 2 y).div_const 2)).add ((hasDerivAt_pow 4 y).div_const 24)).sub (Real.hasDerivAt_cos y)
      refine this.congr_deriv ?_
      norm_num; ring
    refine monotoneOn_of_deriv_nonneg (convex_Icc 0 1) (fun y _ => (hd y).continuousAt.continuousWithinAt) (fun y _ => (hd y).differentiableAt.differentiableWithinAt) ?_
    intro y hy
    rw [interior_Icc] at hy
    rw [(hd y).deriv]
    have := sin_ge_cubic hy.1.le hy.2.le
    linarith
  have := hm (Set.left_mem_Icc.2 (by norm_num)) (Set.mem_Icc.2 ⟨h0, h1⟩) h0
  simp at this
  linarith

/-- What makes a tooth easy to cover: T is the roll angle of the tip, κ the angle from the foot of the tooth to its middle, ρ the place of the middle.  -/
structure ToothMid (R_b T κ ρ : ℝ) : Prop where
  base : 0 < R_b
  pos : 0 < T
  le : T ≤ 1
  kap : 0 < κ
  kap_lt : κ < Real.pi / 2
  gap : T - Real.arctan T < κ
  rho : 0 < ρ
  rho_le : ρ ≤ R_b * Real.sqrt (1 + T ^ 2) * (1 - 1 / 200)

/-- the slope of the flank, seen from the foot -/
theorem ToothMid.slope {R_b T κ ρ : ℝ} (h : ToothMid R_b T κ ρ) {a t : ℝ} (ha : 0 ≤ a) (hat : a ≤ t) (h0 : 0 < t) (ht : t ≤ T) (hs : t - a ≤ 1 / 11) :
    ρ * Real.sin (t - κ) < R_b * (Real.sin (t - a) + a * Real.cos (t - a)) := by
  have hb := h.base
  have hT := h.pos
  have hT1 := h.le
  obtain ⟨s, hs'⟩ : ∃ s, s = t - a := ⟨_, rfl⟩
  rw [← hs'] at hs ⊢
  have hs0 : 0 ≤ s := by linarith
  have low : t * (1 - s ^ 2 / 2) ≤ Real.sin s + a * Real.cos s := by
    have h1 := sin_ge_cubic hs0 (by linarith)
    have h2 := mul_le_mul_of_nonneg_left (Real.one_sub_sq_div_two_le_cos (x := s)) ha
    have e : t = a + s := by linarith
    rw [e]
    nlinarith [pow_nonneg hs0 3]
  have low2 : t * (1 - 1 / 242) ≤ Real.sin s + a * Real.cos s := by
    refine le_trans (mul_le_mul_of_nonneg_left ?_ h0.le) low
    nlinarith
  rcases le_or_gt (t - κ) 0 with hneg | hpos
  · have h1 : Real.sin (t - κ) ≤ 0 := Real.sin_nonpos_of_nonpos_of_neg_pi_le hneg (by linarith [h.kap_lt, Real.pi_pos])
    have h2 : ρ * Real.sin (t - κ) ≤ 0 := mul_nonpos_of_nonneg_of_nonpos h.rho.le h1
    have h3 : 0 < R_b * (Real.sin s + a * Real.cos s) := mul_pos hb (lt_of_lt_of_le (mul_pos h0 (by norm_num)) low2)
    linarith
  · -- the direction of the flank turns less than the tip allows
    have hat1 : Real.arctan T < Real.pi / 2 := Real.arctan_lt_pi_div_two T
    have h1 : Real.sin (t - κ) ≤ Real.sin (Real.arctan T - (T - t)) := by
      refine Real.sin_le_sin_of_le_of_le_pi_div_two (by linarith [Real.pi_pos]) (by linarith) (by linarith [h.gap])
    obtain ⟨u, hu⟩ : ∃ u, u = T - t := ⟨_, rfl⟩
    rw [← hu] at h1
    have hu0 : 0 ≤ u := by linarith
    have huT : u ≤ T := by linarith
    have hS : 0 < Real.sqrt (1 + T ^ 2) := Real.sqrt_pos.2 (by positivity)
    have h2 : Real.sqrt (1 + T ^ 2) * Real.sin (Real.arctan T - u) = T * Real.cos u - Real.sin u := by
      rw [Real.sin_sub, Real.sin_arctan, Real.cos_arctan]
      field_simp
    have h3 : T * Real.cos u - Real.sin u ≤ t := by
      have c1 := mul_le_mul_of_nonneg_left (cos_le_quartic hu0 (by linarith)) hT.le
      have c2 := sin_ge_cubic hu0 (by linarith)
      have e : t = T - u := by linarith
      rw [e]
      have : u ^ 3 / 6 ≤ T * (u ^ 2 / 6) := by nlinarith [sq_nonneg u]
      have : T * (u ^ 4 / 24) ≤ T * (u ^ 2 / 24) := by
        refine mul_le_mul_of_nonneg_left ?_ hT.le
        have : u ^ 2 ≤ 1 := by nlinarith
        nlinarith [sq_nonneg u]
      nlinarith [mul_nonneg hT.le (sq_nonneg u)]
    have hsp : 0 < Real.sin (t - κ) := Real.sin_pos_of_pos_of_lt_pi hpos (by linarith [Real.pi_gt_three, h.kap])
    have h4 : ρ * Real.sin (t - κ) ≤ R_b * Real.sqrt (1 + T ^ 2) * (1 - 1 / 200) * Real.sin (Real.arctan T - u) :=
      mul_le_mul h.rho_le h1 hsp.le (mul_nonneg (mul_pos hb hS).le (by norm_num))
    have h5 : R_b * Real.sqrt (1 + T ^ 2) * (1 - 1 / 200) * Real.sin (Real.arctan T - u) ≤ R_b * (t * (1 - 1 / 200)) := by
      have : Real.sqrt (1 + T ^ 2) * Real.sin (Real.arctan T - u) * (1 - 1 / 200) ≤ t * (1 - 1 / 200) := mul_le_mul_of_nonneg_right (by rw [h2]; exact h3) (by norm_num)
      have := mul_le_mul_of_nonneg_left this hb.le
      refine le_trans (le_of_eq ?_) this
      ring
    have h6 : R_b * (t * (1 - 1 / 200)) < R_b * (t * (1 - 1 / 242)) := by
      refine mul_lt_mul_of_pos_left (mul_lt_mul_of_pos_left (by norm_num) h0) hb
    have h7 := mul_le_mul_of_nonneg_left low2 hb.le
    linarith

/-- the triangle over a piece of the flank -/
theorem ToothMid.flank {R_b T κ ρ : ℝ} (h : ToothMid R_b T κ ρ) {a b : ℝ} (ha : 0 ≤ a) (hab : a < b) (hb : b ≤ T) (hs : b - a ≤ 1 / 11) :
    0 < fanArea ρ (involute R_b (-κ) a) (involute R_b (-κ) b) := by
  obtain ⟨G, hG⟩ : ∃ G : ℝ → ℝ, G = fun t => fanArea ρ (involute R_b (-κ) a) (involute R_b (-κ) t) := ⟨_, rfl⟩
  have hd : ∀ t : ℝ, HasDerivAt G (R_b * t * (R_b * (Real.sin (t - a) + a * Real.cos (t - a)) - ρ * Real.sin (t - κ))) t := by
    intro t
    rw [hG]
    have h1 : HasDerivAt (fun t : ℝ => t + -κ) 1 t := (hasDerivAt_id t).add_const _
    have hx : HasDerivAt (fun t => (involute R_b (-κ) t).1) (R_b * t * Real.cos (t + -κ)) t := by
      have := (h1.cos.add ((hasDerivAt_id t).mul h1.sin)).const_mul R_b
      refine this.congr_deriv ?_
      simp; ring
    have hy : HasDerivAt (fun t => (involute R_b (-κ) t).2) (R_b * t * Real.sin (t + -κ)) t := by
      have := (h1.sin.sub ((hasDerivAt_id t).mul h1.cos)).const_mul R_b
      refine this.congr_deriv ?_
      simp; ring
    have := (hy.const_mul ((involute R_b (-κ) a).1 - ρ)).sub ((hx.sub_const ρ).const_mul (involute R_b (-κ) a).2)
    refine this.congr_deriv ?_
    have e1 : t - a = (t + -κ) - (a + -κ) := by ring
    rw [e1, Real.sin_sub, Real.cos_sub, ← sub_eq_add_neg t]
    simp only [involute]
    ring
  have hmono : StrictMonoOn G (Set.Icc a b) := by
    refine strictMonoOn_of_deriv_pos (convex_Icc a b) (fun t _ => (hd t).continuousAt.continuousWithinAt) ?_
    intro t ht
    rw [interior_Icc] at ht
    rw [(hd t).deriv]
    have ht0 : 0 < t := lt_of_le_of_lt ha ht.1
    have := h.slope ha ht.1.le ht0 (ht.2.le.trans hb) (by linarith [ht.2])
    exact mul_pos (mul_pos h.base ht0) (by linarith)
  have := hmono (Set.left_mem_Icc.2 hab.le) (Set.right_mem_Icc.2 hab.le) hab
  rw [hG] at this
  refine lt_of_le_of_lt (le_of_eq ?_) this
  unfold fanArea; ring

/-- … over a piece of the tip -/
theorem fanArea_arc {R ρ a d : ℝ} (hR : 0 < R) (hd : 0 < d) (hd1 : d < Real.pi) (hr0 : 0 ≤ ρ) (hρ : ρ < R * Real.cos (d / 2)) :
    0 < fanArea ρ (polar R a) (polar R (a + d)) := by
  have e : fanArea ρ (polar R a) (polar R (a + d)) = 2 * R * Real.sin (d / 2) * (R * Real.cos (d / 2) - ρ * Real.cos (a + d / 2)) := by
    have e1 : a + d = (a + d / 2) + d / 2 := by ring
    have e2 : a = (a + d / 2) - d / 2 := by ring
    obtain ⟨x, hx⟩ : ∃ x, x = a + d / 2 := ⟨_, rfl⟩
    rw [e1, ← hx]
    rw [show a = x - d / 2 by rw [hx]; ring]
    unfold fanArea polar
    simp only
    rw [Real.cos_add, Real.sin_add, Real.cos_sub, Real.sin_sub]
    have := Real.sin_sq_add_cos_sq x
    linear_combination (2 * R ^ 2 * Real.sin (d / 2) * Real.cos (d / 2)) * this
  rw [e]
  have hs : 0 < Real.sin (d / 2) := Real.sin_pos_of_pos_of_lt_pi (by linarith) (by linarith)
  refine mul_pos (by positivity) ?_
  have : ρ * Real.cos (a + d / 2) ≤ ρ := mul_le_of_le_one_right hr0 (Real.cos_le_one _)
  linarith

end Verif
