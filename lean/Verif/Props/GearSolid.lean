import Verif.Props.GearCap
import Verif.Props.FullHull

/-! C107: the mesh of a gear bounds a solid. -/

namespace Verif

open Gear SMesh
open VMesh (Tri)

/-- direction of point k of the outline of a tooth, seen from the centre of the gear and from the middle of the tooth -/
noncomputable def loopAng (T beta gamma delta : ℝ) (k : ℕ) : ℝ := (if k = 0 then -delta else toothAngle T beta gamma delta (k - 1)) - beta / 2

noncomputable def loopRad (T R_b R_t R_r : ℝ) (k : ℕ) : ℝ := if k = 0 then R_r else toothRadius T R_b R_t R_r (k - 1)

theorem loopAng_symm {T beta gamma delta : ℝ} (hs : T - Real.arctan T = gamma + delta) {k : ℕ} (hk : k < 30) :
    loopAng T beta gamma delta (29 - k) = -loopAng T beta gamma delta k := by
  have e11 : (11 : ℝ) * (T / 11) = T := by ring
  interval_cases k <;> norm_num [loopAng, toothAngle] <;> (try rw [e11]) <;> linarith

theorem loopRad_symm {R_b R_t R_r : ℝ} (hb : 0 < R_b) (ht : R_b ≤ R_t) {k : ℕ} (hk : k < 30) :
    loopRad (roll_angle R_b R_t) R_b R_t R_r (29 - k) = loopRad (roll_angle R_b R_t) R_b R_t R_r k := by
  interval_cases k <;> norm_num [loopRad, toothRadius]

/-- Gears the mesh of which bounds a solid for certain: not too many teeth, flanks that do not turn too far, feet on the root circle. -/
structure TeethSolid (m : ℝ) (Z : ℕ) (alpha : ℝ) : Prop where
  fit : TeethFit m Z alpha
  few : Z ≤ 58
  roll : roll_angle (make_gear_specs m Z alpha).base_radius (make_gear_specs m Z alpha).top_radius ≤ 1
  foot : (make_gear_specs m Z alpha).root_radius < (make_gear_specs m Z alpha).base_radius

theorem toothAngle_mono {T beta gamma delta : ℝ} (hT : 0 ≤ T) (hs : T - Real.arctan T = gamma + delta) (hg : 2 * gamma < beta) (hd : 2 * delta < beta)
    {i j : ℕ} (hij : i ≤ j) (hj : j ≤ 33) : toothAngle T beta gamma delta i ≤ toothAngle T beta gamma delta j := by
  induction j, hij using Nat.le_induction with
  | base => exact le_rfl
  | succ k hk ih => exact (ih (by omega)).trans (toothAngle_step hT hs hg hd (by omega)).1

section tooth
variable {m : ℝ} {Z : ℕ} {alpha : ℝ}

/-- the roll angle of the tip -/
noncomputable def tipRoll (m : ℝ) (Z : ℕ) (alpha : ℝ) : ℝ := roll_angle (make_gear_specs m Z alpha).base_radius (make_gear_specs m Z alpha).top_radius

/-- half the angle that a tooth takes at its foot -/
noncomputable def halfFoot (m : ℝ) (Z : ℕ) (alpha : ℝ) : ℝ := (make_gear_specs m Z alpha).delta + (make_gear_specs m Z alpha).beta / 2

noncomputable def gAng (m : ℝ) (Z : ℕ) (alpha : ℝ) (k : ℕ) : ℝ :=
  loopAng (tipRoll m Z alpha) (make_gear_specs m Z alpha).beta (make_gear_specs m Z alpha).gamma (make_gear_specs m Z alpha).delta k

noncomputable def gRad (m : ℝ) (Z : ℕ) (alpha : ℝ) (k : ℕ) : ℝ :=
  loopRad (tipRoll m Z alpha) (make_gear_specs m Z alpha).base_radius (make_gear_specs m Z alpha).top_radius (make_gear_specs m Z alpha).root_radius k

/-- the distance from the centre of the gear to the middle of the corners of a tooth -/
noncomputable def midRad (m : ℝ) (Z : ℕ) (alpha : ℝ) : ℝ := (∑ k ∈ Finset.range 30, gRad m Z alpha k * Real.cos (gAng m Z alpha k)) / 30

theorem TeethSolid.half (h : TeethSolid m Z alpha) : 0 < halfFoot m Z alpha ∧ 2 * halfFoot m Z alpha < 2 * (Real.pi / Z) ∧ 2 * (Real.pi / Z) < Real.pi ∧
    halfFoot m Z alpha < Real.pi / 2 := by
  obtain ⟨hT, hd0, hg0, hs⟩ := h.fit.spans
  have hb : (make_gear_specs m Z alpha).beta = Real.pi / Z := rfl
  have hz3 : (3 : ℝ) ≤ Z := by exact_mod_cast h.fit.number
  have hp : 0 < Real.pi / Z := div_pos Real.pi_pos (by linarith)
  have hp2 : Real.pi / Z ≤ Real.pi / 3 := div_le_div_of_nonneg_left Real.pi_pos.le (by norm_num) hz3
  have hd := h.fit.root
  unfold halfFoot
  rw [hb]
  have := Real.pi_pos
  refine ⟨by linarith, by linarith, by linarith, by linarith⟩

theorem TeethSolid.ang (h : TeethSolid m Z alpha) {k : ℕ} (hk : k < 30) : |gAng m Z alpha k| ≤ halfFoot m Z alpha := by
  obtain ⟨hT, hd0, hg0, hs⟩ := h.fit.spans
  obtain ⟨e0, -, -, -, e28, -⟩ := toothAngle_ends (beta := (make_gear_specs m Z alpha).beta) hs
  obtain ⟨k0, -⟩ := h.half
  unfold gAng loopAng halfFoot
  split_ifs with h0
  · rw [abs_le]
    unfold halfFoot at k0
    constructor <;> linarith
  · have h1 := toothAngle_mono hT hs h.fit.top h.fit.root (Nat.zero_le (k - 1)) (by omega)
    have h2 := toothAngle_mono hT hs h.fit.top h.fit.root (show k - 1 ≤ 28 by omega) (by omega)
    have hb : (make_gear_specs m Z alpha).beta = Real.pi / Z := rfl
    rw [← hb] at h1 h2
    rw [e0] at h1
    rw [e28] at h2
    unfold tipRoll
    rw [abs_le]
    constructor <;> linarith

theorem TeethSolid.rad (h : TeethSolid m Z alpha) (k : ℕ) : (make_gear_specs m Z alpha).root_radius ≤ gRad m Z alpha k ∧
    gRad m Z alpha k ≤ (make_gear_specs m Z alpha).top_radius := by
  obtain ⟨q1, q2, q3, q4, q5⟩ := h.fit.radii
  unfold gRad loopRad
  split_ifs
  · exact ⟨le_rfl, by linarith⟩
  · have := toothRadius_range (R_r := (make_gear_specs m Z alpha).root_radius) q2 (q3.trans q4.le) (by linarith) (k - 1)
    rw [min_eq_right h.foot.le] at this
    exact this

theorem TeethSolid.x_ge (h : TeethSolid m Z alpha) {k : ℕ} (hk : k < 30) :
    (make_gear_specs m Z alpha).root_radius * Real.cos (halfFoot m Z alpha) ≤ gRad m Z alpha k * Real.cos (gAng m Z alpha k) := by
  obtain ⟨q1, q2, q3, q4, q5⟩ := h.fit.radii
  obtain ⟨k0, k1, k2, k3⟩ := h.half
  have hc : Real.cos (halfFoot m Z alpha) ≤ Real.cos (gAng m Z alpha k) := by
    rw [← Real.cos_abs (gAng m Z alpha k)]
    exact Real.cos_le_cos_of_nonneg_of_le_pi (abs_nonneg _) (by linarith) (h.ang hk)
  have hc0 : 0 < Real.cos (halfFoot m Z alpha) := Real.cos_pos_of_mem_Ioo ⟨by linarith, k3⟩
  exact mul_le_mul (h.rad k).1 hc hc0.le (q1.le.trans (h.rad k).1)

theorem TeethSolid.x_le (h : TeethSolid m Z alpha) (k : ℕ) : gRad m Z alpha k * Real.cos (gAng m Z alpha k) ≤ gRad m Z alpha k := by
  obtain ⟨q1, -⟩ := h.fit.radii
  exact mul_le_of_le_one_right (q1.le.trans (h.rad k).1) (Real.cos_le_one _)

theorem g29 (h : TeethSolid m Z alpha) {k : ℕ} (hk : k < 30) : gRad m Z alpha (29 - k) = gRad m Z alpha k ∧ gAng m Z alpha (29 - k) = -gAng m Z alpha k := by
  obtain ⟨hT, hd0, hg0, hs⟩ := h.fit.spans
  obtain ⟨q1, q2, q3, q4, q5⟩ := h.fit.radii
  exact ⟨loopRad_symm q2 (q3.trans q4.le) hk, loopAng_symm hs hk⟩

theorem g0 : gRad m Z alpha 0 = (make_gear_specs m Z alpha).root_radius ∧ gAng m Z alpha 0 = -halfFoot m Z alpha := by
  refine ⟨rfl, ?_⟩
  unfold gAng loopAng halfFoot
  rw [if_pos rfl]; ring

theorem g12 (h : TeethSolid m Z alpha) : gRad m Z alpha 12 = (make_gear_specs m Z alpha).top_radius := by
  obtain ⟨q1, q2, q3, q4, q5⟩ := h.fit.radii
  obtain ⟨-, f11, -⟩ := toothRadius_ends (R_r := (make_gear_specs m Z alpha).root_radius) q2 (q3.trans q4.le)
  exact f11

theorem TeethSolid.mid (h : TeethSolid m Z alpha) : (make_gear_specs m Z alpha).root_radius * Real.cos (halfFoot m Z alpha) < midRad m Z alpha ∧
    0 < midRad m Z alpha ∧ midRad m Z alpha ≤ (make_gear_specs m Z alpha).top_radius - 3 / 20 * m := by
  obtain ⟨q1, q2, q3, q4, q5⟩ := h.fit.radii
  obtain ⟨k0, k1, k2, k3⟩ := h.half
  have hc0 : 0 < Real.cos (halfFoot m Z alpha) := Real.cos_pos_of_mem_Ioo ⟨by linarith, k3⟩
  have hlow : (make_gear_specs m Z alpha).root_radius * Real.cos (halfFoot m Z alpha) < midRad m Z alpha := by
    unfold midRad
    rw [lt_div_iff₀ (by norm_num)]
    have : ∑ k ∈ Finset.range 30, (make_gear_specs m Z alpha).root_radius * Real.cos (halfFoot m Z alpha) < ∑ k ∈ Finset.range 30, gRad m Z alpha k * Real.cos (gAng m Z alpha k) := by
      refine Finset.sum_lt_sum (fun k hk => h.x_ge (Finset.mem_range.1 hk)) ⟨12, by simp, ?_⟩
      rw [g12 h]
      have hc : Real.cos (halfFoot m Z alpha) ≤ Real.cos (gAng m Z alpha 12) := by
        rw [← Real.cos_abs (gAng m Z alpha 12)]
        exact Real.cos_le_cos_of_nonneg_of_le_pi (abs_nonneg _) (by linarith) (h.ang (by norm_num))
      exact mul_lt_mul (by linarith) hc hc0 (by linarith)
    rw [Finset.sum_const, Finset.card_range, nsmul_eq_mul] at this
    push_cast at this
    linarith
  refine ⟨hlow, lt_trans (mul_pos q1 hc0) hlow, ?_⟩
  unfold midRad
  rw [div_le_iff₀ (by norm_num), Finset.sum_range_succ, Finset.sum_range_succ']
  have h29 : gRad m Z alpha 29 * Real.cos (gAng m Z alpha 29) ≤ (make_gear_specs m Z alpha).root_radius := by
    refine (h.x_le 29).trans (le_of_eq ?_)
    have := (g29 h (show 0 < 30 by norm_num)).1
    rw [g0.1] at this
    exact this
  have h0 : gRad m Z alpha 0 * Real.cos (gAng m Z alpha 0) ≤ (make_gear_specs m Z alpha).root_radius := (h.x_le 0).trans (le_of_eq g0.1)
  have hmid : ∑ k ∈ Finset.range 28, gRad m Z alpha (k + 1) * Real.cos (gAng m Z alpha (k + 1)) ≤ ∑ k ∈ Finset.range 28, (make_gear_specs m Z alpha).top_radius :=
    Finset.sum_le_sum fun k hk => (h.x_le _).trans (h.rad _).2
  rw [Finset.sum_const, Finset.card_range, nsmul_eq_mul] at hmid
  push_cast at hmid
  obtain ⟨d1, d2, d3, -⟩ := C107_dimensions m Z alpha
  rw [d2] at hmid ⊢
  rw [d3] at h0 h29
  linarith

theorem TeethSolid.toothMid (h : TeethSolid m Z alpha) : ToothMid (make_gear_specs m Z alpha).base_radius (tipRoll m Z alpha) (halfFoot m Z alpha) (midRad m Z alpha) := by
  obtain ⟨q1, q2, q3, q4, q5⟩ := h.fit.radii
  obtain ⟨k0, k1, k2, k3⟩ := h.half
  obtain ⟨m1, m2, m3⟩ := h.mid
  obtain ⟨hT, hd0, hg0, hs⟩ := h.fit.spans
  refine ⟨q2, ?_, h.roll, k0, k3, ?_, m2, ?_⟩
  · unfold tipRoll roll_angle
    refine Real.sqrt_pos.2 ?_
    have : 1 < (make_gear_specs m Z alpha).top_radius / (make_gear_specs m Z alpha).base_radius := by rw [one_lt_div q2]; linarith
    nlinarith
  · have hg := h.fit.top
    have hb : (make_gear_specs m Z alpha).beta = Real.pi / Z := rfl
    unfold tipRoll halfFoot
    rw [hs, hb]
    linarith
  · have hr : (make_gear_specs m Z alpha).base_radius * Real.sqrt (1 + tipRoll m Z alpha ^ 2) = (make_gear_specs m Z alpha).top_radius := roll_radius q2 (q3.trans q4.le)
    rw [hr]
    obtain ⟨d1, d2, d3, -⟩ := C107_dimensions m Z alpha
    rw [d2] at m3 ⊢
    have hz : (Z : ℝ) ≤ 58 := by exact_mod_cast h.few
    have := mul_le_mul_of_nonneg_left hz h.fit.size.le
    linarith

theorem fanArea_mirror (ρ r a r' a' : ℝ) : fanArea ρ (polar r (-a)) (polar r' (-a')) = fanArea ρ (polar r' a') (polar r a) := by
  unfold fanArea polar
  simp only [Real.cos_neg, Real.sin_neg]
  ring

/-- the point k of the outline, seen from the middle of the tooth -/
noncomputable def gPt (m : ℝ) (Z : ℕ) (alpha : ℝ) (k : ℕ) : ℝ × ℝ := polar (gRad m Z alpha k) (gAng m Z alpha k)

theorem gPt_flank (h : TeethSolid m Z alpha) {k : ℕ} (h1 : 1 ≤ k) (h2 : k ≤ 12) :
    gPt m Z alpha k = involute (make_gear_specs m Z alpha).base_radius (-halfFoot m Z alpha) (((k : ℝ) - 1) * (tipRoll m Z alpha / 11)) := by
  rw [involute_polar]
  unfold gPt gRad gAng loopRad loopAng toothRadius toothAngle halfFoot
  simp only [if_neg (show ¬ k = 0 by omega), if_pos (show k - 1 < 12 by omega), Nat.cast_sub h1, Nat.cast_one]
  congr 1
  ring

theorem gPt_top (h : TeethSolid m Z alpha) {k : ℕ} (h1 : 12 ≤ k) (h2 : k ≤ 17) : gPt m Z alpha k = polar (make_gear_specs m Z alpha).top_radius
    ((make_gear_specs m Z alpha).gamma - (make_gear_specs m Z alpha).beta / 2 +
      ((k : ℝ) - 12) * (((make_gear_specs m Z alpha).beta - 2 * (make_gear_specs m Z alpha).gamma) / 5)) := by
  obtain ⟨q1, q2, q3, q4, q5⟩ := h.fit.radii
  obtain ⟨hT, hd0, hg0, hs⟩ := h.fit.spans
  obtain ⟨-, e11, e16, -⟩ := toothAngle_ends (beta := (make_gear_specs m Z alpha).beta) hs
  obtain ⟨-, f11, f16, -⟩ := toothRadius_ends (R_r := (make_gear_specs m Z alpha).root_radius) q2 (q3.trans q4.le)
  unfold gPt gRad gAng loopRad loopAng
  rw [if_neg (by omega), if_neg (by omega)]
  rcases (by omega : k = 12 ∨ k = 17 ∨ (13 ≤ k ∧ k ≤ 16)) with rfl | rfl | hk
  · unfold tipRoll
    rw [show 12 - 1 = 11 from rfl, e11, f11]
    congr 1; push_cast; ring
  · unfold tipRoll
    rw [show 17 - 1 = 16 from rfl, e16, f16]
    congr 1; push_cast; ring
  · unfold toothRadius toothAngle
    rw [if_neg (by omega), if_pos (by omega), if_neg (by omega), if_pos (by omega), Nat.cast_sub (by omega)]
    congr 1; push_cast; ring

/-- **C107.** Seen from the middle of a tooth its outline goes round counterclockwise, every piece of it. -/
theorem TeethSolid.fan (h : TeethSolid m Z alpha) {k : ℕ} (hk : k < 30) : 0 < fanArea (midRad m Z alpha) (gPt m Z alpha k) (gPt m Z alpha ((k + 1) % 30)) := by
  obtain ⟨q1, q2, q3, q4, q5⟩ := h.fit.radii
  obtain ⟨k0, k1, k2, k3⟩ := h.half
  obtain ⟨m1, m2, m3⟩ := h.mid
  obtain ⟨hT, hd0, hg0, hs⟩ := h.fit.spans
  have hM := h.toothMid
  have hsin : 0 < Real.sin (halfFoot m Z alpha) := Real.sin_pos_of_pos_of_lt_pi k0 (by linarith)
  have low : ∀ k ≤ 14, 0 < fanArea (midRad m Z alpha) (gPt m Z alpha k) (gPt m Z alpha (k + 1)) := by
    intro k hk
    rcases (by omega : k = 0 ∨ (1 ≤ k ∧ k ≤ 11) ∨ (12 ≤ k ∧ k ≤ 14)) with rfl | ⟨a, b⟩ | ⟨a, b⟩
    · rw [gPt_flank h le_rfl (by norm_num), involute_polar]
      unfold gPt
      rw [g0.1, g0.2]
      unfold fanArea polar
      norm_num
      have := mul_pos (mul_pos m2 hsin) (sub_pos.2 h.foot)
      linarith
    · rw [gPt_flank h a (by omega), gPt_flank h (by omega) (by omega)]
      have ha : (1 : ℝ) ≤ k := by exact_mod_cast a
      have hb : (k : ℝ) ≤ 11 := by exact_mod_cast b
      have hT0 := hM.pos
      have hT1 := hM.le
      refine hM.flank ?_ ?_ ?_ ?_
      · exact mul_nonneg (by linarith) (by linarith)
      · push_cast; linarith
      · push_cast; nlinarith
      · push_cast; linarith
    · rw [gPt_top h a (by omega), gPt_top h (by omega) (by omega)]
      have hg := h.fit.top
      have hb : (make_gear_specs m Z alpha).beta = Real.pi / Z := rfl
      have hpz : Real.pi / Z < 2 := by
        have : Real.pi / Z ≤ Real.pi / 3 := div_le_div_of_nonneg_left Real.pi_pos.le (by norm_num) (by exact_mod_cast h.fit.number)
        linarith [Real.pi_le_four]
      rw [← hb] at hg hpz
      obtain ⟨d, hd⟩ : ∃ d, d = ((make_gear_specs m Z alpha).beta - 2 * (make_gear_specs m Z alpha).gamma) / 5 := ⟨_, rfl⟩
      have hd1 : 0 < d := by rw [hd]; linarith
      have hd2 : d ≤ (make_gear_specs m Z alpha).beta / 5 := by rw [hd]; linarith
      rw [← hd]
      have := fanArea_arc (R := (make_gear_specs m Z alpha).top_radius) (ρ := midRad m Z alpha) (a := (make_gear_specs m Z alpha).gamma - (make_gear_specs m Z alpha).beta / 2 + ((k : ℝ) - 12) * d) (d := d)
        (by linarith) hd1 (by linarith [Real.pi_gt_three]) m2.le ?_
      · refine lt_of_lt_of_le this (le_of_eq ?_)
        congr 2; push_cast; ring
      · have hc := Real.one_sub_sq_div_two_le_cos (x := d / 2)
        obtain ⟨d1, d2, d3, -⟩ := C107_dimensions m Z alpha
        have hz3 : (3 : ℝ) ≤ Z := by exact_mod_cast h.fit.number
        have hz58 : (Z : ℝ) ≤ 58 := by exact_mod_cast h.few
        have hmz := h.fit.size
        have hdz : d * Z ≤ 4 / 5 := by
          have e : (make_gear_specs m Z alpha).beta * Z = Real.pi := by rw [hb]; field_simp
          have : d * Z ≤ (make_gear_specs m Z alpha).beta / 5 * Z := mul_le_mul_of_nonneg_right hd2 (by linarith)
          linarith [Real.pi_le_four]
        have hd3 : d ≤ 4 / 15 := by nlinarith
        have hdz2 : (d / 2) ^ 2 / 2 * (Z / 2 + 1) < 3 / 20 := by nlinarith
        have e1 : (m * Z / 2 + m) * (1 - (d / 2) ^ 2 / 2) ≤ (m * Z / 2 + m) * Real.cos (d / 2) := mul_le_mul_of_nonneg_left hc (by positivity)
        rw [d2] at m3 ⊢
        have e2 := mul_lt_mul_of_pos_left hdz2 hmz
        have e3 : (m * Z / 2 + m) * (1 - (d / 2) ^ 2 / 2) = m * Z / 2 + m - m * ((d / 2) ^ 2 / 2 * (Z / 2 + 1)) := by ring
        linarith
  rcases (by omega : k ≤ 14 ∨ (15 ≤ k ∧ k ≤ 28) ∨ k = 29) with hk | ⟨a, b⟩ | rfl
  · rw [Nat.mod_eq_of_lt (by omega)]; exact low k hk
  · rw [Nat.mod_eq_of_lt (by omega)]
    have := low (28 - k) (by omega)
    refine lt_of_lt_of_le this (le_of_eq ?_)
    have e1 := g29 h (k := k + 1) (by omega)
    have e2 := g29 h (k := k) (by omega)
    rw [show 29 - (k + 1) = 28 - k by omega] at e1
    rw [show 28 - k + 1 = 29 - k by omega]
    unfold gPt
    rw [e1.1, e1.2, e2.1, e2.2, fanArea_mirror]
  · have e := g29 h (k := 0) (by norm_num)
    rw [show (29 + 1) % 30 = 0 from rfl]
    unfold gPt
    rw [show (29 : ℕ) = 29 - 0 from rfl, e.1, e.2, g0.1, g0.2]
    unfold fanArea polar
    simp only [neg_neg, Real.cos_neg, Real.sin_neg]
    have := mul_pos (mul_pos q1 hsin) (sub_pos.2 m1)
    nlinarith

end tooth

end Verif
