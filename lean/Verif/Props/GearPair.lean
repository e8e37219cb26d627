import Verif.Props.Gear
import Mathlib.Analysis.Real.Pi.Bounds

/-! C107: the gears of the scene, and pairs of gears. -/

namespace Verif

open Gear

theorem span_le (t : ℝ) (ht : 0 ≤ t) : t - Real.arctan t ≤ t ^ 3 / 3 - t ^ 5 / 5 + t ^ 7 / 7 := by
  have hd : ∀ x : ℝ, HasDerivAt (fun x : ℝ => x ^ 3 / 3 - x ^ 5 / 5 + x ^ 7 / 7 - (x - Real.arctan x))
      (x ^ 2 - x ^ 4 + x ^ 6 - (1 - 1 / (1 + x ^ 2))) x := by
    intro x
    have h3 := (hasDerivAt_pow 3 x).div_const 3
    have h5 := (hasDerivAt_pow 5 x).div_const 5
    have h7 := (hasDerivAt_pow 7 x).div_const 7
    refine (((h3.sub h5).add h7).sub ((hasDerivAt_id x).sub (Real.hasDerivAt_arctan x))).congr_deriv ?_
    norm_num
  have hm : Monotone fun x : ℝ => x ^ 3 / 3 - x ^ 5 / 5 + x ^ 7 / 7 - (x - Real.arctan x) := by
    refine monotone_of_deriv_nonneg (fun x => (hd x).differentiableAt) ?_
    intro x
    rw [(hd x).deriv]
    have h0 : 0 < 1 + x ^ 2 := by positivity
    have : x ^ 2 - x ^ 4 + x ^ 6 - (1 - 1 / (1 + x ^ 2)) = x ^ 8 / (1 + x ^ 2) := by field_simp; ring
    rw [this]; positivity
  have := hm ht
  simp at this
  linarith

theorem cos_20 : (0.9396 : ℝ) ≤ Real.cos (Real.pi / 9) := by
  have h3 : Real.cos (Real.pi / 3) = 4 * Real.cos (Real.pi / 9) ^ 3 - 3 * Real.cos (Real.pi / 9) := by
    rw [← Real.cos_three_mul]; congr 1; ring
  rw [Real.cos_pi_div_three] at h3
  have h2 : Real.cos (Real.pi / 3) ≤ Real.cos (Real.pi / 9) :=
    Real.cos_le_cos_of_nonneg_of_le_pi (by have := Real.pi_pos; positivity) (by linarith [Real.pi_pos]) (by linarith [Real.pi_pos])
  rw [Real.cos_pi_div_three] at h2
  generalize Real.cos (Real.pi / 9) = c at *
  by_contra hlt
  push Not at hlt
  nlinarith [mul_pos (sub_pos.2 hlt) (sub_pos.2 hlt), mul_nonneg (sub_nonneg.2 h2) (sub_pos.2 hlt).le, mul_nonneg (mul_nonneg (sub_nonneg.2 h2) (sub_pos.2 hlt).le) (sub_nonneg.2 h2)]

/-- a gear of module m with pressure angle 20°: r bounds the roll angle of the flank -/
theorem teethFit_20 {m : ℝ} (hm : 0 < m) {Z : ℕ} (hZ : 3 ≤ Z) {r : ℝ} (hr0 : 0 ≤ r) (hr1 : r ≤ 3)
    (hr : (((Z : ℝ) + 2) / (Z * 0.9396)) ^ 2 - 1 ≤ r ^ 2) (hs : 2 * (r ^ 3 / 3 - r ^ 5 / 5 + r ^ 7 / 7) < 3.14 / Z) : TeethFit m Z 20 := by
  have hz : (3 : ℝ) ≤ Z := by exact_mod_cast hZ
  have h9 : Real.pi * 20 / 180 = Real.pi / 9 := by ring
  have hc := cos_20
  have hc1 := Real.cos_le_one (Real.pi / 9)
  obtain ⟨d1, d2, d3, d4, -⟩ := C107_dimensions m Z 20
  have hR0 : 0 < m * Z / 2 := by positivity
  have htop : roll_angle (make_gear_specs m Z 20).base_radius (make_gear_specs m Z 20).top_radius ≤ r := by
    unfold roll_angle
    refine Real.sqrt_le_iff.2 ⟨hr0, le_trans ?_ hr⟩
    rw [d2, d4, h9]
    have e : (m * Z / 2 + m) / (m * Z / 2 * Real.cos (Real.pi / 9)) ≤ ((Z : ℝ) + 2) / (Z * 0.9396) := by
      rw [div_le_div_iff₀ (mul_pos hR0 (by linarith)) (by positivity)]
      have : m * Z * (Z + 2) * 0.9396 ≤ m * Z * (Z + 2) * Real.cos (Real.pi / 9) := mul_le_mul_of_nonneg_left hc (by positivity)
      linarith
    have e0 : 0 ≤ (m * Z / 2 + m) / (m * Z / 2 * Real.cos (Real.pi / 9)) := div_nonneg (by positivity) (mul_pos hR0 (by linarith)).le
    nlinarith
  have hpi : (3.14 : ℝ) < Real.pi := Real.pi_gt_d2
  have hT0 : 0 ≤ roll_angle (make_gear_specs m Z 20).base_radius (make_gear_specs m Z 20).top_radius := Real.sqrt_nonneg _
  have hspan := (span_mono htop).trans (span_le r hr0)
  have hTpi : roll_angle (make_gear_specs m Z 20).base_radius (make_gear_specs m Z 20).top_radius ≤ Real.pi := by linarith
  have hP : roll_angle (make_gear_specs m Z 20).base_radius (make_gear_specs m Z 20).pitch_radius ≤
      roll_angle (make_gear_specs m Z 20).base_radius (make_gear_specs m Z 20).top_radius := by
    unfold roll_angle
    refine Real.sqrt_le_sqrt ?_
    have q2 : 0 < (make_gear_specs m Z 20).base_radius := by rw [d4, h9]; exact mul_pos hR0 (by linarith)
    have : (make_gear_specs m Z 20).pitch_radius / (make_gear_specs m Z 20).base_radius ≤
        (make_gear_specs m Z 20).top_radius / (make_gear_specs m Z 20).base_radius :=
      div_le_div_of_nonneg_right (by rw [d1, d2]; linarith) q2.le
    have h0 : 0 ≤ (make_gear_specs m Z 20).pitch_radius / (make_gear_specs m Z 20).base_radius := div_nonneg (by rw [d1]; linarith) q2.le
    nlinarith
  have hd : (make_gear_specs m Z 20).delta = span_angle (roll_angle (make_gear_specs m Z 20).base_radius (make_gear_specs m Z 20).pitch_radius) := rfl
  have hg : (make_gear_specs m Z 20).gamma = span_angle (roll_angle (make_gear_specs m Z 20).base_radius (make_gear_specs m Z 20).top_radius) -
    (make_gear_specs m Z 20).delta := rfl
  rw [C107_span hT0 hTpi] at hg
  have hP0 : 0 ≤ roll_angle (make_gear_specs m Z 20).base_radius (make_gear_specs m Z 20).pitch_radius := Real.sqrt_nonneg _
  rw [C107_span hP0 (hP.trans hTpi)] at hd
  have hd0 : 0 ≤ (make_gear_specs m Z 20).delta := by rw [hd]; exact sub_arctan_nonneg (Real.sqrt_nonneg _)
  have hb : (3.14 : ℝ) / Z < Real.pi / Z := div_lt_div_of_pos_right hpi (by linarith)
  have hPs := span_mono hP
  exact ⟨hm, hZ, by norm_num, by norm_num, hTpi, by linarith, by linarith⟩

/-- **C107.** The gears `create_gear_train` draws (7, 12, 15 or 28 teeth, module 1, pressure angle 20°) all have teeth that fit. -/
theorem C107_scene_gears {Z : ℕ} (hZ : Z ∈ [7, 12, 15, 28]) : TeethFit 1.0 Z 20 := by
  simp only [List.mem_cons, List.not_mem_nil, or_false] at hZ
  rcases hZ with rfl | rfl | rfl | rfl
  · exact teethFit_20 (by norm_num) (by norm_num) (r := 0.935) (by norm_num) (by norm_num) (by norm_num) (by norm_num)
  · exact teethFit_20 (by norm_num) (by norm_num) (r := 0.737) (by norm_num) (by norm_num) (by norm_num) (by norm_num)
  · exact teethFit_20 (by norm_num) (by norm_num) (r := 0.675) (by norm_num) (by norm_num) (by norm_num) (by norm_num)
  · exact teethFit_20 (by norm_num) (by norm_num) (r := 0.549) (by norm_num) (by norm_num) (by norm_num) (by norm_num)

/-! ### Pairs of gears -/

/-- **C107.** `make_gears_assembly` refuses gears of different module or pressure angle and no others. -/
theorem C107_assembly_raises (g1 g2 : Specs) (cx cy theta omega : ℝ) :
    (make_gears_assembly g1 g2 cx cy theta omega = .error .valueError ↔ g1.module ≠ g2.module ∨ g1.pressure_angle ≠ g2.pressure_angle) ∧
    ((∃ r, make_gears_assembly g1 g2 cx cy theta omega = .ok r) ↔ g1.module = g2.module ∧ g1.pressure_angle = g2.pressure_angle) := by
  unfold make_gears_assembly
  by_cases h1 : g1.module = g2.module <;> by_cases h2 : g1.pressure_angle = g2.pressure_angle <;>
    simp [h1, h2, bind, Except.bind, pure, Except.pure, throw, throwThe, MonadExceptOf.throw]

/-- **C107.** `make_gears_assembly` places the second gear so that the pitch circles touch, in the direction omega, … -/
theorem C107_assembly_touch {g1 g2 : Specs} {cx cy theta omega tx ty phi : ℝ} (h : make_gears_assembly g1 g2 cx cy theta omega = .ok (tx, ty, phi)) :
    (tx, ty) = (cx, cy) + polar (g1.pitch_radius + g2.pitch_radius) omega ∧
    (cx, cy) + polar g1.pitch_radius omega = (tx, ty) + polar g2.pitch_radius (omega + Real.pi) := by
  obtain ⟨h1, h2⟩ := (C107_assembly_raises g1 g2 cx cy theta omega).2.1 ⟨_, h⟩
  unfold make_gears_assembly at h
  simp [h1, h2, bind, Except.bind, pure, Except.pure] at h
  obtain ⟨rfl, rfl, rfl⟩ := h
  unfold polar
  rw [Real.cos_add_pi, Real.sin_add_pi]
  refine ⟨Prod.ext ?_ ?_, Prod.ext ?_ ?_⟩ <;> simp <;> ring

theorem toothAt_iff {Z : ℕ} (hZ : 0 < Z) (θ a : ℝ) :
    ToothAt Z θ a ↔ ∃ k : ℤ, 2 * (k : ℝ) ≤ (a - θ) * Z / Real.pi ∧ (a - θ) * Z / Real.pi ≤ 2 * k + 1 := by
  have hz : (0 : ℝ) < Z := by exact_mod_cast hZ
  have hp := Real.pi_pos
  unfold ToothAt
  refine exists_congr fun k => and_congr ?_ ?_
  · rw [le_div_iff₀ hp, sub_nonneg, ← mul_le_mul_iff_left₀ hz]
    rw [show 2 * (Real.pi / Z) * (k : ℝ) * Z = 2 * k * Real.pi by field_simp]
  · rw [div_le_iff₀ hp, sub_le_iff_le_add, ← mul_le_mul_iff_left₀ hz]
    rw [show (Real.pi / Z + 2 * (Real.pi / Z) * (k : ℝ)) * Z = (2 * k + 1) * Real.pi by field_simp; ring]

theorem insideToothAt_iff {Z : ℕ} (hZ : 0 < Z) (θ a : ℝ) :
    InsideToothAt Z θ a ↔ ∃ k : ℤ, 2 * (k : ℝ) < (a - θ) * Z / Real.pi ∧ (a - θ) * Z / Real.pi < 2 * k + 1 := by
  have hz : (0 : ℝ) < Z := by exact_mod_cast hZ
  have hp := Real.pi_pos
  unfold InsideToothAt
  refine exists_congr fun k => and_congr ?_ ?_
  · rw [lt_div_iff₀ hp, sub_pos, ← mul_lt_mul_iff_left₀ hz]
    rw [show 2 * (Real.pi / Z) * (k : ℝ) * Z = 2 * k * Real.pi by field_simp]
  · rw [div_lt_iff₀ hp, sub_lt_iff_lt_add, ← mul_lt_mul_iff_left₀ hz]
    rw [show (Real.pi / Z + 2 * (Real.pi / Z) * (k : ℝ)) * Z = (2 * k + 1) * Real.pi by field_simp; ring]

/-- **C107.** … and turned so that the teeth mesh, and stay in mesh: let the first gear turn by any angle τ and the second by −τ·Z₁/Z₂, and look
at two points of the pitch circles at the same arc length u from where they touch (they meet there when the circles roll).  One of them is in a
tooth and the other is in a gap. -/
theorem C107_assembly_mesh {m alpha : ℝ} (hm : 0 < m) {Z₁ Z₂ : ℕ} (h1 : 0 < Z₁) (h2 : 0 < Z₂) {cx cy theta omega tx ty phi : ℝ}
    (h : make_gears_assembly (make_gear_specs m Z₁ alpha) (make_gear_specs m Z₂ alpha) cx cy theta omega = .ok (tx, ty, phi)) (τ u : ℝ) :
    let r1 := (make_gear_specs m Z₁ alpha).pitch_radius
    let r2 := (make_gear_specs m Z₂ alpha).pitch_radius
    let a1 := omega + u / r1
    let a2 := omega + Real.pi - u / r2
    let t1 := theta + τ
    let t2 := phi - τ * Z₁ / Z₂
    (ToothAt Z₁ t1 a1 ∨ ToothAt Z₂ t2 a2) ∧ ¬ (InsideToothAt Z₁ t1 a1 ∧ ToothAt Z₂ t2 a2) ∧ ¬ (ToothAt Z₁ t1 a1 ∧ InsideToothAt Z₂ t2 a2) := by
  intro r1 r2 a1 a2 t1 t2
  have z1 : (0 : ℝ) < Z₁ := by exact_mod_cast h1
  have z2 : (0 : ℝ) < Z₂ := by exact_mod_cast h2
  have hphi : phi = Real.pi - Z₁ / Z₂ * (theta - omega) + omega := by
    unfold make_gears_assembly at h
    have e1 : (make_gear_specs m Z₁ alpha).module = (make_gear_specs m Z₂ alpha).module := rfl
    have e2 : (make_gear_specs m Z₁ alpha).pressure_angle = (make_gear_specs m Z₂ alpha).pressure_angle := rfl
    simp [e1, e2, bind, Except.bind, pure, Except.pure] at h
    exact h.2.2.symm
  have d1 : r1 = m * Z₁ / 2 := (C107_dimensions m Z₁ alpha).1
  have d2 : r2 = m * Z₂ / 2 := (C107_dimensions m Z₂ alpha).1
  have key : (a2 - t2) * Z₂ / Real.pi = -((a1 - t1) * Z₁ / Real.pi) := by
    have hp := Real.pi_pos.ne'
    unfold a1 a2 t1 t2
    rw [hphi, d1, d2]
    field_simp
    ring
  rw [toothAt_iff h1, toothAt_iff h2, insideToothAt_iff h1, insideToothAt_iff h2, key]
  generalize (a1 - t1) * Z₁ / Real.pi = x
  refine ⟨?_, ?_, ?_⟩
  · have hf := Int.floor_le x
    have hf' := Int.lt_floor_add_one x
    rcases Int.even_or_odd' ⌊x⌋ with ⟨k, hk | hk⟩
    · left
      refine ⟨k, ?_, ?_⟩ <;> rw [hk] at hf hf' <;> push_cast at hf hf' <;> linarith
    · right
      refine ⟨-k - 1, ?_, ?_⟩ <;> rw [hk] at hf hf' <;> push_cast at hf hf' ⊢ <;> linarith
  · rintro ⟨⟨k, a, b⟩, ⟨l, c, d⟩⟩
    have e1 : 2 * (k : ℝ) + 2 * l < 0 := by linarith
    have e2 : (-2 : ℝ) < 2 * k + 2 * l := by linarith
    have e1' : 2 * k + 2 * l < 0 := by exact_mod_cast e1
    have e2' : -2 < 2 * k + 2 * l := by exact_mod_cast e2
    omega
  · rintro ⟨⟨k, a, b⟩, ⟨l, c, d⟩⟩
    have e1 : 2 * (k : ℝ) + 2 * l < 0 := by linarith
    have e2 : (-2 : ℝ) < 2 * k + 2 * l := by linarith
    have e1' : 2 * k + 2 * l < 0 := by exact_mod_cast e1
    have e2' : -2 < 2 * k + 2 * l := by exact_mod_cast e2
    omega

end Verif
