import Verif.Model.SceneGear
import Verif.Props.MeshVolume
import Mathlib.Analysis.SpecialFunctions.Complex.Arg
import Mathlib.Analysis.SpecialFunctions.Trigonometric.Arctan
import Mathlib.Analysis.SpecialFunctions.Trigonometric.Deriv
import Mathlib.Analysis.SpecialFunctions.Trigonometric.Bounds

/-! C107: the geometry of gears. -/

namespace Verif

open Gear

/-! ### Specification -/

/-- The point at the given distance from the origin in the given direction. -/
noncomputable def polar (r a : ℝ) : ℝ × ℝ := (r * Real.cos a, r * Real.sin a)

/-- The direction a (in the world) points into one of the Z teeth of a gear that is turned by θ: teeth and gaps are equally wide, and the
first tooth begins in the direction θ. -/
def ToothAt (Z : ℕ) (θ a : ℝ) : Prop := ∃ k : ℤ, 0 ≤ a - θ - 2 * (Real.pi / Z) * k ∧ a - θ - 2 * (Real.pi / Z) * k ≤ Real.pi / Z

/-- … strictly inside a tooth. -/
def InsideToothAt (Z : ℕ) (θ a : ℝ) : Prop := ∃ k : ℤ, 0 < a - θ - 2 * (Real.pi / Z) * k ∧ a - θ - 2 * (Real.pi / Z) * k < Real.pi / Z

/-! ### The involute -/

theorem involute_polar (r shift θ : ℝ) :
    involute r shift θ = polar (r * Real.sqrt (1 + θ ^ 2)) (shift + (θ - Real.arctan θ)) := by
  have h0 : 0 < 1 + θ ^ 2 := by positivity
  have hs : Real.sqrt (1 + θ ^ 2) ≠ 0 := (Real.sqrt_pos.2 h0).ne'
  unfold involute polar
  rw [show shift + (θ - Real.arctan θ) = (θ + shift) - Real.arctan θ by ring, Real.cos_sub, Real.sin_sub, Real.cos_arctan, Real.sin_arctan]
  refine Prod.ext ?_ ?_ <;> simp only <;> field_simp

/-- **C107.** The flanks of the teeth are involutes of the base circle: the point with parameter θ is at the distance r·√(1 + θ²) from the
centre, and the flank is there perpendicular to a tangent of the base circle through the point (the law of gearing). -/
theorem C107_involute (r shift θ : ℝ) :
    (involute r shift θ).1 ^ 2 + (involute r shift θ).2 ^ 2 = r ^ 2 * (1 + θ ^ 2) ∧
    ∃ dx dy : ℝ, HasDerivAt (fun t => (involute r shift t).1) dx θ ∧ HasDerivAt (fun t => (involute r shift t).2) dy θ ∧
      ∃ a : ℝ, -- the tangent point on the base circle
        dx * ((involute r shift θ).1 - r * Real.cos a) + dy * ((involute r shift θ).2 - r * Real.sin a) = 0 ∧
        ((involute r shift θ).1 - r * Real.cos a) * Real.cos a + ((involute r shift θ).2 - r * Real.sin a) * Real.sin a = 0 ∧
        dx ^ 2 + dy ^ 2 = (r * θ) ^ 2 := by
  have hcs := Real.sin_sq_add_cos_sq (θ + shift)
  refine ⟨?_, r * θ * Real.cos (θ + shift), r * θ * Real.sin (θ + shift), ?_, ?_, θ + shift, ?_, ?_, ?_⟩
  · unfold involute; simp only
    linear_combination r ^ 2 * (1 + θ ^ 2) * hcs
  · have h1 : HasDerivAt (fun t : ℝ => t + shift) 1 θ := (hasDerivAt_id θ).add_const shift
    have h2 := h1.cos
    have h3 := (hasDerivAt_id θ).mul h1.sin
    have := (h2.add h3).const_mul r
    refine this.congr_deriv ?_
    simp; ring
  · have h1 : HasDerivAt (fun t : ℝ => t + shift) 1 θ := (hasDerivAt_id θ).add_const shift
    have h2 := h1.sin
    have h3 := (hasDerivAt_id θ).mul h1.cos
    have := (h2.sub h3).const_mul r
    refine this.congr_deriv ?_
    simp; ring
  · unfold involute; simp only; ring
  · unfold involute; simp only; ring
  · linear_combination (r * θ) ^ 2 * hcs

theorem sub_arctan_nonneg {t : ℝ} (ht : 0 ≤ t) : 0 ≤ t - Real.arctan t := by
  have h1 : 0 ≤ Real.arctan t := Real.arctan_nonneg.2 ht
  have := Real.le_tan h1 (Real.arctan_lt_pi_div_two t)
  rw [Real.tan_arctan] at this
  linarith

/-- **C107.** `_span_angle`: the angle an involute goes round the centre while it is unrolled by t. -/
theorem C107_span {t : ℝ} (h0 : 0 ≤ t) (h1 : t ≤ Real.pi) : span_angle t = t - Real.arctan t := by
  unfold span_angle atan2
  simp only
  have h := involute_polar 1 0 t
  unfold involute polar at h
  simp only [one_mul, add_zero, zero_add, Prod.mk.injEq] at h
  rw [h.1, h.2]
  have hp : 0 < Real.sqrt (1 + t ^ 2) := Real.sqrt_pos.2 (by positivity)
  have := Complex.arg_mul_cos_add_sin_mul_I hp (θ := t - Real.arctan t) ⟨by linarith [sub_arctan_nonneg h0, Real.pi_pos], by
    linarith [Real.arctan_nonneg.2 h0]⟩
  refine Eq.trans ?_ this
  generalize t - Real.arctan t = φ
  congr 1
  apply Complex.ext
  · simp [← Complex.ofReal_cos, ← Complex.ofReal_sin]
  · simp [← Complex.ofReal_cos, ← Complex.ofReal_sin]

theorem roll_radius {rb r : ℝ} (hb : 0 < rb) (h : rb ≤ r) : rb * Real.sqrt (1 + roll_angle rb r ^ 2) = r := by
  have h1 : 1 ≤ r / rb := by rw [le_div_iff₀ hb]; linarith
  unfold roll_angle
  rw [Real.sq_sqrt (by nlinarith), show 1 + ((r / rb) ^ 2 - 1) = (r / rb) ^ 2 by ring, Real.sqrt_sq (by linarith)]
  field_simp

/-- **C107.** `_make_involute_curve` goes from the base circle to the circle of radius r_top, 12 points, forward counterclockwise and
backward clockwise, starting at the base circle in the direction shift (ending there, if reversed). -/
theorem C107_curve {rb rt : ℝ} (hb : 0 < rb) (ht : rb ≤ rt) (shift : ℝ) :
    (make_involute_curve rb rt shift false).length = 12 ∧ (make_involute_curve rb rt shift true).length = 12 ∧
    (make_involute_curve rb rt shift false)[0]? = some (polar rb shift) ∧
    (make_involute_curve rb rt shift false)[11]? = some (polar rt (shift + (roll_angle rb rt - Real.arctan (roll_angle rb rt)))) ∧
    (make_involute_curve rb rt shift true)[0]? = some (polar rt (shift - (roll_angle rb rt - Real.arctan (roll_angle rb rt)))) ∧
    (make_involute_curve rb rt shift true)[11]? = some (polar rb shift) := by
  have hr := roll_radius hb ht
  obtain ⟨t, ht⟩ : ∃ t, t = roll_angle rb rt := ⟨_, rfl⟩
  have e0 : involute rb shift 0 = polar rb shift := by rw [involute_polar]; simp
  have e1 : involute rb shift t = polar rt (shift + (t - Real.arctan t)) := by rw [involute_polar, ht, hr]
  have e2 : involute rb shift (-t) = polar rt (shift - (t - Real.arctan t)) := by
    rw [involute_polar, neg_sq, ht, hr, Real.arctan_neg]; congr 1; ring
  rw [← ht]
  unfold make_involute_curve linspace
  rw [← ht]
  refine ⟨by simp, by simp, ?_, ?_, ?_, ?_⟩
  · simp [e0]
  · simp only [Bool.false_eq_true, if_false, List.map_map]
    rw [List.getElem?_map, List.getElem?_range (by norm_num)]
    simp only [Option.map_some, Function.comp]
    rw [← e1]; congr 2; push_cast; ring
  · simp only [if_true, List.map_map]
    rw [List.getElem?_map, List.getElem?_reverse (by simp), List.getElem?_map, List.getElem?_range (by simp)]
    simp only [Option.map_some, Function.comp, List.length_map, List.length_range]
    rw [← e2]; congr 2; push_cast; ring
  · simp only [if_true, List.map_map]
    rw [List.getElem?_map, List.getElem?_reverse (by simp), List.getElem?_map, List.getElem?_range (by simp)]
    simp only [Option.map_some, Function.comp, List.length_map, List.length_range]
    rw [← e0]; congr 2; push_cast; ring

/-! ### Teeth -/

/-- The dimensions of a gear. -/
theorem C107_dimensions (m : ℝ) (Z : ℕ) (alpha : ℝ) : let g := make_gear_specs m Z alpha
    g.pitch_radius = m * Z / 2 ∧ g.top_radius = m * Z / 2 + m ∧ g.root_radius = m * Z / 2 - 5 / 4 * m ∧
    g.base_radius = m * Z / 2 * Real.cos (Real.pi * alpha / 180) ∧ g.pitch = Real.pi * m ∧ g.tooth_thickness = Real.pi * m / 2 ∧
    g.tooth_height = g.top_radius - g.root_radius ∧ g.beta = Real.pi / Z ∧ g.module = m ∧ g.number_of_teeth = Z ∧ g.pressure_angle = alpha := by
  have l2 : (2.0 : ℝ) = 2 := by norm_num
  have l180 : (180.0 : ℝ) = 180 := by norm_num
  have l125 : (1.25 : ℝ) = 5 / 4 := by norm_num
  have l225 : (2.25 : ℝ) = 9 / 4 := by norm_num
  simp only [make_gear_specs, l2, l180, l125, l225]
  refine ⟨trivial, trivial, trivial, trivial, trivial, trivial, by ring, trivial, trivial, trivial, trivial⟩

theorem span_mono {s t : ℝ} (h : s ≤ t) : s - Real.arctan s ≤ t - Real.arctan t := by
  have hd : ∀ x : ℝ, HasDerivAt (fun x : ℝ => x - Real.arctan x) (1 - 1 / (1 + x ^ 2)) x := fun x =>
    (hasDerivAt_id x).sub (Real.hasDerivAt_arctan x)
  have : Monotone fun x : ℝ => x - Real.arctan x := by
    refine monotone_of_deriv_nonneg (fun x => (hd x).differentiableAt) ?_
    intro x
    rw [(hd x).deriv]
    have : 1 / (1 + x ^ 2) ≤ 1 := by rw [div_le_one (by positivity)]; nlinarith [sq_nonneg x]
    linarith
  exact this h

/-- the angle from the radius of the pitch point to the base point of the flank is the involute function of the pressure angle -/
theorem C107_delta {m : ℝ} (hm : 0 < m) {Z : ℕ} (hZ : 1 ≤ Z) {alpha : ℝ} (h0 : 0 ≤ alpha) (h1 : Real.pi * alpha / 180 < Real.pi / 2)
    (ht : Real.tan (Real.pi * alpha / 180) ≤ Real.pi) :
    roll_angle (make_gear_specs m Z alpha).base_radius (make_gear_specs m Z alpha).pitch_radius = Real.tan (Real.pi * alpha / 180) ∧
    (make_gear_specs m Z alpha).delta = Real.tan (Real.pi * alpha / 180) - Real.pi * alpha / 180 := by
  have l180 : (180.0 : ℝ) = 180 := by norm_num
  have l2 : (2.0 : ℝ) = 2 := by norm_num
  have hr0 : 0 ≤ Real.pi * alpha / 180 := by have := Real.pi_pos; positivity
  have key : roll_angle (m * Z / 2 * Real.cos (Real.pi * alpha / 180)) (m * Z / 2) = Real.tan (Real.pi * alpha / 180) := by
    generalize Real.pi * alpha / 180 = x at *
    have hc : 0 < Real.cos x := Real.cos_pos_of_mem_Ioo ⟨by linarith [Real.pi_pos], h1⟩
    have hz : (0 : ℝ) < Z := by exact_mod_cast hZ
    have e : (m * Z / 2 / (m * Z / 2 * Real.cos x)) ^ 2 - 1 = Real.tan x ^ 2 := by
      rw [Real.tan_eq_sin_div_cos]
      field_simp
      linarith [Real.sin_sq_add_cos_sq x]
    unfold roll_angle
    rw [e, Real.sqrt_sq (Real.tan_nonneg_of_nonneg_of_le_pi_div_two hr0 h1.le)]
  refine ⟨?_, ?_⟩
  · simp only [make_gear_specs, l180, l2]; exact key
  · simp only [make_gear_specs, l180, l2]
    rw [key, C107_span (Real.tan_nonneg_of_nonneg_of_le_pi_div_two hr0 h1.le) ht, Real.arctan_tan (by linarith [Real.pi_pos]) h1]


theorem linspace_length (a b : ℝ) (n : ℕ) : (linspace a b n).length = n := by simp [linspace]

theorem curve_length (rb rt shift : ℝ) (r : Bool) : (make_involute_curve rb rt shift r).length = 12 := by
  cases r <;> simp [make_involute_curve, linspace]

theorem tooth_length (R_b R_t R_r beta gamma delta : ℝ) (z : ℕ) : (tooth R_b R_t R_r beta gamma delta z).length = 34 := by
  simp [tooth, curve_length, arc, linspace_length]

theorem teeth_eq (t : ℕ → List (ℝ × ℝ)) (ht : ∀ z, (t z).length = 34) : ∀ Z, teeth t Z =
    ((List.range Z).flatMap t, (List.range Z).map fun (z : ℕ) => (34 * (z : ℤ) - 1, 34 * (z : ℤ) + 28))
  | 0 => rfl
  | Z + 1 => by
    have hl : ((List.range Z).flatMap t).length = 34 * Z := by
      simp [List.length_flatMap, ht, Nat.mul_comm]
    rw [teeth, teeth_eq t ht Z]
    simp only [List.range_succ, List.flatMap_append, List.map_append, hl, ht, List.flatMap_cons, List.flatMap_nil, List.append_nil,
      List.map_cons, List.map_nil]
    push_cast
    congr 5
    ring

/-- the radii of a gear and the angles that belong to them -/
theorem specs_xy (m : ℝ) (Z : ℕ) (alpha : ℝ) : let g := make_gear_specs m Z alpha
    g.xy = (List.range Z).flatMap (tooth g.base_radius g.top_radius g.root_radius g.beta g.gamma g.delta) ∧
    g.corners = (List.range Z).map fun (z : ℕ) => (34 * (z : ℤ) - 1, 34 * (z : ℤ) + 28) := by
  simp only [make_gear_specs]
  rw [teeth_eq _ (tooth_length _ _ _ _ _ _)]
  exact ⟨rfl, rfl⟩

theorem specs_length (m : ℝ) (Z : ℕ) (alpha : ℝ) : (make_gear_specs m Z alpha).xy.length = 34 * Z := by
  rw [(specs_xy m Z alpha).1]
  simp [List.length_flatMap, tooth_length, Nat.mul_comm]

theorem specs_get (m : ℝ) (Z : ℕ) (alpha : ℝ) {z i : ℕ} (hz : z < Z) (hi : i < 34) : let g := make_gear_specs m Z alpha
    g.xy.getD (34 * z + i) 0 = (tooth g.base_radius g.top_radius g.root_radius g.beta g.gamma g.delta z).getD i 0 := by
  intro g
  rw [(specs_xy m Z alpha).1, Nat.mul_comm, getD_flatMap_const 34 _ (tooth_length _ _ _ _ _ _) _ _ _ (by simpa using hz) hi, List.getElem_range]

/-- What the parameters of a gear have to satisfy for the teeth to fit: positive sizes, and room left at the top of a tooth and between
the feet of two teeth. -/
structure TeethFit (m : ℝ) (Z : ℕ) (alpha : ℝ) : Prop where
  size : 0 < m
  number : 3 ≤ Z
  angle : 0 ≤ alpha
  angle_lt : alpha ≤ 45
  roll : roll_angle (make_gear_specs m Z alpha).base_radius (make_gear_specs m Z alpha).top_radius ≤ Real.pi
  top : 2 * (make_gear_specs m Z alpha).gamma < Real.pi / Z
  root : 2 * (make_gear_specs m Z alpha).delta < Real.pi / Z

theorem TeethFit.rad {m : ℝ} {Z : ℕ} {alpha : ℝ} (h : TeethFit m Z alpha) :
    0 ≤ Real.pi * alpha / 180 ∧ Real.pi * alpha / 180 < Real.pi / 2 ∧ 0 < Real.cos (Real.pi * alpha / 180) ∧
    Real.tan (Real.pi * alpha / 180) ≤ Real.pi := by
  have h0 : 0 ≤ Real.pi * alpha / 180 := by have := Real.pi_pos; have := h.angle; positivity
  have h4 : Real.pi * alpha / 180 ≤ Real.pi / 4 := by
    have := mul_le_mul_of_nonneg_left h.angle_lt Real.pi_pos.le
    linarith
  have h1 : Real.pi * alpha / 180 < Real.pi / 2 := by linarith [Real.pi_pos]
  refine ⟨h0, h1, Real.cos_pos_of_mem_Ioo ⟨by linarith [Real.pi_pos], h1⟩, ?_⟩
  have : Real.tan (Real.pi * alpha / 180) ≤ Real.tan (Real.pi / 4) := by
    rcases eq_or_lt_of_le h4 with e | hlt
    · rw [e]
    · exact (Real.tan_lt_tan_of_lt_of_lt_pi_div_two (by linarith [Real.pi_pos]) (by linarith [Real.pi_pos]) hlt).le
  rw [Real.tan_pi_div_four] at this
  linarith [Real.two_le_pi]

theorem TeethFit.radii {m : ℝ} {Z : ℕ} {alpha : ℝ} (h : TeethFit m Z alpha) : let g := make_gear_specs m Z alpha
    0 < g.root_radius ∧ 0 < g.base_radius ∧ g.base_radius ≤ g.pitch_radius ∧ g.pitch_radius < g.top_radius ∧ g.root_radius < g.pitch_radius := by
  intro g
  obtain ⟨h1, h2, h3, h4, -⟩ := C107_dimensions m Z alpha
  have hz : (3 : ℝ) ≤ Z := by exact_mod_cast h.number
  have hm := h.size
  have hp : 0 < m * Z / 2 := by positivity
  refine ⟨?_, ?_, ?_, ?_, ?_⟩
  · rw [h3]; nlinarith
  · rw [h4]; exact mul_pos hp h.rad.2.2.1
  · rw [h4, h1]; nlinarith [Real.cos_le_one (Real.pi * alpha / 180)]
  · rw [h2, h1]; linarith
  · rw [h3, h1]; linarith

theorem TeethFit.spans {m : ℝ} {Z : ℕ} {alpha : ℝ} (h : TeethFit m Z alpha) : let g := make_gear_specs m Z alpha
    let T := roll_angle g.base_radius g.top_radius
    0 ≤ T ∧ 0 ≤ g.delta ∧ 0 ≤ g.gamma ∧ T - Real.arctan T = g.gamma + g.delta := by
  intro g T
  have hZ1 : 1 ≤ Z := by have := h.number; omega
  obtain ⟨hr0, hr1, hr2, hr3⟩ := h.rad
  obtain ⟨h1, h2⟩ := C107_delta h.size hZ1 h.angle hr1 hr3
  obtain ⟨q1, q2, q3, q4, -⟩ := h.radii
  have hT : 0 ≤ T := Real.sqrt_nonneg _
  have hs : span_angle T = T - Real.arctan T := C107_span hT h.roll
  have hg : g.gamma = span_angle T - g.delta := rfl
  have hP : roll_angle g.base_radius g.pitch_radius ≤ T := by
    unfold T roll_angle
    refine Real.sqrt_le_sqrt ?_
    have : g.pitch_radius / g.base_radius ≤ g.top_radius / g.base_radius := div_le_div_of_nonneg_right q4.le q2.le
    have h0 : 0 ≤ g.pitch_radius / g.base_radius := div_nonneg (by linarith) q2.le
    nlinarith
  have hd : g.delta = roll_angle g.base_radius g.pitch_radius - Real.arctan (roll_angle g.base_radius g.pitch_radius) := by
    have : g.delta = span_angle (roll_angle g.base_radius g.pitch_radius) := rfl
    rw [this]
    exact C107_span (Real.sqrt_nonneg _) (hP.trans h.roll)
  have hd0 : 0 ≤ g.delta := by rw [hd]; exact sub_arctan_nonneg (Real.sqrt_nonneg _)
  refine ⟨hT, hd0, ?_, by rw [hg, hs]; ring⟩
  have := span_mono hP
  rw [hg, hs, hd]
  linarith

/-- the directions in which the points of a tooth lie, seen from the centre -/
noncomputable def toothAngle (T beta gamma delta : ℝ) (i : ℕ) : ℝ :=
  if i < 12 then -delta + (i * (T / 11) - Real.arctan (i * (T / 11)))
  else if i < 16 then gamma + (i - 11) * ((beta - 2 * gamma) / 5)
  else if i < 28 then beta + delta - ((27 - i) * (T / 11) - Real.arctan ((27 - i) * (T / 11)))
  else beta + delta + (i - 28) * ((beta - 2 * delta) / 5)

/-- … and their distances from it -/
noncomputable def toothRadius (T R_b R_t R_r : ℝ) (i : ℕ) : ℝ :=
  if i < 12 then R_b * Real.sqrt (1 + (i * (T / 11)) ^ 2)
  else if i < 16 then R_t
  else if i < 28 then R_b * Real.sqrt (1 + ((27 - i) * (T / 11)) ^ 2)
  else R_r

theorem curve_get (R_b R_t shift : ℝ) {i : ℕ} (hi : i < 12) :
    (make_involute_curve R_b R_t shift false).getD i 0 = involute R_b shift (i * (roll_angle R_b R_t / 11)) ∧
    (make_involute_curve R_b R_t shift true).getD i 0 = involute R_b shift (-((11 - i) * (roll_angle R_b R_t / 11))) := by
  unfold make_involute_curve linspace
  constructor
  · simp only [Bool.false_eq_true, if_false, List.map_map]
    rw [List.getD_eq_getElem?_getD, List.getElem?_map, List.getElem?_range hi]
    simp only [Option.map_some, Function.comp, Option.getD_some]
    congr 1; push_cast; ring
  · simp only [if_true, List.map_map]
    rw [List.getD_eq_getElem?_getD, List.getElem?_map, List.getElem?_reverse (by simpa using hi), List.getElem?_map,
      List.getElem?_range (by simp; omega)]
    simp only [Option.map_some, Function.comp, List.length_map, List.length_range, Option.getD_some]
    congr 1; rw [Nat.cast_sub (by omega)]; push_cast; ring

theorem arc_get (r a b : ℝ) {i : ℕ} (hi : i < 6) : (arc r a b 6).getD i 0 = polar r (a + i * ((b - a) / 5)) := by
  unfold arc linspace polar
  rw [List.getD_eq_getElem?_getD, List.map_map, List.getElem?_map, List.getElem?_range hi]
  simp only [Option.map_some, Function.comp, Option.getD_some]
  congr 2 <;> congr 1 <;> push_cast <;> ring

theorem tooth_get (R_b R_t R_r beta gamma delta : ℝ) (z : ℕ) {i : ℕ} (hi : i < 34) :
    (tooth R_b R_t R_r beta gamma delta z).getD i 0 =
      polar (toothRadius (roll_angle R_b R_t) R_b R_t R_r i) (z * (2 * beta) + toothAngle (roll_angle R_b R_t) beta gamma delta i) := by
  have hA : (arc R_t (z * beta * 2 + gamma) (z * beta * 2 + beta - gamma) 6).length = 6 := by simp [arc, linspace_length]
  unfold tooth toothRadius toothAngle
  simp only
  by_cases h1 : i < 12
  · rw [if_pos h1, if_pos h1, List.getD_append _ _ _ _ (by simp [curve_length, hA]; omega), List.getD_append _ _ _ _ (by simp [curve_length, hA]; omega),
      List.getD_append _ _ _ _ (by simp [curve_length]; omega), (curve_get _ _ _ h1).1, involute_polar]
    congr 1; ring
  rw [if_neg h1, if_neg h1]
  by_cases h2 : i < 16
  · rw [if_pos h2, if_pos h2, List.getD_append _ _ _ _ (by simp [curve_length, hA]; omega), List.getD_append _ _ _ _ (by simp [curve_length, hA]; omega),
      List.getD_append_right _ _ _ _ (by simp [curve_length]; omega), curve_length]
    have : (arc R_t (z * beta * 2 + gamma) (z * beta * 2 + beta - gamma) 6).tail.dropLast.getD (i - 12) 0 =
        (arc R_t (z * beta * 2 + gamma) (z * beta * 2 + beta - gamma) 6).getD (i - 11) 0 := by
      rw [List.getD_eq_getElem?_getD, List.getD_eq_getElem?_getD, List.getElem?_dropLast, if_pos (by simp [hA]; omega), List.getElem?_tail,
        show i - 12 + 1 = i - 11 by omega]
    rw [this, arc_get _ _ _ (by omega), Nat.cast_sub (by omega)]
    congr 1; push_cast; ring
  rw [if_neg h2, if_neg h2]
  by_cases h3 : i < 28
  · rw [if_pos h3, if_pos h3, List.getD_append _ _ _ _ (by simp [curve_length, hA]; omega), List.getD_append_right _ _ _ _ (by simp [curve_length, hA]; omega)]
    rw [show i - (make_involute_curve R_b R_t (z * beta * 2 - delta) false ++
      (arc R_t (z * beta * 2 + gamma) (z * beta * 2 + beta - gamma) 6).tail.dropLast).length = i - 16 by simp [curve_length, hA],
      (curve_get _ _ _ (by omega)).2, involute_polar, Nat.cast_sub (by omega), neg_sq, Real.arctan_neg,
      show (11 - ((i : ℝ) - (16 : ℕ))) = 27 - i by push_cast; ring]
    congr 1; ring
  rw [if_neg h3, if_neg h3, List.getD_append_right _ _ _ _ (by simp [curve_length, hA]; omega)]
  rw [show i - (make_involute_curve R_b R_t (z * beta * 2 - delta) false ++
      (arc R_t (z * beta * 2 + gamma) (z * beta * 2 + beta - gamma) 6).tail.dropLast ++
      make_involute_curve R_b R_t (z * beta * 2 + delta + beta) true).length = i - 28 by simp [curve_length, hA],
    arc_get _ _ _ (by omega), Nat.cast_sub (by omega)]
  congr 1; push_cast; ring


theorem toothAngle_step {T beta gamma delta : ℝ} (hT : 0 ≤ T) (hs : T - Real.arctan T = gamma + delta) (hg : 2 * gamma < beta) (hd : 2 * delta < beta)
    {i : ℕ} (hi : i < 33) : toothAngle T beta gamma delta i ≤ toothAngle T beta gamma delta (i + 1) ∧
      (i = 11 → toothAngle T beta gamma delta i < toothAngle T beta gamma delta (i + 1)) := by
  have hst : (i : ℝ) * (T / 11) ≤ ((i : ℝ) + 1) * (T / 11) := by nlinarith
  unfold toothAngle
  by_cases h1 : i + 1 < 12
  · rw [if_pos (by omega), if_pos h1]
    refine ⟨?_, by omega⟩
    have := span_mono hst
    push_cast
    linarith
  by_cases h2 : i + 1 < 16
  · rw [if_neg h1, if_pos h2]
    by_cases h3 : i < 12
    · obtain rfl : i = 11 := by omega
      rw [if_pos h3]
      push_cast
      rw [show (11 : ℝ) * (T / 11) = T by ring]
      constructor
      · linarith
      · intro _; linarith
    · rw [if_neg h3, if_pos (by omega)]
      push_cast
      refine ⟨by linarith, by omega⟩
  by_cases h3 : i + 1 < 28
  · rw [if_neg h1, if_neg h2, if_pos h3]
    refine ⟨?_, by omega⟩
    by_cases h4 : i < 16
    · obtain rfl : i = 15 := by omega
      norm_num
      rw [show (11 : ℝ) * (T / 11) = T by ring]
      linarith
    · rw [if_neg (by omega), if_neg h4, if_pos (by omega)]
      have hst : (27 - ((i + 1 : ℕ) : ℝ)) * (T / 11) ≤ (27 - (i : ℝ)) * (T / 11) := by push_cast; nlinarith
      have := span_mono hst
      linarith
  · rw [if_neg h1, if_neg h2, if_neg h3]
    refine ⟨?_, by omega⟩
    by_cases h4 : i < 28
    · obtain rfl : i = 27 := by omega
      norm_num
    · rw [if_neg (by omega), if_neg (by omega), if_neg h4]
      push_cast
      linarith

theorem toothAngle_ends {T beta gamma delta : ℝ} (hs : T - Real.arctan T = gamma + delta) :
    toothAngle T beta gamma delta 0 = -delta ∧ toothAngle T beta gamma delta 11 = gamma ∧ toothAngle T beta gamma delta 16 = beta - gamma ∧
    toothAngle T beta gamma delta 27 = beta + delta ∧ toothAngle T beta gamma delta 28 = beta + delta ∧
    toothAngle T beta gamma delta 33 = 2 * beta - delta := by
  have e : (11 : ℝ) * (T / 11) = T := by ring
  refine ⟨?_, ?_, ?_, ?_, ?_, ?_⟩ <;> unfold toothAngle <;> norm_num
  · rw [e]; linarith
  · rw [e]; linarith
  · ring

theorem toothRadius_ends {R_b R_t R_r : ℝ} (hb : 0 < R_b) (ht : R_b ≤ R_t) : let T := roll_angle R_b R_t
    toothRadius T R_b R_t R_r 0 = R_b ∧ toothRadius T R_b R_t R_r 11 = R_t ∧ toothRadius T R_b R_t R_r 16 = R_t ∧
    toothRadius T R_b R_t R_r 27 = R_b ∧ toothRadius T R_b R_t R_r 28 = R_r ∧ toothRadius T R_b R_t R_r 33 = R_r := by
  intro T
  have e : (11 : ℝ) * (T / 11) = T := by ring
  have hr : R_b * Real.sqrt (1 + T ^ 2) = R_t := roll_radius hb ht
  refine ⟨?_, ?_, ?_, ?_, ?_, ?_⟩ <;> unfold toothRadius <;> norm_num
  · rw [e, hr]
  · rw [e, hr]

theorem toothRadius_range {R_b R_t R_r : ℝ} (hb : 0 < R_b) (ht : R_b ≤ R_t) (hr : R_r ≤ R_t) (i : ℕ) :
    min R_b R_r ≤ toothRadius (roll_angle R_b R_t) R_b R_t R_r i ∧ toothRadius (roll_angle R_b R_t) R_b R_t R_r i ≤ R_t := by
  have hT : 0 ≤ roll_angle R_b R_t := Real.sqrt_nonneg _
  have hR := roll_radius hb ht
  have key : ∀ x : ℝ, 0 ≤ x → x ≤ 11 → R_b ≤ R_b * Real.sqrt (1 + (x * (roll_angle R_b R_t / 11)) ^ 2) ∧
      R_b * Real.sqrt (1 + (x * (roll_angle R_b R_t / 11)) ^ 2) ≤ R_t := by
    intro x h0 h1
    constructor
    · have : 1 ≤ Real.sqrt (1 + (x * (roll_angle R_b R_t / 11)) ^ 2) := by
        rw [Real.one_le_sqrt]; nlinarith [sq_nonneg (x * (roll_angle R_b R_t / 11))]
      nlinarith
    · rw [← hR]
      refine mul_le_mul_of_nonneg_left (Real.sqrt_le_sqrt ?_) hb.le
      have h2 : x * (roll_angle R_b R_t / 11) ≤ roll_angle R_b R_t := by nlinarith
      have h3 : 0 ≤ x * (roll_angle R_b R_t / 11) := by positivity
      rw [hR]
      nlinarith
  unfold toothRadius
  split_ifs with h1 h2 h3
  · have := key i (by positivity) (by exact_mod_cast (by omega : i ≤ 11))
    exact ⟨(min_le_left _ _).trans this.1, this.2⟩
  · exact ⟨(min_le_left _ _).trans ht, le_rfl⟩
  · have h16 : (16 : ℝ) ≤ i := by exact_mod_cast (by omega : 16 ≤ i)
    have h27 : (i : ℝ) ≤ 27 := by exact_mod_cast (by omega : i ≤ 27)
    have := key (27 - i) (by linarith) (by linarith)
    exact ⟨(min_le_left _ _).trans this.1, this.2⟩
  · exact ⟨min_le_right _ _, hr⟩

/-- **C107.** The profile of a gear goes once round the centre, counterclockwise, and looks the same at every tooth: it never turns back (so
it does not cross itself) and stays between the root (or base) circle and the top circle.  Tooth z rises from the root circle to the base circle and up
a flank to the top circle, and comes down on the other side; all the corner points are where they should be. -/
theorem C107_profile {m : ℝ} {Z : ℕ} {alpha : ℝ} (h : TeethFit m Z alpha) : let g := make_gear_specs m Z alpha
    g.xy.length = 34 * Z ∧ ∃ r a : ℕ → ℝ,
      (∀ n < 34 * Z, g.xy.getD n 0 = polar (r n) (a n)) ∧ Monotone a ∧
      (∀ n, r (n + 34) = r n ∧ a (n + 34) = a n + 2 * (Real.pi / Z)) ∧ a (34 * Z) = a 0 + 2 * Real.pi ∧
      (∀ n, min g.base_radius g.root_radius ≤ r n ∧ r n ≤ g.top_radius) ∧
      a 11 < a 12 ∧
      -- the foot of the first tooth, its top, its other foot, the gap
      (r 0, a 0) = (g.base_radius, -g.delta) ∧ (r 11, a 11) = (g.top_radius, g.gamma) ∧
      (r 16, a 16) = (g.top_radius, Real.pi / Z - g.gamma) ∧ (r 27, a 27) = (g.base_radius, Real.pi / Z + g.delta) ∧
      (r 28, a 28) = (g.root_radius, Real.pi / Z + g.delta) ∧ (r 33, a 33) = (g.root_radius, 2 * (Real.pi / Z) - g.delta) := by
  intro g
  obtain ⟨hT, hd0, hg0, hs⟩ := h.spans
  obtain ⟨q1, q2, q3, q4, q5⟩ := h.radii
  have hZ : (0 : ℝ) < Z := by have := h.number; exact_mod_cast (by omega : 0 < Z)
  have hb : g.beta = Real.pi / Z := rfl
  have hg2 : 2 * g.gamma < g.beta := h.top
  have hd2 : 2 * g.delta < g.beta := h.root
  have hbt : g.base_radius ≤ g.top_radius := q3.trans q4.le
  have hst := fun {i : ℕ} (hi : i < 33) => toothAngle_step hT hs hg2 hd2 hi
  obtain ⟨e0, e11, e16, e27, e28, e33⟩ := toothAngle_ends (beta := g.beta) hs
  obtain ⟨f0, f11, f16, f27, f28, f33⟩ := toothRadius_ends (R_r := g.root_radius) q2 hbt
  refine ⟨specs_length m Z alpha, fun n => toothRadius (roll_angle g.base_radius g.top_radius) g.base_radius g.top_radius g.root_radius (n % 34),
    fun n => ((n / 34 : ℕ) : ℝ) * (2 * g.beta) + toothAngle (roll_angle g.base_radius g.top_radius) g.beta g.gamma g.delta (n % 34),
    ?_, ?_, ?_, ?_, ?_, ?_, ?_, ?_, ?_, ?_, ?_, ?_⟩
  · intro n hn
    have := specs_get m Z alpha (z := n / 34) (i := n % 34) (by omega) (by omega)
    rw [show 34 * (n / 34) + n % 34 = n by omega] at this
    rw [this, tooth_get _ _ _ _ _ _ _ (by omega)]
  · refine monotone_nat_of_le_succ fun n => ?_
    by_cases h33 : n % 34 = 33
    · rw [show (n + 1) / 34 = n / 34 + 1 by omega, show (n + 1) % 34 = 0 by omega, h33, e33, e0]
      push_cast; linarith
    · rw [show (n + 1) / 34 = n / 34 by omega, show (n + 1) % 34 = n % 34 + 1 by omega]
      have := (hst (i := n % 34) (by omega)).1
      linarith
  · intro n
    simp only
    rw [show (n + 34) / 34 = n / 34 + 1 by omega, show (n + 34) % 34 = n % 34 by omega, hb]
    refine ⟨rfl, ?_⟩
    push_cast; ring
  · simp only
    rw [show 34 * Z / 34 = Z by omega, show 34 * Z % 34 = 0 by omega, hb]
    simp
    field_simp
    ring
  · exact fun n => toothRadius_range q2 hbt (by linarith) _
  · have := (hst (i := 11) (by omega)).2 rfl
    simpa using this
  all_goals have hz0 : ∀ x : ℝ, ((0 : ℕ) : ℝ) * (2 * g.beta) + x = x := by intro x; simp
  · exact Prod.ext f0 ((hz0 _).trans e0)
  · exact Prod.ext f11 ((hz0 _).trans e11)
  · exact Prod.ext f16 ((hz0 _).trans e16)
  · exact Prod.ext f27 ((hz0 _).trans e27)
  · exact Prod.ext f28 ((hz0 _).trans e28)
  · exact Prod.ext f33 ((hz0 _).trans e33)

/-- **C107.** The flanks of tooth z cross the pitch circle in the directions 2πz/Z and 2πz/Z + π/Z: the teeth and the gaps between them
are equally wide there, namely the tooth thickness in the specification. -/
theorem C107_thickness {m : ℝ} {Z : ℕ} {alpha : ℝ} (h : TeethFit m Z alpha) (z : ℕ) : let g := make_gear_specs m Z alpha
    let t := roll_angle g.base_radius g.pitch_radius
    t ≤ roll_angle g.base_radius g.top_radius ∧
    involute g.base_radius (z * g.beta * 2 - g.delta) t = polar g.pitch_radius (z * (2 * Real.pi / Z)) ∧
    involute g.base_radius (z * g.beta * 2 + g.delta + g.beta) (-t) = polar g.pitch_radius (z * (2 * Real.pi / Z) + Real.pi / Z) ∧
    g.pitch_radius * (Real.pi / Z) = g.tooth_thickness ∧ 2 * g.tooth_thickness = g.pitch := by
  intro g t
  obtain ⟨hr0, hr1, hr2, hr3⟩ := h.rad
  have hZ1 : 1 ≤ Z := by have := h.number; omega
  have hZ : (0 : ℝ) < Z := by exact_mod_cast hZ1
  obtain ⟨h1, h2⟩ := C107_delta h.size hZ1 h.angle hr1 hr3
  obtain ⟨q1, q2, q3, q4, -⟩ := h.radii
  have hR := roll_radius q2 q3
  have hd : g.delta = t - Real.arctan t := by
    rw [show t = _ from h1, show g.delta = _ from h2, Real.arctan_tan (by linarith [Real.pi_pos]) hr1]
  have hb : g.beta = Real.pi / Z := rfl
  obtain ⟨d1, -, -, -, d5, d6, -⟩ := C107_dimensions m Z alpha
  refine ⟨?_, ?_, ?_, ?_, ?_⟩
  · unfold t roll_angle
    refine Real.sqrt_le_sqrt ?_
    have : g.pitch_radius / g.base_radius ≤ g.top_radius / g.base_radius := div_le_div_of_nonneg_right q4.le q2.le
    have h0 : 0 ≤ g.pitch_radius / g.base_radius := div_nonneg (by linarith) q2.le
    nlinarith
  · rw [involute_polar, hR, hd, hb]; congr 1; ring
  · rw [involute_polar, neg_sq, hR, Real.arctan_neg, hd, hb]; congr 1; ring
  · rw [d1, d6]; field_simp
  · rw [d5, d6]; ring

end Verif
