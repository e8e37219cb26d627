import Verif.Model.ExpMap
import Verif.Spec.ExpMap
import Verif.Lemmas.Quaternion
import Verif.Lemmas.Vec
import Verif.Props.CoordSys
import Mathlib.Analysis.SpecialFunctions.Trigonometric.Bounds
import Mathlib.Analysis.SpecialFunctions.Complex.Circle
import Mathlib.Analysis.Complex.ExponentialBounds
import Mathlib.Analysis.Real.Pi.Bounds

/-! C12: exponential and logarithmic map. -/

namespace Verif
open ExpMap

theorem norm_eq_sqrt (v : V3) : V3.norm v = Real.sqrt (v.x ^ 2 + v.y ^ 2 + v.z ^ 2) := by
  unfold V3.norm V3.dot; congr 1; ring

theorem norm_smul_V3 (k : ℝ) (v : V3) : V3.norm (k • v) = |k| * V3.norm v := by
  unfold V3.norm
  rw [V3.dot_smul_left, V3.dot_smul_right, ← mul_assoc, ← sq, Real.sqrt_mul (sq_nonneg k),
    Real.sqrt_sq_eq_abs]

theorem exactExp_eq (v : V3) : exactExp v = ⟨Real.cos (V3.norm v / 2),
    Real.sinc (V3.norm v / 2) / 2 * v.x, Real.sinc (V3.norm v / 2) / 2 * v.y,
    Real.sinc (V3.norm v / 2) / 2 * v.z⟩ := by
  rw [norm_eq_sqrt]; rfl

/-- closed form of the exact exponential of any multiple of a non-zero vector -/
theorem exactExp_smul {v : V3} (hv : v ≠ 0) (k : ℝ) :
    exactExp (k • v) = ⟨Real.cos (k * V3.norm v / 2), Real.sin (k * V3.norm v / 2) / V3.norm v * v.x,
      Real.sin (k * V3.norm v / 2) / V3.norm v * v.y,
      Real.sin (k * V3.norm v / 2) / V3.norm v * v.z⟩ := by
  have hn := V3.norm_pos hv
  rw [exactExp_eq, norm_smul_V3]
  generalize V3.norm v = θ at *
  have hc : Real.cos (|k| * θ / 2) = Real.cos (k * θ / 2) := by
    rcases abs_choice k with h | h <;> rw [h]
    rw [show -k * θ / 2 = -(k * θ / 2) by ring, Real.cos_neg]
  have hs : Real.sinc (|k| * θ / 2) / 2 * k = Real.sin (k * θ / 2) / θ := by
    rcases eq_or_ne k 0 with rfl | hk
    · simp
    · have : Real.sinc (|k| * θ / 2) = Real.sinc (k * θ / 2) := by
        rcases abs_choice k with h | h <;> rw [h]
        rw [show -k * θ / 2 = -(k * θ / 2) by ring, Real.sinc_neg]
      rw [this, Real.sinc_of_ne_zero (by positivity)]
      field_simp
  simp only [V3.smul_x, V3.smul_y, V3.smul_z, ← mul_assoc, hs, hc]

theorem exactExp_of_ne {v : V3} (hv : v ≠ 0) :
    exactExp v = ⟨Real.cos (V3.norm v / 2), Real.sin (V3.norm v / 2) / V3.norm v * v.x,
      Real.sin (V3.norm v / 2) / V3.norm v * v.y, Real.sin (V3.norm v / 2) / V3.norm v * v.z⟩ := by
  have := exactExp_smul hv 1
  rwa [one_smul, one_mul] at this

theorem exactExp_zero : exactExp 0 = ⟨1, 0, 0, 0⟩ := by
  rw [exactExp_eq]
  have : V3.norm (0 : V3) = 0 := V3.norm_eq_zero.mpr rfl
  simp [this]

theorem exactExp_unit (v : V3) : IsUnitQ (exactExp v) := by
  rcases eq_or_ne v 0 with rfl | hv
  · rw [exactExp_zero]; simp [IsUnitQ]
  · rw [exactExp_of_ne hv]
    have hn := V3.norm_pos hv
    have h2 := V3.norm_sq v
    have hcs := Real.sin_sq_add_cos_sq (V3.norm v / 2)
    unfold IsUnitQ
    unfold V3.dot at h2
    generalize V3.norm v = θ at *
    generalize Real.sin (θ / 2) = s at *
    generalize Real.cos (θ / 2) = c at *
    have : c ^ 2 + (s / θ * v.x) ^ 2 + (s / θ * v.y) ^ 2 + (s / θ * v.z) ^ 2
        = c ^ 2 + s ^ 2 / θ ^ 2 * (v.x * v.x + v.y * v.y + v.z * v.z) := by ring
    rw [this, ← h2]
    field_simp
    linarith

/-- The exact exponential is the quaternion of the rotation by |v| about v. -/
theorem exactExp_Ru {v : V3} (hv : v ≠ 0) : exactExp v = Quat.Ru (V3.norm v) v := by
  rw [exactExp_of_ne hv]
  simp only [Quat.Ru, V3.divs]
  ext <;> ring

theorem reparam_factor (v : V3) (hv : v ≠ 0) : ∃ (k : ℝ) (n : ℤ), reparameterization v = k • v ∧
    k * V3.norm v = V3.norm v - 2 * Real.pi * n ∧ |k * V3.norm v| ≤ Real.pi := by
  have hn := V3.norm_pos hv
  have hpi := Real.pi_pos
  have step2 : ∀ (w : V3) (a : ℝ) (m : ℤ), w = a • v → 0 ≤ a → a * V3.norm v ≤ 2 * Real.pi →
      a * V3.norm v = V3.norm v - 2 * Real.pi * m →
      ∃ (k : ℝ) (n : ℤ), (if V3.norm w > Real.pi then (1 - 2 * Real.pi / V3.norm w) • w else w) = k • v ∧
        k * V3.norm v = V3.norm v - 2 * Real.pi * n ∧ |k * V3.norm v| ≤ Real.pi := by
    intro w a m hw ha hle heq
    have hnw : V3.norm w = a * V3.norm v := by rw [hw, norm_smul_V3, abs_of_nonneg ha]
    have hnn : 0 ≤ a * V3.norm v := by positivity
    split_ifs with h
    · refine ⟨(1 - 2 * Real.pi / V3.norm w) * a, m + 1, by rw [hw, mul_smul, ← hw], ?_, ?_⟩
      · rw [mul_assoc, ← hnw]
        have : V3.norm w ≠ 0 := by linarith
        rw [← hnw] at heq
        field_simp
        push_cast
        linarith
      · have : (1 - 2 * Real.pi / V3.norm w) * a * V3.norm v = V3.norm w - 2 * Real.pi := by
          rw [mul_assoc, ← hnw]
          have : V3.norm w ≠ 0 := by linarith
          field_simp
        rw [this, abs_le]
        constructor <;> linarith
    · exact ⟨a, m, hw, heq, by rw [abs_of_nonneg hnn, ← hnw]; linarith⟩
  unfold reparameterization
  simp only
  by_cases h1 : V3.norm v > 2 * Real.pi
  · simp only [h1, if_true]
    have hfl := Int.floor_le (V3.norm v / (2 * Real.pi))
    have hfl2 := Int.lt_floor_add_one (V3.norm v / (2 * Real.pi))
    rw [le_div_iff₀ (by positivity)] at hfl
    rw [div_lt_iff₀ (by positivity)] at hfl2
    have e : fmod (V3.norm v) (2 * Real.pi) / V3.norm v * V3.norm v
        = V3.norm v - 2 * Real.pi * ⌊V3.norm v / (2 * Real.pi)⌋ := by
      unfold fmod; field_simp
    apply step2 _ (fmod (V3.norm v) (2 * Real.pi) / V3.norm v) ⌊V3.norm v / (2 * Real.pi)⌋ rfl
    · apply div_nonneg _ hn.le
      unfold fmod; linarith
    · rw [e]; linarith
    · exact e
  · simp only [h1, if_false]
    exact step2 v 1 0 (one_smul _ _).symm zero_le_one (by linarith) (by simp)

theorem reparam_zero : reparameterization 0 = 0 := by
  have h0 : V3.norm (0 : V3) = 0 := V3.norm_eq_zero.mpr rfl
  have := Real.pi_pos
  have h1 : ¬ (0 : ℝ) > 2 * Real.pi := by linarith
  have h2 : ¬ (0 : ℝ) > Real.pi := by linarith
  unfold reparameterization
  simp only [h0, h1, if_false, h2]

/-- C12: `reparameterization(v)` has norm at most π, and represents the same rotation as v. -/
theorem C12_reparameterization (v : V3) :
    V3.norm (reparameterization v) ≤ Real.pi ∧
    SameRotation (exactExp (reparameterization v)) (exactExp v) := by
  rcases eq_or_ne v 0 with rfl | hv
  · have h0 : V3.norm (0 : V3) = 0 := V3.norm_eq_zero.mpr rfl
    rw [reparam_zero, h0]
    exact ⟨Real.pi_pos.le, Or.inl rfl⟩
  · obtain ⟨k, n, hk, hn, hle⟩ := reparam_factor v hv
    have hp := V3.norm_pos hv
    rw [hk]
    constructor
    · rw [abs_mul, abs_of_pos hp] at hle
      rwa [norm_smul_V3]
    · rw [exactExp_smul hv, exactExp_of_ne hv, hn,
        show (V3.norm v - 2 * Real.pi * n) / 2 = V3.norm v / 2 - n * Real.pi by ring,
        Real.cos_sub_int_mul_pi, Real.sin_sub_int_mul_pi]
      unfold SameRotation
      rcases Int.even_or_odd n with he | ho
      · left; rw [he.neg_one_zpow]; simp
      · right; rw [ho.neg_one_zpow]; ext <;> simp <;> ring

/-- C12: outside the Taylor branch, `exp` computes the exact exponential map (of the
reparameterized vector, or of v itself when reparm is off); so it returns a unit quaternion which
represents the rotation by |v| about v. -/
theorem C12_exp_exact (v : V3) (reparm : Bool)
    (hbig : 1e-6 ≤ V3.norm (if reparm then reparameterization v else v)) :
    IsUnitQ (exp v reparm) ∧ SameRotation (exp v reparm) (exactExp v) ∧
    Quat.to_matrix (exp v reparm) = M3.Ru (V3.norm v) v := by
  have key : ∀ w : V3, 1e-6 ≤ V3.norm w →
      (⟨Real.cos (V3.norm w / 2), (V3.divs (Real.sin (V3.norm w / 2) • w) (V3.norm w)).x,
        (V3.divs (Real.sin (V3.norm w / 2) • w) (V3.norm w)).y,
        (V3.divs (Real.sin (V3.norm w / 2) • w) (V3.norm w)).z⟩ : Quat) = exactExp w := by
    intro w hw
    have : w ≠ 0 := by
      rintro rfl
      rw [V3.norm_eq_zero.mpr rfl] at hw
      norm_num at hw
    rw [exactExp_of_ne this]
    simp only [V3.divs, V3.smul_x, V3.smul_y, V3.smul_z]
    ext <;> simp <;> ring
  have he : exp v reparm = exactExp (if reparm then reparameterization v else v) := by
    unfold exp
    simp only [not_lt.mpr hbig, if_false]
    exact key _ hbig
  have hv : v ≠ 0 := by
    rintro rfl
    have h0 : V3.norm (0 : V3) = 0 := V3.norm_eq_zero.mpr rfl
    rw [reparam_zero] at hbig
    simp only [ite_self, h0] at hbig
    norm_num at hbig
  have hsame : SameRotation (exp v reparm) (exactExp v) := by
    rw [he]
    cases reparm
    · exact Or.inl rfl
    · exact (C12_reparameterization v).2
  have hu : IsUnitQ (exp v reparm) := by rw [he]; exact exactExp_unit _
  refine ⟨hu, hsame, ?_⟩
  rw [C10_Ru_matrix_eq_quaternion _ _ hv, ← exactExp_Ru hv]
  rcases hsame with h | h
  · rw [h]
  · rw [h, Quat.to_matrix_of_unit, Quat.to_matrix_of_unit (exactExp_unit v)]
    · ext <;> simp
    · have := exactExp_unit v; unfold IsUnitQ at *; simpa using this

/-- C12 hypotheses are met: the rotation by 1 about the x axis. -/
example : (1e-6 : ℝ) ≤ V3.norm (if true then reparameterization ⟨1, 0, 0⟩ else ⟨1, 0, 0⟩) := by
  have h1 : V3.norm ⟨1, 0, 0⟩ = 1 := by simp [V3.norm, V3.dot]
  have := Real.pi_gt_three
  have a : ¬ (1 : ℝ) > 2 * Real.pi := by linarith
  have b : ¬ (1 : ℝ) > Real.pi := by linarith
  have : reparameterization ⟨1, 0, 0⟩ = ⟨1, 0, 0⟩ := by
    unfold reparameterization
    simp only [h1, a, b, if_false]
  rw [this]
  simp only [ite_self, h1]
  norm_num

/-- C12: in the Taylor branch (reparameterized norm below 1e-6) the scalar part is exact and the
vector part differs from the exact one by less than 1e-26. -/
theorem C12_exp_taylor (v : V3) (reparm : Bool)
    (hsmall : V3.norm (if reparm then reparameterization v else v) < 1e-6) :
    ∃ q : Quat, SameRotation q (exactExp v) ∧ (exp v reparm).s = q.s ∧
      V3.norm ((exp v reparm).vec - q.vec) < 1e-26 := by
  set w := (if reparm then reparameterization v else v) with hw
  have hsame : SameRotation (exactExp w) (exactExp v) := by
    rw [hw]; cases reparm
    · exact Or.inl rfl
    · exact (C12_reparameterization v).2
  refine ⟨exactExp w, hsame, ?_⟩
  have he : exp v reparm = ⟨Real.cos (V3.norm w / 2), ((0.5 - V3.norm w ^ 2 / 48) • w).x,
      ((0.5 - V3.norm w ^ 2 / 48) • w).y, ((0.5 - V3.norm w ^ 2 / 48) • w).z⟩ := by
    unfold exp
    simp only [← hw, hsmall, if_true]
  rw [he]
  clear he hsame
  clear_value w
  clear hw
  rcases eq_or_ne w 0 with h0 | hne
  · subst h0
    have h0 : V3.norm (0 : V3) = 0 := V3.norm_eq_zero.mpr rfl
    rw [exactExp_zero]
    simp [h0, Quat.vec]
    norm_num
  · rw [exactExp_of_ne hne]
    refine ⟨rfl, ?_⟩
    have hn := V3.norm_pos hne
    have hd : ∀ a b : ℝ, ((⟨a * w.x, a * w.y, a * w.z⟩ : V3) - ⟨b * w.x, b * w.y, b * w.z⟩)
        = (a - b) • w := by
      intro a b; ext <;> simp <;> ring
    simp only [Quat.vec, V3.smul_x, V3.smul_y, V3.smul_z, hd, norm_smul_V3]
    rw [← abs_of_pos hn, ← abs_mul, abs_of_pos hn]
    generalize V3.norm w = θ at *
    have e : (0.5 - θ ^ 2 / 48 - Real.sin (θ / 2) / θ) * θ
        = -(Real.sin (θ / 2) - (θ / 2 - (θ / 2) ^ 3 / 6)) := by
      field_simp; ring
    rw [e, abs_neg]
    have hb := Real.sin_bound (x := θ / 2) (by rw [abs_of_pos (by positivity)]; norm_num at hsmall; linarith)
    rw [abs_of_pos (show 0 < θ / 2 by positivity)] at hb
    refine lt_of_le_of_lt hb ?_
    have h4 : (θ / 2) ^ 4 ≤ (1e-6 / 2 : ℝ) ^ 4 := by gcongr
    have : (1e-6 / 2 : ℝ) ^ 4 * (5 / 96) < 1e-26 := by norm_num
    nlinarith

/-- C12: `log(exp(v)) = v` for 1e-6 ≤ |v| < π. -/
theorem C12_log_exp (v : V3) (reparm : Bool) (h1 : 1e-6 ≤ V3.norm v) (h2 : V3.norm v < Real.pi) :
    log (exp v reparm) = .ok v := by
  have hr : reparameterization v = v := by
    have := Real.pi_pos
    have a : ¬ V3.norm v > 2 * Real.pi := by linarith
    have b : ¬ V3.norm v > Real.pi := by linarith
    unfold reparameterization
    simp only [a, b, if_false]
  have he : exp v reparm = ⟨Real.cos (V3.norm v / 2), Real.sin (V3.norm v / 2) * v.x / V3.norm v,
      Real.sin (V3.norm v / 2) * v.y / V3.norm v, Real.sin (V3.norm v / 2) * v.z / V3.norm v⟩ := by
    unfold exp
    simp only [hr, ite_self, not_lt.mpr h1, if_false, V3.divs, V3.smul_x, V3.smul_y, V3.smul_z]
  rw [he]
  have hn : 0 < V3.norm v := lt_of_lt_of_le (by norm_num) h1
  generalize V3.norm v = θ at *
  have hc : 0 < Real.cos (θ / 2) := Real.cos_pos_of_mem_Ioo ⟨by linarith, by linarith⟩
  have hs : 0 < Real.sin (θ / 2) := Real.sin_pos_of_pos_of_lt_pi (by linarith) (by linarith)
  have hac : Real.arccos (Real.cos (θ / 2)) = θ / 2 := Real.arccos_cos (by linarith) (by linarith)
  unfold log
  simp only [abs_of_pos hc, gt_iff_lt, hc, if_true, hac, hs.ne', if_false]
  rw [if_neg (by
    push Not
    exact ⟨by linarith, Real.cos_le_one _⟩)]
  congr 1
  ext <;> simp <;> field_simp

example : (1e-6 : ℝ) ≤ V3.norm ⟨0, 3, 0⟩ ∧ V3.norm ⟨0, 3, 0⟩ < Real.pi := by
  have h1 : V3.norm ⟨0, 3, 0⟩ = 3 := by
    unfold V3.norm V3.dot
    rw [show (0 : ℝ) * 0 + 3 * 3 + 0 * 0 = 3 ^ 2 by norm_num]
    exact Real.sqrt_sq (by norm_num)
  rw [h1]; exact ⟨by norm_num, Real.pi_gt_three⟩

/-- C12, part: for every unit quaternion other than the half turns (scalar part 0) and ±1,
`log` returns a vector whose exact exponential is q itself.
Missing from the full property: half turns and the identity, where it is false
(`C12_log_half_turn_fails`, `C12_log_identity_raises`). -/
theorem C12_exp_log_partial (q : Quat) (hu : IsUnitQ q) (h0 : q.s ≠ 0) (h1 : q.s ≠ 1)
    (h2 : q.s ≠ -1) : ∃ v, log q = .ok v ∧ exactExp v = q ∧
      (1e-6 ≤ V3.norm (reparameterization v) → Quat.to_matrix (exp v) = Quat.to_matrix q) := by
  unfold IsUnitQ at hu
  have hlt : q.s ^ 2 ≤ 1 := by nlinarith [sq_nonneg q.x, sq_nonneg q.y, sq_nonneg q.z]
  have hle := (sq_le_one_iff_abs_le_one q.s).mp hlt
  rw [abs_le] at hle
  have ha : -1 < q.s := lt_of_le_of_ne hle.1 (Ne.symm h2)
  have hb : q.s < 1 := lt_of_le_of_ne hle.2 h1
  set t := Real.arccos q.s with ht
  have hcos : Real.cos t = q.s := Real.cos_arccos hle.1 hle.2
  have ht0 : 0 < t := Real.arccos_pos.mpr hb
  have htpi : t < Real.pi := by
    rcases (Real.arccos_le_pi q.s).lt_or_eq with h | h
    · exact h
    · have : Real.cos t = -1 := by rw [ht, h, Real.cos_pi]
      exact absurd (hcos ▸ this) h2
  have hs : 0 < Real.sin t := Real.sin_pos_of_pos_of_lt_pi ht0 htpi
  have hcs := Real.sin_sq_add_cos_sq t
  rw [hcos] at hcs
  have hlog : log q = .ok ((2 * t / Real.sin t) • q.vec) := by
    unfold log
    rw [if_pos (abs_pos.mpr h0), if_neg (by push Not; exact ⟨ha.le, hb.le⟩)]
    simp only [← ht, hs.ne', if_false]
    rfl
  have hvn : V3.norm q.vec = Real.sin t := by
    unfold V3.norm V3.dot Quat.vec
    rw [show q.x * q.x + q.y * q.y + q.z * q.z = Real.sin t ^ 2 by nlinarith]
    exact Real.sqrt_sq hs.le
  have hvne : q.vec ≠ 0 := by
    intro h
    rw [V3.norm_eq_zero.mpr h] at hvn
    linarith
  have hex : exactExp ((2 * t / Real.sin t) • q.vec) = q := by
    rw [exactExp_smul hvne, hvn]
    have : 2 * t / Real.sin t * Real.sin t / 2 = t := by field_simp
    rw [this, hcos, div_self hs.ne']
    ext <;> simp [Quat.vec]
  refine ⟨_, hlog, hex, ?_⟩
  intro hbig
  have h3 := (C12_exp_exact ((2 * t / Real.sin t) • q.vec) true (by simpa using hbig)).2.1
  rw [hex] at h3
  have huq : IsUnitQ q := hu
  rcases h3 with h | h
  · rw [h]
  · rw [h, Quat.to_matrix_of_unit, Quat.to_matrix_of_unit huq]
    · ext <;> simp
    · unfold IsUnitQ; simpa using hu

example : IsUnitQ ⟨3/5, 0, 4/5, 0⟩ ∧ (⟨3/5, 0, 4/5, 0⟩ : Quat).s ≠ 0 := by
  constructor
  · unfold IsUnitQ; norm_num
  · norm_num

/-- The full property fails at half turns: `log` of every half turn is the zero vector, whose
exponential is the identity. -/
theorem C12_log_half_turn_fails (q : Quat) (h0 : q.s = 0) :
    log q = .ok 0 ∧ ¬ SameRotation (exactExp 0) q := by
  constructor
  · unfold log; rw [if_neg (by simp [h0])]; rfl
  · rw [exactExp_zero]
    rintro (h | h)
    · have : q.s = 1 := by rw [← h]
      rw [h0] at this; norm_num at this
    · have : (1 : ℝ) = -q.s := by have := congrArg Quat.s h; simpa using this
      rw [h0] at this; norm_num at this

/-- The vector v of length π about the x axis is lost: `log(exp(v)) = 0`. -/
theorem C12_log_exp_pi_fails : log (exp ⟨Real.pi, 0, 0⟩) = .ok 0 := by
  have hpi := Real.pi_pos
  have h3 := Real.pi_gt_three
  have hn : V3.norm ⟨Real.pi, 0, 0⟩ = Real.pi := by
    unfold V3.norm V3.dot
    rw [show Real.pi * Real.pi + 0 * 0 + 0 * 0 = Real.pi ^ 2 by ring]
    exact Real.sqrt_sq hpi.le
  have a : ¬ Real.pi > 2 * Real.pi := by linarith
  have b : ¬ Real.pi > Real.pi := by linarith
  have hr : reparameterization ⟨Real.pi, 0, 0⟩ = ⟨Real.pi, 0, 0⟩ := by
    unfold reparameterization
    simp only [hn, a, b, if_false]
  have hs : (exp ⟨Real.pi, 0, 0⟩).s = 0 := by
    unfold exp
    simp only [if_true, hr, hn, Real.cos_pi_div_two]
  unfold log
  rw [if_neg (by simp [hs])]
  rfl

/-- Although a comment in the code says the identity maps to the zero vector, `log` of the
identity divides by `sin(acos(1)) = 0` and raises. -/
theorem C12_log_identity_raises : log Quat.identity = .error .zeroDivision := by
  unfold log
  rw [if_pos (by simp [Quat.identity]), if_neg (by simp [Quat.identity])]
  simp [Quat.identity]

end Verif
