import Verif.Props.Quaternion

/-! # C06: quaternion interpolation -/

namespace Verif
open Quat

theorem clip_mem (t : ℝ) : 0 ≤ clip t 0 1 ∧ clip t 0 1 ≤ 1 := by
  unfold clip
  exact ⟨le_min (le_max_right _ _) zero_le_one, min_le_right _ _⟩

theorem clip_eq_of_mem {t lo hi : ℝ} (h0 : lo ≤ t) (h1 : t ≤ hi) : clip t lo hi = t := by
  unfold clip
  rw [max_eq_left h0, min_eq_left h1]

theorem clip_idem (t : ℝ) : clip (clip t 0 1) 0 1 = clip t 0 1 :=
  clip_eq_of_mem (clip_mem t).1 (clip_mem t).2

theorem dot_abs_le_one {a b : Quat} (ha : IsUnitQ a) (hb : IsUnitQ b) : |dot a b| ≤ 1 := by
  unfold IsUnitQ at ha hb
  rw [abs_le]
  unfold dot
  constructor
  · nlinarith [sq_nonneg (a.s + b.s), sq_nonneg (a.x + b.x), sq_nonneg (a.y + b.y), sq_nonneg (a.z + b.z)]
  · nlinarith [sq_nonneg (a.s - b.s), sq_nonneg (a.x - b.x), sq_nonneg (a.y - b.y), sq_nonneg (a.z - b.z)]

/-- The generic branch of slerp in closed form; `e = ±1` is the sign given to `b`. -/
theorem slerp_generic {a b : Quat} (ha : IsUnitQ a) (hb : IsUnitQ b) (t : ℝ)
    (h : |dot a b| ≤ 0.9999999) :
    ∃ e : ℝ, (e = 1 ∨ e = -1) ∧ e * dot a b = |dot a b| ∧
      slerp a b t = (Real.sin (Real.arccos |dot a b| - clip t 0 1 * Real.arccos |dot a b|) /
          Real.sin (Real.arccos |dot a b|)) • a +
        (e * (Real.sin (clip t 0 1 * Real.arccos |dot a b|) / Real.sin (Real.arccos |dot a b|))) • b := by
  have hle := abs_le.mp (dot_abs_le_one ha hb)
  have hc : clip (dot a b) (-1) 1 = dot a b := clip_eq_of_mem hle.1 hle.2
  unfold slerp
  simp only [hc]
  by_cases hneg : dot a b < 0
  · have habs : |dot a b| = -dot a b := abs_of_neg hneg
    refine ⟨-1, Or.inr rfl, by rw [habs]; ring, ?_⟩
    rw [habs] at h ⊢
    have hng : ¬ (-dot a b > 0.9999999) := not_lt.mpr h
    simp only [hneg, if_true, hng, if_false]
    congr 2
    ring
  · have habs : |dot a b| = dot a b := abs_of_nonneg (not_lt.mp hneg)
    refine ⟨1, Or.inl rfl, by rw [habs]; ring, ?_⟩
    rw [habs] at h ⊢
    have hng : ¬ (dot a b > 0.9999999) := not_lt.mpr h
    simp only [hneg, if_false, hng, Bool.false_eq_true]
    congr 2
    ring

/-- Trigonometric core: weights `sin(ω-φ)/sin ω` and `sin φ/sin ω` on unit vectors with cosine
`cos ω`. -/
theorem slerp_trig {w p : ℝ} (hs : Real.sin w ≠ 0) :
    let x := Real.sin (w - p) / Real.sin w
    let z := Real.sin p / Real.sin w
    x * x + z * z + 2 * (x * z) * Real.cos w = 1 ∧ x + z * Real.cos w = Real.cos p ∧
      x * Real.cos w + z = Real.cos (w - p) := by
  have h1 := Real.sin_sq_add_cos_sq w
  have h2 := Real.sin_sq_add_cos_sq p
  simp only [Real.sin_sub, Real.cos_sub]
  refine ⟨?_, ?_, ?_⟩
  · field_simp
    have hw : Real.cos w ^ 2 = 1 - Real.sin w ^ 2 := by linarith
    have hp : Real.cos p ^ 2 = 1 - Real.sin p ^ 2 := by linarith
    ring_nf
    rw [hw, hp]
    ring
  · field_simp; ring
  · field_simp
    have hw : Real.cos w ^ 2 = 1 - Real.sin w ^ 2 := by linarith
    ring_nf
    rw [hw]
    ring

theorem sin_arccos_pos {d : ℝ} (h : d ≤ 0.9999999) (h0 : 0 ≤ d) : Real.sin (Real.arccos d) ≠ 0 := by
  rw [Real.sin_arccos]
  apply (Real.sqrt_pos.mpr _).ne'
  norm_num at h
  nlinarith

/-- C06: slerp of two unit quaternions is a unit quaternion, for every parameter and in every
branch. -/
theorem C06_slerp_unit {a b : Quat} (ha : IsUnitQ a) (hb : IsUnitQ b) (t : ℝ) :
    IsUnitQ (slerp a b t) := by
  by_cases h : |dot a b| ≤ 0.9999999
  · obtain ⟨e, he, hed, hs⟩ := slerp_generic ha hb t h
    rw [hs]
    have hcos : Real.cos (Real.arccos |dot a b|) = |dot a b| :=
      Real.cos_arccos (by linarith [abs_nonneg (dot a b)]) (dot_abs_le_one ha hb)
    have hT := (slerp_trig (p := clip t 0 1 * Real.arccos |dot a b|)
      (sin_arccos_pos h (abs_nonneg _))).1
    rw [hcos, ← hed] at hT
    have hee : e * e = 1 := by rcases he with h | h <;> rw [h] <;> norm_num
    rw [hed] at hT
    generalize Real.sin (Real.arccos |dot a b| - clip t 0 1 * Real.arccos |dot a b|) /
          Real.sin (Real.arccos |dot a b|) = x at *
    generalize Real.sin (clip t 0 1 * Real.arccos |dot a b|) / Real.sin (Real.arccos |dot a b|)
      = z at *
    rw [← hed] at hT
    unfold IsUnitQ at *
    simp only [smul_def, add_def]
    simp only [dot] at hT
    linear_combination hT + x * x * ha + e * e * (z * z) * hb + z * z * hee
  · have hle := abs_le.mp (dot_abs_le_one ha hb)
    have hc : clip (dot a b) (-1) 1 = dot a b := clip_eq_of_mem hle.1 hle.2
    have : slerp a b t = unit (lerp a b (clip t 0 1)) := by
      unfold slerp
      simp only [hc]
      have hgt : (if dot a b < 0 then -dot a b else dot a b) > 0.9999999 := by
        by_cases hneg : dot a b < 0
        · rw [if_pos hneg, ← abs_of_neg hneg]; exact not_le.mp h
        · rw [if_neg hneg, ← abs_of_nonneg (not_lt.mp hneg)]; exact not_le.mp h
      rw [if_pos hgt]
    rw [this]
    exact unit_isUnit _

/-- C06: the parameter is clamped to [0,1]. -/
theorem C06_slerp_clamps (a b : Quat) (t : ℝ) :
    (t ≤ 0 → slerp a b t = slerp a b 0) ∧ (1 ≤ t → slerp a b t = slerp a b 1) ∧
      (t ≤ 0 → lerp a b t = a) ∧ (1 ≤ t → lerp a b t = b) := by
  have c0 : clip (0 : ℝ) 0 1 = 0 := clip_eq_of_mem le_rfl zero_le_one
  have c1 : clip (1 : ℝ) 0 1 = 1 := clip_eq_of_mem zero_le_one le_rfl
  have e0 : t ≤ 0 → clip t 0 1 = 0 := by
    intro h; unfold clip; rw [max_eq_right h]; simp
  have e1 : 1 ≤ t → clip t 0 1 = 1 := by
    intro h; unfold clip; rw [max_eq_left (by linarith), min_eq_right h]
  refine ⟨?_, ?_, ?_, ?_⟩
  · intro h; unfold slerp; rw [e0 h, c0]
  · intro h; unfold slerp; rw [e1 h, c1]
  · intro h; unfold lerp; rw [e0 h]; ext <;> simp
  · intro h; unfold lerp; rw [e1 h]; ext <;> simp

/-- C06: end points. At `t ≤ 0` slerp returns `a`; at `t ≥ 1` it returns `b` or `-b`, which is the
rotation of `b`. -/
theorem C06_slerp_endpoints {a b : Quat} (ha : IsUnitQ a) (hb : IsUnitQ b) :
    slerp a b 0 = a ∧ (slerp a b 1 = b ∨ slerp a b 1 = -b) ∧
      to_matrix (slerp a b 1) = to_matrix b := by
  have c0 : clip (0 : ℝ) 0 1 = 0 := clip_eq_of_mem le_rfl zero_le_one
  have c1 : clip (1 : ℝ) 0 1 = 1 := clip_eq_of_mem zero_le_one le_rfl
  have hneg : to_matrix (-b) = to_matrix b := by
    have := C03_to_matrix_scale b (-1) (by norm_num)
    simpa using this
  suffices H : slerp a b 0 = a ∧ (slerp a b 1 = b ∨ slerp a b 1 = -b) by
    refine ⟨H.1, H.2, ?_⟩
    rcases H.2 with h | h
    · rw [h]
    · rw [h, hneg]
  by_cases h : |dot a b| ≤ 0.9999999
  · have hs := sin_arccos_pos h (abs_nonneg _)
    constructor
    · obtain ⟨e, he, hed, hs0⟩ := slerp_generic ha hb 0 h
      rw [hs0, c0]
      simp [hs]
    · obtain ⟨e, he, hed, hs1⟩ := slerp_generic ha hb 1 h
      rw [hs1, c1]
      rcases he with h | h
      · left; rw [h]; simp [hs]
      · right; rw [h]; simp [hs]
  · have hle := abs_le.mp (dot_abs_le_one ha hb)
    have hc : clip (dot a b) (-1) 1 = dot a b := clip_eq_of_mem hle.1 hle.2
    have : ∀ t, slerp a b t = unit (lerp a b (clip t 0 1)) := by
      intro t
      unfold slerp
      simp only [hc]
      have hgt : (if dot a b < 0 then -dot a b else dot a b) > 0.9999999 := by
        by_cases hneg : dot a b < 0
        · rw [if_pos hneg, ← abs_of_neg hneg]; exact not_le.mp h
        · rw [if_neg hneg, ← abs_of_nonneg (not_lt.mp hneg)]; exact not_le.mp h
      rw [if_pos hgt]
    have l0 : lerp a b 0 = a := by unfold lerp; rw [c0]; ext <;> simp
    have l1 : lerp a b 1 = b := by unfold lerp; rw [c1]; ext <;> simp
    rw [this, this, c0, c1, l0, l1]
    exact ⟨unit_of_isUnit ha, Or.inl (unit_of_isUnit hb)⟩

/-- C06 (generic branch): slerp turns at constant angular speed along the short arc.  With
ω = arccos |a·b| ∈ [0, π/2] the angle to `a` is tω and the angle to ±b is (1-t)ω, where ±b is
the representative of `b` on `a`'s side.
Missing for the full property: pairs with |a·b| > 0.9999999, where it is false for a·b < 0
(`C06_slerp_short_way_fails`). -/
theorem C06_slerp_constant_speed_partial {a b : Quat} (ha : IsUnitQ a) (hb : IsUnitQ b) (t : ℝ)
    (ht0 : 0 ≤ t) (ht1 : t ≤ 1) (h : |dot a b| ≤ 0.9999999) :
    dot a (slerp a b t) = Real.cos (t * Real.arccos |dot a b|) ∧
      |dot b (slerp a b t)| = Real.cos ((1 - t) * Real.arccos |dot a b|) := by
  obtain ⟨e, he, hed, hs⟩ := slerp_generic ha hb t h
  rw [hs, clip_eq_of_mem ht0 ht1]
  have hcos : Real.cos (Real.arccos |dot a b|) = |dot a b| :=
      Real.cos_arccos (by linarith [abs_nonneg (dot a b)]) (dot_abs_le_one ha hb)
  obtain ⟨-, hT, hT2⟩ := slerp_trig (p := t * Real.arccos |dot a b|)
      (sin_arccos_pos h (abs_nonneg _))
  simp only [hcos] at hT hT2
  have hee : e * e = 1 := by rcases he with h | h <;> rw [h] <;> norm_num
  have hnn : 0 ≤ Real.cos ((1 - t) * Real.arccos |dot a b|) := by
    have hw1 := Real.arccos_nonneg |dot a b|
    have hw2 : Real.arccos |dot a b| ≤ Real.pi / 2 := Real.arccos_le_pi_div_two.mpr (abs_nonneg _)
    apply Real.cos_nonneg_of_mem_Icc
    constructor
    · nlinarith [Real.pi_pos]
    · nlinarith [Real.pi_pos]
  have hmul : (1 - t) * Real.arccos |dot a b| = Real.arccos |dot a b| - t * Real.arccos |dot a b| := by
    ring
  constructor
  · rw [← hT, ← hed]
    generalize Real.sin (Real.arccos (e * dot a b) - t * Real.arccos (e * dot a b)) /
          Real.sin (Real.arccos (e * dot a b)) = x
    generalize Real.sin (t * Real.arccos (e * dot a b)) / Real.sin (Real.arccos (e * dot a b)) = z
    unfold IsUnitQ at ha
    simp only [dot, smul_def, add_def]
    linear_combination x * ha
  · have hval : e * dot b
        ((Real.sin (Real.arccos |dot a b| - t * Real.arccos |dot a b|) /
          Real.sin (Real.arccos |dot a b|)) • a +
        (e * (Real.sin (t * Real.arccos |dot a b|) / Real.sin (Real.arccos |dot a b|))) • b)
        = Real.cos ((1 - t) * Real.arccos |dot a b|) := by
      rw [hmul, ← hT2, ← hed]
      generalize Real.sin (Real.arccos (e * dot a b) - t * Real.arccos (e * dot a b)) /
            Real.sin (Real.arccos (e * dot a b)) = x
      generalize Real.sin (t * Real.arccos (e * dot a b)) / Real.sin (Real.arccos (e * dot a b)) = z
      unfold IsUnitQ at hb
      simp only [dot, smul_def, add_def]
      linear_combination z * (e * e) * hb + z * hee
    rw [← hval] at hnn ⊢
    clear hval
    generalize dot b _ = D at hnn ⊢
    rcases he with h | h
    · rw [h, one_mul] at hnn ⊢; rw [abs_of_nonneg hnn]
    · rw [h] at hnn ⊢; rw [abs_of_nonpos (by linarith)]; ring

/-- Non-vacuity of the constant speed theorem: two orthogonal unit quaternions. -/
example : IsUnitQ identity ∧ IsUnitQ ⟨0, 3/5, 0, 4/5⟩ ∧
    |dot identity ⟨0, 3/5, 0, 4/5⟩| ≤ (0.9999999 : ℝ) := by
  refine ⟨by norm_num [IsUnitQ, identity], by norm_num [IsUnitQ], ?_⟩
  norm_num [dot, identity]

/-- C06: `b` and `-b` describe the same rotation and give the same path (generic branch, a·b ≠ 0).
Missing: the near-parallel branch, where it fails (`C06_slerp_short_way_fails`). -/
theorem C06_slerp_neg_partial {a b : Quat} (ha : IsUnitQ a) (hb : IsUnitQ b) (t : ℝ)
    (h : |dot a b| ≤ 0.9999999) (h0 : dot a b ≠ 0) : slerp a (-b) t = slerp a b t := by
  have hd : dot a (-b) = - dot a b := by simp [dot]; ring
  have hb' : IsUnitQ (-b) := by unfold IsUnitQ at *; simp; linarith
  obtain ⟨e, he, hed, hs⟩ := slerp_generic ha hb t h
  obtain ⟨e', he', hed', hs'⟩ := slerp_generic ha hb' t (by rw [hd, abs_neg]; exact h)
  rw [hs, hs']
  rw [hd, abs_neg] at *
  have : e' = -e := by
    have : (e' + e) * dot a b = 0 := by linear_combination hed - hed'
    rcases mul_eq_zero.mp this with h | h
    · linarith
    · exact absurd h h0
  rw [this]
  ext <;> simp

/-- The pair used below: `a = 1` and `b = -(c + s i)` with c = (1-m²)/(1+m²), s = 2m/(1+m²),
m = 10⁻⁴; `a` and `b` differ by a rotation of about 0.02 degrees. -/
noncomputable def slerpBad : Quat := ⟨-(99999999/100000001), -(20000/100000001), 0, 0⟩

/-- C06 fails for nearly antipodal quaternions: slerp does not take the short way.  The end points
`identity` and `slerpBad` represent almost the same rotation (|a·b| > 0.9999999), but half way the
interpolated quaternion is almost orthogonal to both (|a·slerp| < 0.001), i.e. the path swings
through a half turn.  Cause: quaternion.py:321-322 interpolates towards `b` although
lines 314-317 decided that `b` must be flipped. -/
theorem C06_slerp_short_way_fails :
    IsUnitQ identity ∧ IsUnitQ slerpBad ∧ 0.9999999 < |dot identity slerpBad| ∧
      |dot identity (slerp identity slerpBad (1/2))| < 0.001 := by
  have hd : dot identity slerpBad = -(99999999/100000001) := by simp [dot, identity, slerpBad]
  have hu : IsUnitQ slerpBad := by norm_num [IsUnitQ, slerpBad]
  refine ⟨by norm_num [IsUnitQ, identity], hu, ?_, ?_⟩
  · rw [hd, abs_neg, abs_of_pos (by norm_num)]; norm_num
  · have h1 : slerp identity slerpBad (1/2) = unit (lerp identity slerpBad (1/2)) := by
      unfold slerp
      have c : clip (-(99999999/100000001 : ℝ)) (-1) 1 = -(99999999/100000001) :=
        clip_eq_of_mem (by norm_num) (by norm_num)
      have c2 : clip (1/2 : ℝ) 0 1 = 1/2 := clip_eq_of_mem (by norm_num) (by norm_num)
      simp only [hd, c, c2]
      rw [if_pos]
      rw [if_pos (by norm_num)]
      norm_num
    have h2 : lerp identity slerpBad (1/2) = ⟨1/100000001, -(10000/100000001), 0, 0⟩ := by
      unfold lerp
      rw [clip_eq_of_mem (by norm_num) (by norm_num)]
      simp only [identity, slerpBad, sub_def, smul_def, add_def]
      ext <;> norm_num
    have hn : norm (⟨1/100000001, -(10000/100000001), 0, 0⟩ : Quat) > 10000/100000001 := by
      unfold Quat.norm
      apply Real.lt_sqrt_of_sq_lt
      norm_num [dot]
    rw [h1, h2]
    have hn0 : norm (⟨1/100000001, -(10000/100000001), 0, 0⟩ : Quat) > 0 :=
      lt_trans (by norm_num) hn
    unfold unit
    simp only [hn0, if_true]
    have hval : dot identity ⟨1/100000001 / norm (⟨1/100000001, -(10000/100000001), 0, 0⟩ : Quat),
        -(10000/100000001) / norm (⟨1/100000001, -(10000/100000001), 0, 0⟩ : Quat),
        0 / norm (⟨1/100000001, -(10000/100000001), 0, 0⟩ : Quat),
        0 / norm (⟨1/100000001, -(10000/100000001), 0, 0⟩ : Quat)⟩ =
        1/100000001 / norm (⟨1/100000001, -(10000/100000001), 0, 0⟩ : Quat) := by
      simp [dot, identity]
    rw [hval, abs_of_pos (by positivity), div_lt_iff₀ hn0]
    norm_num at hn ⊢
    linarith

end Verif
