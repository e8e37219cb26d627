import Verif.Model.ExpMapDeriv
import Verif.Props.ExpMap
import Mathlib.Analysis.SpecialFunctions.Sqrt
import Mathlib.Analysis.SpecialFunctions.Trigonometric.Deriv

/-! C79: derivatives of the exponential map. -/

namespace Verif
open ExpMap

/-- The quaternion-valued curve q has derivative q' at t (component by component). -/
def QuatDeriv (q : ℝ → Quat) (q' : Quat) (t : ℝ) : Prop :=
  HasDerivAt (fun s => (q s).s) q'.s t ∧ HasDerivAt (fun s => (q s).x) q'.x t ∧
  HasDerivAt (fun s => (q s).y) q'.y t ∧ HasDerivAt (fun s => (q s).z) q'.z t

/-- The matrix-valued curve R has derivative R' at t (entry by entry). -/
def MatDeriv (R : ℝ → M3) (R' : M3) (t : ℝ) : Prop :=
  ∀ i j, HasDerivAt (fun s => (R s).toMat i j) (R'.toMat i j) t

/-- The i-th unit vector. -/
def basisVec (i : Fin 3) : V3 := ![V3.i, V3.j, V3.k] i

namespace ExpD

theorem norm_line (v a : V3) (hv : v ≠ 0) : HasDerivAt (fun t : ℝ => V3.norm (v + t • a)) (V3.dot v a / V3.norm v) 0 := by
  have hd : HasDerivAt (fun t : ℝ => V3.dot (v + t • a) (v + t • a)) (2 * V3.dot v a) 0 := by
    have e : (fun t : ℝ => V3.dot (v + t • a) (v + t • a)) = fun t => V3.dot v v + t * (2 * V3.dot v a) + t ^ 2 * V3.dot a a := by
      funext t; simp [V3.dot]; ring
    rw [e]
    have h1 : HasDerivAt (fun t : ℝ => t * (2 * V3.dot v a)) (2 * V3.dot v a) 0 := by
      simpa using (hasDerivAt_id (0 : ℝ)).mul_const (2 * V3.dot v a)
    have h2 : HasDerivAt (fun t : ℝ => t ^ 2 * V3.dot a a) 0 0 := by
      simpa using (hasDerivAt_pow 2 (0 : ℝ)).mul_const (V3.dot a a)
    exact (((hasDerivAt_const (0 : ℝ) (V3.dot v v)).fun_add h1).fun_add h2).congr_deriv (by ring)
  have h0 : V3.dot (v + (0 : ℝ) • a) (v + (0 : ℝ) • a) ≠ 0 := by
    have : v + (0 : ℝ) • a = v := by ext <;> simp
    rw [this]; exact fun h => hv (V3.dot_self_eq_zero.mp h)
  have := hd.sqrt h0
  refine this.congr_deriv ?_
  have e : v + (0 : ℝ) • a = v := by ext <;> simp
  rw [e]
  show 2 * V3.dot v a / (2 * V3.norm v) = _
  rw [mul_div_mul_left _ _ two_ne_zero]

theorem line_zero (v a : V3) : v + (0 : ℝ) • a = v := by ext <;> simp

/-- The directional derivative of the exact exponential map. -/
noncomputable def dExp (v a : V3) : Quat :=
  let θ := V3.norm v
  let m := V3.dot v a / θ ^ 2 * (Real.cos (θ / 2) / 2 - Real.sin (θ / 2) / θ)
  ⟨-(Real.sin (θ / 2) * (V3.dot v a / θ)) / 2, Real.sin (θ / 2) / θ * a.x + m * v.x, Real.sin (θ / 2) / θ * a.y + m * v.y,
    Real.sin (θ / 2) / θ * a.z + m * v.z⟩

theorem line_ne (v a : V3) (hv : v ≠ 0) : ∀ᶠ t : ℝ in nhds 0, v + t • a ≠ 0 := by
  have hc := (norm_line v a hv).continuousAt
  have : ∀ᶠ t : ℝ in nhds 0, 0 < V3.norm (v + t • a) :=
    hc.eventually (lt_mem_nhds (by simp only [line_zero]; exact V3.norm_pos hv))
  filter_upwards [this] with t ht h
  rw [h, V3.norm_eq_zero.mpr rfl] at ht
  exact lt_irrefl _ ht

theorem exactExp_line (v a : V3) (hv : v ≠ 0) : QuatDeriv (fun t => exactExp (v + t • a)) (dExp v a) 0 := by
  have hn := norm_line v a hv
  have hn0 : V3.norm (v + (0 : ℝ) • a) = V3.norm v := by rw [line_zero]
  have hθ := (V3.norm_pos hv).ne'
  have hh : HasDerivAt (fun t : ℝ => V3.norm (v + t • a) / 2) (V3.dot v a / V3.norm v / 2) 0 := hn.div_const 2
  have hcos := hh.cos
  have hsin := hh.sin
  have hq : HasDerivAt (fun t : ℝ => Real.sin (V3.norm (v + t • a) / 2) / V3.norm (v + t • a))
      (V3.dot v a / V3.norm v ^ 2 * (Real.cos (V3.norm v / 2) / 2 - Real.sin (V3.norm v / 2) / V3.norm v)) 0 := by
    refine (hsin.div hn (by rw [hn0]; exact hθ)).congr_deriv ?_
    rw [hn0]
    field_simp
  have comp : ∀ p b : ℝ, HasDerivAt (fun t : ℝ => Real.sin (V3.norm (v + t • a) / 2) / V3.norm (v + t • a) * (p + t * b))
      (Real.sin (V3.norm v / 2) / V3.norm v * b +
        V3.dot v a / V3.norm v ^ 2 * (Real.cos (V3.norm v / 2) / 2 - Real.sin (V3.norm v / 2) / V3.norm v) * p) 0 := by
    intro p b
    have hl : HasDerivAt (fun t : ℝ => p + t * b) b 0 := by
      exact ((hasDerivAt_const (0 : ℝ) p).fun_add ((hasDerivAt_id' (0 : ℝ)).mul_const b)).congr_deriv (by ring)
    refine (hq.mul hl).congr_deriv ?_
    rw [hn0]; ring
  have hev : (fun t => exactExp (v + t • a)) =ᶠ[nhds 0] fun t : ℝ =>
      ⟨Real.cos (V3.norm (v + t • a) / 2), Real.sin (V3.norm (v + t • a) / 2) / V3.norm (v + t • a) * (v.x + t * a.x),
        Real.sin (V3.norm (v + t • a) / 2) / V3.norm (v + t • a) * (v.y + t * a.y),
        Real.sin (V3.norm (v + t • a) / 2) / V3.norm (v + t • a) * (v.z + t * a.z)⟩ := by
    filter_upwards [line_ne v a hv] with t ht
    rw [exactExp_of_ne ht]
    simp
  refine ⟨?_, ?_, ?_, ?_⟩
  · refine (hcos.congr_deriv ?_).congr_of_eventuallyEq (hev.fun_comp Quat.s)
    rw [hn0]; simp only [dExp]; ring
  · exact (comp v.x a.x).congr_of_eventuallyEq (hev.fun_comp Quat.x)
  · exact (comp v.y a.y).congr_of_eventuallyEq (hev.fun_comp Quat.y)
  · exact (comp v.z a.z).congr_of_eventuallyEq (hev.fun_comp Quat.z)

theorem dQdv_eq (v : V3) (i : Fin 3) (h : 1e-6 ≤ V3.norm v) : dQdv v i = dExp v (basisVec i) := by
  have hh : (0.5 : ℝ) * V3.norm v = V3.norm v / 2 := by norm_num; ring
  have hpos : 0 < V3.norm v := lt_of_lt_of_le (by norm_num) h
  unfold dQdv
  simp only [not_lt.mpr h, if_false, hh]
  simp only [dExp]
  generalize Real.sin (V3.norm v / 2) = s at *
  generalize Real.cos (V3.norm v / 2) = c at *
  simp only [show (0.5 : ℝ) = 1 / 2 by norm_num, show (-0.5 : ℝ) = -1 / 2 by norm_num, show (1.0 : ℝ) = 1 by norm_num]
  generalize V3.norm v = θ at *
  fin_cases i <;> ext <;> simp [-mul_eq_mul_right_iff, -mul_eq_mul_left_iff, entry, basisVec, V3.dot, V3.i, V3.j, V3.k] <;> field_simp <;> ring

/-- `exp` without reparameterization is exact around v. -/
theorem exp_false_exact (v : V3) (h : 1e-6 ≤ V3.norm v) : exp v false = exactExp v := by
  have hv : v ≠ 0 := by
    rintro rfl
    rw [V3.norm_eq_zero.mpr rfl] at h
    norm_num at h
  rw [exactExp_of_ne hv]
  unfold exp
  simp only [Bool.false_eq_true, if_false, not_lt.mpr h, V3.divs, V3.smul_x, V3.smul_y, V3.smul_z]
  ext <;> simp <;> ring

end ExpD
open ExpD

/-- **C79.** `dQdv_i` is the partial derivative of `exp`: for |v| > 1e-6 the curve t ↦ exp(v + t eᵢ) (no reparameterization) has
derivative dQdv_i(v, i) at t = 0; any other index than 0, 1, 2 raises. -/
theorem C79_dQdv (v : V3) (h : 1e-6 < V3.norm v) :
    (∀ i : Fin 3, ∃ q', dQdv_i v i = .ok q' ∧ QuatDeriv (fun t => exp (v + t • basisVec i) false) q' 0) ∧
    ∀ i : ℤ, i < 0 ∨ 3 ≤ i → dQdv_i v i = .error .assertionError := by
  have hv : v ≠ 0 := by
    rintro rfl
    rw [V3.norm_eq_zero.mpr rfl] at h
    norm_num at h
  refine ⟨fun i => ⟨dQdv v i, ?_, ?_⟩, fun i hi => ?_⟩
  · unfold dQdv_i
    rw [dif_pos ⟨by omega, by omega⟩]
    rfl
  · rw [dQdv_eq v i h.le]
    have hc := (norm_line v (basisVec i) hv).continuousAt
    have hev : (fun t : ℝ => exp (v + t • basisVec i) false) =ᶠ[nhds 0] fun t => exactExp (v + t • basisVec i) := by
      have : ∀ᶠ t : ℝ in nhds 0, 1e-6 < V3.norm (v + t • basisVec i) :=
        hc.eventually (lt_mem_nhds (by simp only [line_zero]; exact h))
      filter_upwards [this] with t ht
      exact exp_false_exact _ ht.le
    obtain ⟨h1, h2, h3, h4⟩ := exactExp_line v (basisVec i) hv
    exact ⟨h1.congr_of_eventuallyEq (hev.fun_comp Quat.s), h2.congr_of_eventuallyEq (hev.fun_comp Quat.x),
      h3.congr_of_eventuallyEq (hev.fun_comp Quat.y), h4.congr_of_eventuallyEq (hev.fun_comp Quat.z)⟩
  · unfold dQdv_i
    rw [dif_neg (by omega)]

/-- **C79.** Angular velocity: if v moves with the velocity dvdt(ω, v), then the quaternion q of v moves with q' = ½ (0, ω) q, i.e.
the body rotates with the world angular velocity ω.  For every v with |v| ≥ 1e-6 that is not a multiple of 2π long; for those
the call raises. -/
theorem C79_dvdt (omega v : V3) (h : 1e-6 ≤ V3.norm v) :
    (Real.sin (V3.norm v / 2) ≠ 0 → ∃ v', dvdt omega v = .ok v' ∧
      QuatDeriv (fun t => exactExp (v + t • v')) ((1 / 2 : ℝ) • Quat.prod (Quat.from_vector3 omega) (exactExp v)) 0) ∧
    (Real.sin (V3.norm v / 2) = 0 → dvdt omega v = .error .zeroDivision) := by
  have hh : (0.5 : ℝ) * V3.norm v = V3.norm v / 2 := by norm_num; ring
  have hpos : 0 < V3.norm v := lt_of_lt_of_le (by norm_num) h
  have hv : v ≠ 0 := by
    rintro rfl
    rw [V3.norm_eq_zero.mpr rfl] at hpos
    exact lt_irrefl _ hpos
  constructor
  · intro hs
    refine ⟨_, by unfold dvdt; simp only [not_lt.mpr h, if_false, hh, hs]; rfl, ?_⟩
    have := exactExp_line v ((0.5 : ℝ) • ((V3.norm v * (Real.cos (V3.norm v / 2) / Real.sin (V3.norm v / 2))) • omega + V3.cross omega v -
      (V3.dot v omega / V3.norm v * (Real.cos (V3.norm v / 2) / Real.sin (V3.norm v / 2) - 2.0 / V3.norm v)) • v)) hv
    convert this using 1
    have h2 := V3.norm_sq v
    rw [exactExp_of_ne hv]
    simp only [dExp]
    have hda : V3.dot v ((0.5 : ℝ) • ((V3.norm v * (Real.cos (V3.norm v / 2) / Real.sin (V3.norm v / 2))) • omega + V3.cross omega v -
      (V3.dot v omega / V3.norm v * (Real.cos (V3.norm v / 2) / Real.sin (V3.norm v / 2) - 2.0 / V3.norm v)) • v)) = V3.dot v omega := by
      rw [V3.dot_smul_right, V3.dot_sub_right, V3.dot_add_right, V3.dot_smul_right, V3.dot_smul_right, V3.dot_cross_right, ← h2]
      rw [show (0.5 : ℝ) = 1 / 2 by norm_num, show (2.0 : ℝ) = 2 by norm_num]
      field_simp
      ring
    rw [hda]
    rw [show (0.5 : ℝ) = 1 / 2 by norm_num, show (2.0 : ℝ) = 2 by norm_num]
    generalize Real.sin (V3.norm v / 2) = s at *
    generalize Real.cos (V3.norm v / 2) = c at *
    generalize V3.norm v = θ at *
    ext <;> simp [Quat.prod, Quat.from_vector3, Quat.vec, V3.dot, V3.cross] <;> field_simp <;> ring
  · intro hs
    unfold dvdt
    simp only [not_lt.mpr h, if_false, hh, hs, if_true]

namespace ExpD

theorem matDeriv_of_unit {q : ℝ → Quat} {q' : Quat} (hu : ∀ t, IsUnitQ (q t)) (h : QuatDeriv q q' 0) :
    MatDeriv (fun t => Quat.to_matrix (q t)) (dR (q 0) q') 0 := by
  obtain ⟨hs, hx, hy, hz⟩ := h
  have e : (fun t => Quat.to_matrix (q t)) = fun t => _ := funext fun t => Quat.to_matrix_of_unit (hu t)
  rw [e]
  have one := hasDerivAt_const (0 : ℝ) (1 : ℝ)
  intro i j
  fin_cases i <;> fin_cases j
  · exact (one.fun_sub (((hy.fun_mul hy).fun_add (hz.fun_mul hz)).const_mul 2)).congr_deriv (by simp [dR, M3.toMat]; ring)
  · exact (((hx.fun_mul hy).fun_sub (hs.fun_mul hz)).const_mul 2).congr_deriv (by simp [dR, M3.toMat]; ring)
  · exact (((hs.fun_mul hy).fun_add (hx.fun_mul hz)).const_mul 2).congr_deriv (by simp [dR, M3.toMat]; ring)
  · exact (((hx.fun_mul hy).fun_add (hs.fun_mul hz)).const_mul 2).congr_deriv (by simp [dR, M3.toMat]; ring)
  · exact (one.fun_sub (((hx.fun_mul hx).fun_add (hz.fun_mul hz)).const_mul 2)).congr_deriv (by simp [dR, M3.toMat]; ring)
  · exact (((hz.fun_mul hy).fun_sub (hs.fun_mul hx)).const_mul 2).congr_deriv (by simp [dR, M3.toMat]; ring)
  · exact (((hs.fun_neg.fun_mul hy).fun_add (hx.fun_mul hz)).const_mul 2).congr_deriv (by simp [dR, M3.toMat]; ring)
  · exact (((hz.fun_mul hy).fun_add (hs.fun_mul hx)).const_mul 2).congr_deriv (by simp [dR, M3.toMat]; ring)
  · exact (one.fun_sub (((hy.fun_mul hy).fun_add (hx.fun_mul hx)).const_mul 2)).congr_deriv (by simp [dR, M3.toMat]; ring)

/-- The reparameterization adds n full turns and so flips the sign of the quaternion n times. -/
theorem exp_sign (w : V3) (n : ℤ) (h1 : 1e-6 < |V3.norm w - 2 * Real.pi * n|) (h2 : |V3.norm w - 2 * Real.pi * n| < Real.pi)
    (hw : w ≠ 0) : exp w = ((-1 : ℝ) ^ n) • exactExp w := by
  obtain ⟨k, m, hk, hkn, hle⟩ := reparam_factor w hw
  have hp := V3.norm_pos hw
  have hmn : m = n := by
    rw [hkn, abs_le] at hle
    rw [abs_lt] at h2
    have hpi := Real.pi_pos
    have a1 : (m : ℝ) - n < 1 := by
      have : 2 * Real.pi * ((m : ℝ) - n) < 2 * Real.pi * 1 := by linarith
      exact lt_of_mul_lt_mul_left this (by positivity)
    have a2 : (n : ℝ) - m < 1 := by
      have : 2 * Real.pi * ((n : ℝ) - m) < 2 * Real.pi * 1 := by linarith
      exact lt_of_mul_lt_mul_left this (by positivity)
    have b1 : (m - n : ℤ) < 1 := by exact_mod_cast a1
    have b2 : (n - m : ℤ) < 1 := by exact_mod_cast a2
    omega
  subst hmn
  have hnorm : 1e-6 ≤ V3.norm (k • w) := by
    rw [norm_smul_V3, ← abs_of_pos hp, ← abs_mul, hkn]; exact h1.le
  have he : exp w = exp (k • w) false := by
    unfold exp
    simp only [if_true, hk, Bool.false_eq_true, if_false]
  rw [he, exp_false_exact _ hnorm, exactExp_smul hw, exactExp_of_ne hw, hkn,
    show (V3.norm w - 2 * Real.pi * m) / 2 = V3.norm w / 2 - m * Real.pi by ring, Real.cos_sub_int_mul_pi, Real.sin_sub_int_mul_pi]
  ext <;> simp <;> ring

end ExpD

/-- **C79.** `dRdv_i` and the partial derivative of `to_matrix`: for |v| between (2n-1)π and (2n+1)π (and farther than 1e-6 from 2nπ)
the entries of t ↦ to_matrix(v + t eᵢ) have at t = 0 the derivatives (-1)ⁿ dRdv_i(v, i).  So the result is the derivative for
|v| < π (n = 0), and minus the derivative for π < |v| < 2π (n = 1): the quaternion is reparameterized, its derivative is not. -/
theorem C79_dRdv_partial (v : V3) (n : ℤ) (h1 : 1e-6 < |V3.norm v - 2 * Real.pi * n|) (h2 : |V3.norm v - 2 * Real.pi * n| < Real.pi)
    (hbig : 1e-6 ≤ V3.norm v) (i : Fin 3) :
    ∃ R', dRdv_i v i = .ok R' ∧
      MatDeriv (fun t => ExpMap.to_matrix (v + t • basisVec i)) (((-1 : ℝ) ^ n) • R') 0 := by
  have hv : v ≠ 0 := by
    rintro rfl
    rw [V3.norm_eq_zero.mpr rfl] at hbig
    norm_num at hbig
  have hne : ((-1 : ℝ) ^ n) ≠ 0 := zpow_ne_zero _ (by norm_num)
  refine ⟨dR (((-1 : ℝ) ^ n) • exactExp v) (dQdv v i), ?_, ?_⟩
  · unfold dRdv_i dQdv_i
    rw [dif_pos ⟨by omega, by omega⟩, exp_sign v n h1 h2 hv]
    rfl
  · have hsq : ((-1 : ℝ) ^ n) * ((-1 : ℝ) ^ n) = 1 := by
      rw [← mul_zpow]; norm_num
    have hlin : ((-1 : ℝ) ^ n) • dR (((-1 : ℝ) ^ n) • exactExp v) (dQdv v i) = dR (exactExp v) (dQdv v i) := by
      generalize ((-1 : ℝ) ^ n) = c at *
      generalize exactExp v = q
      generalize dQdv v i = d
      ext <;> simp [dR]
      · linear_combination (-4 * q.y * d.y - 4 * q.z * d.z) * hsq
      · linear_combination (2 * (q.y * d.x + q.x * d.y) - 2 * (q.s * d.z + q.z * d.s)) * hsq
      · linear_combination (2 * (q.z * d.x + q.x * d.z) + 2 * (q.s * d.y + q.y * d.s)) * hsq
      · linear_combination (2 * (q.y * d.x + q.x * d.y) + 2 * (q.s * d.z + q.z * d.s)) * hsq
      · linear_combination (-4 * q.x * d.x - 4 * q.z * d.z) * hsq
      · linear_combination (2 * (q.z * d.y + q.y * d.z) - 2 * (q.s * d.x + q.x * d.s)) * hsq
      · linear_combination (2 * (q.z * d.x + q.x * d.z) - 2 * (q.s * d.y + q.y * d.s)) * hsq
      · linear_combination (2 * (q.z * d.y + q.y * d.z) + 2 * (q.s * d.x + q.x * d.s)) * hsq
      · linear_combination (-4 * q.x * d.x - 4 * q.y * d.y) * hsq
    rw [hlin, dQdv_eq v i hbig]
    have hm := matDeriv_of_unit (fun t => exactExp_unit _) (exactExp_line v (basisVec i) hv)
    rw [line_zero] at hm
    have hc := (norm_line v (basisVec i) hv).continuousAt
    have hc' : ContinuousAt (fun t : ℝ => |V3.norm (v + t • basisVec i) - 2 * Real.pi * n|) 0 :=
      (hc.sub continuousAt_const).abs
    have hev : (fun t : ℝ => ExpMap.to_matrix (v + t • basisVec i)) =ᶠ[nhds 0] fun t => Quat.to_matrix (exactExp (v + t • basisVec i)) := by
      have e1 : ∀ᶠ t : ℝ in nhds 0, 1e-6 < |V3.norm (v + t • basisVec i) - 2 * Real.pi * n| :=
        hc'.eventually (lt_mem_nhds (by simp only [line_zero]; exact h1))
      have e2 : ∀ᶠ t : ℝ in nhds 0, |V3.norm (v + t • basisVec i) - 2 * Real.pi * n| < Real.pi :=
        hc'.eventually (gt_mem_nhds (by simp only [line_zero]; exact h2))
      filter_upwards [e1, e2, line_ne v (basisVec i) hv] with t t1 t2 t3
      unfold ExpMap.to_matrix
      rw [exp_sign _ n t1 t2 t3, C03_to_matrix_scale _ _ hne]
    intro a b
    exact (hm a b).congr_of_eventuallyEq (hev.fun_comp fun A => A.toMat a b)

theorem norm_add_V3 (a b : V3) : V3.norm (a + b) ≤ V3.norm a + V3.norm b := by
  have h := V3.dot_le_norm_mul a b
  have ha := V3.norm_nonneg a
  have hb := V3.norm_nonneg b
  refine abs_le_of_sq_le_sq' ?_ (by positivity) |>.2
  rw [V3.norm_sq, V3.dot_add_left, V3.dot_add_right, V3.dot_add_right, ← V3.norm_sq, ← V3.norm_sq, V3.dot_comm b a]
  nlinarith

/-- **C79.** In the series branch (|v| < 1e-6) `dvdt` agrees with ω + ω × v / 2, the derivative up to first order in v. -/
theorem C79_dvdt_series (omega v : V3) (h : V3.norm v < 1e-6) :
    ∃ v', dvdt omega v = .ok v' ∧
      V3.norm (v' - (omega + (1 / 2 : ℝ) • V3.cross omega v)) ≤ V3.norm v ^ 2 * V3.norm omega / 5 := by
  refine ⟨_, by unfold dvdt; simp only [h, if_true]; rfl, ?_⟩
  have e : (0.5 : ℝ) • (((12.0 - V3.norm v ^ 2) / 6.0) • omega + V3.cross omega v -
      (V3.dot v omega * (60.0 + V3.norm v ^ 2) / 360.0) • v) - (omega + (1 / 2 : ℝ) • V3.cross omega v) =
      (-(V3.norm v ^ 2 / 12)) • omega + (-(V3.dot v omega * (60 + V3.norm v ^ 2) / 720)) • v := by
    simp only [show (0.5 : ℝ) = 1 / 2 by norm_num, show (12.0 : ℝ) = 12 by norm_num, show (6.0 : ℝ) = 6 by norm_num,
      show (60.0 : ℝ) = 60 by norm_num, show (360.0 : ℝ) = 360 by norm_num]
    ext <;> simp <;> ring
  rw [e]
  refine (norm_add_V3 _ _).trans ?_
  rw [norm_smul_V3, norm_smul_V3, abs_neg, abs_neg, abs_of_nonneg (by positivity), abs_div, abs_mul]
  have h1 : |V3.dot v omega| ≤ V3.norm v * V3.norm omega := by
    rw [abs_le]
    have a := V3.dot_le_norm_mul v omega
    have b := V3.dot_le_norm_mul ((-1 : ℝ) • v) omega
    rw [norm_smul_V3, V3.dot_smul_left] at b
    norm_num at b
    exact ⟨by linarith, a⟩
  have hn := V3.norm_nonneg v
  have ho := V3.norm_nonneg omega
  have h2 : |60 + V3.norm v ^ 2| ≤ 61 := by
    rw [abs_of_nonneg (by positivity)]
    have : V3.norm v ^ 2 ≤ 1 := by
      have : V3.norm v ≤ 1 := by norm_num at h; linarith
      nlinarith
    linarith
  have h3 : |V3.dot v omega| * |60 + V3.norm v ^ 2| ≤ V3.norm v * V3.norm omega * 61 :=
    mul_le_mul h1 h2 (abs_nonneg _) (by positivity)
  rw [abs_of_pos (by norm_num : (0 : ℝ) < 720)]
  have h4 : |V3.dot v omega| * |60 + V3.norm v ^ 2| / 720 * V3.norm v ≤ V3.norm v * V3.norm omega * 61 / 720 * V3.norm v := by
    gcongr
  have : 0 ≤ V3.norm v ^ 2 * V3.norm omega := by positivity
  nlinarith

/-- Hypotheses of `C79_dRdv_partial` for n = 0: a turn by one radian about x. -/
example : (1e-6 : ℝ) < |V3.norm ⟨1, 0, 0⟩ - 2 * Real.pi * (0 : ℤ)| ∧ |V3.norm ⟨1, 0, 0⟩ - 2 * Real.pi * (0 : ℤ)| < Real.pi := by
  have h1 : V3.norm ⟨1, 0, 0⟩ = 1 := by simp [V3.norm, V3.dot]
  have := Real.pi_gt_three
  rw [h1]
  norm_num
  linarith

/-- **C79.** A vector of length 4 (between π and 2π), on which `dRdv_i` has the wrong sign: the second partial derivative of the
rotation matrix at (4, 0, 0) is not zero, and what is returned is its negative. -/
theorem C79_dRdv_wrong : ∃ R' : M3, dRdv_i ⟨4, 0, 0⟩ 1 = .ok R' ∧
    ¬ MatDeriv (fun t => ExpMap.to_matrix (⟨4, 0, 0⟩ + t • basisVec 1)) R' 0 := by
  have hn : V3.norm ⟨4, 0, 0⟩ = 4 := by
    simp only [V3.norm, V3.dot]
    rw [show (4 * 4 + 0 * 0 + 0 * 0 : ℝ) = 4 ^ 2 by norm_num, Real.sqrt_sq (by norm_num)]
  have p3 := Real.pi_gt_three
  have p4 := Real.pi_lt_d2
  have hd : V3.norm ⟨4, 0, 0⟩ - 2 * Real.pi * (1 : ℤ) < 0 := by rw [hn]; push_cast; linarith
  obtain ⟨R', hR, hM⟩ := C79_dRdv_partial ⟨4, 0, 0⟩ 1 (by rw [abs_of_neg hd, hn]; push_cast; norm_num; linarith)
    (by rw [abs_of_neg hd, hn]; push_cast; linarith) (by rw [hn]; norm_num) 1
  refine ⟨R', hR, fun hw => ?_⟩
  have hz : ∀ i j, R'.toMat i j = 0 := fun i j => by
    have := (hM i j).unique (hw i j)
    have e : ((((-1 : ℝ) ^ (1 : ℤ)) • R').toMat i j) = -R'.toMat i j := by
      fin_cases i <;> fin_cases j <;> simp [M3.toMat]
    rw [e] at this
    linarith
  -- the entry (0, 1) of the result is sin(2)² ≠ 0
  have hq : R' = dR (exp ⟨4, 0, 0⟩) (dQdv ⟨4, 0, 0⟩ 1) := by
    have : dRdv_i ⟨4, 0, 0⟩ 1 = .ok (dR (exp ⟨4, 0, 0⟩) (dQdv ⟨4, 0, 0⟩ 1)) := rfl
    have h' : dRdv_i ⟨4, 0, 0⟩ 1 = .ok R' := hR
    rw [this] at h'
    cases h'; rfl
  have hne : (⟨4, 0, 0⟩ : V3) ≠ 0 := by
    intro h
    have := congrArg V3.x h
    norm_num at this
  rw [exp_sign ⟨4, 0, 0⟩ 1 (by rw [abs_of_neg hd, hn]; push_cast; norm_num; linarith)
    (by rw [abs_of_neg hd, hn]; push_cast; linarith) hne, dQdv_eq _ _ (by rw [hn]; norm_num), exactExp_of_ne hne] at hq
  have h01 := hz 0 1
  rw [hq] at h01
  simp [dR, dExp, hn, M3.toMat, basisVec, V3.j, V3.dot] at h01
  have hs : 0 < Real.sin (4 / 2) := Real.sin_pos_of_pos_of_lt_pi (by norm_num) (by norm_num; linarith)
  have : Real.sin (4 / 2) ≠ 0 := hs.ne'
  simp_all

/-- **C79.** In the series branch the last term of `dvdt` has the wrong sign.  Spinning about the axis of v itself the exact answer is
ω (first part); the call returns a vector shorter by at least θ²/6, where its own series, with the right sign, would be off by
θ⁴/720 only. -/
theorem C79_dvdt_series_sign (θ : ℝ) (h0 : 0 < θ) (h : θ < 1e-6) :
    QuatDeriv (fun t => exactExp (⟨θ, 0, 0⟩ + t • ⟨1, 0, 0⟩))
      ((1 / 2 : ℝ) • Quat.prod (Quat.from_vector3 ⟨1, 0, 0⟩) (exactExp ⟨θ, 0, 0⟩)) 0 ∧
    ∃ v', dvdt ⟨1, 0, 0⟩ ⟨θ, 0, 0⟩ = .ok v' ∧ v'.x ≤ 1 - θ ^ 2 / 6 := by
  have hn : V3.norm ⟨θ, 0, 0⟩ = θ := by
    simp only [V3.norm, V3.dot]
    rw [show θ * θ + 0 * 0 + 0 * 0 = θ ^ 2 by ring, Real.sqrt_sq h0.le]
  have hne : (⟨θ, 0, 0⟩ : V3) ≠ 0 := by
    intro e
    have := congrArg V3.x e
    simp at this
    exact h0.ne' this
  constructor
  · have := exactExp_line ⟨θ, 0, 0⟩ ⟨1, 0, 0⟩ hne
    convert this using 1
    rw [exactExp_of_ne hne]
    simp only [dExp, hn]
    ext <;> simp [Quat.prod, Quat.from_vector3, Quat.vec, V3.dot, V3.cross] <;> field_simp
    ring
  · refine ⟨_, by unfold dvdt; simp only [hn, h, if_true]; rfl, ?_⟩
    simp only [show (0.5 : ℝ) = 1 / 2 by norm_num, show (12.0 : ℝ) = 12 by norm_num, show (6.0 : ℝ) = 6 by norm_num,
      show (60.0 : ℝ) = 60 by norm_num, show (360.0 : ℝ) = 360 by norm_num]
    simp [V3.dot, V3.cross]
    have : 0 ≤ θ ^ 4 := by positivity
    nlinarith

end Verif
