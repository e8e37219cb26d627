import Mathlib.MeasureTheory.Integral.IntervalIntegral.FundThmCalculus
import Mathlib.Analysis.SpecialFunctions.Integrals.Basic
import Verif.Props.MeshVolume

/-! Specification for mass properties: the integral of a density over the solid enclosed by an oriented triangle mesh. -/

namespace Verif

open VMesh (Tri)

/-- The integral of f over the tetrahedron with corners 0, a, b, c, counted negatively when (a, b, c) is left handed:
the integral over the reference tetrahedron, times the Jacobian det(a, b, c). -/
noncomputable def tetIntegral (f : V3 → ℝ) (a b c : V3) : ℝ :=
  det3 a b c * ∫ s in (0:ℝ)..1, ∫ t in (0:ℝ)..(1 - s), ∫ u in (0:ℝ)..(1 - s - t), f (s • a + t • b + u • c)

/-- The integral of f over the solid bounded by the mesh: the signed sum over the tetrahedra spanned by the origin and the
triangles. -/
noncomputable def solidIntegral (f : V3 → ℝ) (V : List V3) (T : List Tri) : ℝ :=
  (T.map fun t => tetIntegral f (V.getD t.a 0) (V.getD t.b 0) (V.getD t.c 0)).sum

theorem integral_poly4 (h A B C D E : ℝ) :
    ∫ u in (0:ℝ)..h, (A + B * u + C * u ^ 2 + D * u ^ 3 + E * u ^ 4) =
      A * h + B * h ^ 2 / 2 + C * h ^ 3 / 3 + D * h ^ 4 / 4 + E * h ^ 5 / 5 := by
  have hd : ∀ u ∈ Set.uIcc (0:ℝ) h, HasDerivAt (fun u => A * u + B * u ^ 2 / 2 + C * u ^ 3 / 3 + D * u ^ 4 / 4 + E * u ^ 5 / 5)
      (A + B * u + C * u ^ 2 + D * u ^ 3 + E * u ^ 4) u := by
    intro u _
    have h1 := (hasDerivAt_id u).const_mul A
    have h2 := (((hasDerivAt_id u).pow 2).const_mul B).div_const 2
    have h3 := (((hasDerivAt_id u).pow 3).const_mul C).div_const 3
    have h4 := (((hasDerivAt_id u).pow 4).const_mul D).div_const 4
    have h5 := (((hasDerivAt_id u).pow 5).const_mul E).div_const 5
    have := (((h1.add h2).add h3).add h4).add h5
    refine HasDerivAt.congr_deriv this ?_
    simp
    ring
  rw [intervalIntegral.integral_eq_sub_of_hasDerivAt hd]
  · ring
  · apply Continuous.intervalIntegrable
    fun_prop

/-- The integral of a quadratic polynomial over the reference tetrahedron. -/
theorem integral_reference (k0 k1 k2 k3 k4 k5 k6 k7 k8 k9 : ℝ) :
    ∫ s in (0:ℝ)..1, ∫ t in (0:ℝ)..(1 - s), ∫ u in (0:ℝ)..(1 - s - t),
      (k0 + k1 * s + k2 * t + k3 * u + k4 * s ^ 2 + k5 * t ^ 2 + k6 * u ^ 2 + k7 * (s * t) + k8 * (s * u) + k9 * (t * u)) =
    k0 / 6 + (k1 + k2 + k3) / 24 + (k4 + k5 + k6) / 60 + (k7 + k8 + k9) / 120 := by
  have hi : ∀ s t : ℝ, (∫ u in (0:ℝ)..(1 - s - t),
      (k0 + k1 * s + k2 * t + k3 * u + k4 * s ^ 2 + k5 * t ^ 2 + k6 * u ^ 2 + k7 * (s * t) + k8 * (s * u) + k9 * (t * u))) =
      ((k0 + k1 * s + k4 * s ^ 2) * (1 - s) + (k3 + k8 * s) * (1 - s) ^ 2 / 2 + k6 * (1 - s) ^ 3 / 3) +
      ((k2 + k7 * s) * (1 - s) - (k0 + k1 * s + k4 * s ^ 2) + k9 * (1 - s) ^ 2 / 2 - (k3 + k8 * s) * (1 - s) - k6 * (1 - s) ^ 2) * t +
      (k5 * (1 - s) - (k2 + k7 * s) + (k3 + k8 * s) / 2 - k9 * (1 - s) + k6 * (1 - s)) * t ^ 2 +
      (-k5 + k9 / 2 - k6 / 3) * t ^ 3 + 0 * t ^ 4 := by
    intro s t
    have := integral_poly4 (1 - s - t) (k0 + k1 * s + k2 * t + k4 * s ^ 2 + k5 * t ^ 2 + k7 * (s * t)) (k3 + k8 * s + k9 * t) k6 0 0
    rw [show (∫ u in (0:ℝ)..(1 - s - t),
      (k0 + k1 * s + k2 * t + k3 * u + k4 * s ^ 2 + k5 * t ^ 2 + k6 * u ^ 2 + k7 * (s * t) + k8 * (s * u) + k9 * (t * u))) = _ from
      (by congr 1; funext u; ring : _ = ∫ u in (0:ℝ)..(1 - s - t), ((k0 + k1 * s + k2 * t + k4 * s ^ 2 + k5 * t ^ 2 + k7 * (s * t)) +
        (k3 + k8 * s + k9 * t) * u + k6 * u ^ 2 + 0 * u ^ 3 + 0 * u ^ 4)).trans this]
    ring
  simp only [hi]
  simp only [integral_poly4]
  have := integral_poly4 1 (k0 / 2 + (k2 + k3) / 6 + (k5 / 12 + k9 / 24 + k6 / 12))
    ((k1 - 2 * k0) / 2 + (k7 + k8 - 3 * (k2 + k3)) / 6 - 4 * (k5 / 12 + k9 / 24 + k6 / 12))
    ((k4 - 2 * k1 + k0) / 2 + (3 * (k2 + k3) - 3 * (k7 + k8)) / 6 + 6 * (k5 / 12 + k9 / 24 + k6 / 12))
    ((-2 * k4 + k1) / 2 + (3 * (k7 + k8) - (k2 + k3)) / 6 - 4 * (k5 / 12 + k9 / 24 + k6 / 12))
    (k4 / 2 - (k7 + k8) / 6 + (k5 / 12 + k9 / 24 + k6 / 12))
  refine Eq.trans ?_ (this.trans ?_)
  · congr 1
    funext s
    ring
  · ring

/-- The product of two affine functions. -/
theorem tetIntegral_affine (f : V3 → ℝ) (a b c : V3) (p0 p1 p2 p3 q0 q1 q2 q3 : ℝ)
    (hf : ∀ s t u : ℝ, f (s • a + t • b + u • c) = (p0 + p1 * s + p2 * t + p3 * u) * (q0 + q1 * s + q2 * t + q3 * u)) :
    tetIntegral f a b c = det3 a b c * (p0 * q0 / 6 + (p0 * (q1 + q2 + q3) + q0 * (p1 + p2 + p3)) / 24 +
      (p1 * q1 + p2 * q2 + p3 * q3) / 60 + (p1 * q2 + p2 * q1 + p1 * q3 + p3 * q1 + p2 * q3 + p3 * q2) / 120) := by
  unfold tetIntegral
  congr 1
  simp only [hf]
  have := integral_reference (p0 * q0) (p0 * q1 + p1 * q0) (p0 * q2 + p2 * q0) (p0 * q3 + p3 * q0) (p1 * q1) (p2 * q2) (p3 * q3)
    (p1 * q2 + p2 * q1) (p1 * q3 + p3 * q1) (p2 * q3 + p3 * q2)
  refine Eq.trans ?_ (this.trans ?_)
  · congr 1
    funext s
    congr 1
    funext t
    congr 1
    funext u
    ring
  · ring

end Verif
