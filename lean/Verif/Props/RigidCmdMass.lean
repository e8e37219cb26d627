import Verif.Props.RigidCmd

/-! C124: the sphere of the program has a mass. -/

namespace Verif

open Rigid Rigid.SceneM SMesh Collision
open VMesh (Tri)

theorem cmd_sphere_heavy {VT : List V3 × List Tri} (h : create_sphere 1 16 16 = .ok VT) : 1 / 10 < enclosedVolume VT.1 VT.2 := by
  have hpi := Real.pi_pos
  have hlen := sphereProfile_length 1 16
  have hok : profile_sweep (sphereProfile 1 16) 16 = .ok (VT.1, VT.2) := by
    unfold create_sphere at h
    rw [if_neg (by norm_num)] at h
    exact h
  have hget : ∀ i < 16, (sphereProfile 1 16).getD i 0 = ⟨Real.sin (Real.pi / 15 * i), -Real.cos (Real.pi / 15 * i), 0⟩ := by
    intro i hi
    rw [sphereProfile_get 1 hi]
    norm_num
  rw [C33_sweep_volume _ _ _ _ hok]
  · have hx : ∀ i < 16, 0 ≤ ((sphereProfile 1 16).getD i 0).x := by
      intro i hi
      rw [hget i hi]
      refine Real.sin_nonneg_of_nonneg_of_le_pi (by positivity) ?_
      have : (i : ℝ) ≤ 15 := by exact_mod_cast (by omega : i ≤ 15)
      nlinarith
    have hy : ∀ i < 15, 0 ≤ ((sphereProfile 1 16).getD (i + 1) 0).y - ((sphereProfile 1 16).getD i 0).y := by
      intro i hi
      rw [hget i (by omega), hget (i + 1) (by omega)]
      have h1 : (i : ℝ) ≤ 14 := by exact_mod_cast (by omega : i ≤ 14)
      have : Real.cos (Real.pi / 15 * ((i + 1 : ℕ) : ℝ)) ≤ Real.cos (Real.pi / 15 * (i : ℝ)) := by
        refine Real.cos_le_cos_of_nonneg_of_le_pi (by positivity) ?_ ?_
        · push_cast; nlinarith
        · push_cast; nlinarith
      simp only
      linarith
    have hterm := Finset.single_le_sum (s := Finset.range ((sphereProfile 1 16).length - 1))
      (f := fun i => (((sphereProfile 1 16).getD (i + 1) 0).y - ((sphereProfile 1 16).getD i 0).y) *
          (((sphereProfile 1 16).getD i 0).x ^ 2 + ((sphereProfile 1 16).getD i 0).x * ((sphereProfile 1 16).getD (i + 1) 0).x +
            ((sphereProfile 1 16).getD (i + 1) 0).x ^ 2)) (fun i hi => by
        rw [hlen, Finset.mem_range] at hi
        have a := hx i (by omega)
        have b := hx (i + 1) (by omega)
        have c := hy i (by omega)
        positivity) (a := 7) (by rw [hlen]; decide)
    have e7 : Real.pi / 15 * ((7 : ℕ) : ℝ) = Real.pi / 2 - Real.pi / 30 := by push_cast; ring
    have e8 : Real.pi / 15 * ((7 + 1 : ℕ) : ℝ) = Real.pi / 2 + Real.pi / 30 := by push_cast; ring
    simp only [hget 7 (by norm_num), hget (7 + 1) (by norm_num), e7, e8, Real.sin_pi_div_two_sub, Real.cos_pi_div_two_sub,
      Real.sin_add, Real.cos_add, Real.sin_pi_div_two, Real.cos_pi_div_two] at hterm
    have hs : 1 / 15 ≤ Real.sin (Real.pi / 30) := by
      have := Real.mul_le_sin (x := Real.pi / 30) (by positivity) (by linarith)
      rw [show 2 / Real.pi * (Real.pi / 30) = 1 / 15 by field_simp; norm_num] at this
      exact this
    have hc : 9 / 10 ≤ Real.cos (Real.pi / 30) := by
      have h3 : (Real.pi / 30) ≤ 4 / 30 := by linarith [Real.pi_le_four]
      have := Real.one_sub_sq_div_two_le_cos (x := Real.pi / 30)
      have h4 : (Real.pi / 30) ^ 2 ≤ (4 / 30) ^ 2 := pow_le_pow_left₀ (by positivity) h3 2
      nlinarith
    have hs8 : 1 / 4 ≤ Real.sin (2 * Real.pi / (16 : ℕ)) := by
      have := Real.mul_le_sin (x := Real.pi / 8) (by positivity) (by linarith)
      rw [show 2 / Real.pi * (Real.pi / 8) = 1 / 4 by field_simp; norm_num] at this
      rw [show 2 * Real.pi / ((16 : ℕ) : ℝ) = Real.pi / 8 by push_cast; ring]
      exact this
    have hbig : 3 / 10 < ∑ i ∈ Finset.range ((sphereProfile 1 16).length - 1),
        (((sphereProfile 1 16).getD (i + 1) 0).y - ((sphereProfile 1 16).getD i 0).y) *
          (((sphereProfile 1 16).getD i 0).x ^ 2 + ((sphereProfile 1 16).getD i 0).x * ((sphereProfile 1 16).getD (i + 1) 0).x +
            ((sphereProfile 1 16).getD (i + 1) 0).x ^ 2) := by
      refine lt_of_lt_of_le ?_ hterm
      have hc2 : 81 / 100 ≤ Real.cos (Real.pi / 30) ^ 2 := by nlinarith
      nlinarith [mul_le_mul hs hc2 (by norm_num) (le_trans (by norm_num) hs)]
    have h16 : ((16 : ℕ) : ℝ) = 16 := by norm_num
    rw [h16] at hs8 ⊢
    nlinarith
  · intro p hp
    simp only [sphereProfile, List.mem_map, List.mem_range] at hp
    obtain ⟨i, hi, rfl⟩ := hp
    rw [rotate_Ru_k]
  · rw [hget 0 (by norm_num)]; simp
  · rw [hlen, hget (16 - 1) (by norm_num)]
    show Real.sin (Real.pi / 15 * ((15 : ℕ) : ℝ)) = 0
    rw [show Real.pi / 15 * ((15 : ℕ) : ℝ) = Real.pi by push_cast; ring, Real.sin_pi]

end Verif
