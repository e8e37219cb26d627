import Verif.Props.FullHull

/-! C33: the torus: its volume, its centre of mass, and that it is a solid (although not star shaped). -/

namespace Verif

open Rigid SMesh
open VMesh (Tri)

/-! ### Sums of cosines over a full turn -/

/-- the n-th part of a full turn -/
noncomputable def turn (n : ℕ) : ℝ := 2 * Real.pi / n

theorem turn_all {n : ℕ} (hn : 0 < n) : (n : ℝ) * turn n = 2 * Real.pi := by
  unfold turn
  have : (n : ℝ) ≠ 0 := by positivity
  field_simp

theorem cos_turn_mod {n : ℕ} (hn : 0 < n) {i : ℕ} (hi : i < n) : Real.cos (((i + 1) % n : ℕ) * turn n) = Real.cos (((i : ℝ) + 1) * turn n) ∧
    Real.sin (((i + 1) % n : ℕ) * turn n) = Real.sin (((i : ℝ) + 1) * turn n) := by
  by_cases h : i + 1 < n
  · rw [Nat.mod_eq_of_lt h]; push_cast; exact ⟨rfl, rfl⟩
  · have h1 : i + 1 = n := by omega
    have h2 : ((i : ℝ) + 1) * turn n = 2 * Real.pi := by
      rw [← turn_all hn, ← h1]; push_cast; rfl
    rw [h2, h1, Nat.mod_self]
    simp

/-- sums over a full turn do not notice a shift by one -/
theorem sum_shift {n : ℕ} (f : ℕ → ℝ) (h : f n = f 0) : ∑ i ∈ Finset.range n, f (i + 1) = ∑ i ∈ Finset.range n, f i := by
  have h1 := Finset.sum_range_succ f n
  have h2 := Finset.sum_range_succ' f n
  rw [h1] at h2
  linarith

theorem turn_sums {n : ℕ} (hn : 2 ≤ n) : ∑ i ∈ Finset.range n, Real.cos ((i : ℝ) * turn n) = 0 ∧
    ∑ i ∈ Finset.range n, Real.sin ((i : ℝ) * turn n) = 0 := by
  have hn0 : 0 < n := by omega
  obtain ⟨C, hC⟩ : ∃ C, C = ∑ i ∈ Finset.range n, Real.cos ((i : ℝ) * turn n) := ⟨_, rfl⟩
  obtain ⟨S, hS⟩ : ∃ S, S = ∑ i ∈ Finset.range n, Real.sin ((i : ℝ) * turn n) := ⟨_, rfl⟩
  have h1 : C = Real.cos (turn n) * C - Real.sin (turn n) * S := by
    conv_lhs => rw [hC, ← sum_shift _ (by rw [turn_all hn0]; simp)]
    rw [hC, hS, Finset.mul_sum, Finset.mul_sum, ← Finset.sum_sub_distrib]
    apply Finset.sum_congr rfl
    intro i _
    push_cast
    rw [add_mul, one_mul, Real.cos_add]; ring
  have h2 : S = Real.sin (turn n) * C + Real.cos (turn n) * S := by
    conv_lhs => rw [hS, ← sum_shift _ (by rw [turn_all hn0]; simp)]
    rw [hC, hS, Finset.mul_sum, Finset.mul_sum, ← Finset.sum_add_distrib]
    apply Finset.sum_congr rfl
    intro i _
    push_cast
    rw [add_mul, one_mul, Real.sin_add]; ring
  have h3 : Real.cos (turn n) < 1 := by
    have hp := Real.pi_pos
    have ht : 0 < turn n := by unfold turn; positivity
    have ht2 : turn n ≤ Real.pi := by
      unfold turn
      rw [div_le_iff₀ (by positivity)]
      have : (2 : ℝ) ≤ n := by exact_mod_cast hn
      nlinarith
    have := Real.cos_lt_cos_of_nonneg_of_le_pi le_rfl ht2 ht
    rwa [Real.cos_zero] at this
  rw [← hC, ← hS]
  have h4 := Real.sin_sq_add_cos_sq (turn n)
  generalize Real.cos (turn n) = c at *
  generalize Real.sin (turn n) = s at *
  have h5 : (1 - c) * C = -(s * S) := by linarith
  have h6 : (1 - c) * S = s * C := by linarith
  have h7 : (2 * (1 - c)) * C = 0 := by
    have : (1 - c) * ((1 - c) * C) + s * (s * C) = 0 := by rw [h5, ← h6]; ring
    linear_combination this - C * h4
  have h8 : (2 * (1 - c)) * S = 0 := by
    have : (1 - c) * ((1 - c) * S) + s * (s * S) = 0 := by
      rw [h6, show s * S = -((1 - c) * C) by linarith]; ring
    linear_combination this - S * h4
  have h9 : 2 * (1 - c) ≠ 0 := by intro h; linarith
  exact ⟨(mul_eq_zero.1 h7).resolve_left h9, (mul_eq_zero.1 h8).resolve_left h9⟩

/-! ### The vertices and the quads -/

/-- distance from the axis and height of the points of the profile circle -/
noncomputable def tl (R r : ℝ) (I : ℕ) (i : ℕ) : ℝ := r * Real.cos ((i : ℝ) * turn I) + R
noncomputable def tz (r : ℝ) (I : ℕ) (i : ℕ) : ℝ := r * Real.sin ((i : ℝ) * turn I)

/-- vertex (k, i), with both indices running on beyond a full turn -/
noncomputable def tp (R r : ℝ) (I K k i : ℕ) : V3 :=
  ⟨tl R r I i * Real.cos ((k : ℝ) * turn K), tl R r I i * Real.sin ((k : ℝ) * turn K), tz r I i⟩

theorem torus_get {R r : ℝ} {I K k i : ℕ} (hk : k < K) (hi : i < I) : (torusV R r I K).getD (k * I + i) 0 = tp R r I K k i := by
  unfold torusV
  rw [getD_flatMap_const I _ (by intro a; simp) _ _ _ (by simpa using hk) hi, List.getD_eq_getElem _ _ (by simpa using hi)]
  simp only [List.getElem_map, List.getElem_range]
  rfl

theorem torus_get_next {R r : ℝ} {I K k i : ℕ} (hk : k < K) (hi : i < I) :
    (torusV R r I K).getD (k * I + (i + 1) % I) 0 = tp R r I K k (i + 1) ∧
    (torusV R r I K).getD ((k + 1) % K * I + i) 0 = tp R r I K (k + 1) i ∧
    (torusV R r I K).getD ((k + 1) % K * I + (i + 1) % I) 0 = tp R r I K (k + 1) (i + 1) := by
  have hI : 0 < I := by omega
  have hK : 0 < K := by omega
  obtain ⟨c1, s1⟩ := cos_turn_mod hI hi
  obtain ⟨c2, s2⟩ := cos_turn_mod hK hk
  rw [torus_get hk (Nat.mod_lt _ hI), torus_get (Nat.mod_lt _ hK) hi, torus_get (Nat.mod_lt _ hK) (Nat.mod_lt _ hI)]
  unfold tp tl tz
  rw [c1, s1, c2, s2]
  push_cast
  exact ⟨rfl, rfl, rfl⟩

/-- the determinants of the two triangles of a quad -/
theorem quad_det {R r : ℝ} {I K k i : ℕ} :
    det3 (tp R r I K k i) (tp R r I K (k + 1) i) (tp R r I K (k + 1) (i + 1)) =
      Real.sin (turn K) * (tl R r I i * (tl R r I i * tz r I (i + 1) - tl R r I (i + 1) * tz r I i)) ∧
    det3 (tp R r I K k i) (tp R r I K (k + 1) (i + 1)) (tp R r I K k (i + 1)) =
      Real.sin (turn K) * (tl R r I (i + 1) * (tl R r I i * tz r I (i + 1) - tl R r I (i + 1) * tz r I i)) := by
  unfold tp det3
  push_cast
  rw [add_mul, one_mul, Real.cos_add, Real.sin_add]
  have h := Real.sin_sq_add_cos_sq ((k : ℝ) * turn K)
  have h' := Real.sin_sq_add_cos_sq (turn K)
  generalize tl R r I i = l
  generalize tl R r I (i + 1) = m
  generalize tz r I i = z
  generalize tz r I (i + 1) = w
  generalize Real.cos ((k : ℝ) * turn K) = C at *
  generalize Real.sin ((k : ℝ) * turn K) = S at *
  generalize Real.cos (turn K) = c at *
  generalize Real.sin (turn K) = s at *
  constructor
  · linear_combination (s * l * (l * w - m * z)) * h
  · linear_combination (s * m * (l * w - m * z)) * h

/-- sums over the triangles -/
theorem torus_sum {R r : ℝ} {I K : ℕ} (f : V3 → V3 → V3 → ℝ) : ((torusT I K).map fun t =>
      f ((torusV R r I K).getD t.a 0) ((torusV R r I K).getD t.b 0) ((torusV R r I K).getD t.c 0)).sum =
    ∑ k ∈ Finset.range K, ∑ i ∈ Finset.range I,
      (f (tp R r I K k i) (tp R r I K (k + 1) i) (tp R r I K (k + 1) (i + 1)) +
       f (tp R r I K k i) (tp R r I K (k + 1) (i + 1)) (tp R r I K k (i + 1))) := by
  unfold torusT
  rw [sum_flatMap, list_sum_range]
  apply Finset.sum_congr rfl
  intro k hk
  rw [sum_flatMap, list_sum_range]
  apply Finset.sum_congr rfl
  intro i hi
  rw [Finset.mem_range] at hk hi
  obtain ⟨h1, h2, h3⟩ := torus_get_next (R := R) (r := r) hk hi
  simp only [torusTris, List.map_cons, List.map_nil, List.sum_cons, List.sum_nil, add_zero, h1, h2, h3, torus_get hk hi]

/-- the moment of the profile polygon about the axis -/
theorem profile_sum {R r : ℝ} {I : ℕ} (hI : 2 ≤ I) : ∑ i ∈ Finset.range I,
      (tl R r I i + tl R r I (i + 1)) * (tl R r I i * tz r I (i + 1) - tl R r I (i + 1) * tz r I i) =
    3 * R * r ^ 2 * I * Real.sin (turn I) := by
  have hI0 : 0 < I := by omega
  obtain ⟨hc, hs⟩ := turn_sums hI
  have hc' := sum_shift (n := I) (fun i : ℕ => Real.cos ((i : ℝ) * turn I)) (by rw [turn_all hI0]; simp)
  have hs' := sum_shift (n := I) (fun i : ℕ => Real.sin ((i : ℝ) * turn I)) (by rw [turn_all hI0]; simp)
  have hcs := sum_shift (n := I) (fun i : ℕ => Real.cos ((i : ℝ) * turn I) * Real.sin ((i : ℝ) * turn I)) (by rw [turn_all hI0]; simp)
  have key : ∀ i ∈ Finset.range I, (tl R r I i + tl R r I (i + 1)) * (tl R r I i * tz r I (i + 1) - tl R r I (i + 1) * tz r I i) =
      2 * R ^ 2 * r * (Real.sin (((i + 1 : ℕ) : ℝ) * turn I) - Real.sin ((i : ℝ) * turn I)) + 3 * R * r ^ 2 * Real.sin (turn I) +
      R * r ^ 2 * (Real.cos (((i + 1 : ℕ) : ℝ) * turn I) * Real.sin (((i + 1 : ℕ) : ℝ) * turn I) -
        Real.cos ((i : ℝ) * turn I) * Real.sin ((i : ℝ) * turn I)) +
      r ^ 3 * Real.sin (turn I) * (Real.cos ((i : ℝ) * turn I) + Real.cos (((i + 1 : ℕ) : ℝ) * turn I)) := by
    intro i _
    have h1 : Real.sin (turn I) = Real.sin (((i + 1 : ℕ) : ℝ) * turn I) * Real.cos ((i : ℝ) * turn I) -
        Real.cos (((i + 1 : ℕ) : ℝ) * turn I) * Real.sin ((i : ℝ) * turn I) := by
      rw [← Real.sin_sub]; congr 1; push_cast; ring
    unfold tl tz
    rw [h1]; ring
  rw [Finset.sum_congr rfl key]
  simp only [Finset.sum_add_distrib, ← Finset.mul_sum, Finset.sum_sub_distrib, Finset.sum_const, Finset.card_range]
  rw [hc', hs', hcs, hc]
  simp
  ring

/-- **C33.** The volume enclosed by the torus: positive for positive radii, so its triangles face outwards. -/
theorem C33_torus_volume (R r : ℝ) {segments slices : ℕ} (hI : 3 ≤ segments) (hK : 3 ≤ slices) :
    enclosedVolume (create_torus R r segments slices).1 (create_torus R r segments slices).2 =
      segments * slices / 2 * Real.sin (2 * Real.pi / segments) * Real.sin (2 * Real.pi / slices) * R * r ^ 2 := by
  unfold enclosedVolume create_torus
  rw [torus_sum det3]
  simp only [quad_det]
  have : ∀ k ∈ Finset.range slices, ∑ i ∈ Finset.range segments,
      (Real.sin (turn slices) * (tl R r segments i * (tl R r segments i * tz r segments (i + 1) - tl R r segments (i + 1) * tz r segments i)) +
      Real.sin (turn slices) * (tl R r segments (i + 1) * (tl R r segments i * tz r segments (i + 1) - tl R r segments (i + 1) * tz r segments i))) =
      Real.sin (turn slices) * (3 * R * r ^ 2 * segments * Real.sin (turn segments)) := by
    intro k _
    rw [← profile_sum (by omega), Finset.mul_sum]
    apply Finset.sum_congr rfl
    intro i _
    ring
  rw [Finset.sum_congr rfl this]
  simp only [Finset.sum_const, Finset.card_range, nsmul_eq_mul, turn]
  ring

/-! ### The centre of mass -/

theorem sin_turn_pos {n : ℕ} (hn : 3 ≤ n) : 0 < Real.sin (turn n) := by
  have hp := Real.pi_pos
  have h3 : (3 : ℝ) ≤ n := by exact_mod_cast hn
  unfold turn
  refine Real.sin_pos_of_pos_of_lt_pi (by positivity) ?_
  rw [div_lt_iff₀ (by positivity)]
  nlinarith

theorem quad_moment (e a b c d : V3) (x y : ℝ) : x * V3.dot e (a + b + c) + y * V3.dot e (a + c + d) =
    (x + y) * (V3.dot e a + V3.dot e c) + x * V3.dot e b + y * V3.dot e d := by
  simp only [V3.dot, V3.add_x, V3.add_y, V3.add_z]; ring

theorem torus_moment_xy {R r : ℝ} {I K : ℕ} (hK : 3 ≤ K) {e : V3} (he : e.z = 0) :
    ((torusT I K).map fun t => det3 ((torusV R r I K).getD t.a 0) ((torusV R r I K).getD t.b 0) ((torusV R r I K).getD t.c 0) *
      V3.dot e ((torusV R r I K).getD t.a 0 + (torusV R r I K).getD t.b 0 + (torusV R r I K).getD t.c 0)).sum = 0 := by
  have hK0 : 0 < K := by omega
  rw [torus_sum (fun a b c => det3 a b c * V3.dot e (a + b + c)), Finset.sum_comm]
  apply Finset.sum_eq_zero
  intro i _
  obtain ⟨hc, hs⟩ := turn_sums (n := K) (by omega)
  have hc' := sum_shift (n := K) (fun i : ℕ => Real.cos ((i : ℝ) * turn K)) (by rw [turn_all hK0]; simp)
  have hs' := sum_shift (n := K) (fun i : ℕ => Real.sin ((i : ℝ) * turn K)) (by rw [turn_all hK0]; simp)
  simp only [quad_det, quad_moment]
  generalize Real.sin (turn K) * (tl R r I i * (tl R r I i * tz r I (i + 1) - tl R r I (i + 1) * tz r I i)) = X
  generalize Real.sin (turn K) * (tl R r I (i + 1) * (tl R r I i * tz r I (i + 1) - tl R r I (i + 1) * tz r I i)) = Y
  have key : ∀ i, ∑ k ∈ Finset.range K, V3.dot e (tp R r I K k i) = 0 ∧ ∑ k ∈ Finset.range K, V3.dot e (tp R r I K (k + 1) i) = 0 := by
    intro i
    unfold tp V3.dot
    simp only [he, zero_mul, add_zero]
    constructor
    · rw [Finset.sum_add_distrib]
      simp only [mul_left_comm e.x, mul_left_comm e.y, ← Finset.mul_sum, hc, hs]; ring
    · rw [Finset.sum_add_distrib]
      simp only [mul_left_comm e.x, mul_left_comm e.y, ← Finset.mul_sum, hc', hs', hc, hs]; ring
  simp only [Finset.sum_add_distrib, ← Finset.mul_sum]
  rw [(key i).1, (key i).2, (key (i + 1)).1, (key (i + 1)).2]; ring

theorem torus_moment_z {R r : ℝ} {I K : ℕ} (hI : 3 ≤ I) :
    ((torusT I K).map fun t => det3 ((torusV R r I K).getD t.a 0) ((torusV R r I K).getD t.b 0) ((torusV R r I K).getD t.c 0) *
      V3.dot ⟨0, 0, 1⟩ ((torusV R r I K).getD t.a 0 + (torusV R r I K).getD t.b 0 + (torusV R r I K).getD t.c 0)).sum = 0 := by
  have hI0 : 0 < I := by omega
  rw [torus_sum (fun a b c => det3 a b c * V3.dot ⟨0, 0, 1⟩ (a + b + c))]
  apply Finset.sum_eq_zero
  intro k _
  simp only [quad_det, quad_moment]
  have hz : ∀ k i, V3.dot ⟨0, 0, 1⟩ (tp R r I K k i) = tz r I i := by intro k i; simp [V3.dot, tp]
  simp only [hz]
  obtain ⟨F, hF⟩ : ∃ F : ℕ → ℝ, F = fun i => (Real.sin (turn K) * (tl R r I i * (tl R r I i * tz r I (i + 1) - tl R r I (i + 1) * tz r I i)) +
      Real.sin (turn K) * (tl R r I (i + 1) * (tl R r I i * tz r I (i + 1) - tl R r I (i + 1) * tz r I i))) * (tz r I i + tz r I (i + 1)) +
      Real.sin (turn K) * (tl R r I i * (tl R r I i * tz r I (i + 1) - tl R r I (i + 1) * tz r I i)) * tz r I i +
      Real.sin (turn K) * (tl R r I (i + 1) * (tl R r I i * tz r I (i + 1) - tl R r I (i + 1) * tz r I i)) * tz r I (i + 1) := ⟨_, rfl⟩
  have h0 : ∑ i ∈ Finset.range I, F i = 0 := by
    have h1 := Finset.sum_range_reflect F I
    have h2 : ∀ i ∈ Finset.range I, F (I - 1 - i) = - F i := by
      intro i hi
      rw [Finset.mem_range] at hi
      have hrev : ∀ j, j ≤ I → tl R r I (I - j) = tl R r I j ∧ tz r I (I - j) = - tz r I j := by
        intro j hj
        unfold tl tz
        have : ((I - j : ℕ) : ℝ) * turn I = 2 * Real.pi - j * turn I := by
          rw [Nat.cast_sub hj, sub_mul, turn_all hI0]
        rw [this, Real.cos_two_pi_sub, Real.sin_two_pi_sub]
        exact ⟨rfl, by ring⟩
      rw [hF]
      simp only
      rw [show I - 1 - i + 1 = I - i by omega, show I - 1 - i = I - (i + 1) by omega]
      obtain ⟨a1, a2⟩ := hrev i (by omega)
      obtain ⟨b1, b2⟩ := hrev (i + 1) (by omega)
      rw [a1, a2, b1, b2]
      ring
    rw [Finset.sum_congr rfl h2, Finset.sum_neg_distrib] at h1
    linarith
  rw [hF] at h0
  exact h0

theorem torus_centroid {R r : ℝ} (hR : 0 < R) (hr : 0 < r) {I K : ℕ} (hI : 3 ≤ I) (hK : 3 ≤ K) :
    centroid (create_torus R r I K).1 (create_torus R r I K).2 = 0 := by
  have hv : 0 < enclosedVolume (create_torus R r I K).1 (create_torus R r I K).2 := by
    have h1 := sin_turn_pos hI
    have h2 := sin_turn_pos hK
    unfold turn at h1 h2
    have : (3 : ℝ) ≤ I := by exact_mod_cast hI
    have : (3 : ℝ) ≤ K := by exact_mod_cast hK
    rw [C33_torus_volume R r hI hK]
    positivity
  have hS : 0 < ((create_torus R r I K).2.map fun t => det3 ((create_torus R r I K).1.getD t.a 0) ((create_torus R r I K).1.getD t.b 0)
      ((create_torus R r I K).1.getD t.c 0)).sum := by
    unfold enclosedVolume at hv; linarith
  have key : ∀ e : V3, ((create_torus R r I K).2.map fun t => det3 ((create_torus R r I K).1.getD t.a 0) ((create_torus R r I K).1.getD t.b 0)
        ((create_torus R r I K).1.getD t.c 0) * V3.dot e ((create_torus R r I K).1.getD t.a 0 + (create_torus R r I K).1.getD t.b 0 +
        (create_torus R r I K).1.getD t.c 0)).sum = 0 → V3.dot e (centroid (create_torus R r I K).1 (create_torus R r I K).2) = 0 := by
    intro e h2
    have h1 := dot_centroid e (create_torus R r I K).1 (create_torus R r I K).2
    rw [if_neg hS.ne', h2, mul_assoc] at h1
    exact (mul_eq_zero.1 h1).resolve_right (mul_pos hS (by norm_num)).ne'
  refine V3.ext ?_ ?_ ?_
  · simpa [V3.dot] using key ⟨1, 0, 0⟩ (torus_moment_xy hK rfl)
  · simpa [V3.dot] using key ⟨0, 1, 0⟩ (torus_moment_xy hK rfl)
  · simpa [V3.dot] using key ⟨0, 0, 1⟩ (torus_moment_z hI)

/-! ### A solid -/

theorem torus_flat {l m z w C S C' S' : ℝ} (hl : l ≠ 0) (hm : m ≠ 0) (h1 : S ^ 2 + C ^ 2 = 1) (h2 : S' ^ 2 + C' ^ 2 = 1)
    (hs : S' * C - C' * S ≠ 0) (h : V3.cross (⟨l * C', l * S', z⟩ - ⟨l * C, l * S, z⟩) (⟨m * C', m * S', w⟩ - ⟨l * C, l * S, z⟩) = 0 ∨
      V3.cross (⟨m * C', m * S', w⟩ - ⟨l * C, l * S, z⟩) (⟨m * C, m * S, w⟩ - ⟨l * C, l * S, z⟩) = 0) : m = l ∧ w = z := by
  have hne : ¬ (S' = S ∧ C' = C) := by
    rintro ⟨e1, e2⟩; apply hs; rw [e1, e2]; ring
  have hw : S' ≠ S ∨ C' ≠ C := by
    by_contra hc; push Not at hc; exact hne hc
  rcases h with h | h
  · have hz := congrArg V3.z h
    have hx := congrArg V3.x h
    have hy := congrArg V3.y h
    simp only [V3.cross, V3.sub_x, V3.sub_y, V3.sub_z, V3.zero_x, V3.zero_y, V3.zero_z] at hx hy hz
    constructor
    · have : l * (S' * C - C' * S) * (m - l) = 0 := by linear_combination -hz
      have := (mul_eq_zero.1 this).resolve_left (mul_ne_zero hl hs)
      linarith
    · rcases hw with hw | hw
      · have : l * (S' - S) * (w - z) = 0 := by linear_combination hx
        have := (mul_eq_zero.1 this).resolve_left (mul_ne_zero hl (sub_ne_zero.2 hw))
        linarith
      · have : l * (C' - C) * (w - z) = 0 := by linear_combination -hy
        have := (mul_eq_zero.1 this).resolve_left (mul_ne_zero hl (sub_ne_zero.2 hw))
        linarith
  · have hz := congrArg V3.z h
    have hx := congrArg V3.x h
    have hy := congrArg V3.y h
    simp only [V3.cross, V3.sub_x, V3.sub_y, V3.sub_z, V3.zero_x, V3.zero_y, V3.zero_z] at hx hy hz
    constructor
    · have : m * (S' * C - C' * S) * (m - l) = 0 := by linear_combination -hz
      have := (mul_eq_zero.1 this).resolve_left (mul_ne_zero hm hs)
      linarith
    · rcases hw with hw | hw
      · have : m * (S' - S) * (w - z) = 0 := by linear_combination hx
        have := (mul_eq_zero.1 this).resolve_left (mul_ne_zero hm (sub_ne_zero.2 hw))
        linarith
      · have : m * (C' - C) * (w - z) = 0 := by linear_combination -hy
        have := (mul_eq_zero.1 this).resolve_left (mul_ne_zero hm (sub_ne_zero.2 hw))
        linarith

theorem tl_pos {R r : ℝ} (hr : 0 < r) (hR : r < R) (I i : ℕ) : 0 < tl R r I i := by
  unfold tl
  have := Real.neg_one_le_cos ((i : ℝ) * turn I)
  nlinarith

theorem turn_step {n : ℕ} (hn : 3 ≤ n) (k : ℕ) : Real.sin (((k + 1 : ℕ) : ℝ) * turn n) * Real.cos ((k : ℝ) * turn n) -
    Real.cos (((k + 1 : ℕ) : ℝ) * turn n) * Real.sin ((k : ℝ) * turn n) ≠ 0 := by
  rw [← Real.sin_sub]
  have : ((k + 1 : ℕ) : ℝ) * turn n - k * turn n = turn n := by push_cast; ring
  rw [this]
  exact (sin_turn_pos hn).ne'

theorem torus_noZero {R r : ℝ} (hr : 0 < r) (hR : r < R) {I K : ℕ} (hI : 3 ≤ I) (hK : 3 ≤ K) :
    ∀ t ∈ (create_torus R r I K).2, ¬ ZeroArea (create_torus R r I K).1 t := by
  intro t ht hz
  simp only [create_torus, torusT, List.mem_flatMap, List.mem_range, torusTris] at ht hz
  obtain ⟨k, hk, i, hi, ht⟩ := ht
  obtain ⟨h1, h2, h3⟩ := torus_get_next (R := R) (r := r) hk hi
  have hflat := torus_flat (z := tz r I i) (w := tz r I (i + 1)) (tl_pos hr hR I i).ne' (tl_pos hr hR I (i + 1)).ne'
    (Real.sin_sq_add_cos_sq ((k : ℝ) * turn K)) (Real.sin_sq_add_cos_sq (((k + 1 : ℕ) : ℝ) * turn K)) (turn_step hK k)
  have hne : ¬ (tl R r I (i + 1) = tl R r I i ∧ tz r I (i + 1) = tz r I i) := by
    rintro ⟨e1, e2⟩
    apply turn_step hI i
    unfold tl at e1
    unfold tz at e2
    have e3 : Real.cos (((i + 1 : ℕ) : ℝ) * turn I) = Real.cos ((i : ℝ) * turn I) := mul_left_cancel₀ hr.ne' (by linarith)
    have e4 : Real.sin (((i + 1 : ℕ) : ℝ) * turn I) = Real.sin ((i : ℝ) * turn I) := mul_left_cancel₀ hr.ne' e2
    rw [e3, e4]; ring
  apply hne
  apply hflat
  simp only [List.mem_cons, List.not_mem_nil, or_false] at ht
  unfold ZeroArea at hz
  rcases ht with rfl | rfl
  · left
    simp only [h2, h3, torus_get hk hi] at hz
    exact hz
  · right
    simp only [h1, h3, torus_get hk hi] at hz
    exact hz

/-- **C33.** The torus is a solid: closed, with outward triangles that all have an area, and its centre of mass is the origin. -/
theorem C33_torus_solid {R r : ℝ} (hr : 0 < r) (hR : r < R) {segments slices : ℕ} (hI : 3 ≤ segments) (hK : 3 ≤ slices) :
    Solid (create_torus R r segments slices) ∧ centroid (create_torus R r segments slices).1 (create_torus R r segments slices).2 = 0 := by
  obtain ⟨-, -, c1, c2⟩ := C33_torus_closed R r segments slices hI hK
  have hR0 : 0 < R := hr.trans hR
  refine ⟨⟨c1, c2, torus_noZero hr hR hI hK, ?_, ?_⟩, torus_centroid hR0 hr hI hK⟩
  · have h1 := sin_turn_pos hI
    have h2 := sin_turn_pos hK
    unfold turn at h1 h2
    have : (3 : ℝ) ≤ segments := by exact_mod_cast hI
    have : (3 : ℝ) ≤ slices := by exact_mod_cast hK
    rw [C33_torus_volume R r hI hK]
    positivity
  · intro e
    rw [torus_centroid hR0 hr hI hK]
    have hz : V3.dot e 0 = 0 := by simp [V3.dot]
    rw [hz]
    by_contra hc
    push Not at hc
    have hall : ∀ k < slices, ∀ i < segments, 0 < V3.dot e (tp R r segments slices k i) := by
      intro k hk i hi
      apply hc
      simp only [create_torus, torusV, List.mem_flatMap, List.mem_map, List.mem_range]
      exact ⟨k, hk, i, hi, rfl⟩
    have hpos : 0 < ∑ k ∈ Finset.range slices, ∑ i ∈ Finset.range segments, V3.dot e (tp R r segments slices k i) := by
      refine Finset.sum_pos (fun k hk => Finset.sum_pos (fun i hi => hall k (by simpa using hk) i (by simpa using hi)) ?_) ?_
      · exact ⟨0, by simp; omega⟩
      · exact ⟨0, by simp; omega⟩
    obtain ⟨hc, hs⟩ := turn_sums (n := slices) (by omega)
    obtain ⟨-, hs'⟩ := turn_sums (n := segments) (by omega)
    have hzero : ∑ k ∈ Finset.range slices, ∑ i ∈ Finset.range segments, V3.dot e (tp R r segments slices k i) = 0 := by
      have e1 : ∀ k i : ℕ, V3.dot e (tp R r segments slices k i) = Real.cos ((k : ℝ) * turn slices) * (e.x * tl R r segments i) +
          Real.sin ((k : ℝ) * turn slices) * (e.y * tl R r segments i) + e.z * r * Real.sin ((i : ℝ) * turn segments) := by
        intro k i; unfold tp V3.dot tz; ring
      simp only [e1, Finset.sum_add_distrib, ← Finset.mul_sum, ← Finset.sum_mul, hc, hs, hs']
      simp
    linarith

end Verif
