import Verif.Props.MeshVolume

/-! C33 (shapes): what the named generators produce. -/

namespace Verif

open SMesh
open VMesh (Tri)

theorem profile_sweep_ok {profile : List V3} {J : ℕ} (hN : 3 ≤ profile.length) (hJ : 3 ≤ J) :
    profile_sweep profile J = .ok (sweepV profile J, sweepT profile.length J) := by
  unfold profile_sweep
  simp only []
  rw [if_neg (by omega), if_neg (by omega)]

/-- every vertex of a sweep is a profile point turned about the y axis -/
theorem mem_sweepV {profile : List V3} {J : ℕ} (hN : 1 ≤ profile.length) {v : V3} (h : v ∈ sweepV profile J) :
    ∃ p ∈ profile, ∃ A : ℝ, v = rotY A p := by
  have h0 : ∀ p : V3, p = rotY 0 p := by intro p; ext <;> simp [rotY]
  have hg : ∀ i < profile.length, profile.getD i 0 ∈ profile := by
    intro i hi; rw [getD_range_map hi]; exact List.getElem_mem _
  simp only [sweepV, List.mem_append, List.mem_flatMap, List.mem_map, List.mem_range, List.mem_cons,
    List.not_mem_nil, or_false] at h
  rcases h with ⟨j, hj, i, hi, rfl⟩ | rfl | rfl
  · exact ⟨_, hg (i + 1) (by omega), _, rotate_Ru_j _ _⟩
  · exact ⟨_, hg _ (by omega), 0, h0 _⟩
  · exact ⟨_, hg 0 (by omega), 0, h0 _⟩

/-- A cone: closed, every vertex is the apex, the centre or on the base circle, and the faces enclose the volume
of the pyramid over the regular polygon of the base (positive: outward oriented). -/
theorem C33_cone (radius height : ℝ) (slices : ℕ) (hJ : 3 ≤ slices) :
    ∃ V T, create_cone radius height slices = .ok (V, T) ∧ ClosedOriented T ∧ IndicesBelow T V.length ∧
      (∀ v ∈ V, v = ⟨0, 0, 0⟩ ∨ v = ⟨0, height, 0⟩ ∨ (v.y = 0 ∧ v.x ^ 2 + v.z ^ 2 = radius ^ 2)) ∧
      enclosedVolume V T = height / 3 * (slices / 2 * radius ^ 2 * Real.sin (2 * Real.pi / slices)) := by
  have hok := profile_sweep_ok (profile := [⟨0, 0, 0⟩, ⟨radius, 0, 0⟩, ⟨0, height, 0⟩]) (J := slices) (by simp) hJ
  refine ⟨_, _, hok, ?_, ?_, ?_, ?_⟩
  · exact (C33_sweep_closed _ _ _ _ hok).2.2.2
  · exact (C33_sweep_closed _ _ _ _ hok).2.2.1
  · intro v hv
    obtain ⟨p, hp, A, rfl⟩ := mem_sweepV (by simp) hv
    have := Real.sin_sq_add_cos_sq A
    simp only [List.mem_cons, List.not_mem_nil, or_false] at hp
    rcases hp with rfl | rfl | rfl
    · left; simp [rotY]
    · right; right
      simp only [rotY, true_and]
      linear_combination radius ^ 2 * this
    · right; left; simp [rotY]
  · rw [C33_sweep_volume _ _ _ _ hok (by simp) (by simp) (by simp)]
    simp [Finset.sum_range_succ]
    ring

/-- A conical frustum. -/
theorem C33_conical (rb rt height : ℝ) (slices : ℕ) (hJ : 3 ≤ slices) :
    ∃ V T, create_conical rb rt height slices = .ok (V, T) ∧ ClosedOriented T ∧ IndicesBelow T V.length ∧
      (∀ v ∈ V, (v.y = 0 ∧ (v.x ^ 2 + v.z ^ 2 = 0 ∨ v.x ^ 2 + v.z ^ 2 = rb ^ 2)) ∨
        (v.y = height ∧ (v.x ^ 2 + v.z ^ 2 = 0 ∨ v.x ^ 2 + v.z ^ 2 = rt ^ 2))) ∧
      enclosedVolume V T =
        height / 3 * (slices / 2 * Real.sin (2 * Real.pi / slices)) * (rb ^ 2 + rb * rt + rt ^ 2) := by
  have hok := profile_sweep_ok (profile := [⟨0, 0, 0⟩, ⟨rb, 0, 0⟩, ⟨rt, height, 0⟩, ⟨0, height, 0⟩])
    (J := slices) (by simp) hJ
  refine ⟨_, _, hok, ?_, ?_, ?_, ?_⟩
  · exact (C33_sweep_closed _ _ _ _ hok).2.2.2
  · exact (C33_sweep_closed _ _ _ _ hok).2.2.1
  · intro v hv
    obtain ⟨p, hp, A, rfl⟩ := mem_sweepV (by simp) hv
    have := Real.sin_sq_add_cos_sq A
    simp only [List.mem_cons, List.not_mem_nil, or_false] at hp
    rcases hp with rfl | rfl | rfl | rfl
    · left; simp [rotY]
    · left; refine ⟨rfl, Or.inr ?_⟩
      simp only [rotY]
      linear_combination rb ^ 2 * this
    · right; refine ⟨rfl, Or.inr ?_⟩
      simp only [rotY]
      linear_combination rt ^ 2 * this
    · right; simp [rotY]
  · rw [C33_sweep_volume _ _ _ _ hok (by simp) (by simp) (by simp)]
    simp [Finset.sum_range_succ]
    ring

/-- A cylinder: every vertex is on the axis at one of the two ends, or at distance |radius| from the axis, and the
volume is that of the prism over the regular polygon, whatever the number of segments. -/
theorem C33_cylinder (radius height : ℝ) (slices segments : ℕ) (hJ : 3 ≤ slices) (hs : 1 ≤ segments) :
    ∃ V T, create_cylinder radius height slices segments = .ok (V, T) ∧ ClosedOriented T ∧
      IndicesBelow T V.length ∧
      (∀ v ∈ V, (v = ⟨0, height / 2, 0⟩ ∨ v = ⟨0, -(height / 2), 0⟩ ∨ v.x ^ 2 + v.z ^ 2 = radius ^ 2) ∧
        |v.y| ≤ |height| / 2) ∧
      enclosedVolume V T = height * (slices / 2 * radius ^ 2 * Real.sin (2 * Real.pi / slices)) := by
  have hs0 : (0 : ℝ) < segments := by exact_mod_cast hs
  set f : ℕ → V3 := fun (i : ℕ) => (⟨radius, height / segments * ((i : ℝ) + 1) - height / 2, 0⟩ : V3) with hf
  set profile : List V3 := [⟨0, -height / 2, 0⟩, ⟨radius, -height / 2, 0⟩] ++
    (List.range segments).map f ++ [⟨0, height / 2, 0⟩] with hprof
  have hlen : profile.length = segments + 3 := by simp [hprof]
  have hok := profile_sweep_ok (profile := profile) (J := slices) (by omega) hJ
  have hcr : create_cylinder radius height slices segments = profile_sweep profile slices := by
    unfold create_cylinder
    rw [if_neg (by omega)]
  have hmem : ∀ p ∈ profile, p = ⟨0, -height / 2, 0⟩ ∨ p = ⟨0, height / 2, 0⟩ ∨
      ∃ t : ℝ, 0 ≤ t ∧ t ≤ 1 ∧ p = ⟨radius, height * t - height / 2, 0⟩ := by
    intro p hp
    simp only [hprof, List.mem_append, List.mem_cons, List.not_mem_nil, or_false, List.mem_map, List.mem_range] at hp
    rcases hp with ((rfl | rfl) | ⟨i, hi, rfl⟩) | rfl
    · exact Or.inl rfl
    · right; right
      exact ⟨0, le_refl _, zero_le_one, by ext <;> simp; ring⟩
    · right; right
      refine ⟨((i : ℝ) + 1) / segments, by positivity, ?_, ?_⟩
      · rw [div_le_one hs0]
        exact_mod_cast hi
      · ext <;> simp [hf]
        ring
    · exact Or.inr (Or.inl rfl)
  refine ⟨_, _, hcr.trans hok, (C33_sweep_closed _ _ _ _ hok).2.2.2, (C33_sweep_closed _ _ _ _ hok).2.2.1, ?_, ?_⟩
  · intro v hv
    obtain ⟨p, hp, A, rfl⟩ := mem_sweepV (by omega) hv
    have h1 := Real.sin_sq_add_cos_sq A
    rcases hmem p hp with rfl | rfl | ⟨t, h0, h2, rfl⟩
    · refine ⟨Or.inr (Or.inl (by ext <;> simp [rotY]; ring)), ?_⟩
      simp only [rotY]
      rw [abs_div, abs_neg, abs_two]
    · refine ⟨Or.inl (by simp [rotY]), ?_⟩
      simp only [rotY]
      rw [abs_div, abs_two]
    · refine ⟨Or.inr (Or.inr ?_), ?_⟩
      · simp only [rotY]
        linear_combination radius ^ 2 * h1
      · simp only [rotY]
        rw [show height * t - height / 2 = height * (t - 1 / 2) by ring, abs_mul]
        have : |t - 1 / 2| ≤ 1 / 2 := abs_le.2 ⟨by linarith, by linarith⟩
        nlinarith [abs_nonneg height]
  · have hlast : profile.getD (profile.length - 1) 0 = ⟨0, height / 2, 0⟩ := by
      rw [hlen, hprof, List.getD_append_right _ _ _ _ (by simp)]
      simp
    have hget : ∀ i, i ≤ segments → profile.getD (i + 1) 0 = ⟨radius, height / segments * (i : ℝ) - height / 2, 0⟩ := by
      intro i hi
      rw [hprof, List.getD_append _ _ _ _ (by simp; omega)]
      cases i with
      | zero => simp; ring
      | succ i =>
        rw [List.getD_append_right _ _ _ _ (by simp)]
        simp only [List.length_cons, List.length_nil]
        rw [show i + 1 + 1 - (0 + 1 + 1) = i by omega, getD_range_map (by simp; omega)]
        simp [hf]
    rw [C33_sweep_volume _ _ _ _ hok ?_ (by simp [hprof]) (by rw [hlast])]
    · rw [hlen, show segments + 3 - 1 = (segments + 1) + 1 by omega, Finset.sum_range_succ, Finset.sum_range_succ']
      have e0 : profile.getD 0 0 = ⟨0, -height / 2, 0⟩ := by simp [hprof]
      have e1 := hget 0 (by omega)
      have e2 : profile.getD (segments + 1 + 1) 0 = ⟨0, height / 2, 0⟩ := by
        rw [← hlast, hlen]; rfl
      have e3 := hget segments le_rfl
      rw [e0, e1, e2, e3, Finset.sum_congr rfl (g := fun _ => height / segments * (3 * radius ^ 2))]
      · simp only [Finset.sum_const, Finset.card_range, nsmul_eq_mul]
        field_simp
        ring
      · intro i hi
        have hi : i < segments := by simpa using hi
        rw [hget i (by omega), hget (i + 1) (by omega)]
        push_cast
        ring
    · intro p hp
      rcases hmem p hp with rfl | rfl | ⟨t, h0, h2, rfl⟩ <;> rfl

theorem sphereProfile_length (r : ℝ) (n : ℕ) : (sphereProfile r n).length = n := by simp [sphereProfile]

theorem sphereProfile_get (r : ℝ) {n i : ℕ} (hi : i < n) :
    (sphereProfile r n).getD i 0 =
      ⟨r * Real.sin (Real.pi / ((n : ℝ) - 1) * i), -r * Real.cos (Real.pi / ((n : ℝ) - 1) * i), 0⟩ := by
  rw [getD_range_map (by simpa [sphereProfile_length] using hi)]
  simp only [sphereProfile, List.getElem_map, List.getElem_range]
  exact rotate_Ru_k _ _

/-- A sphere: every vertex is at distance |radius| from the origin, and for a positive radius the enclosed volume
is positive (outward faces). -/
theorem C33_sphere (radius : ℝ) (slices segments : ℕ) (hJ : 3 ≤ slices) (hs : 3 ≤ segments) :
    ∃ V T, create_sphere radius slices segments = .ok (V, T) ∧ ClosedOriented T ∧ IndicesBelow T V.length ∧
      (∀ v ∈ V, v.x ^ 2 + v.y ^ 2 + v.z ^ 2 = radius ^ 2) ∧ (0 < radius → 0 < enclosedVolume V T) := by
  have hlen := sphereProfile_length radius segments
  have hok := profile_sweep_ok (profile := sphereProfile radius segments) (J := slices) (by omega) hJ
  have hcr : create_sphere radius slices segments = profile_sweep (sphereProfile radius segments) slices := by
    unfold create_sphere
    rw [if_neg (by omega)]
  have hn1 : (0 : ℝ) < (segments : ℝ) - 1 := by
    have : (3 : ℝ) ≤ segments := by exact_mod_cast hs
    linarith
  have hmem : ∀ p ∈ sphereProfile radius segments, ∃ B : ℝ, p = ⟨radius * Real.sin B, -radius * Real.cos B, 0⟩ := by
    intro p hp
    simp only [sphereProfile, List.mem_map, List.mem_range] at hp
    obtain ⟨i, hi, rfl⟩ := hp
    exact ⟨_, rotate_Ru_k _ _⟩
  refine ⟨_, _, hcr.trans hok, (C33_sweep_closed _ _ _ _ hok).2.2.2, (C33_sweep_closed _ _ _ _ hok).2.2.1, ?_, ?_⟩
  · intro v hv
    obtain ⟨p, hp, A, rfl⟩ := mem_sweepV (by omega) hv
    obtain ⟨B, rfl⟩ := hmem p hp
    have h1 := Real.sin_sq_add_cos_sq A
    have h2 := Real.sin_sq_add_cos_sq B
    simp only [rotY]
    linear_combination radius ^ 2 * Real.sin B ^ 2 * h1 + radius ^ 2 * h2
  · intro hr
    rw [C33_sweep_volume _ _ _ _ hok]
    · have hpi := Real.pi_pos
      have hJ0 : (3 : ℝ) ≤ slices := by exact_mod_cast hJ
      have hsin : 0 < Real.sin (2 * Real.pi / slices) := by
        apply Real.sin_pos_of_pos_of_lt_pi
        · positivity
        · rw [div_lt_iff₀ (by linarith)]
          nlinarith
      apply mul_pos (by positivity)
      have hx : ∀ i, i < segments → 0 ≤ ((sphereProfile radius segments).getD i 0).x := by
        intro i hi
        rw [sphereProfile_get _ hi]
        apply mul_nonneg hr.le
        apply Real.sin_nonneg_of_nonneg_of_le_pi (by positivity)
        rw [div_mul_eq_mul_div, div_le_iff₀ hn1]
        have : (i : ℝ) ≤ segments - 1 := by
          have : i + 1 ≤ segments := hi
          have : (i : ℝ) + 1 ≤ segments := by exact_mod_cast this
          linarith
        nlinarith
      have hy : ∀ i, i + 1 < segments →
          0 < ((sphereProfile radius segments).getD (i + 1) 0).y - ((sphereProfile radius segments).getD i 0).y := by
        intro i hi
        rw [sphereProfile_get _ hi, sphereProfile_get _ (by omega : i < segments)]
        have hi' : (i : ℝ) + 1 ≤ segments - 1 := by
          have : i + 1 + 1 ≤ segments := hi
          have : (i : ℝ) + 1 + 1 ≤ segments := by exact_mod_cast this
          linarith
        have hlt : Real.cos (Real.pi / ((segments : ℝ) - 1) * ((i + 1 : ℕ) : ℝ)) <
            Real.cos (Real.pi / ((segments : ℝ) - 1) * (i : ℝ)) := by
          apply Real.cos_lt_cos_of_nonneg_of_le_pi (by positivity)
          · rw [div_mul_eq_mul_div, div_le_iff₀ hn1]
            push_cast
            nlinarith
          · push_cast
            apply mul_lt_mul_of_pos_left (by linarith) (by positivity)
        simp only
        nlinarith
      apply Finset.sum_pos'
      · intro i hi
        have hi : i < segments - 1 := by simpa [hlen] using hi
        have := hx i (by omega)
        have h2 := hx (i + 1) (by omega)
        have := hy i (by omega)
        positivity
      · refine ⟨0, by simp [hlen]; omega, ?_⟩
        have h1 := hy 0 (by omega)
        have hx1 : 0 < ((sphereProfile radius segments).getD (0 + 1) 0).x := by
          rw [sphereProfile_get _ (by omega : 0 + 1 < segments)]
          apply mul_pos hr
          apply Real.sin_pos_of_pos_of_lt_pi
          · push_cast; positivity
          · rw [div_mul_eq_mul_div, div_lt_iff₀ hn1]
            have : (3 : ℝ) ≤ segments := by exact_mod_cast hs
            push_cast
            nlinarith
        have hx0 := hx 0 (by omega)
        positivity
    · intro p hp
      obtain ⟨B, rfl⟩ := hmem p hp
      rfl
    · rw [sphereProfile_get _ (by omega)]
      simp
    · rw [hlen, sphereProfile_get _ (by omega)]
      rw [show Real.pi / ((segments : ℝ) - 1) * ((segments - 1 : ℕ) : ℝ) = Real.pi by
        rw [Nat.cast_sub (by omega)]
        field_simp
        push_cast
        ring]
      simp

/-- An ellipsoid: every vertex satisfies the ellipsoid equation. -/
theorem C33_ellipsoid (a b c : ℝ) (slices segments : ℕ) (hJ : 3 ≤ slices) (hs : 3 ≤ segments)
    (ha : a ≠ 0) (hb : b ≠ 0) (hc : c ≠ 0) :
    ∃ V T, create_ellipsoid a b c slices segments = .ok (V, T) ∧ ClosedOriented T ∧ IndicesBelow T V.length ∧
      ∀ v ∈ V, (v.x / a) ^ 2 + (v.y / b) ^ 2 + (v.z / c) ^ 2 = 1 := by
  obtain ⟨V, T, h, h1, h2, h3, _⟩ := C33_sphere 1 slices segments hJ hs
  refine ⟨V.map (fun v => vmul v ⟨a, b, c⟩), T, ?_, h1, ?_, ?_⟩
  · unfold create_ellipsoid
    rw [h]
    rfl
  · simpa using h2
  · intro v hv
    obtain ⟨w, hw, rfl⟩ := List.mem_map.1 hv
    have := h3 w hw
    simp only [vmul, mul_div_assoc, div_self ha, div_self hb, div_self hc, mul_one]
    linarith

/-- A capsule: every vertex is at distance |radius| from one of the two end points of the inner segment. -/
theorem C33_capsule (radius height : ℝ) (slices segments : ℕ) (hJ : 3 ≤ slices) (hs : 3 ≤ segments) :
    ∃ V T, create_capsule radius height slices segments = .ok (V, T) ∧ ClosedOriented T ∧ IndicesBelow T V.length ∧
      ∀ v ∈ V, v.x ^ 2 + (v.y - height / 2) ^ 2 + v.z ^ 2 = radius ^ 2 ∨
        v.x ^ 2 + (v.y + height / 2) ^ 2 + v.z ^ 2 = radius ^ 2 := by
  set profile := (List.range segments).map fun (i : ℕ) =>
    Quat.rotate (Quat.Ru (Real.pi / ((segments : ℝ) - 1) * (i : ℝ)) V3.k) ⟨0, -radius, 0⟩ +
      ⟨0, if 2 * i < segments then -height / 2 else height / 2, 0⟩ with hprof
  have hlen : profile.length = segments := by simp [hprof]
  have hok := profile_sweep_ok (profile := profile) (J := slices) (by omega) hJ
  have hcr : create_capsule radius height slices segments = profile_sweep profile slices := by
    unfold create_capsule
    rw [if_neg (by omega)]
  refine ⟨_, _, hcr.trans hok, (C33_sweep_closed _ _ _ _ hok).2.2.2, (C33_sweep_closed _ _ _ _ hok).2.2.1, ?_⟩
  intro v hv
  obtain ⟨p, hp, A, rfl⟩ := mem_sweepV (by omega) hv
  simp only [hprof, List.mem_map, List.mem_range] at hp
  obtain ⟨i, hi, rfl⟩ := hp
  rw [rotate_Ru_k]
  have h1 := Real.sin_sq_add_cos_sq A
  have h2 := Real.sin_sq_add_cos_sq (Real.pi / ((segments : ℝ) - 1) * (i : ℝ))
  generalize Real.sin (Real.pi / ((segments : ℝ) - 1) * (i : ℝ)) = s at *
  generalize Real.cos (Real.pi / ((segments : ℝ) - 1) * (i : ℝ)) = c at *
  split
  · right
    simp only [rotY, V3.add_x, V3.add_y, V3.add_z]
    linear_combination radius ^ 2 * s ^ 2 * h1 + radius ^ 2 * h2
  · left
    simp only [rotY, V3.add_x, V3.add_y, V3.add_z]
    linear_combination radius ^ 2 * s ^ 2 * h1 + radius ^ 2 * h2

/-- Torus: every vertex is at distance |r| from the circle of radius R in the plane z = 0. -/
theorem C33_torus_points (R r : ℝ) (segments slices : ℕ) (v : V3) (hv : v ∈ (create_torus R r segments slices).1) :
    ∃ phi : ℝ, (v.x - R * Real.cos phi) ^ 2 + (v.y - R * Real.sin phi) ^ 2 + v.z ^ 2 = r ^ 2 ∧
      v.x * Real.sin phi = v.y * Real.cos phi := by
  simp only [create_torus, torusV, List.mem_flatMap, List.mem_map, List.mem_range] at hv
  obtain ⟨k, hk, i, hi, rfl⟩ := hv
  refine ⟨k * (2 * Real.pi / slices), ?_, by simp only; ring⟩
  have h1 := Real.sin_sq_add_cos_sq ((k : ℝ) * (2 * Real.pi / slices))
  have h2 := Real.sin_sq_add_cos_sq ((i : ℝ) * (2 * Real.pi / segments))
  simp only
  linear_combination r ^ 2 * Real.cos ((i : ℝ) * (2 * Real.pi / segments)) ^ 2 * h1 + r ^ 2 * h2

/-- A box: the eight corners (±w/2, ±h/2, ±d/2), each once, and volume w·h·d (outward faces for positive sizes). -/
theorem C33_box (w h d : ℝ) :
    (∀ sx sy sz : ℝ, sx ^ 2 = 1 → sy ^ 2 = 1 → sz ^ 2 = 1 →
      (⟨sx * w / 2, sy * h / 2, sz * d / 2⟩ : V3) ∈ (create_box w h d).1) ∧
    (create_box w h d).1.length = 8 ∧
    enclosedVolume (create_box w h d).1 (create_box w h d).2 = w * h * d := by
  refine ⟨?_, rfl, ?_⟩
  · intro sx sy sz hx hy hz
    have e : ∀ s : ℝ, s ^ 2 = 1 → s = 1 ∨ s = -1 := fun s hs => by simpa using hs
    simp only [create_box, List.mem_cons, List.not_mem_nil, or_false, V3.ext_iff, V3.smul_x, V3.smul_y, V3.smul_z]
    rcases e sx hx with rfl | rfl <;> rcases e sy hy with rfl | rfl <;> rcases e sz hz with rfl | rfl <;>
      ring_nf <;> simp
  · simp [enclosedVolume, create_box, boxT, det3]
    ring

/-- A cuboid whose corners are given in the documented order (front face counter-clockwise seen from the front,
the back face behind it) has outward faces: its volume is that of the parallelepiped. -/
theorem C33_cuboid_volume (o e1 e2 e3 : V3) :
    enclosedVolume
      (create_cuboid (o + e3) (o + e1 + e3) (o + e1 + e2 + e3) (o + e2 + e3) o (o + e1) (o + e1 + e2) (o + e2)).1
      (create_cuboid (o + e3) (o + e1 + e3) (o + e1 + e2 + e3) (o + e2 + e3) o (o + e1) (o + e1 + e2) (o + e2)).2 =
      det3 e1 e2 e3 := by
  simp [enclosedVolume, create_cuboid, quads, det3]
  ring

/-- with e1 = right, e2 = up, e3 = towards the viewer the volume is positive -/
example : det3 ⟨1, 0, 0⟩ ⟨0, 1, 0⟩ ⟨0, 0, 1⟩ = 1 := by norm_num [det3]

/-- What the resolution must be: with fewer than three slices, or with fewer than three segments (none, for a cylinder), no mesh is made.  One segment of a
sphere, an ellipsoid or a capsule, and no segment of a cylinder, is a division by zero; everything else refused is a RuntimeError. -/
theorem C33_round_raises (radius height a b c : ℝ) (slices segments : ℕ) :
    (create_sphere radius slices segments = .error .zeroDivision ↔ segments = 1) ∧
    (create_sphere radius slices segments = .error .runtimeError ↔ segments ≠ 1 ∧ (segments ≤ 2 ∨ slices ≤ 2)) ∧
    (create_ellipsoid a b c slices segments = .error .zeroDivision ↔ segments = 1) ∧
    (create_ellipsoid a b c slices segments = .error .runtimeError ↔ segments ≠ 1 ∧ (segments ≤ 2 ∨ slices ≤ 2)) ∧
    (create_capsule radius height slices segments = .error .zeroDivision ↔ segments = 1) ∧
    (create_capsule radius height slices segments = .error .runtimeError ↔ segments ≠ 1 ∧ (segments ≤ 2 ∨ slices ≤ 2)) ∧
    (create_cylinder radius height slices segments = .error .zeroDivision ↔ segments = 0) ∧
    (create_cylinder radius height slices segments = .error .runtimeError ↔ segments ≠ 0 ∧ slices ≤ 2) ∧
    (create_cone radius height slices = .error .runtimeError ↔ slices ≤ 2) ∧
    (create_conical a b height slices = .error .runtimeError ↔ slices ≤ 2) := by
  have hs : ∀ r : ℝ, (create_sphere r slices segments = .error .zeroDivision ↔ segments = 1) ∧
      (create_sphere r slices segments = .error .runtimeError ↔ segments ≠ 1 ∧ (segments ≤ 2 ∨ slices ≤ 2)) := by
    intro r
    have hlen := sphereProfile_length r segments
    unfold create_sphere profile_sweep
    simp only [hlen]
    by_cases h0 : segments = 1 <;> by_cases h1 : segments ≤ 2 <;> by_cases h2 : slices ≤ 2 <;> simp [h0, h1, h2]
  have he : ∀ e : PyErr, create_ellipsoid a b c slices segments = .error e ↔ create_sphere 1 slices segments = .error e := by
    intro e
    unfold create_ellipsoid
    cases create_sphere 1 slices segments with
    | error e' => simp [Bind.bind, Except.bind]
    | ok v => simp [Bind.bind, Except.bind]
  refine ⟨(hs _).1, (hs _).2, (he _).trans (hs 1).1, (he _).trans (hs 1).2, ?_, ?_, ?_, ?_, ?_, ?_⟩
  · unfold create_capsule profile_sweep
    simp only [List.length_map, List.length_range]
    by_cases h0 : segments = 1 <;> by_cases h1 : segments ≤ 2 <;> by_cases h2 : slices ≤ 2 <;> simp [h0, h1, h2]
  · unfold create_capsule profile_sweep
    simp only [List.length_map, List.length_range]
    by_cases h0 : segments = 1 <;> by_cases h1 : segments ≤ 2 <;> by_cases h2 : slices ≤ 2 <;> simp [h0, h1, h2]
  · unfold create_cylinder profile_sweep
    by_cases h0 : segments = 0 <;> by_cases h2 : slices ≤ 2 <;> simp [h0, h2]
  · unfold create_cylinder profile_sweep
    by_cases h0 : segments = 0 <;> by_cases h2 : slices ≤ 2 <;> simp [h0, h2]
  · unfold create_cone profile_sweep
    by_cases h2 : slices ≤ 2 <;> simp [h2]
  · unfold create_conical profile_sweep
    by_cases h2 : slices ≤ 2 <;> simp [h2]

end Verif
