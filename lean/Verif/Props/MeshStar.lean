import Verif.Props.SceneShape

/-! C85: meshes that `create_shape` accepts. -/

namespace Verif

open Rigid SMesh
open VMesh (Tri)

/-- A closed surface all of whose triangles face away from some point. -/
def StarShaped (VT : List V3 × List Tri) : Prop :=
  IndicesBelow VT.2 VT.1.length ∧ ClosedOriented VT.2 ∧ VT.2 ≠ [] ∧
    ∃ c : V3, ∀ t ∈ VT.2, 0 < det3 (VT.1.getD t.a 0 - c) (VT.1.getD t.b 0 - c) (VT.1.getD t.c 0 - c)

theorem det3_sub (a b d c : V3) : det3 (a - c) (b - c) (d - c) = V3.dot (a - c) (V3.cross (b - a) (d - a)) := by
  simp only [det3, V3.dot, V3.cross, V3.sub_x, V3.sub_y, V3.sub_z]
  ring

theorem StarShaped.noZero {VT : List V3 × List Tri} (h : StarShaped VT) : ∀ t ∈ VT.2, ¬ ZeroArea VT.1 t := by
  obtain ⟨-, -, -, c, hc⟩ := h
  intro t ht hz
  have := hc t ht
  rw [det3_sub, hz] at this
  simp [V3.dot] at this

theorem StarShaped.volume {VT : List V3 × List Tri} (h : StarShaped VT) : 0 < enclosedVolume VT.1 VT.2 := by
  obtain ⟨hi, hc, hne, c, hp⟩ := h
  have := (C63_translate ⟨VT.1, VT.2⟩ (-c)).2.2 hc hi
  simp only at this
  rw [← this]
  unfold enclosedVolume translate
  refine div_pos (List.sum_pos _ ?_ ?_) (by norm_num)
  · intro x hx
    obtain ⟨t, ht, rfl⟩ := List.mem_map.1 hx
    obtain ⟨ha, hb, hd⟩ := hi t ht
    have key : ∀ i, i < VT.1.length → (VT.1.map fun v => v + -c).getD i 0 = VT.1.getD i 0 - c := by
      intro i hi'
      rw [List.getD_eq_getElem _ _ (by simpa using hi'), List.getD_eq_getElem _ _ hi', List.getElem_map, sub_eq_add_neg]
    simp only
    rw [key _ ha, key _ hb, key _ hd]
    exact hp t ht
  · simpa using hne

theorem box_star {w h d : ℝ} (hw : 0 < w) (hh : 0 < h) (hd : 0 < d) : StarShaped (create_box w h d) := by
  refine ⟨(C33_box_closed w h d).1, (C33_box_closed w h d).2, by simp [create_box, boxT], 0, ?_⟩
  have : 0 < w * h * d := by positivity
  intro t ht
  simp only [create_box, boxT, List.mem_cons, List.not_mem_nil, or_false] at ht
  rcases ht with rfl | rfl | rfl | rfl | rfl | rfl | rfl | rfl | rfl | rfl | rfl | rfl <;>
    simp [create_box, det3] <;> nlinarith


theorem cuboid_star {p0 p1 p2 p3 p4 p5 p6 p7 : V3} (c : V3)
    (h1 : 0 < det3 (p0 - c) (p1 - c) (p2 - c)) (h2 : 0 < det3 (p0 - c) (p2 - c) (p3 - c))
    (h3 : 0 < det3 (p4 - c) (p7 - c) (p6 - c)) (h4 : 0 < det3 (p4 - c) (p6 - c) (p5 - c))
    (h5 : 0 < det3 (p4 - c) (p0 - c) (p3 - c)) (h6 : 0 < det3 (p4 - c) (p3 - c) (p7 - c))
    (h7 : 0 < det3 (p1 - c) (p5 - c) (p6 - c)) (h8 : 0 < det3 (p1 - c) (p6 - c) (p2 - c))
    (h9 : 0 < det3 (p7 - c) (p3 - c) (p2 - c)) (h10 : 0 < det3 (p7 - c) (p2 - c) (p6 - c))
    (h11 : 0 < det3 (p5 - c) (p1 - c) (p0 - c)) (h12 : 0 < det3 (p5 - c) (p0 - c) (p4 - c)) :
    StarShaped (create_cuboid p0 p1 p2 p3 p4 p5 p6 p7) := by
  refine ⟨(C33_cuboid_closed ..).1, (C33_cuboid_closed ..).2, by simp [create_cuboid, quads], c, ?_⟩
  intro t ht
  simp only [create_cuboid, quads, List.flatMap_cons, List.flatMap_nil, List.append_nil, List.cons_append, List.nil_append,
    List.mem_cons, List.not_mem_nil, or_false] at ht
  rcases ht with rfl | rfl | rfl | rfl | rfl | rfl | rfl | rfl | rfl | rfl | rfl | rfl
  · exact h1
  · exact h2
  · exact h3
  · exact h4
  · exact h5
  · exact h6
  · exact h7
  · exact h8
  · exact h9
  · exact h10
  · exact h11
  · exact h12

/-! ### Surfaces of revolution -/

theorem rotY_shift (A c : ℝ) (p : V3) : rotY A p - ⟨0, c, 0⟩ = rotY A (p - ⟨0, c, 0⟩) := by
  refine V3.ext ?_ ?_ ?_ <;> simp [rotY]

/-- The sweep of a profile that starts below and ends above the point (0, c, 0) of the axis and turns counter-clockwise about it. -/
theorem sweep_star (profile : List V3) (J : ℕ) (hN : 3 ≤ profile.length) (hJ : 3 ≤ J) (c : ℝ)
    (hz : ∀ p ∈ profile, p.z = 0)
    (h0 : (profile.getD 0 0).x = 0) (h1 : (profile.getD (profile.length - 1) 0).x = 0)
    (h0y : (profile.getD 0 0).y < c) (h1y : c < (profile.getD (profile.length - 1) 0).y)
    (hx : ∀ i, 0 < i → i < profile.length - 1 → 0 < (profile.getD i 0).x)
    (hturn : ∀ i, 0 < i → i + 1 < profile.length - 1 →
      0 < (profile.getD i 0).x * ((profile.getD (i + 1) 0).y - c) - (profile.getD (i + 1) 0).x * ((profile.getD i 0).y - c)) :
    ∃ VT, profile_sweep profile J = .ok VT ∧ StarShaped VT := by
  have hok := profile_sweep_ok (profile := profile) (J := J) hN hJ
  obtain ⟨-, -, c1, c2⟩ := C33_sweep_closed _ _ _ _ hok
  refine ⟨_, hok, c1, c2, ?_, ⟨0, c, 0⟩, ?_⟩
  · intro h
    have := congrArg List.length h
    simp [sweepT] at this
    omega
  have hz' : ∀ i, (profile.getD i 0).z = 0 := by
    intro i
    by_cases hi : i < profile.length
    · rw [getD_range_map hi]; exact hz _ (List.getElem_mem _)
    · rw [List.getD_eq_default _ _ (by omega)]; rfl
  have hz2 : ∀ i, (profile.getD i 0 - ⟨0, c, 0⟩).z = 0 := by
    intro i; rw [V3.sub_z, hz' i]; simp
  have hx0 : (profile.getD 0 0 - ⟨0, c, 0⟩).x = 0 := by rw [V3.sub_x, h0]; simp
  have hx1 : (profile.getD (profile.length - 1) 0 - ⟨0, c, 0⟩).x = 0 := by rw [V3.sub_x, h1]; simp
  have hs : 0 < Real.sin (2 * Real.pi / J) := by
    have hJ' : (3:ℝ) ≤ J := by exact_mod_cast hJ
    refine Real.sin_pos_of_pos_of_lt_pi (by positivity) ?_
    rw [div_lt_iff₀ (by linarith)]
    nlinarith [Real.pi_pos]
  intro t ht
  simp only [sweepT, List.mem_append] at ht
  set H := profile.length - 2 with hH
  rcases ht with (ht | ht) | ht
  · obtain ⟨j, hj, rfl⟩ := List.mem_map.1 ht
    have hj : j < J := by simpa using hj
    have e1 := sweepV_next profile (i := 0) (by omega) hj
    have e2 := sweepV_ring profile (i := 0) (by omega) hj
    have e3 := sweepV_bottom profile J
    rw [← hH] at e1 e2 e3
    simp only [botTri, Nat.mul_comm H, Nat.add_zero, show J * H + 2 - 1 = J * H + 1 by omega] at *
    rw [e1, e2, e3, rotY_shift, rotY_shift, det3_bot _ _ (hz2 _) (hz2 _) hx0]
    have := hx 1 (by omega) (by omega)
    simp only [V3.sub_x, V3.sub_y, sub_zero]
    refine mul_pos hs ?_
    have h2 : 0 < (profile.getD (0 + 1) 0).x ^ 2 := by positivity
    nlinarith
  · obtain ⟨i, hi, ht⟩ := List.mem_flatMap.1 ht
    obtain ⟨j, hj, ht⟩ := List.mem_flatMap.1 ht
    have hi : i < H - 1 := by simpa using hi
    have hj : j < J := by simpa using hj
    have e1 := sweepV_next profile (i := i) (by omega) hj
    have e2 := sweepV_ring profile (i := i) (by omega) hj
    have e3 := sweepV_next profile (i := i + 1) (by omega) hj
    have e4 := sweepV_ring profile (i := i + 1) (by omega) hj
    have a1 := hx (i + 1) (by omega) (by omega)
    have a2 := hx (i + 1 + 1) (by omega) (by omega)
    have a3 := hturn (i + 1) (by omega) (by omega)
    rw [← hH] at e1 e2 e3 e4
    simp only [midTris, List.mem_cons, List.not_mem_nil, or_false] at ht
    rcases ht with rfl | rfl
    · simp only
      rw [e1, e2, e3, rotY_shift, rotY_shift, rotY_shift, det3_lo _ _ (hz2 _) (hz2 _)]
      simp only [V3.sub_x, V3.sub_y, sub_zero]
      positivity
    · simp only
      rw [e2, e3, e4, rotY_shift, rotY_shift, rotY_shift, det3_hi _ _ (hz2 _) (hz2 _)]
      simp only [V3.sub_x, V3.sub_y, sub_zero]
      positivity
  · obtain ⟨j, hj, rfl⟩ := List.mem_map.1 ht
    have hj : j < J := by simpa using hj
    have e1 := sweepV_next profile (i := profile.length - 3) (by omega) hj
    have e2 := sweepV_ring profile (i := profile.length - 3) (by omega) hj
    have e3 := sweepV_top profile J
    rw [← hH] at e1 e2 e3
    simp only [topTri, show H * J + 2 - 2 = H * J by omega] at *
    rw [e1, e2, e3, rotY_shift, rotY_shift, det3_top _ _ (hz2 _) (hz2 _) hx1]
    have := hx (profile.length - 3 + 1) (by omega) (by omega)
    simp only [V3.sub_x, V3.sub_y, sub_zero]
    have h2 : 0 < (profile.getD (profile.length - 3 + 1) 0).x ^ 2 := by positivity
    have h3 : 0 < (profile.getD (profile.length - 1) 0).y - c := by linarith
    positivity

theorem conical_star {rb rt h : ℝ} (hb : 0 < rb) (ht : 0 < rt) (hh : 0 < h) (slices : ℕ) (hJ : 3 ≤ slices) :
    ∃ VT, create_conical rb rt h slices = .ok VT ∧ StarShaped VT := by
  refine sweep_star _ slices (by simp) hJ (h / 2) (by simp) rfl rfl (by simp; linarith) (by simp; linarith) ?_ ?_
  · intro i h0 h1
    simp only [List.length_cons, List.length_nil] at h1
    have : i = 1 ∨ i = 2 := by omega
    rcases this with rfl | rfl
    · exact hb
    · exact ht
  · intro i h0 h1
    simp only [List.length_cons, List.length_nil] at h1
    have : i = 1 := by omega
    subst this
    show 0 < rb * (h - h / 2) - rt * (0 - h / 2)
    nlinarith

theorem cone_star {r h : ℝ} (hr : 0 < r) (hh : 0 < h) (slices : ℕ) (hJ : 3 ≤ slices) :
    ∃ VT, create_cone r h slices = .ok VT ∧ StarShaped VT := by
  refine sweep_star _ slices (by simp) hJ (h / 2) (by simp) rfl rfl (by simp; linarith) (by simp; linarith) ?_ ?_
  · intro i h0 h1
    simp only [List.length_cons, List.length_nil] at h1
    have : i = 1 := by omega
    subst this
    exact hr
  · intro i h0 h1
    simp only [List.length_cons, List.length_nil] at h1
    omega

theorem cylinder_star {r h : ℝ} (hr : 0 < r) (hh : 0 < h) (slices segments : ℕ) (hJ : 3 ≤ slices) (hs : 1 ≤ segments) :
    ∃ VT, create_cylinder r h slices segments = .ok VT ∧ StarShaped VT := by
  have hs0 : (0 : ℝ) < segments := by exact_mod_cast hs
  unfold create_cylinder
  rw [if_neg (by omega)]
  simp only
  set f : ℕ → V3 := fun (i : ℕ) => (⟨r, h / segments * ((i : ℝ) + 1) - h / 2, 0⟩ : V3) with hf
  set profile : List V3 := [⟨0, -h / 2, 0⟩, ⟨r, -h / 2, 0⟩] ++ (List.range segments).map f ++ [⟨0, h / 2, 0⟩] with hprof
  have hlen : profile.length = segments + 3 := by simp [hprof]
  have hlast : profile.getD (profile.length - 1) 0 = ⟨0, h / 2, 0⟩ := by
    rw [hlen, hprof, List.getD_append_right _ _ _ _ (by simp)]
    simp
  have h0 : profile.getD 0 0 = ⟨0, -h / 2, 0⟩ := by simp [hprof]
  have hget : ∀ i, i ≤ segments → profile.getD (i + 1) 0 = ⟨r, h / segments * (i : ℝ) - h / 2, 0⟩ := by
    intro i hi
    rw [hprof, List.getD_append _ _ _ _ (by simp; omega)]
    cases i with
    | zero => simp; ring
    | succ i =>
      rw [List.getD_append_right _ _ _ _ (by simp)]
      simp only [List.length_cons, List.length_nil]
      rw [show i + 1 + 1 - (0 + 1 + 1) = i by omega, getD_range_map (by simp; omega)]
      simp [hf]
  refine sweep_star profile slices (by omega) hJ 0 ?_ (by rw [h0]) (by rw [hlast]) (by rw [h0]; simp only; linarith)
    (by rw [hlast]; simp only; linarith) ?_ ?_
  · intro p hp
    simp only [hprof, List.mem_append, List.mem_cons, List.not_mem_nil, or_false, List.mem_map, List.mem_range] at hp
    rcases hp with ((rfl | rfl) | ⟨i, hi, rfl⟩) | rfl <;> rfl
  · intro i i0 i1
    obtain ⟨k, rfl⟩ : ∃ k, i = k + 1 := ⟨i - 1, by omega⟩
    rw [hget k (by omega)]
    exact hr
  · intro i i0 i1
    obtain ⟨k, rfl⟩ : ∃ k, i = k + 1 := ⟨i - 1, by omega⟩
    rw [hget k (by omega), hget (k + 1) (by omega)]
    simp only
    have : 0 < h / segments := by positivity
    push_cast
    nlinarith [mul_pos hr this]

theorem sphereAngle {segments i : ℕ} (hs : 3 ≤ segments) (h0 : 0 < i) (h1 : i < segments - 1) :
    0 < Real.pi / ((segments : ℝ) - 1) * (i : ℝ) ∧ Real.pi / ((segments : ℝ) - 1) * (i : ℝ) < Real.pi := by
  have hn1 : (0 : ℝ) < (segments : ℝ) - 1 := by
    have : (3 : ℝ) ≤ segments := by exact_mod_cast hs
    linarith
  have hi0 : (0:ℝ) < i := by exact_mod_cast h0
  have hi1 : (i:ℝ) < (segments : ℝ) - 1 := by
    have : i + 1 < segments := by omega
    have : ((i:ℝ)) + 1 < segments := by exact_mod_cast this
    linarith
  have hpi := Real.pi_pos
  refine ⟨by positivity, ?_⟩
  rw [div_mul_eq_mul_div, div_lt_iff₀ hn1]
  nlinarith

theorem capsule_star {r h : ℝ} (hr : 0 < r) (hh : 0 ≤ h) (slices segments : ℕ) (hJ : 3 ≤ slices) (hs : 3 ≤ segments) :
    ∃ VT, create_capsule r h slices segments = .ok VT ∧ StarShaped VT := by
  unfold create_capsule
  rw [if_neg (by omega)]
  simp only
  set profile := (List.range segments).map fun (i : ℕ) =>
    Quat.rotate (Quat.Ru (Real.pi / ((segments : ℝ) - 1) * (i : ℝ)) V3.k) ⟨0, -r, 0⟩ +
      ⟨0, if 2 * i < segments then -h / 2 else h / 2, 0⟩ with hprof
  have hlen : profile.length = segments := by simp [hprof]
  have hn1 : (0 : ℝ) < (segments : ℝ) - 1 := by
    have : (3 : ℝ) ≤ segments := by exact_mod_cast hs
    linarith
  have hget : ∀ i, i < segments → profile.getD i 0 = ⟨r * Real.sin (Real.pi / ((segments : ℝ) - 1) * i),
      -r * Real.cos (Real.pi / ((segments : ℝ) - 1) * i) + (if 2 * i < segments then -h / 2 else h / 2), 0⟩ := by
    intro i hi
    rw [getD_range_map (by simpa [hlen] using hi)]
    simp only [hprof, List.getElem_map, List.getElem_range, rotate_Ru_k]
    refine V3.ext ?_ ?_ ?_ <;> simp
  have hlast : profile.getD (profile.length - 1) 0 = ⟨0, r + h / 2, 0⟩ := by
    rw [hlen, hget _ (by omega), if_neg (by omega), show Real.pi / ((segments : ℝ) - 1) * ((segments - 1 : ℕ) : ℝ) = Real.pi by
        rw [Nat.cast_sub (by omega)]
        field_simp
        push_cast
        ring]
    simp
  have hfirst : profile.getD 0 0 = ⟨0, -r - h / 2, 0⟩ := by
    rw [hget _ (by omega), if_pos (by omega)]
    refine V3.ext ?_ ?_ ?_ <;> simp
    ring
  refine sweep_star profile slices (by omega) hJ 0 ?_ (by rw [hfirst]) (by rw [hlast]) (by rw [hfirst]; simp only; linarith)
    (by rw [hlast]; simp only; linarith) ?_ ?_
  · intro p hp
    simp only [hprof, List.mem_map, List.mem_range] at hp
    obtain ⟨i, hi, rfl⟩ := hp
    rw [rotate_Ru_k]
    simp
  · intro i i0 i1
    rw [hlen] at i1
    rw [hget i (by omega)]
    obtain ⟨a, b⟩ := sphereAngle hs i0 i1
    exact mul_pos hr (Real.sin_pos_of_pos_of_lt_pi a b)
  · intro i i0 i1
    rw [hlen] at i1
    obtain ⟨a1, b1⟩ := sphereAngle hs i0 (by omega)
    obtain ⟨a2, b2⟩ := sphereAngle hs (i := i + 1) (by omega) i1
    rw [hget i (by omega), hget (i + 1) (by omega)]
    obtain ⟨δ, hδ⟩ : ∃ δ, δ = Real.pi / ((segments : ℝ) - 1) := ⟨_, rfl⟩
    have hδ0 : 0 < δ := by rw [hδ]; have := Real.pi_pos; positivity
    have hδπ : δ * ((segments : ℝ) - 1) = Real.pi := by rw [hδ]; field_simp
    rw [← hδ] at a1 b1 a2 b2 ⊢
    obtain ⟨α, hα⟩ : ∃ α, α = δ * (i : ℝ) := ⟨_, rfl⟩
    have hβ : δ * ((i + 1 : ℕ) : ℝ) = α + δ := by rw [hα]; push_cast; ring
    rw [hβ] at a2 b2 ⊢
    rw [← hα] at a1 b1 ⊢
    have hs1 := Real.sin_pos_of_pos_of_lt_pi a1 b1
    have hs2 := Real.sin_pos_of_pos_of_lt_pi a2 b2
    have hsd : 0 < Real.sin δ := Real.sin_pos_of_pos_of_lt_pi hδ0 (by linarith)
    have hdif : Real.sin δ = Real.sin (α + δ) * Real.cos α - Real.cos (α + δ) * Real.sin α := by
      rw [← Real.sin_sub]; congr 1; ring
    simp only [sub_zero]
    have main : 0 ≤ Real.sin α * (if 2 * (i + 1) < segments then -h / 2 else h / 2) -
        Real.sin (α + δ) * (if 2 * i < segments then -h / 2 else h / 2) := by
      by_cases c1 : 2 * i < segments
      · rw [if_pos c1]
        by_cases c2 : 2 * (i + 1) < segments
        · rw [if_pos c2]
          have : Real.sin α ≤ Real.sin (α + δ) := by
            have c2' : 2 * (i + 1) ≤ segments - 1 := by omega
            have c3 : (2 * ((i:ℝ) + 1)) ≤ (segments : ℝ) - 1 := by
              have : 2 * (i + 1) + 1 ≤ segments := by omega
              have : 2 * ((i : ℝ) + 1) + 1 ≤ segments := by exact_mod_cast this
              linarith
            refine Real.sin_le_sin_of_le_of_le_pi_div_two (by linarith [Real.pi_pos]) ?_ (by linarith)
            have : α + δ = δ * ((i:ℝ) + 1) := by rw [hα]; ring
            rw [this]
            nlinarith
          nlinarith
        · rw [if_neg c2]
          nlinarith
      · rw [if_neg c1, if_neg (by omega)]
        have : Real.sin (α + δ) ≤ Real.sin α := by
          have c3 : (segments : ℝ) ≤ 2 * (i : ℝ) := by
            have : segments ≤ 2 * i := by omega
            exact_mod_cast this
          rw [← Real.sin_pi_sub (α + δ), ← Real.sin_pi_sub α]
          refine Real.sin_le_sin_of_le_of_le_pi_div_two (by linarith) ?_ (by linarith)
          rw [hα]
          nlinarith
        nlinarith
    have : 0 < r * r * Real.sin δ := by positivity
    rw [hdif] at this
    nlinarith [mul_nonneg hr.le main]

theorem sphere_star {r : ℝ} (hr : 0 < r) (slices segments : ℕ) (hJ : 3 ≤ slices) (hs : 3 ≤ segments) :
    ∃ VT, create_sphere r slices segments = .ok VT ∧ StarShaped VT := by
  obtain ⟨VT, h1, h2⟩ := capsule_star hr le_rfl slices segments hJ hs
  refine ⟨VT, ?_, h2⟩
  rw [← h1]
  unfold create_sphere create_capsule sphereProfile
  rw [if_neg (by omega), if_neg (by omega)]
  simp only
  congr 1
  refine List.map_congr_left fun i _ => ?_
  have : (⟨0, if 2 * i < segments then -0 / 2 else 0 / 2, 0⟩ : V3) = 0 := by
    refine V3.ext ?_ ?_ ?_ <;> simp
  rw [this, add_zero]

theorem ellipsoid_star {a b c : ℝ} (ha : 0 < a) (hb : 0 < b) (hc : 0 < c) (slices segments : ℕ) (hJ : 3 ≤ slices)
    (hs : 3 ≤ segments) : ∃ VT, create_ellipsoid a b c slices segments = .ok VT ∧ StarShaped VT := by
  obtain ⟨⟨V, T⟩, h1, i1, i2, i3, o, i4⟩ := sphere_star one_pos slices segments hJ hs
  refine ⟨(V.map (fun v => vmul v ⟨a, b, c⟩), T), ?_, by simpa using i1, i2, i3, vmul o ⟨a, b, c⟩, ?_⟩
  · unfold create_ellipsoid
    rw [h1]
    rfl
  · intro t ht
    have hg : ∀ i, (V.map (fun v => vmul v ⟨a, b, c⟩)).getD i 0 = vmul (V.getD i 0) ⟨a, b, c⟩ := by
      intro i
      by_cases hi : i < V.length
      · rw [List.getD_eq_getElem _ _ (by simpa using hi), List.getD_eq_getElem _ _ hi, List.getElem_map]
      · rw [List.getD_eq_default _ _ (by simpa using hi), List.getD_eq_default _ _ (by omega)]
        refine V3.ext ?_ ?_ ?_ <;> simp [vmul]
    simp only [hg]
    have := i4 t ht
    simp only at this
    have e : ∀ x y z : V3, det3 (vmul x ⟨a, b, c⟩ - vmul o ⟨a, b, c⟩) (vmul y ⟨a, b, c⟩ - vmul o ⟨a, b, c⟩)
        (vmul z ⟨a, b, c⟩ - vmul o ⟨a, b, c⟩) = a * b * c * det3 (x - o) (y - o) (z - o) := by
      intro x y z
      simp only [det3, vmul, V3.sub_x, V3.sub_y, V3.sub_z]
      ring
    rw [e]
    positivity

/-- **C85.** What `create_mesh` and `create_shape` accept: every surface whose triangles all face away from some point. -/
theorem star_shape_succeeds {eig : Eig} (he : EigSpec eig) (s : Scene) (name : String) {VT : List V3 × List Tri}
    (hm : StarShaped VT) (hn : s.eng.shapes.get? name = none) :
    ∃ m s', create_mesh eig VT.1 VT.2 = .ok m ∧ s.create_shape eig name m = .ok s' := by
  obtain ⟨m, hm1, hm2, hm3, hm4, hm5⟩ := C84_create_mesh he VT.1 VT.2 hm.1
  have hz : ∀ t ∈ m.T, ¬ ZeroArea m.V t := by
    intro t ht hzero
    have h1 : (m.V.getD t.a 0, m.V.getD t.b 0, m.V.getD t.c 0) ∈ trianglesOf VT.1 VT.2 :=
      hm3.mem_iff.1 (List.mem_map_of_mem (f := fun t => (m.V.getD t.a 0, m.V.getD t.b 0, m.V.getD t.c 0)) ht)
    obtain ⟨t', ht', e⟩ := List.mem_map.1 h1
    simp only [Prod.mk.injEq] at e
    refine hm.noZero t' ht' ?_
    unfold ZeroArea at hzero ⊢
    rw [e.1, e.2.1, e.2.2]
    exact hzero
  have hv : 0 < enclosedVolume m.V m.T := by
    rw [enclosedVolume_perm hm3]; exact hm.volume
  obtain ⟨s', hs'⟩ := C85_create_shape_succeeds (eig := eig) s name m hn hm4 (hm5 hm.2.1) hz hv
  exact ⟨m, s', hm1, hs'⟩

/-- **C85.** Every primitive of surface_mesh.py with positive sizes (and at least three slices and segments) can be made
into a shape: the generator, `create_mesh` and `create_shape` with an unused name all succeed. -/
theorem C85_primitives {eig : Eig} (he : EigSpec eig) (s : Scene) (name : String) (hn : s.eng.shapes.get? name = none)
    {a b c : ℝ} (ha : 0 < a) (hb : 0 < b) (hc : 0 < c) {slices segments : ℕ} (hJ : 3 ≤ slices) (hs : 3 ≤ segments) :
    let Accepted := fun (R : Except PyErr (List V3 × List Tri)) =>
      ∃ VT m s', R = .ok VT ∧ create_mesh eig VT.1 VT.2 = .ok m ∧ s.create_shape eig name m = .ok s'
    Accepted (.ok (create_box a b c)) ∧ Accepted (create_cylinder a b slices segments) ∧ Accepted (create_cone a b slices) ∧
    Accepted (create_conical a b c slices) ∧ Accepted (create_sphere a slices segments) ∧
    Accepted (create_ellipsoid a b c slices segments) ∧ Accepted (create_capsule a b slices segments) := by
  have key : ∀ R : Except PyErr (List V3 × List Tri), (∃ VT, R = .ok VT ∧ StarShaped VT) →
      ∃ VT m s', R = .ok VT ∧ create_mesh eig VT.1 VT.2 = .ok m ∧ s.create_shape eig name m = .ok s' := by
    rintro R ⟨VT, h1, h2⟩
    obtain ⟨m, s', h3, h4⟩ := star_shape_succeeds he s name h2 hn
    exact ⟨VT, m, s', h1, h3, h4⟩
  exact ⟨key _ ⟨_, rfl, box_star ha hb hc⟩, key _ (cylinder_star ha hb slices segments hJ (by omega)),
    key _ (cone_star ha hb slices hJ), key _ (conical_star ha hb hc slices hJ), key _ (sphere_star ha slices segments hJ hs),
    key _ (ellipsoid_star ha hb hc slices segments hJ hs), key _ (capsule_star ha hb.le slices segments hJ hs)⟩

end Verif
