import Verif.Props.GearSolid

/-! C107: the mesh of a gear bounds a solid (second part). -/

namespace Verif

open Gear SMesh
open VMesh (Tri)

/-- A closed surface, no triangle of which faces the origin, with the origin half way between two vertices, bounds a solid. -/
theorem solid_of_weakStar {V : List V3} {T : List Tri} (hi : IndicesBelow T V.length) (hc : ClosedOriented T) (hz : ∀ t ∈ T, ¬ ZeroArea V t)
    (hv : 0 < enclosedVolume V T) (hd : ∀ t ∈ T, 0 ≤ det3 (V.getD t.a 0) (V.getD t.b 0) (V.getD t.c 0)) {p q : V3} (hp : p ∈ V) (hq : q ∈ V) (hpq : p + q = 0) :
    Solid (V, T) := by
  refine ⟨hi, hc, hz, hv, ?_⟩
  intro e
  by_contra hcon
  push Not at hcon
  simp only at hcon
  obtain ⟨g, hg⟩ : ∃ g, g = V3.dot e (centroid V T) := ⟨_, rfl⟩
  rw [← hg] at hcon
  have hmem : ∀ t ∈ T, ∀ i ∈ [t.a, t.b, t.c], V.getD i 0 ∈ V := by
    intro t ht i hi'
    have hlt : i < V.length := by
      obtain ⟨h1, h2, h3⟩ := hi t ht
      simp only [List.mem_cons, List.not_mem_nil, or_false] at hi'
      rcases hi' with rfl | rfl | rfl <;> assumption
    rw [List.getD_eq_getElem _ _ hlt]
    exact List.getElem_mem _
  have hg0 : g < 0 := by
    have h1 := hcon p hp
    have h2 := hcon q hq
    have : V3.dot e p + V3.dot e q = 0 := by
      have : V3.dot e p + V3.dot e q = V3.dot e (p + q) := by simp only [V3.dot, V3.add_x, V3.add_y, V3.add_z]; ring
      rw [this, hpq]; simp [V3.dot]
    linarith
  have hD : 0 < (T.map fun t => det3 (V.getD t.a 0) (V.getD t.b 0) (V.getD t.c 0)).sum := by
    unfold enclosedVolume at hv; linarith
  have hcent := dot_centroid e V T
  rw [if_neg hD.ne', ← hg] at hcent
  have key : ∀ t ∈ T, 3 * g * det3 (V.getD t.a 0) (V.getD t.b 0) (V.getD t.c 0) ≤ det3 (V.getD t.a 0) (V.getD t.b 0) (V.getD t.c 0) *
      V3.dot e (V.getD t.a 0 + V.getD t.b 0 + V.getD t.c 0) := by
    intro t ht
    have ha := hcon _ (hmem t ht t.a (by simp))
    have hb := hcon _ (hmem t ht t.b (by simp))
    have hd' := hcon _ (hmem t ht t.c (by simp))
    have e1 : V3.dot e (V.getD t.a 0 + V.getD t.b 0 + V.getD t.c 0) =
        V3.dot e (V.getD t.a 0) + V3.dot e (V.getD t.b 0) + V3.dot e (V.getD t.c 0) := by
      simp only [V3.dot, V3.add_x, V3.add_y, V3.add_z]; ring
    rw [e1]
    have := mul_le_mul_of_nonneg_left (show 3 * g ≤ V3.dot e (V.getD t.a 0) + V3.dot e (V.getD t.b 0) + V3.dot e (V.getD t.c 0) by linarith) (hd t ht)
    linarith
  have hsum := List.sum_le_sum key
  rw [sum_map_smul] at hsum
  nlinarith

theorem mean_range (f : ℕ → V3) : mean ((List.range 30).map f) = ⟨(∑ k ∈ Finset.range 30, (f k).x) / 30, (∑ k ∈ Finset.range 30, (f k).y) / 30, (∑ k ∈ Finset.range 30, (f k).z) / 30⟩ := by
  have hs : ∀ n, (((List.range n).map f).sum).x = ∑ k ∈ Finset.range n, (f k).x ∧ (((List.range n).map f).sum).y = ∑ k ∈ Finset.range n, (f k).y ∧
      (((List.range n).map f).sum).z = ∑ k ∈ Finset.range n, (f k).z := by
    intro n
    induction n with
    | zero => simp
    | succ n ih =>
      simp only [List.range_succ, List.map_append, List.sum_append, List.map_cons, List.map_nil, List.sum_cons, List.sum_nil, add_zero, V3.add_x, V3.add_y, V3.add_z,
        Finset.sum_range_succ, ih.1, ih.2.1, ih.2.2, and_self]
  obtain ⟨h1, h2, h3⟩ := hs 30
  unfold mean
  simp only [V3.divs, List.length_map, List.length_range]
  rw [h1, h2, h3]
  norm_num

section
variable (m : ℝ) (Z : ℕ) (alpha w : ℝ)

/-- the direction of the middle of tooth c -/
noncomputable def toothDir (c : ℕ) : ℝ := (c : ℝ) * (2 * (Real.pi / Z)) + Real.pi / Z / 2

theorem polar_turn (r a : ℝ) : polar r (a + 2 * Real.pi) = polar r a := by
  unfold polar; rw [Real.cos_add_two_pi, Real.sin_add_two_pi]

variable {m Z alpha} in
theorem loop_get (h : TeethSolid m Z alpha) {c k : ℕ} (hc : c < Z) (hk : k < 30) :
    (make_gear_specs m Z alpha).xy.getD (loopAt Z c k) 0 = polar (gRad m Z alpha k) (toothDir Z c + gAng m Z alpha k) := by
  obtain ⟨q1, q2, q3, q4, q5⟩ := h.fit.radii
  obtain ⟨hT, hd0, hg0, hs⟩ := h.fit.spans
  have hb : (make_gear_specs m Z alpha).beta = Real.pi / Z := rfl
  have hz : (Z : ℝ) ≠ 0 := by have := h.fit.number; positivity
  obtain ⟨-, -, -, -, -, e33⟩ := toothAngle_ends (beta := (make_gear_specs m Z alpha).beta) hs
  obtain ⟨-, -, -, -, -, f33⟩ := toothRadius_ends (R_r := (make_gear_specs m Z alpha).root_radius) q2 (q3.trans q4.le)
  unfold loopAt
  by_cases h0 : k = 0
  · subst h0
    rw [if_pos rfl, g0.1, g0.2]
    unfold halfFoot toothDir
    rw [← hb]
    by_cases hc0 : c = 0
    · subst hc0
      rw [if_pos rfl, show 34 * Z - 1 = 34 * (Z - 1) + 33 by omega, specs_get m Z alpha (by omega) (by norm_num), tooth_get _ _ _ _ _ _ _ (by norm_num), e33, f33,
        Nat.cast_sub (by omega)]
      refine Eq.trans ?_ (polar_turn _ _)
      congr 1
      push_cast
      rw [hb]
      field_simp
      ring
    · rw [if_neg hc0, show 34 * c - 1 = 34 * (c - 1) + 33 by omega, specs_get m Z alpha (by omega) (by norm_num), tooth_get _ _ _ _ _ _ _ (by norm_num), e33, f33,
        Nat.cast_sub (by omega)]
      congr 1
      push_cast; ring
  · rw [if_neg h0, show 34 * c + k - 1 = 34 * c + (k - 1) by omega, specs_get m Z alpha hc (by omega), tooth_get _ _ _ _ _ _ _ (by omega)]
    unfold gRad gAng loopRad loopAng toothDir
    rw [if_neg h0, if_neg h0, ← hb]
    unfold tipRoll
    congr 1
    ring

theorem gearPos_mid {c : ℕ} (hc : c < Z) :
    gearPos m Z alpha w (.cb c) = mean ((List.range 30).map fun k => (⟨((make_gear_specs m Z alpha).xy.getD (loopAt Z c k) 0).1, ((make_gear_specs m Z alpha).xy.getD (loopAt Z c k) 0).2, -(w / 2)⟩ : V3)) ∧
    gearPos m Z alpha w (.ct c) = mean ((List.range 30).map fun k => (⟨((make_gear_specs m Z alpha).xy.getD (loopAt Z c k) 0).1, ((make_gear_specs m Z alpha).xy.getD (loopAt Z c k) 0).2, w / 2⟩ : V3)) := by
  have hl := specs_length m Z alpha
  have hM : ((List.range Z).flatMap (middles Z (faceV (make_gear_specs m Z alpha).xy (w / 2)))).length = 2 * Z := by
    simp [List.length_flatMap, middles, Nat.mul_comm]
  have hF : (faceV (make_gear_specs m Z alpha).xy (w / 2)).length = 68 * Z := by rw [faceV_length, hl]; ring
  have hmid : ∀ k < 2, gearPos m Z alpha w (if k = 0 then .cb c else .ct c) = (middles Z (faceV (make_gear_specs m Z alpha).xy (w / 2)) c).getD k 0 := by
    intro k hk
    have hi : gearIdx Z (if k = 0 then GV.cb c else GV.ct c) = 68 * Z + (c * 2 + k) := by
      split_ifs <;> simp only [gearIdx] <;> omega
    unfold gearPos
    rw [gearMesh_eq, hi]
    simp only
    rw [List.getD_append _ _ _ _ (by simp only [List.length_append, hF, hM]; omega), List.getD_append_right _ _ _ _ (by omega), hF,
      show 68 * Z + (c * 2 + k) - 68 * Z = c * 2 + k by omega, getD_flatMap_const 2 _ (fun a => rfl) _ _ _ (by simpa using hc) hk, List.getElem_range]
  constructor
  · have := hmid 0 (by norm_num)
    rw [if_pos rfl] at this
    rw [this]
    show mean ((loopIdx Z c).map _) = _
    unfold loopIdx
    rw [List.map_map]
    congr 1
    refine List.map_congr_left fun k hk => ?_
    exact faceV_b (by rw [hl]; exact loopAt_lt hc (List.mem_range.1 hk))
  · have := hmid 1 (by norm_num)
    rw [if_neg (by norm_num)] at this
    rw [this]
    show mean (((loopIdx Z c).map _).map _) = _
    unfold loopIdx
    rw [List.map_map, List.map_map]
    congr 1
    refine List.map_congr_left fun k hk => ?_
    have := faceV_t (xy := (make_gear_specs m Z alpha).xy) (z := w / 2) (i := loopAt Z c k) (by rw [hl]; exact loopAt_lt hc (List.mem_range.1 hk))
    rw [hl, Nat.add_comm] at this
    exact this

variable {m Z alpha} in
theorem gearPos_c (h : TeethSolid m Z alpha) {c : ℕ} (hc : c < Z) :
    gearPos m Z alpha w (.cb c) = ⟨midRad m Z alpha * Real.cos (toothDir Z c), midRad m Z alpha * Real.sin (toothDir Z c), -(w / 2)⟩ ∧
    gearPos m Z alpha w (.ct c) = ⟨midRad m Z alpha * Real.cos (toothDir Z c), midRad m Z alpha * Real.sin (toothDir Z c), w / 2⟩ := by
  obtain ⟨h1, h2⟩ := gearPos_mid m Z alpha w hc
  have hsin : ∑ k ∈ Finset.range 30, gRad m Z alpha k * Real.sin (gAng m Z alpha k) = 0 := by
    have : ∑ k ∈ Finset.range 30, gRad m Z alpha k * Real.sin (gAng m Z alpha k) = ∑ k ∈ Finset.range 30, -(gRad m Z alpha k * Real.sin (gAng m Z alpha k)) := by
      rw [← Finset.sum_range_reflect]
      refine Finset.sum_congr rfl fun k hk => ?_
      have e := g29 h (Finset.mem_range.1 hk)
      rw [show 30 - 1 - k = 29 - k by omega, e.1, e.2, Real.sin_neg]; ring
    rw [Finset.sum_neg_distrib] at this
    linarith
  have hx : (∑ k ∈ Finset.range 30, ((make_gear_specs m Z alpha).xy.getD (loopAt Z c k) 0).1) / 30 = midRad m Z alpha * Real.cos (toothDir Z c) := by
    have : ∀ k ∈ Finset.range 30, ((make_gear_specs m Z alpha).xy.getD (loopAt Z c k) 0).1 = Real.cos (toothDir Z c) * (gRad m Z alpha k * Real.cos (gAng m Z alpha k)) -
        Real.sin (toothDir Z c) * (gRad m Z alpha k * Real.sin (gAng m Z alpha k)) := by
      intro k hk
      rw [loop_get h hc (Finset.mem_range.1 hk)]
      simp only [polar, Real.cos_add]; ring
    rw [Finset.sum_congr rfl this, Finset.sum_sub_distrib, ← Finset.mul_sum, ← Finset.mul_sum, hsin]
    unfold midRad; ring
  have hy : (∑ k ∈ Finset.range 30, ((make_gear_specs m Z alpha).xy.getD (loopAt Z c k) 0).2) / 30 = midRad m Z alpha * Real.sin (toothDir Z c) := by
    have : ∀ k ∈ Finset.range 30, ((make_gear_specs m Z alpha).xy.getD (loopAt Z c k) 0).2 = Real.sin (toothDir Z c) * (gRad m Z alpha k * Real.cos (gAng m Z alpha k)) +
        Real.cos (toothDir Z c) * (gRad m Z alpha k * Real.sin (gAng m Z alpha k)) := by
      intro k hk
      rw [loop_get h hc (Finset.mem_range.1 hk)]
      simp only [polar, Real.sin_add]; ring
    rw [Finset.sum_congr rfl this, Finset.sum_add_distrib, ← Finset.mul_sum, ← Finset.mul_sum, hsin]
    unfold midRad; ring
  constructor
  · rw [h1, mean_range]
    refine V3.ext hx hy ?_
    simp only [Finset.sum_const, Finset.card_range, nsmul_eq_mul]
    push_cast; ring
  · rw [h2, mean_range]
    refine V3.ext hx hy ?_
    simp only [Finset.sum_const, Finset.card_range, nsmul_eq_mul]
    push_cast; ring

theorem list_sum_getD {α : Type} (L : List α) (d : α) (f : α → ℝ) : (L.map f).sum = ∑ i ∈ Finset.range L.length, f (L.getD i d) := by
  induction L with
  | nil => simp
  | cons a L ih =>
    rw [List.map_cons, List.sum_cons, List.length_cons, Finset.sum_range_succ', ih]
    simp [add_comm]

variable {m Z alpha} in
/-- the corners of the profile balance -/
theorem xy_sum (h : TeethFit m Z alpha) : ((make_gear_specs m Z alpha).xy.map Prod.fst).sum = 0 ∧ ((make_gear_specs m Z alpha).xy.map Prod.snd).sum = 0 := by
  have hl := specs_length m Z alpha
  obtain ⟨s1, s2⟩ := turn_sums (n := Z) (by have := h.number; omega)
  have hb : 2 * (make_gear_specs m Z alpha).beta = turn Z := by
    show 2 * (Real.pi / Z) = 2 * Real.pi / Z
    ring
  rw [list_sum_getD _ 0, list_sum_getD _ 0, hl, sum_blocks, sum_blocks]
  constructor
  · rw [Finset.sum_comm]
    refine Finset.sum_eq_zero fun i hi => ?_
    have : ∀ c ∈ Finset.range Z, ((make_gear_specs m Z alpha).xy.getD (34 * c + i) 0).1 = _ := fun c hc => by
      rw [specs_get m Z alpha (Finset.mem_range.1 hc) (Finset.mem_range.1 hi), tooth_get _ _ _ _ _ _ _ (Finset.mem_range.1 hi), hb]
    rw [Finset.sum_congr rfl this]
    simp only [polar, Real.cos_add, mul_sub, ← mul_assoc, Finset.sum_sub_distrib, ← Finset.sum_mul, ← Finset.mul_sum, s1, s2]
    ring
  · rw [Finset.sum_comm]
    refine Finset.sum_eq_zero fun i hi => ?_
    have : ∀ c ∈ Finset.range Z, ((make_gear_specs m Z alpha).xy.getD (34 * c + i) 0).2 = _ := fun c hc => by
      rw [specs_get m Z alpha (Finset.mem_range.1 hc) (Finset.mem_range.1 hi), tooth_get _ _ _ _ _ _ _ (Finset.mem_range.1 hi), hb]
    rw [Finset.sum_congr rfl this]
    simp only [polar, Real.sin_add, mul_add, ← mul_assoc, Finset.sum_add_distrib, ← Finset.sum_mul, ← Finset.mul_sum, s1, s2]
    ring

variable {m Z alpha} in
theorem gearPos_a (h : TeethFit m Z alpha) : gearPos m Z alpha w .ab = ⟨0, 0, -(w / 2)⟩ ∧ gearPos m Z alpha w .at = ⟨0, 0, w / 2⟩ := by
  have hl := specs_length m Z alpha
  have hM : ((List.range Z).flatMap (middles Z (faceV (make_gear_specs m Z alpha).xy (w / 2)))).length = 2 * Z := by
    simp [List.length_flatMap, middles, Nat.mul_comm]
  have hF : (faceV (make_gear_specs m Z alpha).xy (w / 2)).length = 68 * Z := by rw [faceV_length, hl]; ring
  obtain ⟨s1, s2⟩ := xy_sum h
  constructor
  · unfold gearPos
    rw [gearMesh_eq]
    simp only [gearIdx, s1, s2]
    rw [List.getD_append_right _ _ _ _ (by simp only [List.length_append, hF, hM]; omega)]
    simp only [List.length_append, hF, hM, show 70 * Z - (68 * Z + 2 * Z) = 0 by omega]
    simp; ring
  · unfold gearPos
    rw [gearMesh_eq]
    simp only [gearIdx, s1, s2]
    rw [List.getD_append_right _ _ _ _ (by simp only [List.length_append, hF, hM]; omega)]
    simp only [List.length_append, hF, hM, show 70 * Z + 1 - (68 * Z + 2 * Z) = 1 by omega]
    simp

end

end Verif
