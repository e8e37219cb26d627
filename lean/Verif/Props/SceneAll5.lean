import Verif.Props.SceneAll4

/-! The volumes of the stones: none is so small that its mass is rounded to zero. -/

namespace Verif

open Rigid Rigid.SceneM SMesh
open VMesh (Tri)

theorem cuboid_volume (p0 p1 p2 p3 p4 p5 p6 p7 : V3) :
    enclosedVolume (create_cuboid p0 p1 p2 p3 p4 p5 p6 p7).1 (create_cuboid p0 p1 p2 p3 p4 p5 p6 p7).2 =
      (det3 p0 p1 p2 + det3 p0 p2 p3 + det3 p4 p7 p6 + det3 p4 p6 p5 + det3 p4 p0 p3 + det3 p4 p3 p7 + det3 p1 p5 p6 + det3 p1 p6 p2 +
        det3 p7 p3 p2 + det3 p7 p2 p6 + det3 p5 p1 p0 + det3 p5 p0 p4) / 6 := by
  simp [enclosedVolume, create_cuboid, quads]
  ring

/-- The volume of a stone of a tower: height times depth times the mean of the widths. -/
theorem towerStone_volume (ro ri h : ℝ) (segments : ℕ) (sf : ℝ) :
    enclosedVolume (towerStone ro ri h segments false sf).1 (towerStone ro ri h segments false sf).2 =
      h * (ro - ri) * (Real.tan (Real.pi / segments) * (ri + ro) * sf) := by
  unfold towerStone
  simp only [Bool.false_eq_true, if_false]
  rw [cuboid_volume]
  simp only [det3]
  ring

/-- The volume of a prism of the temple: the area of the quadrangle times the length. -/
theorem prism_volume (xa ya xb yb xc yc xe ye f b : ℝ) :
    enclosedVolume (prism xa ya xb yb xc yc xe ye f b).1 (prism xa ya xb yb xc yc xe ye f b).2 =
      (f - b) * ((xc - xa) * (ye - yb) - (xe - xb) * (yc - ya)) / 2 := by
  unfold prism
  rw [cuboid_volume]
  simp only [det3]
  ring

/-- The volume of an arch stone: depth times the area of the ring segment's trapezium. -/
theorem archBrick_volume (d ri ro c δ : ℝ) :
    enclosedVolume (archBrick d ri ro c δ).1 (archBrick d ri ro c δ).2 = d * (ro ^ 2 - ri ^ 2) / 2 * Real.sin δ := by
  unfold archBrick
  simp only
  rw [cuboid_volume]
  have hs : Real.sin δ = 2 * Real.sin (δ / 2) * Real.cos (δ / 2) := by rw [← Real.sin_two_mul]; congr 1; ring
  rw [hs]
  simp only [lit2, lit0, rotate_Rz, det3, V3.sub_x, V3.sub_y, V3.sub_z, neg_div, Real.sin_neg, Real.cos_neg]
  ring

/-- The volume of a dome stone. -/
theorem domeBrick_volume (ri ro δθ δφ φ : ℝ) :
    enclosedVolume (domeBrick ri ro δθ δφ φ).1 (domeBrick ri ro δθ δφ φ).2 =
      (ro ^ 3 - ri ^ 3) / 6 * Real.sin δθ * Real.sin δφ * (Real.cos φ + Real.cos (φ + δφ)) := by
  unfold domeBrick
  simp only
  rw [cuboid_volume]
  have hs : Real.sin δφ = Real.sin (φ + δφ) * Real.cos φ - Real.cos (φ + δφ) * Real.sin φ := by
    rw [← Real.sin_sub]; congr 1; ring
  rw [hs]
  simp only [lit0, zero_add, C02_rotate_prod, rotate_Rz, rotate_Ry, Real.cos_zero, Real.sin_zero, det3]
  ring

theorem frustum_volume (rb rt h : ℝ) : enclosedVolume (frustum rb rt h).1 (frustum rb rt h).2 = h * (rb ^ 2 + rb * rt + rt ^ 2) := by
  obtain ⟨V, T, h1, -, -, -, h2⟩ := C33_conical rb rt h 12 (by norm_num)
  have e : frustum rb rt h = (V, T) := by unfold frustum; rw [h1]
  have hs : Real.sin (2 * Real.pi / (12 : ℕ)) = 1 / 2 := by
    rw [← Real.sin_pi_div_six]; congr 1; push_cast; ring
  rw [e]
  show enclosedVolume V T = _
  rw [h2, hs]
  push_cast
  ring

theorem lt_box {c w h d : ℝ} (hv : c < w * h * d) : c < enclosedVolume (create_box w h d).1 (create_box w h d).2 := by
  rw [(C33_box w h d).2.2]
  exact hv

theorem lt_frustum {c rb rt h : ℝ} (hv : c < h * (rb ^ 2 + rb * rt + rt ^ 2)) : c < enclosedVolume (frustum rb rt h).1 (frustum rb rt h).2 := by
  rw [frustum_volume]
  exact hv

/-! ### The plans -/

/-- All the bricks have a volume that is not rounded to zero. -/
def HeavyPlan (B : List Brick) : Prop := ∀ b ∈ B, 1e-10 < enclosedVolume b.V b.T

theorem HeavyPlan.under {B : List Brick} (h : HeavyPlan B) (r : V3) (q : Quat) : HeavyPlan (B.map fun b => b.under r q) := by
  intro b hb
  obtain ⟨b0, hb0, rfl⟩ := List.mem_map.1 hb
  exact h b0 hb0

theorem HeavyPlan.append {A B : List Brick} (h : HeavyPlan A) (h' : HeavyPlan B) : HeavyPlan (A ++ B) := by
  intro b hb
  rcases List.mem_append.1 hb with hb | hb
  · exact h b hb
  · exact h' b hb

theorem stack_heavy {w h d : ℝ} (hv : 1e-10 < w * h * d) (K : ℕ) : HeavyPlan (stackPlan w h d K) := by
  intro b hb
  obtain ⟨k, -, rfl⟩ := List.mem_map.1 hb
  show 1e-10 < enclosedVolume (create_box w h d).1 (create_box w h d).2
  rw [(C33_box w h d).2.2]
  exact hv

theorem tower_heavy {ro ri h sf c y : ℝ} {layers segments : ℕ}
    (hv : 1e-10 < h * (ro - ri) * (Real.tan (Real.pi / segments) * (ri + ro) * sf)) :
    HeavyPlan (towerPlan (towerStone ro ri h segments false sf) c y layers segments) := by
  intro b hb
  unfold towerPlan at hb
  rw [List.mem_flatMap] at hb
  obtain ⟨l, -, hb⟩ := hb
  obtain ⟨j, -, rfl⟩ := List.mem_map.1 hb
  show 1e-10 < enclosedVolume (towerStone ro ri h segments false sf).1 _
  rw [towerStone_volume]
  exact hv

theorem arch_heavy {w ph d : ℝ} {piers stones : ℕ} (hv : 1e-10 < w / 5 * (ph / piers) * d)
    (hs : 1e-10 < d * ((w / 2) ^ 2 - (w / 2 - w / 5) ^ 2) / 2 * Real.sin (Real.pi / stones)) : HeavyPlan (archPlan w ph d piers stones) := by
  unfold archPlan
  simp only
  intro b hb
  rcases List.mem_append.1 hb with hb | hb
  · rw [List.mem_flatMap] at hb
    obtain ⟨l, -, hb⟩ := hb
    simp only [List.mem_cons, List.not_mem_nil, or_false] at hb
    rcases hb with rfl | rfl
    · exact lt_box hv
    · exact lt_box hv
  · obtain ⟨k, -, rfl⟩ := List.mem_map.1 hb
    refine lt_of_lt_of_eq hs (archBrick_volume ..).symm

theorem pillar_heavy {w h d : ℝ} (hw : 1 ≤ w) (hh : 1 ≤ h) (hd : 1 ≤ d) {stones : ℕ} (h1 : 1 ≤ stones) (h2 : stones ≤ 10) : HeavyPlan (pillarPlan w h d stones) := by
  have hst : (1:ℝ) ≤ stones := by exact_mod_cast h1
  have hst' : (stones:ℝ) ≤ 10 := by exact_mod_cast h2
  unfold pillarPlan
  simp only
  have hbox : ∀ y : ℝ, 1 / 20 ≤ y → 1e-10 < w * y * d := by
    intro y hy
    have : (1 : ℝ) * (1 / 20) * 1 ≤ w * y * d := by gcongr
    exact lt_of_lt_of_le (by norm_num) this
  have hfr : ∀ y a b : ℝ, 1 / 100 ≤ y → 1 / 10 ≤ a → 1 / 10 ≤ b → 1e-10 < y * (a ^ 2 + a * b + b ^ 2) := by
    intro y a b hy ha hb
    have : (1 / 100 : ℝ) * ((1 / 10) ^ 2 + (1 / 10) * (1 / 10) + (1 / 10) ^ 2) ≤ y * (a ^ 2 + a * b + b ^ 2) := by gcongr
    exact lt_of_lt_of_le (by norm_num) this
  intro b hb
  rcases List.mem_append.1 hb with hb | hb
  · simp only [List.mem_cons, List.not_mem_nil, or_false] at hb
    rcases hb with rfl | rfl | rfl | rfl
    · exact lt_box (hbox _ (by linarith))
    · exact lt_box (hbox _ (by linarith))
    · exact lt_frustum (hfr _ _ _ (by linarith) (by linarith) (by linarith))
    · exact lt_frustum (hfr _ _ _ (by linarith) (by linarith) (by linarith))
  · obtain ⟨k, hk, rfl⟩ := List.mem_map.1 hb
    have hk : k < stones := List.mem_range.1 hk
    have hk' : ((k : ℝ) + 1) ≤ stones := by exact_mod_cast hk
    have r1 : ∀ x : ℝ, x ≤ stones → 0 ≤ x → 1 / 10 ≤ 7 / 10 * (9 / 10 * (w / 2)) + (5 / 10 - 7 / 10) * (9 / 10 * (w / 2)) * (x / stones) := by
      intro x hx hx0
      have h3 : x / stones ≤ 1 := by rw [div_le_one (by linarith)]; exact hx
      have h4 : (9 / 10 * (w / 2)) * (x / stones) ≤ (9 / 10 * (w / 2)) * 1 := by gcongr
      linarith
    refine lt_frustum (hfr _ _ _ ?_ (r1 _ (by linarith) (by positivity)) (r1 _ hk' (by positivity)))
    rw [le_div_iff₀ (by linarith)]
    linarith

theorem dome_heavy {ri ro : ℝ} {layers segments : ℕ}
    (hv : ∀ l < layers, 1e-10 < (ro ^ 3 - ri ^ 3) / 6 * Real.sin (2 * Real.pi / segments) * Real.sin (Real.pi / 2 / (layers + 1)) *
      (Real.cos (Real.pi / 2 / (layers + 1) * l) + Real.cos (Real.pi / 2 / (layers + 1) * l + Real.pi / 2 / (layers + 1)))) :
    HeavyPlan (domePlan ri ro layers segments) := by
  intro b hb
  rw [domePlan_eq, List.mem_flatMap] at hb
  obtain ⟨l, hl, hb⟩ := hb
  obtain ⟨j, -, rfl⟩ := List.mem_map.1 hb
  exact lt_of_lt_of_eq (hv l (List.mem_range.1 hl)) (domeBrick_volume ..).symm

end Verif
