import Verif.Props.SceneApart

/-! C86, C87: the box stack and the tower. -/

namespace Verif

open Rigid Rigid.SceneM SMesh
open VMesh (Tri)

/-! ### Box stack -/

theorem stack_y {w h d : ℝ} {k : ℕ} {p : V3}
    (hp : p ∈ (Brick.world ⟨(create_box w h d).1, (create_box w h d).2, ⟨0, k * h + h / 2, 0⟩, Quat.Ry (k * Real.pi / 4)⟩)) :
    p.y = k * h ∨ p.y = (k + 1) * h := by
  unfold Brick.world at hp
  obtain ⟨v, hv, rfl⟩ := List.mem_map.1 hp
  obtain ⟨-, hy, -⟩ := mem_box hv
  unfold Brick.at
  simp only [rotate_Ry, V3.add_y]
  rcases hy with hy | hy <;> rw [hy]
  · right; ring
  · left; ring

theorem stack_apart {w h d : ℝ} (hh : 0 ≤ h) (K : ℕ) : (stackPlan w h d K).Pairwise fun a b => PlaneApart a.world b.world := by
  unfold stackPlan
  rw [List.pairwise_map]
  refine List.Pairwise.imp ?_ List.pairwise_lt_range
  intro i j hij
  have h1 : ((i : ℝ) + 1) ≤ j := by exact_mod_cast hij
  refine PlaneApart.of_y ((i + 1) * h) ?_ ?_
  · intro p hp
    rcases stack_y hp with e | e <;> rw [e]
    nlinarith
  · intro p hp
    rcases stack_y hp with e | e <;> rw [e] <;> nlinarith

/-- C86: a stack of K boxes: K bodies are added, box i centred on the vertical axis at height (i + 1/2)·h and turned by
i·45°; box i fills exactly the heights from i·h to (i+1)·h, so that the boxes touch and no two overlap. -/
theorem C86_box_stack {eig : Eig} (he : EigSpec eig) {w h d : ℝ} (hh : 0 ≤ h) {K : ℕ} {density : ℝ} {material : String}
    {s s' : Scene} {names : List String} (hok : s.OK)
    (hrun : create_box_stack eig w h d K density material s = .ok (names, s')) :
    Adds s s' names (stackPlan w h d K) false material density ∧ NoOverlap s' names ∧ names.length = K ∧
      ∀ (i : ℕ) (n : String) (m : Mesh), names[i]? = some n → s'.worldMesh n = some m →
        (∀ v ∈ m.V, v.y = i * h ∨ v.y = (i + 1) * h) ∧ (∃ v ∈ m.V, v.y = i * h) ∧ ∃ v ∈ m.V, v.y = (i + 1) * h := by
  have ha := (stack_built he hok hrun).adds
  have hl : names.length = K := by rw [ha.length]; simp [stackPlan]
  refine ⟨ha, ha.noOverlap (stack_apart hh K), hl, ?_⟩
  intro i n m hn hm
  have hi : i < K := by
    rw [← hl]; exact (List.getElem?_eq_some_iff.1 hn).1
  have hb : (stackPlan w h d K)[i]? = some ⟨(create_box w h d).1, (create_box w h d).2, ⟨0, i * h + h / 2, 0⟩,
      Quat.Ry (i * Real.pi / 4)⟩ := by
    unfold stackPlan
    rw [List.getElem?_map, List.getElem?_range hi]
    rfl
  obtain ⟨o, m', -, hm', hV, -⟩ := ha.each i n _ hn hb
  rw [hm] at hm'
  cases hm'
  refine ⟨fun v hv => stack_y (hV.mem_iff.1 hv), ?_, ?_⟩
  · have := (C33_box w h d).1 1 (-1) 1 (by norm_num) (by norm_num) (by norm_num)
    refine ⟨_, hV.mem_iff.2 (List.mem_map_of_mem this), ?_⟩
    unfold Brick.at
    simp only [rotate_Ry, V3.add_y]
    ring
  · have := (C33_box w h d).1 1 1 1 (by norm_num) (by norm_num) (by norm_num)
    refine ⟨_, hV.mem_iff.2 (List.mem_map_of_mem this), ?_⟩
    unfold Brick.at
    simp only [rotate_Ry, V3.add_y]
    ring

/-! ### Wedges around the vertical axis -/

/-- The points lie in the wedge of half angle a around the half plane at angle φ. -/
def InWedge (a φ : ℝ) (A : List V3) : Prop :=
  ∀ p ∈ A, ∃ w : V3, p = Quat.rotate (Quat.Ry φ) w ∧ w.z ≤ 0 ∧ |w.x| * Real.cos a ≤ -w.z * Real.sin a

theorem InWedge.add_two_pi {a φ : ℝ} {A : List V3} (h : InWedge a φ A) : InWedge a (φ + 2 * Real.pi) A := by
  intro p hp
  obtain ⟨w, rfl, h1, h2⟩ := h p hp
  refine ⟨w, ?_, h1, h2⟩
  rw [rotate_Ry, rotate_Ry, Real.cos_add_two_pi, Real.sin_add_two_pi]

theorem wedge_apart_half {a φ1 φ2 : ℝ} (hc : 0 < Real.cos a) (ha : 0 ≤ a) {A B : List V3} (hA : InWedge a φ1 A)
    (hB : InWedge a φ2 B) (h1 : 2 * a ≤ φ1 - φ2) (h2 : φ1 - φ2 ≤ Real.pi) : PlaneApart A B := by
  obtain ⟨ψ, hψ⟩ : ∃ ψ, ψ = φ1 - a := ⟨_, rfl⟩
  have key : ∀ φ (w : V3), V3.dot ⟨Real.cos ψ, 0, -Real.sin ψ⟩ (Quat.rotate (Quat.Ry φ) w) =
      w.x * Real.cos (φ - ψ) + w.z * Real.sin (φ - ψ) := by
    intro φ w
    rw [rotate_Ry, Real.cos_sub, Real.sin_sub]
    simp only [V3.dot]
    ring
  refine ⟨⟨Real.cos ψ, 0, -Real.sin ψ⟩, 0, ?_, ?_, ?_⟩
  · intro h
    have hx := congrArg V3.x h; have hz := congrArg V3.z h
    simp at hx hz
    have := Real.sin_sq_add_cos_sq ψ
    rw [hx, hz] at this
    norm_num at this
  · intro p hp
    obtain ⟨w, rfl, hz, hw⟩ := hA p hp
    rw [key, show φ1 - ψ = a by rw [hψ]; ring]
    have := le_abs_self w.x
    nlinarith
  · intro p hp
    obtain ⟨w, rfl, hz, hw⟩ := hB p hp
    rw [key, show φ2 - ψ = -(φ1 - φ2 - a) by rw [hψ]; ring, Real.cos_neg, Real.sin_neg]
    set e := φ1 - φ2 - a with he
    have s1 : 0 ≤ Real.sin (e - a) := Real.sin_nonneg_of_nonneg_of_le_pi (by linarith) (by linarith)
    have s2 : 0 ≤ Real.sin (e + a) := Real.sin_nonneg_of_nonneg_of_le_pi (by linarith) (by linarith)
    rw [Real.sin_sub] at s1
    rw [Real.sin_add] at s2
    have hmul : 0 ≤ Real.cos a * (w.x * Real.cos e + w.z * -Real.sin e) := by
      rcases abs_cases w.x with ⟨hx, hx0⟩ | ⟨hx, hx0⟩ <;> rcases le_total 0 (Real.cos e) with h0 | h0 <;> rw [hx] at hw
      · have := mul_nonneg (mul_nonneg hx0 h0) hc.le
        nlinarith [mul_nonneg (neg_nonneg.2 hz) s1, mul_nonneg (neg_nonneg.2 hz) s2]
      · nlinarith [mul_nonneg (neg_nonneg.2 hz) s2, mul_le_mul_of_nonneg_right hw (neg_nonneg.2 h0)]
      · nlinarith [mul_nonneg (neg_nonneg.2 hz) s1, mul_le_mul_of_nonneg_right hw h0]
      · have := mul_nonneg (mul_nonneg (neg_nonneg.2 hx0.le) (neg_nonneg.2 h0)) hc.le
        nlinarith [mul_nonneg (neg_nonneg.2 hz) s1, mul_nonneg (neg_nonneg.2 hz) s2]
    exact nonneg_of_mul_nonneg_right hmul hc

/-- Wedges at angles that differ by at least the full opening are apart. -/
theorem wedge_apart {a φ1 φ2 : ℝ} (hc : 0 < Real.cos a) (ha : 0 ≤ a) {A B : List V3} (hA : InWedge a φ1 A)
    (hB : InWedge a φ2 B) (h1 : 2 * a ≤ φ1 - φ2) (h2 : φ1 - φ2 ≤ 2 * Real.pi - 2 * a) : PlaneApart A B := by
  rcases le_total (φ1 - φ2) Real.pi with h | h
  · exact wedge_apart_half hc ha hA hB h1 h
  · exact (wedge_apart_half hc ha hB.add_two_pi hA (by linarith) (by linarith)).symm

/-! ### Tower -/

theorem cos_pi_div_pos {n : ℕ} (hn : 3 ≤ n) : 0 < Real.cos (Real.pi / n) := by
  have hn' : (3:ℝ) ≤ n := by exact_mod_cast hn
  have hp := Real.pi_pos
  refine Real.cos_pos_of_mem_Ioo ⟨?_, ?_⟩
  · have : 0 < Real.pi / n := by positivity
    linarith
  · rw [div_lt_div_iff₀ (by linarith) (by norm_num)]
    nlinarith

/-- The corners of a tower stone: inside the wedge of a segment, between the radii, and of the given height. -/
theorem towerStone_corner {ro ri h sf : ℝ} {segments : ℕ} {cubes : Bool} (hs : 3 ≤ segments) (hri : 0 ≤ ri) (hro : ri ≤ ro)
    (h0 : 0 ≤ sf) (h1 : sf ≤ 1) {v : V3} (hv : v ∈ (towerStone ro ri h segments cubes sf).1) :
    (v.y = h / 2 ∨ v.y = -(h / 2)) ∧ (v.z = (ro - ri) / 2 ∨ v.z = -((ro - ri) / 2)) ∧
      |v.x| ≤ Real.tan (Real.pi / segments) * sf * ((ro + ri) / 2 - v.z) := by
  have hc := cos_pi_div_pos hs
  have hsin : 0 ≤ Real.sin (Real.pi / segments) := by
    refine Real.sin_nonneg_of_nonneg_of_le_pi (by positivity) ?_
    have : (1:ℝ) ≤ segments := by exact_mod_cast (by omega : 1 ≤ segments)
    exact div_le_self Real.pi_pos.le this
  have ht : 0 ≤ Real.tan (Real.pi / segments) := by
    rw [Real.tan_eq_sin_div_cos]; positivity
  unfold towerStone at hv
  simp only at hv
  generalize Real.tan (Real.pi / segments) = t at *
  have hti : 0 ≤ t * ri * sf := by positivity
  have hto : 0 ≤ t * ro * sf := mul_nonneg (mul_nonneg ht (hri.trans hro)) h0
  have hle : t * ri * sf ≤ t * ro * sf := by gcongr
  cases cubes
  · simp only [Bool.false_eq_true, if_false, create_cuboid, List.mem_cons, List.not_mem_nil, or_false] at hv
    rcases hv with rfl | rfl | rfl | rfl | rfl | rfl | rfl | rfl <;> simp only [abs_neg] <;>
      rw [abs_of_nonneg (by assumption)] <;>
      refine ⟨?_, ?_, ?_⟩ <;> first | exact Or.inl trivial | (left; ring1) | (right; ring1) | (apply le_of_eq; ring1)
  · simp only [if_true] at hv
    obtain ⟨hx, hy, hz⟩ := mem_box hv
    refine ⟨hy, hz, ?_⟩
    have : |v.x| = t * ri * sf := by
      rcases hx with hx | hx <;> rw [hx]
      · rw [abs_of_nonneg (by linarith)]; ring
      · rw [abs_neg, abs_of_nonneg (by linarith)]; ring
    rw [this]
    rcases hz with hz | hz <;> rw [hz]
    · apply le_of_eq; ring
    · refine hle.trans (le_of_eq ?_); ring

/-- A corner of a placed tower brick: height, wedge and distance from the axis. -/
theorem tower_corner {ro ri h sf : ℝ} {segments : ℕ} {cubes : Bool} (hs : 3 ≤ segments) (hri : 0 ≤ ri) (hro : ri ≤ ro)
    (h0 : 0 ≤ sf) (h1 : sf ≤ 1) {l : ℕ} {φ : ℝ} {p : V3}
    (hp : p ∈ Brick.world ⟨(towerStone ro ri h segments cubes sf).1, (towerStone ro ri h segments cubes sf).2,
      Quat.rotate (Quat.Ry φ) ⟨0, h / 2 + l * h, -((ro + ri) / 2)⟩, Quat.Ry φ⟩) :
    (p.y = l * h ∨ p.y = (l + 1) * h) ∧ ∃ w : V3, p = Quat.rotate (Quat.Ry φ) w ∧ -ro ≤ w.z ∧ w.z ≤ -ri ∧
      |w.x| * Real.cos (Real.pi / segments) ≤ sf * (-w.z * Real.sin (Real.pi / segments)) := by
  unfold Brick.world at hp
  obtain ⟨v, hv, rfl⟩ := List.mem_map.1 hp
  obtain ⟨hy, hz, hx⟩ := towerStone_corner hs hri hro h0 h1 hv
  have hc := cos_pi_div_pos hs
  refine ⟨?_, ⟨0, h / 2 + l * h, -((ro + ri) / 2)⟩ + v, ?_, ?_, ?_, ?_⟩
  · unfold Brick.at
    simp only [rotate_Ry, V3.add_y]
    rcases hy with hy | hy <;> rw [hy]
    · right; ring
    · left; ring
  · unfold Brick.at
    rw [(C02_rotate_linear (Quat.Ry φ) 1 _ _).1]
  · simp only [V3.add_z]
    rcases hz with hz | hz <;> rw [hz] <;> linarith
  · simp only [V3.add_z]
    rcases hz with hz | hz <;> rw [hz] <;> linarith
  · simp only [V3.add_z, V3.add_x, zero_add]
    rw [Real.tan_eq_sin_div_cos] at hx
    calc |v.x| * Real.cos (Real.pi / segments)
        ≤ Real.sin (Real.pi / segments) / Real.cos (Real.pi / segments) * sf * ((ro + ri) / 2 - v.z) *
          Real.cos (Real.pi / segments) := by gcongr
      _ = _ := by field_simp; ring

theorem tower_apart {ro ri h sf : ℝ} {layers segments : ℕ} {cubes : Bool} (hs : 3 ≤ segments) (hri : 0 ≤ ri) (hro : ri ≤ ro)
    (h0 : 0 ≤ sf) (h1 : sf ≤ 1) (hh : 0 ≤ h) :
    (towerPlan (towerStone ro ri h segments cubes sf) ((ro + ri) / 2) h layers segments).Pairwise
      fun a b => PlaneApart a.world b.world := by
  have hc := cos_pi_div_pos hs
  have hsin : 0 ≤ Real.sin (Real.pi / segments) := by
    refine Real.sin_nonneg_of_nonneg_of_le_pi (by positivity) ?_
    have : (1:ℝ) ≤ segments := by exact_mod_cast (by omega : 1 ≤ segments)
    exact div_le_self Real.pi_pos.le this
  have hseg : (0:ℝ) < segments := by exact_mod_cast (by omega : 0 < segments)
  unfold towerPlan
  rw [List.pairwise_flatMap]
  constructor
  · intro l _
    rw [List.pairwise_map]
    have hmem : ∀ j ∈ List.range segments, j < segments := fun j hj => List.mem_range.1 hj
    refine List.Pairwise.imp_of_mem ?_ List.pairwise_lt_range
    intro i j hi hj hij
    have hw : ∀ j : ℕ, InWedge (Real.pi / segments) (2 * Real.pi / segments * (j + if l % 2 = 0 then 1 / 2 else 0))
        (Brick.world ⟨(towerStone ro ri h segments cubes sf).1, (towerStone ro ri h segments cubes sf).2,
          Quat.rotate (Quat.Ry (2 * Real.pi / segments * (j + if l % 2 = 0 then 1 / 2 else 0))) ⟨0, h / 2 + l * h, -((ro + ri) / 2)⟩,
          Quat.Ry (2 * Real.pi / segments * (j + if l % 2 = 0 then 1 / 2 else 0))⟩) := by
      intro j p hp
      obtain ⟨-, w, hw, hz1, hz2, hx⟩ := tower_corner hs hri hro h0 h1 hp
      refine ⟨w, hw, by linarith, hx.trans ?_⟩
      have : 0 ≤ -w.z * Real.sin (Real.pi / segments) := mul_nonneg (by linarith) hsin
      nlinarith
    have hij' : (i : ℝ) + 1 ≤ j := by exact_mod_cast hij
    have hj' : (j : ℝ) + 1 ≤ segments := by exact_mod_cast hmem j hj
    have hi0 : (0:ℝ) ≤ i := by positivity
    have e : ∀ x y z : ℝ, 2 * Real.pi / segments * (x + z) - 2 * Real.pi / segments * (y + z) =
        2 * (Real.pi / segments) * (x - y) := by intro x y z; ring
    have hpos : 0 < Real.pi / segments := by have := Real.pi_pos; positivity
    have e2 : 2 * Real.pi - 2 * (Real.pi / segments) = 2 * (Real.pi / segments) * (segments - 1) := by
      field_simp
    refine (wedge_apart hc hpos.le (hw j) (hw i) ?_ ?_).symm
    · rw [e]
      nlinarith
    · rw [e, e2]
      have : (j : ℝ) - i ≤ segments - 1 := by linarith
      gcongr
  · refine List.Pairwise.imp ?_ List.pairwise_lt_range
    intro l l' hl x hx y hy
    obtain ⟨j, -, rfl⟩ := List.mem_map.1 hx
    obtain ⟨j', -, rfl⟩ := List.mem_map.1 hy
    have hl' : (l : ℝ) + 1 ≤ l' := by exact_mod_cast hl
    refine PlaneApart.of_y ((l + 1) * h) ?_ ?_
    · intro p hp
      rcases (tower_corner hs hri hro h0 h1 hp).1 with e | e <;> rw [e]
      nlinarith
    · intro p hp
      rcases (tower_corner hs hri hro h0 h1 hp).1 with e | e <;> rw [e] <;> nlinarith

/-- C87: a tower between the radii ri and ro with at least three segments and a safety factor of at most 1, standing at r with
orientation q: layers · segments bodies are added, and no two bricks overlap. -/
theorem C87_tower {eig : Eig} (he : EigSpec eig) {r : V3} {q : Quat} (hq : IsUnitQ q) {ro ri height : ℝ}
    {layers segments : ℕ} {cubes : Bool} {density : ℝ} {material : String} {sf : ℝ} {s s' : Scene} {names : List String}
    (hok : s.OK) (hs : 3 ≤ segments) (hri : 0 ≤ ri) (hro : ri ≤ ro) (h0 : 0 ≤ sf) (h1 : sf ≤ 1) (hh : 0 ≤ height)
    (hrun : create_tower eig r q ro ri height layers segments cubes density material sf s = .ok (names, s')) :
    Adds s s' names ((towerPlan (towerStone ro ri (height / layers) segments cubes sf) ((ro + ri) / 2) (height / layers) layers
      segments).map fun b => b.under r q) false material density ∧ NoOverlap s' names ∧ names.length = layers * segments := by
  obtain ⟨hl, -, hb⟩ := tower_built he hq hok hrun
  have ha := hb.adds
  refine ⟨ha, ha.noOverlap (pairwise_under hq r (tower_apart hs hri hro h0 h1 (by positivity))), ?_⟩
  rw [ha.length]
  simp [towerPlan, List.length_flatMap]

end Verif
