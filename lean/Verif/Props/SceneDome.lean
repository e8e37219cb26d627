import Verif.Props.SceneArch

/-! C89: the dome. -/

namespace Verif

open Rigid Rigid.SceneM SMesh
open VMesh (Tri)

/-- The point at radius ρ, longitude θ and latitude φ. -/
noncomputable def spherical (ρ θ φ : ℝ) : V3 :=
  ⟨ρ * Real.cos φ * Real.cos θ, ρ * Real.sin φ, -(ρ * Real.cos φ * Real.sin θ)⟩

theorem rotate_spherical (α ρ θ φ : ℝ) : Quat.rotate (Quat.Ry α) (spherical ρ θ φ) = spherical ρ (α + θ) φ := by
  unfold spherical
  rw [rotate_Ry, Real.cos_add, Real.sin_add]
  refine V3.ext ?_ ?_ ?_ <;> simp <;> ring

theorem spherical_of (ρ θ φ : ℝ) : Quat.rotate (Quat.prod (Quat.Ry θ) (Quat.Rz φ)) ⟨ρ, 0, 0⟩ = spherical ρ θ φ := by
  rw [C02_rotate_prod, ringPoint, rotate_Ry]
  unfold spherical
  refine V3.ext ?_ ?_ ?_ <;> simp <;> ring

/-- Brick (l, j) of the dome as placed by the builder, in the dome's frame. -/
noncomputable def domeStone (ri ro : ℝ) (layers segments l j : ℕ) : Brick :=
  ⟨(domeBrick ri ro (2 * Real.pi / segments) (Real.pi / 2 / (layers + 1)) (Real.pi / 2 / (layers + 1) * l)).1,
   (domeBrick ri ro (2 * Real.pi / segments) (Real.pi / 2 / (layers + 1)) (Real.pi / 2 / (layers + 1) * l)).2,
   0, Quat.Ry (2 * Real.pi / segments * j)⟩

theorem domePlan_eq (ri ro : ℝ) (layers segments : ℕ) : domePlan ri ro layers segments =
    (List.range layers).flatMap fun (l : ℕ) => (List.range segments).map fun (j : ℕ) => domeStone ri ro layers segments l j := rfl

theorem domeStone_world (ri ro : ℝ) (layers segments l j : ℕ) (p : V3) :
    p ∈ (domeStone ri ro layers segments l j).world ↔ ∃ ρ θ φ : ℝ, (ρ = ri ∨ ρ = ro) ∧
      (θ = 2 * Real.pi / segments * j ∨ θ = 2 * Real.pi / segments * (j + 1)) ∧
      (φ = Real.pi / 2 / (layers + 1) * l ∨ φ = Real.pi / 2 / (layers + 1) * (l + 1)) ∧ p = spherical ρ θ φ := by
  have k : ∀ ρ θ φ : ℝ, (domeStone ri ro layers segments l j).at (spherical ρ θ φ) =
      spherical ρ (2 * Real.pi / segments * j + θ) φ := by
    intro ρ θ φ
    unfold domeStone Brick.at
    simp only [rotate_spherical, zero_add]
  unfold Brick.world
  have hV : (domeStone ri ro layers segments l j).V =
    (domeBrick ri ro (2 * Real.pi / segments) (Real.pi / 2 / (layers + 1)) (Real.pi / 2 / (layers + 1) * l)).1 := rfl
  have a1 : 2 * Real.pi / segments * (j : ℝ) + 0 = 2 * Real.pi / segments * j := by ring
  have a2 : 2 * Real.pi / segments * (j : ℝ) + (0 + 2 * Real.pi / segments) = 2 * Real.pi / segments * (j + 1) := by ring
  have a3 : Real.pi / 2 / ((layers : ℝ) + 1) * (l : ℝ) + Real.pi / 2 / ((layers : ℝ) + 1) =
    Real.pi / 2 / (layers + 1) * (l + 1) := by ring
  rw [hV]
  simp only [domeBrick, create_cuboid, lit0, spherical_of, List.map_cons, List.map_nil, k, a1, a2, a3, List.mem_cons,
    List.not_mem_nil, or_false]
  constructor
  · rintro (rfl | rfl | rfl | rfl | rfl | rfl | rfl | rfl)
    · exact ⟨_, _, _, Or.inr rfl, Or.inl rfl, Or.inl rfl, rfl⟩
    · exact ⟨_, _, _, Or.inr rfl, Or.inr rfl, Or.inl rfl, rfl⟩
    · exact ⟨_, _, _, Or.inr rfl, Or.inr rfl, Or.inr rfl, rfl⟩
    · exact ⟨_, _, _, Or.inr rfl, Or.inl rfl, Or.inr rfl, rfl⟩
    · exact ⟨_, _, _, Or.inl rfl, Or.inl rfl, Or.inl rfl, rfl⟩
    · exact ⟨_, _, _, Or.inl rfl, Or.inr rfl, Or.inl rfl, rfl⟩
    · exact ⟨_, _, _, Or.inl rfl, Or.inr rfl, Or.inr rfl, rfl⟩
    · exact ⟨_, _, _, Or.inl rfl, Or.inl rfl, Or.inr rfl, rfl⟩
  · rintro ⟨ρ, θ, φ, rfl | rfl, rfl | rfl, rfl | rfl, rfl⟩ <;> simp

theorem latitude {layers l : ℕ} (hl : l < layers) {φ : ℝ}
    (h : φ = Real.pi / 2 / (layers + 1) * l ∨ φ = Real.pi / 2 / (layers + 1) * (l + 1)) :
    Real.pi / 2 / (layers + 1) * l ≤ φ ∧ φ ≤ Real.pi / 2 / (layers + 1) * (l + 1) ∧ 0 ≤ φ ∧ φ < Real.pi / 2 := by
  have hp := Real.pi_pos
  have hL : (0:ℝ) < (layers : ℝ) + 1 := by positivity
  have hd : 0 < Real.pi / 2 / ((layers : ℝ) + 1) := by positivity
  have hl' : (l : ℝ) + 1 ≤ layers := by exact_mod_cast hl
  have e : Real.pi / 2 = Real.pi / 2 / ((layers : ℝ) + 1) * (layers + 1) := by field_simp
  have h2 : 0 ≤ Real.pi / 2 / ((layers : ℝ) + 1) * l := by positivity
  have h1 : Real.pi / 2 / ((layers : ℝ) + 1) * (l + 1) ≤ Real.pi / 2 / ((layers : ℝ) + 1) * layers := by gcongr
  have h3 : Real.pi / 2 / ((layers : ℝ) + 1) * layers < Real.pi / 2 := by nlinarith
  rcases h with rfl | rfl
  · refine ⟨le_refl _, by nlinarith, h2, by nlinarith⟩
  · refine ⟨by nlinarith, le_refl _, by nlinarith, by linarith⟩

theorem dome_wedge {ri ro : ℝ} (hri : 0 ≤ ri) (hro : 0 ≤ ro) {layers segments l j : ℕ} (hs : 3 ≤ segments) (hl : l < layers) :
    InWedge (Real.pi / segments) (2 * (Real.pi / segments) * j + Real.pi / segments - Real.pi / 2)
      (domeStone ri ro layers segments l j).world := by
  intro p hp
  obtain ⟨ρ, θ, φ, hρ, hθ, hφ, rfl⟩ := (domeStone_world ..).1 hp
  obtain ⟨-, -, h3, h4⟩ := latitude hl hφ
  have hρ0 : 0 ≤ ρ := by rcases hρ with rfl | rfl <;> assumption
  have hcφ : 0 ≤ Real.cos φ := Real.cos_nonneg_of_neg_pi_div_two_le_of_le (by linarith) h4.le
  have hca := cos_pi_div_pos hs
  have hsa : 0 ≤ Real.sin (Real.pi / segments) := by
    refine Real.sin_nonneg_of_nonneg_of_le_pi (by positivity) ?_
    have : (1:ℝ) ≤ segments := by exact_mod_cast (by omega : 1 ≤ segments)
    exact div_le_self Real.pi_pos.le this
  obtain ⟨a, ha⟩ : ∃ a, a = Real.pi / segments := ⟨_, rfl⟩
  rw [← ha] at hca hsa ⊢
  have hθ' : θ = 2 * a * j ∨ θ = 2 * a * (j + 1) := by
    rw [ha]
    rcases hθ with rfl | rfl
    · left; ring
    · right; ring
  obtain ⟨R, hR⟩ : ∃ R, R = ρ * Real.cos φ := ⟨_, rfl⟩
  have hR0 : 0 ≤ R := by rw [hR]; positivity
  have key : ∀ α : ℝ, Quat.rotate (Quat.Ry (2 * a * j + a - Real.pi / 2)) ⟨-R * Real.sin α, ρ * Real.sin φ, -R * Real.cos α⟩ =
      spherical ρ (2 * a * j + a + α) φ := by
    intro α
    unfold spherical
    rw [rotate_Ry, Real.cos_sub_pi_div_two, Real.sin_sub_pi_div_two, Real.cos_add _ α, Real.sin_add _ α, ← hR]
    refine V3.ext ?_ ?_ ?_ <;> simp <;> ring
  rcases hθ' with rfl | rfl
  · refine ⟨⟨-R * Real.sin (-a), ρ * Real.sin φ, -R * Real.cos (-a)⟩, ?_, ?_, ?_⟩
    · rw [key]; congr 1; ring
    · simp only [Real.cos_neg]; nlinarith
    · simp only [Real.cos_neg, Real.sin_neg]
      rw [neg_mul_neg, abs_of_nonneg (by positivity)]
      apply le_of_eq; ring
  · refine ⟨⟨-R * Real.sin a, ρ * Real.sin φ, -R * Real.cos a⟩, ?_, ?_, ?_⟩
    · rw [key]; congr 1; ring
    · simp only; nlinarith
    · simp only
      rw [neg_mul, abs_neg, abs_of_nonneg (by positivity)]
      apply le_of_eq; ring

/-- Two bricks of the same segment are on different sides of the cone-cutting plane at the latitude between them. -/
theorem dome_same_segment {ri ro : ℝ} (hri : 0 ≤ ri) (hro : 0 ≤ ro) {layers segments l l' j : ℕ} (hs : 3 ≤ segments)
    (hll : l < l') (hl : l' < layers) :
    PlaneApart (domeStone ri ro layers segments l j).world (domeStone ri ro layers segments l' j).world := by
  have hca := cos_pi_div_pos hs
  obtain ⟨a, ha⟩ : ∃ a, a = Real.pi / segments := ⟨_, rfl⟩
  obtain ⟨ψ, hψ⟩ : ∃ ψ : ℝ, ψ = Real.pi / 2 / (layers + 1) * (l + 1) := ⟨_, rfl⟩
  obtain ⟨μ, hμ⟩ : ∃ μ : ℝ, μ = 2 * a * j + a := ⟨_, rfl⟩
  rw [← ha] at hca
  have hψ1 := latitude (l := l) (by omega) (Or.inr hψ)
  have hcψ : 0 < Real.cos ψ := Real.cos_pos_of_mem_Ioo ⟨by linarith [Real.pi_pos], hψ1.2.2.2⟩
  have key : ∀ ρ θ φ : ℝ, (θ = 2 * Real.pi / segments * j ∨ θ = 2 * Real.pi / segments * (j + 1)) →
      V3.dot ⟨-(Real.sin ψ * Real.cos μ), Real.cos ψ * Real.cos a, Real.sin ψ * Real.sin μ⟩ (spherical ρ θ φ) =
        ρ * Real.cos a * Real.sin (φ - ψ) := by
    intro ρ θ φ hθ
    have hc : Real.cos (θ - μ) = Real.cos a := by
      rcases hθ with rfl | rfl
      · rw [show 2 * Real.pi / segments * j - μ = -a by rw [hμ, ha]; ring, Real.cos_neg]
      · rw [show 2 * Real.pi / segments * (j + 1) - μ = a by rw [hμ, ha]; ring]
    rw [Real.cos_sub] at hc
    unfold spherical
    rw [Real.sin_sub]
    simp only [V3.dot]
    linear_combination (-(ρ * Real.cos φ * Real.sin ψ)) * hc
  have hd : 0 < Real.pi / 2 / ((layers : ℝ) + 1) := by have := Real.pi_pos; positivity
  have hll' : (l : ℝ) + 1 ≤ l' := by exact_mod_cast hll
  refine ⟨⟨-(Real.sin ψ * Real.cos μ), Real.cos ψ * Real.cos a, Real.sin ψ * Real.sin μ⟩, 0, ?_, ?_, ?_⟩
  · intro h
    have hy := congrArg V3.y h
    simp at hy
    rcases hy with hy | hy
    · exact hcψ.ne' hy
    · exact hca.ne' hy
  · intro p hp
    obtain ⟨ρ, θ, φ, hρ, hθ, hφ, rfl⟩ := (domeStone_world ..).1 hp
    obtain ⟨h1, h2, h3, h4⟩ := latitude (by omega) hφ
    have hρ0 : 0 ≤ ρ := by rcases hρ with rfl | rfl <;> assumption
    rw [key _ _ _ hθ]
    have : Real.sin (φ - ψ) ≤ 0 := Real.sin_nonpos_of_nonpos_of_neg_pi_le (by linarith) (by linarith [hψ1.2.2.2])
    have := mul_nonneg hρ0 hca.le
    nlinarith
  · intro p hp
    obtain ⟨ρ, θ, φ, hρ, hθ, hφ, rfl⟩ := (domeStone_world ..).1 hp
    obtain ⟨h1, h2, h3, h4⟩ := latitude hl hφ
    have hρ0 : 0 ≤ ρ := by rcases hρ with rfl | rfl <;> assumption
    rw [key _ _ _ hθ]
    have h5 : ψ ≤ φ := by
      refine le_trans ?_ h1
      rw [hψ]
      gcongr
    have : 0 ≤ Real.sin (φ - ψ) := Real.sin_nonneg_of_nonneg_of_le_pi (by linarith) (by linarith [hψ1.2.2.1])
    have := mul_nonneg hρ0 hca.le
    positivity

/-- Wedges of different segments. -/
theorem segments_apart {segments i j : ℕ} (hs : 3 ≤ segments) (hi : i < segments) (hj : j < segments) (hij : i ≠ j) {c : ℝ}
    {A B : List V3} (hA : InWedge (Real.pi / segments) (2 * (Real.pi / segments) * i + c) A)
    (hB : InWedge (Real.pi / segments) (2 * (Real.pi / segments) * j + c) B) : PlaneApart A B := by
  have hc := cos_pi_div_pos hs
  have hseg : (0:ℝ) < segments := by exact_mod_cast (by omega : 0 < segments)
  have hpos : 0 < Real.pi / segments := by have := Real.pi_pos; positivity
  have e2 : 2 * Real.pi - 2 * (Real.pi / segments) = 2 * (Real.pi / segments) * (segments - 1) := by field_simp
  have main : ∀ (i j : ℕ) (A B : List V3), i < j → j < segments →
      InWedge (Real.pi / segments) (2 * (Real.pi / segments) * i + c) A →
      InWedge (Real.pi / segments) (2 * (Real.pi / segments) * j + c) B → PlaneApart B A := by
    intro i j A B hij hj hA hB
    have hij' : (i : ℝ) + 1 ≤ j := by exact_mod_cast hij
    have hj' : (j : ℝ) + 1 ≤ segments := by exact_mod_cast hj
    have hi0 : (0:ℝ) ≤ i := by positivity
    have e : 2 * (Real.pi / segments) * (j:ℝ) + c - (2 * (Real.pi / segments) * i + c) = 2 * (Real.pi / segments) * (j - i) := by
      ring
    refine wedge_apart hc hpos.le hB hA ?_ ?_
    · rw [e]; nlinarith
    · rw [e, e2]
      have : (j : ℝ) - i ≤ segments - 1 := by linarith
      gcongr
  rcases Nat.lt_or_gt_of_ne hij with h | h
  · exact (main i j A B h hj hA hB).symm
  · exact main j i B A h hi hB hA

theorem dome_apart {ri ro : ℝ} (hri : 0 ≤ ri) (hro : 0 ≤ ro) {layers segments : ℕ} (hs : 3 ≤ segments) :
    (domePlan ri ro layers segments).Pairwise fun a b => PlaneApart a.world b.world := by
  rw [domePlan_eq, List.pairwise_flatMap]
  have hw : ∀ l j l' j' : ℕ, l < layers → l' < layers → j < segments → j' < segments → j ≠ j' →
      PlaneApart (domeStone ri ro layers segments l j).world (domeStone ri ro layers segments l' j').world := by
    intro l j l' j' hl hl' hj hj' hne
    have h1 := dome_wedge hri hro (j := j) hs hl
    have h2 := dome_wedge hri hro (j := j') hs hl'
    rw [add_sub_assoc] at h1 h2
    exact segments_apart hs hj hj' hne h1 h2
  constructor
  · intro l hl
    rw [List.mem_range] at hl
    rw [List.pairwise_map]
    refine List.Pairwise.imp_of_mem ?_ List.pairwise_lt_range
    intro i j hi hj hij
    exact hw l i l j hl hl (List.mem_range.1 hi) (List.mem_range.1 hj) (by omega)
  · refine List.Pairwise.imp_of_mem ?_ List.pairwise_lt_range
    intro l l' hl hl' hll x hx y hy
    rw [List.mem_range] at hl hl'
    obtain ⟨j, hj, rfl⟩ := List.mem_map.1 hx
    obtain ⟨j', hj', rfl⟩ := List.mem_map.1 hy
    rw [List.mem_range] at hj hj'
    by_cases e : j = j'
    · subst e
      exact dome_same_segment hri hro hs hll hl'
    · exact hw l j l' j' hl hl' hj hj' e


theorem getElem?_flatMap_range {α : Type*} (f : ℕ → List α) (n : ℕ) (hf : ∀ i, (f i).length = n) {m i j : ℕ} (hi : i < m)
    (hj : j < n) : ((List.range m).flatMap f)[i * n + j]? = (f i)[j]? := by
  induction m with
  | zero => omega
  | succ m ih =>
    have hlen : ((List.range m).flatMap f).length = m * n := by
      rw [List.length_flatMap]; simp [hf]
    rw [List.range_succ, List.flatMap_append]
    by_cases h : i < m
    · rw [List.getElem?_append_left, ih h]
      rw [hlen]
      have : (i + 1) * n ≤ m * n := Nat.mul_le_mul_right _ h
      rw [Nat.add_mul] at this
      omega
    · have : i = m := by omega
      subst this
      rw [List.getElem?_append_right (by rw [hlen]; omega), hlen, Nat.add_sub_cancel_left]
      simp

theorem dome_stone_at {ri ro : ℝ} {layers segments l j : ℕ} (hl : l < layers) (hj : j < segments) :
    (domePlan ri ro layers segments)[l * segments + j]? = some (domeStone ri ro layers segments l j) := by
  rw [domePlan_eq, getElem?_flatMap_range _ segments (by simp) hl hj, List.getElem?_map, List.getElem?_range hj]
  rfl

/-- C89: a dome standing at r with orientation q, with at least three segments: layers · segments free bodies are added, body
l · segments + j has its corners at the two radii, at the longitudes j·2π/segments and (j+1)·2π/segments and at the latitudes
l·δ and (l+1)·δ with δ = 90°/(layers + 1), and no two bodies overlap. -/
theorem C89_dome {eig : Eig} (he : EigSpec eig) {r : V3} {q : Quat} (hq : IsUnitQ q) {ro ri : ℝ} {layers segments : ℕ}
    {density : ℝ} {material : String} {s s' : Scene} {names : List String} (hok : s.OK) (hs : 3 ≤ segments) (hri : 0 ≤ ri)
    (hro : 0 ≤ ro) (hrun : create_dome eig r q ro ri layers segments density material s = .ok (names, s')) :
    Adds s s' names ((domePlan ri ro layers segments).map fun b => b.under r q) false material density ∧
    NoOverlap s' names ∧ names.length = layers * segments ∧
    ∀ (l j : ℕ) (n : String) (m : Mesh), l < layers → j < segments → names[l * segments + j]? = some n →
      s'.worldMesh n = some m → ∀ p, p ∈ m.V ↔ ∃ ρ θ φ : ℝ, (ρ = ri ∨ ρ = ro) ∧
        (θ = 2 * Real.pi / segments * j ∨ θ = 2 * Real.pi / segments * (j + 1)) ∧
        (φ = Real.pi / 2 / (layers + 1) * l ∨ φ = Real.pi / 2 / (layers + 1) * (l + 1)) ∧
        p = Quat.rotate q ⟨ρ * Real.cos φ * Real.cos θ, ρ * Real.sin φ, -(ρ * Real.cos φ * Real.sin θ)⟩ + r := by
  obtain ⟨-, hb⟩ := dome_built he hq hok hrun
  have ha := hb.adds
  refine ⟨ha, ha.noOverlap (pairwise_under hq r (dome_apart hri hro hs)), ?_, ?_⟩
  · rw [ha.length, domePlan_eq]
    simp [List.length_flatMap]
  · intro l j n m hl hj hn hm p
    have hbr : ((domePlan ri ro layers segments).map fun b => b.under r q)[l * segments + j]? =
        some ((domeStone ri ro layers segments l j).under r q) := by
      rw [List.getElem?_map, dome_stone_at hl hj]; rfl
    obtain ⟨o, m', -, hm', hV, -⟩ := ha.each _ n _ hn hbr
    rw [hm] at hm'
    cases hm'
    rw [hV.mem_iff, Brick.under_world, List.mem_map]
    constructor
    · rintro ⟨x, hx, rfl⟩
      obtain ⟨ρ, θ, φ, a1, a2, a3, rfl⟩ := (domeStone_world ..).1 hx
      exact ⟨ρ, θ, φ, a1, a2, a3, rfl⟩
    · rintro ⟨ρ, θ, φ, a1, a2, a3, rfl⟩
      exact ⟨_, (domeStone_world ..).2 ⟨ρ, θ, φ, a1, a2, a3, rfl⟩, rfl⟩

end Verif
