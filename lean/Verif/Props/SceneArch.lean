import Verif.Props.SceneTower

/-! C88: the arch. -/

namespace Verif

open Rigid Rigid.SceneM SMesh
open VMesh (Tri)

theorem rotate_ident_V3 (v : V3) : Quat.rotate Quat.identity v = v := by
  refine V3.ext ?_ ?_ ?_ <;> simp [Quat.identity, Quat.rotate, Quat.prod, Quat.conjugate, Quat.vec, V3.dot, V3.cross]

theorem ringPoint (ρ θ ζ : ℝ) : Quat.rotate (Quat.Rz θ) ⟨ρ, 0, ζ⟩ = ⟨ρ * Real.cos θ, ρ * Real.sin θ, ζ⟩ := by
  rw [rotate_Rz]
  refine V3.ext ?_ ?_ ?_ <;> simp <;> ring

/-- Voussoir i of the arch as placed by the builder, in the arch's frame. -/
noncomputable def voussoir (w ph d : ℝ) (stones i : ℕ) : Brick :=
  ⟨(archBrick d (w / 2 - w / 5) (w / 2) (w / 2 - w / 5 / 2) (Real.pi / stones)).1,
   (archBrick d (w / 2 - w / 5) (w / 2) (w / 2 - w / 5 / 2) (Real.pi / stones)).2,
   Quat.rotate (Quat.Rz (Real.pi / stones / 2 + i * (Real.pi / stones))) ⟨w / 2 - w / 5 / 2, 0, d / 2⟩ + ⟨0, ph, 0⟩,
   Quat.Rz (Real.pi / stones / 2 + i * (Real.pi / stones))⟩

theorem voussoir_world (w ph d : ℝ) (stones i : ℕ) (p : V3) :
    p ∈ (voussoir w ph d stones i).world ↔ ∃ ρ θ ζ : ℝ, (ρ = w / 2 - w / 5 ∨ ρ = w / 2) ∧
      (θ = i * (Real.pi / stones) ∨ θ = (i + 1) * (Real.pi / stones)) ∧ (ζ = d / 2 ∨ ζ = -(d / 2)) ∧
      p = ⟨ρ * Real.cos θ, ph + ρ * Real.sin θ, ζ⟩ := by
  set δ := Real.pi / stones with hδ
  have key : ∀ (α : ℝ) (ρ ζ ζ' : ℝ) (e : V3), ζ = ζ' + e.z → e.x = 0 → e.y = 0 →
      (voussoir w ph d stones i).at (Quat.rotate (Quat.Rz α) ⟨ρ, 0, d / 2⟩ - ⟨w / 2 - w / 5 / 2, 0, d / 2⟩ - (⟨0, 0, d / 2 - ζ'⟩ - e)) =
        ⟨ρ * Real.cos (δ / 2 + i * δ + α), ph + ρ * Real.sin (δ / 2 + i * δ + α), ζ⟩ := by
    intro α ρ ζ ζ' e he hx hy
    unfold voussoir Brick.at
    simp only [← hδ]
    rw [ringPoint, rotate_Rz, rotate_Rz, Real.cos_add (δ / 2 + i * δ), Real.sin_add (δ / 2 + i * δ), he]
    refine V3.ext ?_ ?_ ?_ <;> simp [hx, hy] <;> ring
  have k0 : ∀ α ρ, (voussoir w ph d stones i).at (Quat.rotate (Quat.Rz α) ⟨ρ, 0, d / 2⟩ - ⟨w / 2 - w / 5 / 2, 0, d / 2⟩) =
      ⟨ρ * Real.cos (δ / 2 + i * δ + α), ph + ρ * Real.sin (δ / 2 + i * δ + α), d / 2⟩ := by
    intro α ρ
    rw [← key α ρ (d / 2) (d / 2) ⟨0, 0, 0⟩ (by simp) rfl rfl]
    congr 1
    refine V3.ext ?_ ?_ ?_ <;> simp
  have k1 : ∀ α ρ, (voussoir w ph d stones i).at
      (Quat.rotate (Quat.Rz α) ⟨ρ, 0, d / 2⟩ - ⟨w / 2 - w / 5 / 2, 0, d / 2⟩ - ⟨0, 0, d⟩) =
      ⟨ρ * Real.cos (δ / 2 + i * δ + α), ph + ρ * Real.sin (δ / 2 + i * δ + α), -(d / 2)⟩ := by
    intro α ρ
    rw [← key α ρ (-(d / 2)) (-(d / 2)) ⟨0, 0, 0⟩ (by simp) rfl rfl]
    congr 1
    refine V3.ext ?_ ?_ ?_ <;> simp
  have a1 : δ / 2 + i * δ + -δ / 2 = i * δ := by ring
  have a2 : δ / 2 + i * δ + δ / 2 = (i + 1) * δ := by ring
  have hV : (voussoir w ph d stones i).V =
      (archBrick d (w / 2 - w / 5) (w / 2) (w / 2 - w / 5 / 2) δ).1 := rfl
  unfold Brick.world
  rw [hV]
  simp only [archBrick, create_cuboid, lit2, lit0, List.map_cons, List.map_nil, k0, k1, a1, a2, List.mem_cons,
    List.not_mem_nil, or_false]
  constructor
  · rintro (rfl | rfl | rfl | rfl | rfl | rfl | rfl | rfl)
    · exact ⟨_, _, _, Or.inl rfl, Or.inl rfl, Or.inl rfl, rfl⟩
    · exact ⟨_, _, _, Or.inr rfl, Or.inl rfl, Or.inl rfl, rfl⟩
    · exact ⟨_, _, _, Or.inr rfl, Or.inr rfl, Or.inl rfl, rfl⟩
    · exact ⟨_, _, _, Or.inl rfl, Or.inr rfl, Or.inl rfl, rfl⟩
    · exact ⟨_, _, _, Or.inl rfl, Or.inl rfl, Or.inr rfl, rfl⟩
    · exact ⟨_, _, _, Or.inr rfl, Or.inl rfl, Or.inr rfl, rfl⟩
    · exact ⟨_, _, _, Or.inr rfl, Or.inr rfl, Or.inr rfl, rfl⟩
    · exact ⟨_, _, _, Or.inl rfl, Or.inr rfl, Or.inr rfl, rfl⟩
  · rintro ⟨ρ, θ, ζ, rfl | rfl, rfl | rfl, rfl | rfl, rfl⟩ <;> simp

theorem voussoir_angle {stones i : ℕ} (hi : i < stones) {θ : ℝ}
    (h : θ = i * (Real.pi / stones) ∨ θ = (i + 1) * (Real.pi / stones)) :
    i * (Real.pi / stones) ≤ θ ∧ θ ≤ (i + 1) * (Real.pi / stones) ∧ 0 ≤ θ ∧ θ ≤ Real.pi := by
  have hs : (0:ℝ) < stones := by exact_mod_cast (by omega : 0 < stones)
  have hp := Real.pi_pos
  have hδ : 0 < Real.pi / stones := by positivity
  have hi' : (i : ℝ) + 1 ≤ stones := by exact_mod_cast hi
  have e : Real.pi = stones * (Real.pi / stones) := by field_simp
  have h1 : (i + 1) * (Real.pi / stones) ≤ stones * (Real.pi / stones) := by gcongr
  have h2 : 0 ≤ i * (Real.pi / stones) := by positivity
  rcases h with rfl | rfl
  · refine ⟨le_refl _, by nlinarith, h2, by nlinarith⟩
  · refine ⟨by nlinarith, le_refl _, by nlinarith, by rw [← e] at h1; exact h1⟩

theorem voussoir_apart {w ph d : ℝ} (hw : 0 < w) {stones i j : ℕ} (hij : i < j) (hj : j < stones) :
    PlaneApart (voussoir w ph d stones i).world (voussoir w ph d stones j).world := by
  obtain ⟨ψ, hψ⟩ : ∃ ψ : ℝ, ψ = (i + 1) * (Real.pi / stones) := ⟨_, rfl⟩
  have key : ∀ ρ θ ζ : ℝ, V3.dot ⟨-Real.sin ψ, Real.cos ψ, 0⟩ ⟨ρ * Real.cos θ, ph + ρ * Real.sin θ, ζ⟩ =
      ρ * Real.sin (θ - ψ) + ph * Real.cos ψ := by
    intro ρ θ ζ
    rw [Real.sin_sub]
    simp only [V3.dot]
    ring
  have hs : (0:ℝ) < stones := by exact_mod_cast (by omega : 0 < stones)
  have hδ : 0 < Real.pi / stones := by have := Real.pi_pos; positivity
  have hij' : (i : ℝ) + 1 ≤ j := by exact_mod_cast hij
  have hψ0 : 0 ≤ ψ := by rw [hψ]; positivity
  refine ⟨⟨-Real.sin ψ, Real.cos ψ, 0⟩, ph * Real.cos ψ, ?_, ?_, ?_⟩
  · intro h
    have hx := congrArg V3.x h; have hy := congrArg V3.y h
    simp at hx hy
    have := Real.sin_sq_add_cos_sq ψ
    rw [hx, hy] at this
    norm_num at this
  · intro p hp
    obtain ⟨ρ, θ, ζ, hρ, hθ, -, rfl⟩ := (voussoir_world ..).1 hp
    obtain ⟨h1, h2, h3, h4⟩ := voussoir_angle (by omega) hθ
    rw [key]
    have hρ0 : 0 ≤ ρ := by rcases hρ with rfl | rfl <;> linarith
    have : Real.sin (θ - ψ) ≤ 0 := by
      refine Real.sin_nonpos_of_nonpos_of_neg_pi_le (by linarith) ?_
      have hψπ : ψ ≤ Real.pi := by rw [hψ]; exact (voussoir_angle (i := i) (by omega) (Or.inr rfl)).2.2.2
      linarith
    nlinarith
  · intro p hp
    obtain ⟨ρ, θ, ζ, hρ, hθ, -, rfl⟩ := (voussoir_world ..).1 hp
    obtain ⟨h1, h2, h3, h4⟩ := voussoir_angle hj hθ
    rw [key]
    have hρ0 : 0 ≤ ρ := by rcases hρ with rfl | rfl <;> linarith
    have h5 : ψ ≤ θ := by
      rw [hψ]
      refine le_trans ?_ h1
      gcongr
    have : 0 ≤ Real.sin (θ - ψ) := Real.sin_nonneg_of_nonneg_of_le_pi (by linarith) (by linarith)
    nlinarith

/-- Box i of a pier at the horizontal position x. -/
noncomputable def pierBox (w ph d : ℝ) (piers : ℕ) (x : ℝ) (i : ℕ) : Brick :=
  ⟨(create_box (w / 5) (ph / piers) d).1, (create_box (w / 5) (ph / piers) d).2,
    ⟨x, ph / piers / 2 + i * (ph / piers), 0⟩, Quat.identity⟩

theorem pier_corner {w ph d x : ℝ} {piers i : ℕ} {p : V3} (hp : p ∈ (pierBox w ph d piers x i).world) :
    (p.x = x + w / 10 ∨ p.x = x - w / 10) ∧ (p.y = i * (ph / piers) ∨ p.y = (i + 1) * (ph / piers)) ∧
      (p.z = d / 2 ∨ p.z = -(d / 2)) := by
  unfold pierBox Brick.world at hp
  obtain ⟨v, hv, rfl⟩ := List.mem_map.1 hp
  obtain ⟨hx, hy, hz⟩ := mem_box hv
  unfold Brick.at
  simp only [rotate_ident_V3, V3.add_x, V3.add_y, V3.add_z]
  refine ⟨?_, ?_, ?_⟩
  · rcases hx with h | h <;> rw [h]
    · left; ring
    · right; ring
  · rcases hy with h | h <;> rw [h]
    · right; ring
    · left; ring
  · rcases hz with h | h <;> rw [h]
    · left; ring
    · right; ring

theorem archPlan_eq (w ph d : ℝ) (piers stones : ℕ) : archPlan w ph d piers stones =
    ((List.range piers).flatMap fun (i : ℕ) =>
      [pierBox w ph d piers (-w / 2 + w / 5 / 2) i, pierBox w ph d piers (w / 2 - w / 5 / 2) i]) ++
    (List.range stones).map (voussoir w ph d stones) := rfl

/-- The arch stays in its box: width w, height ph + w/2, depth d. -/
theorem arch_inside {w ph d : ℝ} (hw : 0 < w) (hph : 0 < ph) (hd : 0 < d) {piers stones : ℕ} {b : Brick}
    (hb : b ∈ archPlan w ph d piers stones) {p : V3} (hp : p ∈ b.world) :
    |p.x| ≤ w / 2 ∧ 0 ≤ p.y ∧ p.y ≤ ph + w / 2 ∧ |p.z| ≤ d / 2 := by
  rw [archPlan_eq, List.mem_append] at hb
  rcases hb with hb | hb
  · rw [List.mem_flatMap] at hb
    obtain ⟨i, hi, hb⟩ := hb
    rw [List.mem_range] at hi
    have hs : (0:ℝ) < piers := by exact_mod_cast (by omega : 0 < piers)
    have hi' : (i : ℝ) + 1 ≤ piers := by exact_mod_cast hi
    have e : ph = piers * (ph / piers) := by field_simp
    have h1 : (i + 1) * (ph / piers) ≤ piers * (ph / piers) := by gcongr
    have h2 : 0 ≤ i * (ph / piers) := by positivity
    have h3 : 0 < ph / piers := by positivity
    rw [← e] at h1
    simp only [List.mem_cons, List.not_mem_nil, or_false] at hb
    have hcor : ∃ x : ℝ, (x = -w / 2 + w / 5 / 2 ∨ x = w / 2 - w / 5 / 2) ∧ p ∈ (pierBox w ph d piers x i).world := by
      rcases hb with rfl | rfl
      · exact ⟨_, Or.inl rfl, hp⟩
      · exact ⟨_, Or.inr rfl, hp⟩
    obtain ⟨x, hx, hp⟩ := hcor
    obtain ⟨cx, cy, cz⟩ := pier_corner hp
    refine ⟨?_, ?_, ?_, ?_⟩
    · rw [abs_le]
      rcases hx with rfl | rfl <;> rcases cx with c | c <;> rw [c] <;> constructor <;> linarith
    · rcases cy with c | c <;> rw [c] <;> nlinarith
    · rcases cy with c | c <;> rw [c] <;> nlinarith
    · rw [abs_le]
      rcases cz with c | c <;> rw [c] <;> constructor <;> linarith
  · obtain ⟨i, hi, rfl⟩ := List.mem_map.1 hb
    rw [List.mem_range] at hi
    obtain ⟨ρ, θ, ζ, hρ, hθ, hζ, rfl⟩ := (voussoir_world ..).1 hp
    obtain ⟨-, -, h3, h4⟩ := voussoir_angle hi hθ
    have hρ0 : 0 ≤ ρ := by rcases hρ with rfl | rfl <;> linarith
    have hρ1 : ρ ≤ w / 2 := by rcases hρ with rfl | rfl <;> linarith
    have hsin := Real.sin_nonneg_of_nonneg_of_le_pi h3 h4
    have hsin1 := Real.sin_le_one θ
    refine ⟨?_, ?_, ?_, ?_⟩
    · show |ρ * Real.cos θ| ≤ _
      rw [abs_mul, abs_of_nonneg hρ0]
      have := Real.abs_cos_le_one θ
      calc ρ * |Real.cos θ| ≤ ρ * 1 := by gcongr
        _ ≤ _ := by linarith
    · show 0 ≤ ph + ρ * Real.sin θ
      nlinarith
    · show ph + ρ * Real.sin θ ≤ _
      nlinarith
    · show |ζ| ≤ _
      rw [abs_le]
      rcases hζ with c | c <;> rw [c] <;> constructor <;> linarith

theorem arch_apart {w ph d : ℝ} (hw : 0 < w) (hph : 0 < ph) {piers stones : ℕ} :
    (archPlan w ph d piers stones).Pairwise fun a b => PlaneApart a.world b.world := by
  rw [archPlan_eq, List.pairwise_append]
  have hq : 0 ≤ ph / piers := by positivity
  have hsame : ∀ (x x' : ℝ) (i j : ℕ), i < j →
      PlaneApart (pierBox w ph d piers x i).world (pierBox w ph d piers x' j).world := by
    intro x x' i j hij
    have hij' : (i : ℝ) + 1 ≤ j := by exact_mod_cast hij
    refine PlaneApart.of_y ((i + 1) * (ph / piers)) ?_ ?_
    · intro p hp
      rcases (pier_corner hp).2.1 with c | c <;> rw [c]
      nlinarith
    · intro p hp
      rcases (pier_corner hp).2.1 with c | c <;> rw [c] <;> nlinarith
  refine ⟨?_, ?_, ?_⟩
  · rw [List.pairwise_flatMap]
    constructor
    · intro i _
      rw [List.pairwise_pair]
      refine PlaneApart.of_x 0 ?_ ?_
      · intro p hp
        rcases (pier_corner hp).1 with c | c <;> rw [c] <;> linarith
      · intro p hp
        rcases (pier_corner hp).1 with c | c <;> rw [c] <;> linarith
    · refine List.Pairwise.imp ?_ List.pairwise_lt_range
      intro i j hij a ha b hb
      simp only [List.mem_cons, List.not_mem_nil, or_false] at ha hb
      rcases ha with rfl | rfl <;> rcases hb with rfl | rfl <;> exact hsame _ _ _ _ hij
  · rw [List.pairwise_map]
    refine List.Pairwise.imp_of_mem ?_ List.pairwise_lt_range
    intro i j _ hj hij
    exact voussoir_apart hw hij (List.mem_range.1 hj)
  · intro a ha b hb
    rw [List.mem_flatMap] at ha
    obtain ⟨i, hi, ha⟩ := ha
    rw [List.mem_range] at hi
    obtain ⟨k, hk, rfl⟩ := List.mem_map.1 hb
    rw [List.mem_range] at hk
    have hcor : ∃ x : ℝ, a = pierBox w ph d piers x i := by
      simp only [List.mem_cons, List.not_mem_nil, or_false] at ha
      rcases ha with rfl | rfl <;> exact ⟨_, rfl⟩
    obtain ⟨x, rfl⟩ := hcor
    have hs : (0:ℝ) < piers := by exact_mod_cast (by omega : 0 < piers)
    have hi' : (i : ℝ) + 1 ≤ piers := by exact_mod_cast hi
    have e : ph = piers * (ph / piers) := by field_simp
    have h1 : (i + 1) * (ph / piers) ≤ piers * (ph / piers) := by gcongr
    rw [← e] at h1
    refine PlaneApart.of_y ph ?_ ?_
    · intro p hp
      rcases (pier_corner hp).2.1 with c | c <;> rw [c] <;> nlinarith
    · intro p hp
      obtain ⟨ρ, θ, ζ, hρ, hθ, hζ, rfl⟩ := (voussoir_world ..).1 hp
      obtain ⟨-, -, h3, h4⟩ := voussoir_angle hk hθ
      have hρ0 : 0 ≤ ρ := by rcases hρ with rfl | rfl <;> linarith
      have hsin := Real.sin_nonneg_of_nonneg_of_le_pi h3 h4
      show ph ≤ ph + ρ * Real.sin θ
      nlinarith

theorem arch_voussoir {w ph d : ℝ} {piers stones i : ℕ} (hi : i < stones) :
    (archPlan w ph d piers stones)[2 * piers + i]? = some (voussoir w ph d stones i) := by
  have hl : ∀ f : ℕ → List Brick, (∀ i, (f i).length = 2) → ((List.range piers).flatMap f).length = 2 * piers := by
    intro f hf
    rw [List.length_flatMap]
    simp [hf, mul_comm]
  rw [archPlan_eq, List.getElem?_append_right (by rw [hl _ (fun _ => rfl)]; omega), hl _ (fun _ => rfl),
    Nat.add_sub_cancel_left, List.getElem?_map, List.getElem?_range hi]
  rfl

/-- C88: an arch standing at r with orientation q.  The call succeeds only for positive width, height, depth and density, a
height above half the width, at least one pier stone and an odd number of at least three arch stones.  It then adds
2·piers + stones free bodies; no two of them overlap; voussoir i has its corners at the radii w/2 − w/5 and w/2 and the
angles i·π/stones and (i+1)·π/stones about the point at height h − w/2; and every body stays in the box of width w, height h
and depth d that stands on the local ground plane. -/
theorem C88_arch {eig : Eig} (he : EigSpec eig) {r : V3} {q : Quat} (hq : IsUnitQ q) {w h d : ℝ} {piers stones : ℕ}
    {density : ℝ} {material : String} {s s' : Scene} {names : List String} (hok : s.OK)
    (hrun : create_arch eig r q w h d piers stones density material s = .ok (names, s')) :
    (0 < w ∧ 0 < h ∧ 0 < d ∧ 0 < piers ∧ 2 < stones ∧ stones % 2 = 1 ∧ 0 < density ∧ w / 2 < h) ∧
    Adds s s' names ((archPlan w (h - w / 2) d piers stones).map fun b => b.under r q) false material density ∧
    NoOverlap s' names ∧ names.length = 2 * piers + stones ∧
    (∀ (i : ℕ) (n : String) (m : Mesh), i < stones → names[2 * piers + i]? = some n → s'.worldMesh n = some m →
      ∀ p, p ∈ m.V ↔ ∃ ρ θ ζ : ℝ, (ρ = w / 2 - w / 5 ∨ ρ = w / 2) ∧
        (θ = i * (Real.pi / stones) ∨ θ = (i + 1) * (Real.pi / stones)) ∧ (ζ = d / 2 ∨ ζ = -(d / 2)) ∧
        p = Quat.rotate q ⟨ρ * Real.cos θ, h - w / 2 + ρ * Real.sin θ, ζ⟩ + r) ∧
    ∀ n ∈ names, ∀ m, s'.worldMesh n = some m → ∀ p ∈ m.V, ∃ x : V3, p = Quat.rotate q x + r ∧
      |x.x| ≤ w / 2 ∧ 0 ≤ x.y ∧ x.y ≤ h ∧ |x.z| ≤ d / 2 := by
  obtain ⟨h1, h2, h3, h4, h5, h6, h7, h8, hb⟩ := arch_built he hq hok hrun
  have ha := hb.adds
  refine ⟨⟨h1, h2, h3, h4, h5, h6, h7, h8⟩, ha, ha.noOverlap (pairwise_under hq r (arch_apart h1 (by linarith))), ?_, ?_, ?_⟩
  · rw [ha.length, archPlan_eq]
    simp [List.length_flatMap, mul_comm]
  · intro i n m hi hn hm p
    have hbr : ((archPlan w (h - w / 2) d piers stones).map fun b => b.under r q)[2 * piers + i]? =
        some ((voussoir w (h - w / 2) d stones i).under r q) := by
      rw [List.getElem?_map, arch_voussoir hi]; rfl
    obtain ⟨o, m', -, hm', hV, -⟩ := ha.each _ n _ hn hbr
    rw [hm] at hm'
    cases hm'
    rw [hV.mem_iff, Brick.under_world, List.mem_map]
    constructor
    · rintro ⟨x, hx, rfl⟩
      obtain ⟨ρ, θ, ζ, a1, a2, a3, rfl⟩ := (voussoir_world ..).1 hx
      exact ⟨ρ, θ, ζ, a1, a2, a3, rfl⟩
    · rintro ⟨ρ, θ, ζ, a1, a2, a3, rfl⟩
      exact ⟨_, (voussoir_world ..).2 ⟨ρ, θ, ζ, a1, a2, a3, rfl⟩, rfl⟩
  · intro n hn m hm p hp
    obtain ⟨i, b, hi, hbi⟩ := ha.mem hn
    obtain ⟨o, m', -, hm', hV, -⟩ := ha.each _ n _ hi hbi
    rw [hm] at hm'
    cases hm'
    have hmem := List.mem_of_getElem? hbi
    obtain ⟨b0, hb0, rfl⟩ := List.mem_map.1 hmem
    rw [hV.mem_iff, Brick.under_world, List.mem_map] at hp
    obtain ⟨x, hx, rfl⟩ := hp
    obtain ⟨c1, c2, c3, c4⟩ := arch_inside h1 (by linarith) h3 hb0 hx
    exact ⟨x, rfl, c1, c2, by linarith, c4⟩

end Verif
