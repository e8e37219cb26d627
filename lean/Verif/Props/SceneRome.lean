import Verif.Props.ScenePillar

/-! C91: the pantheon and the colosseum, built from towers, domes and arches. -/

namespace Verif

open Rigid Rigid.SceneM SMesh
open VMesh (Tri)

theorem prod_ident (q : Quat) : Quat.prod q Quat.identity = q := (C01_identity_unit q).2

theorem map_under_under (B : List Brick) (r r' : V3) (q q' : Quat) :
    (B.map fun b => b.under r' q').map (fun b => b.under r q) =
      B.map fun b => b.under (Quat.rotate q r' + r) (Quat.prod q q') := by
  rw [List.map_map]
  exact List.map_congr_left fun b _ => b.under_under r r' q q'

/-! ### Pantheon -/

/-- The pantheon in its own frame: a tower of height h − ro and a dome on top of it. -/
noncomputable def pantheonPlan (ro ri h : ℝ) (layers segments : ℕ) (sf : ℝ) : List Brick :=
  towerPlan (towerStone ro ri ((h - ro) / layers) segments false sf) ((ro + ri) / 2) ((h - ro) / layers) layers segments ++
  (domePlan ri ro layers segments).map fun b => b.under ⟨0, h - ro, 0⟩ Quat.identity

theorem pantheon_built {eig : Eig} (he : EigSpec eig) {r : V3} {q : Quat} (hq : IsUnitQ q) {ro ri h : ℝ}
    {layers segments : ℕ} {density : ℝ} {material : String} {sf : ℝ} {s s' : Scene} {names : List String} (hok : s.OK)
    (hrun : create_pantheon eig r q ro ri h layers segments density material sf s = .ok (names, s')) :
    ro < h ∧ layers ≠ 0 ∧ segments ≠ 0 ∧
    PutUp (Finished false material density) s s' ((pantheonPlan ro ri h layers segments sf).map fun b => b.under r q) names := by
  unfold create_pantheon at hrun
  simp only [lit0] at hrun
  by_cases g : h - ro ≤ 0
  · rw [if_pos g] at hrun; exact absurd hrun raise_ok
  rw [if_neg g, bind_ok] at hrun
  obtain ⟨tower, s1, h1, hrun⟩ := hrun
  rw [bind_ok] at hrun
  obtain ⟨dome, s2, h2, hrun⟩ := hrun
  obtain ⟨rfl, rfl⟩ := pure_ok.1 hrun
  obtain ⟨hl, hs, hb1⟩ := tower_built he hq hok h1
  obtain ⟨-, hb2⟩ := dome_built he (prod_unit hq ident_unit) (hb1.1.ok hok) h2
  refine ⟨by linarith, hl, hs, ?_⟩
  have := hb1.append hb2
  unfold pantheonPlan
  rw [List.map_append, map_under_under]
  exact this

theorem tower_between {ro ri h sf : ℝ} {layers segments : ℕ} {cubes : Bool} (hs : 3 ≤ segments) (hri : 0 ≤ ri) (hro : ri ≤ ro)
    (h0 : 0 ≤ sf) (h1 : sf ≤ 1) (hh : 0 ≤ h) {b : Brick}
    (hb : b ∈ towerPlan (towerStone ro ri (h / layers) segments cubes sf) ((ro + ri) / 2) (h / layers) layers segments) :
    Between 0 h b.world := by
  unfold towerPlan at hb
  rw [List.mem_flatMap] at hb
  obtain ⟨l, hl, hb⟩ := hb
  obtain ⟨j, -, rfl⟩ := List.mem_map.1 hb
  rw [List.mem_range] at hl
  have hlay : (0:ℝ) < layers := by exact_mod_cast (by omega : 0 < layers)
  have hl' : (l : ℝ) + 1 ≤ layers := by exact_mod_cast hl
  have e : h = layers * (h / layers) := by field_simp
  have hq : 0 ≤ h / layers := by positivity
  have h2 : ((l : ℝ) + 1) * (h / layers) ≤ layers * (h / layers) := by gcongr
  rw [← e] at h2
  have h3 : 0 ≤ l * (h / layers) := by positivity
  intro p hp
  rcases (tower_corner hs hri hro h0 h1 hp).1 with c | c <;> rw [c] <;> constructor <;> nlinarith

theorem dome_above {ri ro : ℝ} (hri : 0 ≤ ri) (hro : 0 ≤ ro) {layers segments : ℕ} {b : Brick}
    (hb : b ∈ domePlan ri ro layers segments) {p : V3} (hp : p ∈ b.world) : 0 ≤ p.y := by
  rw [domePlan_eq, List.mem_flatMap] at hb
  obtain ⟨l, hl, hb⟩ := hb
  obtain ⟨j, -, rfl⟩ := List.mem_map.1 hb
  obtain ⟨ρ, θ, φ, hρ, -, hφ, rfl⟩ := (domeStone_world ..).1 hp
  obtain ⟨-, -, h3, h4⟩ := latitude (List.mem_range.1 hl) hφ
  have hρ0 : 0 ≤ ρ := by rcases hρ with rfl | rfl <;> assumption
  have := Real.sin_nonneg_of_nonneg_of_le_pi h3 (by linarith [Real.pi_pos])
  show 0 ≤ ρ * Real.sin φ
  positivity

theorem pantheon_apart {ro ri h sf : ℝ} {layers segments : ℕ} (hs : 3 ≤ segments) (hri : 0 ≤ ri) (hro : ri ≤ ro)
    (h0 : 0 ≤ sf) (h1 : sf ≤ 1) (hh : ro ≤ h) :
    (pantheonPlan ro ri h layers segments sf).Pairwise fun a b => PlaneApart a.world b.world := by
  unfold pantheonPlan
  have hw : 0 ≤ h - ro := by linarith
  rw [List.pairwise_append]
  refine ⟨tower_apart hs hri hro h0 h1 (by positivity), pairwise_under ident_unit _ (dome_apart hri (hri.trans hro) hs), ?_⟩
  intro a ha b hb
  obtain ⟨b', hb', rfl⟩ := List.mem_map.1 hb
  refine PlaneApart.of_y (h - ro) (fun p hp => (tower_between hs hri hro h0 h1 hw ha p hp).2) ?_
  intro p hp
  rw [Brick.under_world, List.mem_map] at hp
  obtain ⟨x, hx, rfl⟩ := hp
  have := dome_above hri (hri.trans hro) hb' hx
  rw [rotate_ident_V3]
  show h - ro ≤ x.y + (h - ro)
  linarith

/-- C91: a pantheon: 2 · layers · segments free bodies, a tower of height h − ro and the dome standing on it; no two overlap. -/
theorem C91_pantheon {eig : Eig} (he : EigSpec eig) {r : V3} {q : Quat} (hq : IsUnitQ q) {ro ri h : ℝ}
    {layers segments : ℕ} {density : ℝ} {material : String} {sf : ℝ} {s s' : Scene} {names : List String} (hok : s.OK)
    (hs : 3 ≤ segments) (hri : 0 ≤ ri) (hro : ri ≤ ro) (h0 : 0 ≤ sf) (h1 : sf ≤ 1)
    (hrun : create_pantheon eig r q ro ri h layers segments density material sf s = .ok (names, s')) :
    ro < h ∧ Adds s s' names ((pantheonPlan ro ri h layers segments sf).map fun b => b.under r q) false material density ∧
    NoOverlap s' names ∧ names.length = 2 * (layers * segments) := by
  obtain ⟨hh, -, -, hb⟩ := pantheon_built he hq hok hrun
  have ha := hb.adds
  refine ⟨hh, ha, ha.noOverlap (pairwise_under hq r (pantheon_apart hs hri hro h0 h1 hh.le)), ?_⟩
  rw [ha.length]
  simp [pantheonPlan, towerPlan, domePlan, List.length_flatMap]
  ring

/-! ### Colosseum -/

/-- The colosseum in its own frame: on each level a ring of arches (nine tenths of the level's height, five pier stones, nine
arch stones) and on them a ring of wedges (one tenth of the level's height). -/
noncomputable def colosseumPlan (ro ri h : ℝ) (levels arches : ℕ) (sf : ℝ) : List Brick :=
  let L := h / levels
  let w := 2 * (Real.tan (Real.pi / arches) * ri * sf)
  (List.range levels).flatMap fun (l : ℕ) =>
    ((List.range arches).flatMap fun (a : ℕ) =>
      (archPlan w (L * (9 / 10) - w / 2) (ro - ri) 5 9).map fun b =>
        b.under (Quat.rotate (Quat.Ry (2 * Real.pi / arches * a)) ⟨0, l * L, -((ro + ri) / 2)⟩) (Quat.Ry (2 * Real.pi / arches * a))) ++
    (towerPlan (towerStone ro ri (L * (1 / 10)) arches false sf) ((ro + ri) / 2) (L * (1 / 10)) 1 arches).map fun b =>
      b.under ⟨0, l * L + L * (9 / 10), 0⟩ Quat.identity

theorem mapM_head {α β : Type} {f : α → SceneM β} {l : List α} {s s' : Scene} {r : List β} (hne : l ≠ [])
    (h : l.mapM f s = .ok (r, s')) : ∃ a ∈ l, ∃ b s1, f a s = .ok (b, s1) := by
  cases l with
  | nil => exact absurd rfl hne
  | cons a l =>
    rw [List.mapM_cons, bind_ok] at h
    obtain ⟨b, s1, h1, -⟩ := h
    exact ⟨a, by simp, b, s1, h1⟩

theorem range_ne_nil {n : ℕ} (h : n ≠ 0) : List.range n ≠ [] := by simpa using h

theorem colosseum_built {eig : Eig} (he : EigSpec eig) {r : V3} {q : Quat} (hq : IsUnitQ q) {ro ri h : ℝ}
    {levels arches : ℕ} {density : ℝ} {material : String} {sf : ℝ} {s s' : Scene} {names : List String} (hok : s.OK)
    (hrun : create_colosseum eig r q ro ri h levels arches density material sf s = .ok (names, s')) :
    levels ≠ 0 ∧ arches ≠ 0 ∧ 0 < 2 * (Real.tan (Real.pi / arches) * ri * sf) ∧ 0 < h / levels ∧ ri < ro ∧
    2 * (Real.tan (Real.pi / arches) * ri * sf) / 2 < h / levels * (9 / 10) ∧
    PutUp (Finished false material density) s s' ((colosseumPlan ro ri h levels arches sf).map fun b => b.under r q) names := by
  unfold create_colosseum at hrun
  by_cases g1 : levels = 0
  · rw [if_pos g1] at hrun; exact absurd hrun raise_ok
  rw [if_neg g1] at hrun
  by_cases g2 : arches = 0
  · rw [if_pos g2] at hrun; exact absurd hrun raise_ok
  rw [if_neg g2] at hrun
  simp only [lit0, lit2, sinRatio_eq, show (0.1:ℝ) = 1 / 10 by norm_num, show (0.9:ℝ) = 9 / 10 by norm_num] at hrun
  rw [show 2 * Real.tan (Real.pi / arches) * ri * sf = 2 * (Real.tan (Real.pi / arches) * ri * sf) by ring, bind_ok] at hrun
  obtain ⟨rows, s1, h1, hrun⟩ := hrun
  obtain ⟨rfl, rfl⟩ := pure_ok.1 hrun
  obtain ⟨L, hL⟩ : ∃ L, L = h / levels := ⟨_, rfl⟩
  obtain ⟨w, hw⟩ : ∃ w, w = 2 * (Real.tan (Real.pi / arches) * ri * sf) := ⟨_, rfl⟩
  rw [← hL, ← hw] at h1 ⊢
  have hfirst : 0 < w ∧ 0 < L ∧ ri < ro ∧ w / 2 < L * (9 / 10) := by
    obtain ⟨l, -, n, s2, hb⟩ := mapM_head (range_ne_nil g1) h1
    rw [bind_ok] at hb
    obtain ⟨nm, s4, h2, -⟩ := hb
    obtain ⟨a, -, n, s3, h3⟩ := mapM_head (range_ne_nil g2) h2
    obtain ⟨a1, a2, a3, -, -, -, -, a8, -⟩ := arch_built he (prod_unit hq (Ry_unit _)) hok h3
    exact ⟨a1, by linarith, by linarith, a8⟩
  refine ⟨g1, g2, hfirst.1, hfirst.2.1, hfirst.2.2.1, hfirst.2.2.2, ?_⟩
  have key := mapM_rows (Q := Finished false material density) _ (fun (l : ℕ) =>
    (((List.range arches).flatMap fun (a : ℕ) =>
      (archPlan w (L * (9 / 10) - w / 2) (ro - ri) 5 9).map fun b =>
        b.under (Quat.rotate (Quat.Ry (2 * Real.pi / arches * a)) ⟨0, l * L, -((ro + ri) / 2)⟩) (Quat.Ry (2 * Real.pi / arches * a))) ++
    (towerPlan (towerStone ro ri (L * (1 / 10)) arches false sf) ((ro + ri) / 2) (L * (1 / 10)) 1 arches).map fun b =>
      b.under ⟨0, l * L + L * (9 / 10), 0⟩ Quat.identity).map fun b => b.under r q)
    (fun s => s.OK) (fun _ _ _ hg hh => hg.ok hh) ?_ hok h1
  · unfold colosseumPlan
    simp only [← hL, ← hw]
    rw [List.map_flatMap]
    exact key
  · intro l s2 n s3 hok2 hb
    rw [bind_ok] at hb
    obtain ⟨nm, s4, h2, hb⟩ := hb
    rw [bind_ok] at hb
    obtain ⟨ring, s5, h3, hb⟩ := hb
    obtain ⟨rfl, rfl⟩ := pure_ok.1 hb
    have b1 := mapM_rows (Q := Finished false material density) _ (fun (a : ℕ) =>
      (archPlan w (L * (9 / 10) - w / 2) (ro - ri) 5 9).map fun b =>
        b.under (globalPos r q (Quat.rotate (Quat.Ry (2 * Real.pi / arches * a)) ⟨0, l * L, -((ro + ri) / 2)⟩))
          (Quat.prod q (Quat.Ry (2 * Real.pi / arches * a)))) (fun s => s.OK) (fun _ _ _ hg hh => hg.ok hh) ?_ hok2 h2
    · obtain ⟨-, -, b2⟩ := tower_built he (prod_unit hq ident_unit) (b1.1.ok hok2) h3
      have := b1.append b2
      rw [List.map_append, map_under_under, List.map_flatMap]
      simp only [map_under_under]
      simpa [globalPos] using this
    · intro a s6 n s7 hok3 hb
      exact (arch_built he (prod_unit hq (Ry_unit _)) hok3 hb).2.2.2.2.2.2.2.2

theorem tan_segments {n : ℕ} (hn : 3 ≤ n) : 0 ≤ Real.sin (Real.pi / n) ∧
    Real.tan (Real.pi / n) * Real.cos (Real.pi / n) = Real.sin (Real.pi / n) := by
  have hc := cos_pi_div_pos hn
  refine ⟨?_, Real.tan_mul_cos hc.ne'⟩
  refine Real.sin_nonneg_of_nonneg_of_le_pi (by have := Real.pi_pos; positivity) ?_
  have : (1:ℝ) ≤ n := by exact_mod_cast (by omega : 1 ≤ n)
  exact div_le_self Real.pi_pos.le this

theorem colosseum_apart {ro ri h sf : ℝ} {levels arches : ℕ} (hs : 3 ≤ arches) (hri : 0 ≤ ri) (hro : ri < ro)
    (h0 : 0 ≤ sf) (h1 : sf ≤ 1) (hw : 0 < 2 * (Real.tan (Real.pi / arches) * ri * sf)) (hL : 0 < h / levels)
    (hfit : 2 * (Real.tan (Real.pi / arches) * ri * sf) / 2 < h / levels * (9 / 10)) :
    (colosseumPlan ro ri h levels arches sf).Pairwise fun a b => PlaneApart a.world b.world := by
  unfold colosseumPlan
  simp only
  obtain ⟨hsin, htan⟩ := tan_segments hs
  have hcos := cos_pi_div_pos hs
  obtain ⟨w, hww⟩ : ∃ w, w = 2 * (Real.tan (Real.pi / arches) * ri * sf) := ⟨_, rfl⟩
  have hw2 : w / 2 * Real.cos (Real.pi / arches) = sf * ri * Real.sin (Real.pi / arches) := by
    rw [hww, ← htan]; ring
  rw [← hww] at hw hfit ⊢
  clear hww
  obtain ⟨L, hLL⟩ : ∃ L, L = h / levels := ⟨_, rfl⟩
  rw [← hLL] at hL hfit ⊢
  -- the bricks of an arch
  have harch : ∀ (l a : ℕ) (b : Brick), b ∈ ((archPlan w (L * (9 / 10) - w / 2) (ro - ri) 5 9).map fun b =>
        b.under (Quat.rotate (Quat.Ry (2 * Real.pi / arches * a)) ⟨0, l * L, -((ro + ri) / 2)⟩) (Quat.Ry (2 * Real.pi / arches * a))) →
      InWedge (Real.pi / arches) (2 * (Real.pi / arches) * a + 0) b.world ∧ Between (l * L) (l * L + L * (9 / 10)) b.world := by
    intro l a b hb
    obtain ⟨b0, hb0, rfl⟩ := List.mem_map.1 hb
    have e : 2 * (Real.pi / arches) * (a : ℝ) + 0 = 2 * Real.pi / arches * a := by ring
    rw [e, Brick.under_world]
    constructor
    · intro p hp
      obtain ⟨x, hx, rfl⟩ := List.mem_map.1 hp
      obtain ⟨c1, c2, c3, c4⟩ := arch_inside hw (by linarith) (by linarith) hb0 hx
      rw [abs_le] at c4
      refine ⟨x + ⟨0, l * L, -((ro + ri) / 2)⟩, ?_, ?_, ?_⟩
      · rw [(C02_rotate_linear _ 1 _ _).1]
      · simp only [V3.add_z]; linarith
      · simp only [V3.add_z, V3.add_x, add_zero]
        calc |x.x| * Real.cos (Real.pi / arches) ≤ w / 2 * Real.cos (Real.pi / arches) := by gcongr
          _ = sf * ri * Real.sin (Real.pi / arches) := hw2
          _ ≤ 1 * ri * Real.sin (Real.pi / arches) := by gcongr
          _ ≤ _ := by gcongr; linarith
    · intro p hp
      obtain ⟨x, hx, rfl⟩ := List.mem_map.1 hp
      obtain ⟨c1, c2, c3, c4⟩ := arch_inside hw (by linarith) (by linarith) hb0 hx
      simp only [rotate_Ry, V3.add_y]
      constructor <;> linarith
  -- the bricks of a ring
  have hring : ∀ (l : ℕ) (b : Brick), b ∈ ((towerPlan (towerStone ro ri (L * (1 / 10)) arches false sf) ((ro + ri) / 2)
      (L * (1 / 10)) 1 arches).map fun b => b.under ⟨0, l * L + L * (9 / 10), 0⟩ Quat.identity) →
      Between (l * L + L * (9 / 10)) ((l + 1) * L) b.world := by
    intro l b hb
    obtain ⟨b0, hb0, rfl⟩ := List.mem_map.1 hb
    rw [Brick.under_world]
    intro p hp
    obtain ⟨x, hx, rfl⟩ := List.mem_map.1 hp
    have hb1 : b0 ∈ towerPlan (towerStone ro ri (L * (1 / 10) / (1 : ℕ)) arches false sf) ((ro + ri) / 2)
      (L * (1 / 10) / (1 : ℕ)) 1 arches := by simpa using hb0
    have := tower_between hs hri hro.le h0 h1 (by linarith) hb1 x hx
    rw [rotate_ident_V3]
    show _ ≤ x.y + (l * L + L * (9 / 10)) ∧ x.y + (l * L + L * (9 / 10)) ≤ _
    constructor <;> nlinarith
  rw [List.pairwise_flatMap]
  constructor
  · intro l _
    rw [List.pairwise_append]
    refine ⟨?_, pairwise_under ident_unit _ (tower_apart hs hri hro.le h0 h1 (by linarith)), ?_⟩
    · rw [List.pairwise_flatMap]
      constructor
      · intro a _
        exact pairwise_under (Ry_unit _) _ (arch_apart hw (by linarith))
      · refine List.Pairwise.imp_of_mem ?_ List.pairwise_lt_range
        intro a a' ha ha' haa x hx y hy
        exact segments_apart hs (List.mem_range.1 ha) (List.mem_range.1 ha') (by omega) (harch l a x hx).1 (harch l a' y hy).1
    · intro x hx y hy
      rw [List.mem_flatMap] at hx
      obtain ⟨a, -, hx⟩ := hx
      exact (harch l a x hx).2.apart (hring l y hy) le_rfl
  · have hall : ∀ (l : ℕ) (b : Brick), b ∈ (((List.range arches).flatMap fun (a : ℕ) =>
        (archPlan w (L * (9 / 10) - w / 2) (ro - ri) 5 9).map fun b =>
        b.under (Quat.rotate (Quat.Ry (2 * Real.pi / arches * a)) ⟨0, l * L, -((ro + ri) / 2)⟩) (Quat.Ry (2 * Real.pi / arches * a))) ++
        (towerPlan (towerStone ro ri (L * (1 / 10)) arches false sf) ((ro + ri) / 2) (L * (1 / 10)) 1 arches).map fun b =>
        b.under ⟨0, l * L + L * (9 / 10), 0⟩ Quat.identity) → Between (l * L) ((l + 1) * L) b.world := by
      intro l b hb p hp
      rcases List.mem_append.1 hb with hb | hb
      · rw [List.mem_flatMap] at hb
        obtain ⟨a, -, hb⟩ := hb
        have := (harch l a b hb).2 p hp
        constructor <;> linarith
      · have := hring l b hb p hp
        constructor <;> linarith
    refine List.Pairwise.imp ?_ List.pairwise_lt_range
    intro l l' hll x hx y hy
    have hll' : (l : ℝ) + 1 ≤ l' := by exact_mod_cast hll
    refine (hall l x hx).apart (hall l' y hy) ?_
    gcongr

/-- C91: a colosseum: on each of the levels, `arches` arches of 19 stones each in a ring and a ring of `arches` wedges on top of
them; no two stones overlap. -/
theorem C91_colosseum {eig : Eig} (he : EigSpec eig) {r : V3} {q : Quat} (hq : IsUnitQ q) {ro ri h : ℝ}
    {levels arches : ℕ} {density : ℝ} {material : String} {sf : ℝ} {s s' : Scene} {names : List String} (hok : s.OK)
    (hs : 3 ≤ arches) (hri : 0 ≤ ri) (h0 : 0 ≤ sf) (h1 : sf ≤ 1)
    (hrun : create_colosseum eig r q ro ri h levels arches density material sf s = .ok (names, s')) :
    Adds s s' names ((colosseumPlan ro ri h levels arches sf).map fun b => b.under r q) false material density ∧
    NoOverlap s' names ∧ names.length = levels * (20 * arches) := by
  obtain ⟨-, -, a1, a2, a3, a4, hb⟩ := colosseum_built he hq hok hrun
  have ha := hb.adds
  refine ⟨ha, ha.noOverlap (pairwise_under hq r (colosseum_apart hs hri a3 h0 h1 a1 a2 a4)), ?_⟩
  rw [ha.length]
  simp [colosseumPlan, towerPlan, archPlan, List.length_flatMap]
  left; ring

end Verif
