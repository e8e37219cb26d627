import Verif.Props.SceneBase

/-! What each scene builder puts into the world. -/

namespace Verif

open Rigid Rigid.SceneM SMesh
open VMesh (Tri)

/-- The brick moved with a whole structure that is rotated by q and then shifted by r. -/
def Brick.under (b : Brick) (r : V3) (q : Quat) : Brick := ⟨b.V, b.T, Quat.rotate q b.r + r, Quat.prod q b.q⟩

theorem Brick.under_at (b : Brick) (r : V3) (q : Quat) (v : V3) : (b.under r q).at v = Quat.rotate q (b.at v) + r := by
  unfold Brick.under Brick.at
  simp only
  rw [(C02_rotate_linear q 1 _ _).1, C02_rotate_prod]
  abel

theorem Brick.under_world (b : Brick) (r : V3) (q : Quat) :
    (b.under r q).world = b.world.map fun p => Quat.rotate q p + r := by
  unfold Brick.world
  rw [List.map_map]
  exact List.map_congr_left fun v _ => b.under_at r q v

theorem Brick.under_under (b : Brick) (r r' : V3) (q q' : Quat) :
    (b.under r' q').under r q = b.under (Quat.rotate q r' + r) (Quat.prod q q') := by
  unfold Brick.under
  simp only [Brick.mk.injEq, true_and]
  refine ⟨?_, ?_⟩
  · rw [(C02_rotate_linear q 1 _ _).1, C02_rotate_prod]; abel
  · rw [C01_prod_assoc]

theorem Ry_unit (t : ℝ) : IsUnitQ (Quat.Ry t) := by
  unfold IsUnitQ Quat.Ry
  have := Real.cos_sq_add_sin_sq (t / 2)
  simp only
  nlinarith

theorem Rz_unit (t : ℝ) : IsUnitQ (Quat.Rz t) := by
  unfold IsUnitQ Quat.Rz
  have := Real.cos_sq_add_sin_sq (t / 2)
  simp only
  nlinarith

theorem prod_unit {a b : Quat} (ha : IsUnitQ a) (hb : IsUnitQ b) : IsUnitQ (Quat.prod a b) := (C01_unit_group ha hb).1

theorem ident_unit : IsUnitQ Quat.identity := by unfold IsUnitQ Quat.identity; norm_num

theorem flatMap_singleton_id {α : Type*} (l : List α) : l.flatMap (fun n => [n]) = l := by
  induction l with
  | nil => rfl
  | cons a l ih => simpa using ih

theorem flatMap_singleton_map {α β : Type*} (f : α → β) (l : List α) : l.flatMap (fun a => [f a]) = l.map f := by
  induction l with
  | nil => rfl
  | cons a l ih => simpa using ih

/-- A loop that adds one body per pass, all of the same shape. -/
theorem mapM_bodies {α : Type} {Q : BrickFact} (f : α → SceneM String) (brick : α → Brick) {k : String}
    {VT : List V3 × List Tri}
    (hf : ∀ a s n s', HasShape s k VT → f a s = .ok (n, s') → PutUp Q s s' [brick a] [n])
    {l : List α} {s s' : Scene} {r : List String} (hsh : HasShape s k VT) (h : l.mapM f s = .ok (r, s')) :
    PutUp Q s s' (l.map brick) r := by
  have := mapM_built (Q := Q) f (fun n : String => [n]) (fun a => [brick a]) (fun s => HasShape s k VT)
    (fun _ _ _ hg hh => hh.grows hg) hf _ _ _ _ hsh h
  rwa [flatMap_singleton_id, flatMap_singleton_map] at this

/-! ### Box stack -/

/-- The boxes of a stack: box k with its centre at height (k + 1/2)·h, turned by k·45° about the vertical axis. -/
noncomputable def stackPlan (w h d : ℝ) (K : ℕ) : List Brick :=
  (List.range K).map fun (k : ℕ) =>
    ⟨(create_box w h d).1, (create_box w h d).2, ⟨0, k * h + h / 2, 0⟩, Quat.Ry (k * Real.pi / 4)⟩

theorem stack_built {eig : Eig} (he : EigSpec eig) {w h d : ℝ} {K : ℕ} {density : ℝ} {material : String} {s s' : Scene}
    {names : List String} (hok : s.OK) (hrun : create_box_stack eig w h d K density material s = .ok (names, s')) :
    PutUp (Finished false material density) s s' (stackPlan w h d K) names := by
  unfold create_box_stack at hrun
  rw [bind_ok] at hrun
  obtain ⟨k, s1, h1, h2⟩ := hrun
  obtain ⟨hg, hsh⟩ := newShape_ok he hok (C33_box_closed w h d).1 (C33_box_closed w h d).2 h1
  refine PutUp.of_grows hg (mapM_bodies _ _ ?_ hsh h2)
  intro i s2 n s3 hsh h
  rw [bind_ok] at h
  obtain ⟨n', s4, h3, h4⟩ := h
  rw [bind_ok] at h4
  obtain ⟨u, s5, h5, h6⟩ := h4
  obtain ⟨rfl, rfl⟩ := pure_ok.1 h6
  have := (newBody_ok hsh h3).setup (setup_ok (Or.inr ⟨rfl, rfl⟩) h5)
  rw [(C01_unit_spec _).2.1 (Ry_unit _), lit2, lit0] at this
  exact this

/-! ### Tower -/

/-- The bricks of a tower in its own frame (axis of the tower = y axis): layer l, segment j, with the brick's centre on the
circle of radius `c` at height (l + 1/2)·h, turned by the angle of the segment; even layers are turned by half a segment. -/
noncomputable def towerPlan (brick : List V3 × List Tri) (c h : ℝ) (layers segments : ℕ) : List Brick :=
  (List.range layers).flatMap fun (l : ℕ) => (List.range segments).map fun (j : ℕ) =>
    let φ := 2 * Real.pi / segments * (j + if l % 2 = 0 then 1 / 2 else 0)
    ⟨brick.1, brick.2, Quat.rotate (Quat.Ry φ) ⟨0, h / 2 + l * h, -c⟩, Quat.Ry φ⟩

/-- The brick of a tower of `segments` segments between the radii ri and ro, of height h: a box that just fits at the inner
radius, or a wedge as wide at the outer radius as the segment; the width is scaled with sf. -/
noncomputable def towerStone (ro ri h : ℝ) (segments : ℕ) (cubes : Bool) (sf : ℝ) : List V3 × List Tri :=
  let d := ro - ri
  let bi := Real.tan (Real.pi / segments) * ri * sf
  let bo := Real.tan (Real.pi / segments) * ro * sf
  if cubes then create_box (2 * bi) h d
  else create_cuboid ⟨-bi, -h / 2, d / 2⟩ ⟨bi, -h / 2, d / 2⟩ ⟨bi, h / 2, d / 2⟩ ⟨-bi, h / 2, d / 2⟩
    ⟨-bo, -h / 2, -d / 2⟩ ⟨bo, -h / 2, -d / 2⟩ ⟨bo, h / 2, -d / 2⟩ ⟨-bo, h / 2, -d / 2⟩

theorem sinRatio_eq (segments : ℕ) : sinRatio (2 * Real.pi / segments) = Real.tan (Real.pi / segments) := by
  unfold sinRatio
  rw [lit2, Real.sin_pi_div_two_sub, Real.tan_eq_sin_div_cos]
  congr 2 <;> ring

theorem towerBrick_eq (ro ri h : ℝ) (segments : ℕ) (cubes : Bool) (sf : ℝ) :
    towerBrick ro ri h (ro - ri) (2 * Real.pi / segments) cubes sf = towerStone ro ri h segments cubes sf := by
  unfold towerBrick towerStone
  simp only [sinRatio_eq, lit2]
  cases cubes
  · rfl
  · simp only [if_true]; congr 1; ring

theorem towerPhi_eq (segments l j : ℕ) : towerPhi (2 * Real.pi / segments) l j =
    2 * Real.pi / segments * (j + if l % 2 = 0 then 1 / 2 else 0) := by
  unfold towerPhi
  simp only [lit2]
  split_ifs <;> ring

theorem towerBrick_ok (ro ri h d a : ℝ) (b : Bool) (sf : ℝ) :
    IndicesBelow (towerBrick ro ri h d a b sf).2 (towerBrick ro ri h d a b sf).1.length ∧
      ClosedOriented (towerBrick ro ri h d a b sf).2 := by
  unfold towerBrick
  cases b
  · exact C33_cuboid_closed _ _ _ _ _ _ _ _
  · exact C33_box_closed _ _ _

theorem mapM_rows {α : Type} {Q : BrickFact} (f : α → SceneM (List String)) (bricks : α → List Brick) (Inv : Scene → Prop)
    (hstable : ∀ s s' N, Grows s s' N → Inv s → Inv s')
    (hf : ∀ a s n s', Inv s → f a s = .ok (n, s') → PutUp Q s s' (bricks a) n)
    {l : List α} {s s' : Scene} {r : List (List String)} (hi : Inv s) (h : l.mapM f s = .ok (r, s')) :
    PutUp Q s s' (l.flatMap bricks) r.flatten := by
  have := mapM_built (Q := Q) f (fun n : List String => n) bricks Inv hstable hf _ _ _ _ hi h
  rwa [List.flatMap_id'] at this

theorem tower_built {eig : Eig} (he : EigSpec eig) {r : V3} {q : Quat} (hq : IsUnitQ q) {ro ri height : ℝ}
    {layers segments : ℕ} {cubes : Bool} {density : ℝ} {material : String} {sf : ℝ} {s s' : Scene} {names : List String}
    (hok : s.OK)
    (hrun : create_tower eig r q ro ri height layers segments cubes density material sf s = .ok (names, s')) :
    layers ≠ 0 ∧ segments ≠ 0 ∧
    PutUp (Finished false material density) s s' ((towerPlan
      (towerStone ro ri (height / layers) segments cubes sf) ((ro + ri) / 2) (height / layers)
      layers segments).map fun b => b.under r q) names := by
  unfold create_tower at hrun
  split_ifs at hrun with hl hs
  · exact absurd hrun raise_ok
  · exact absurd hrun raise_ok
  refine ⟨hl, hs, ?_⟩
  simp only [lit0, lit2] at hrun
  rw [bind_ok] at hrun
  obtain ⟨k, s1, h1, h2⟩ := hrun
  rw [← towerBrick_eq]
  have hb := towerBrick_ok ro ri (height / layers) (ro - ri) (2 * Real.pi / segments) cubes sf
  generalize towerBrick ro ri (height / layers) (ro - ri) (2 * Real.pi / segments) cubes sf = VT at hb h1 ⊢
  obtain ⟨hg, hsh⟩ := newShape_ok he hok hb.1 hb.2 h1
  rw [bind_ok] at h2
  obtain ⟨rows, s2, h3, h4⟩ := h2
  rw [bind_ok] at h4
  obtain ⟨u, s3, h5, h6⟩ := h4
  obtain ⟨rfl, rfl⟩ := pure_ok.1 h6
  have key := PutUp.of_grows hg (mapM_rows (Q := Placed) _ (fun (l : ℕ) => (List.range segments).map fun (j : ℕ) =>
    Brick.under (⟨VT.1, VT.2, Quat.rotate (Quat.Ry (towerPhi (2 * Real.pi / segments) l j))
      ⟨0, height / layers / 2 + l * (height / layers), -((ro + ri) / 2)⟩, Quat.Ry (towerPhi (2 * Real.pi / segments) l j)⟩) r q)
    (fun s => HasShape s k VT) (fun _ _ _ hg hh => hh.grows hg) ?_ hsh h3)
  · have := key.setup (forM_setup_ok (Or.inr ⟨rfl, rfl⟩) _ _ _ _ key.1.nodup h5)
    convert this using 1
    unfold towerPlan
    rw [List.map_flatMap]
    simp only [List.map_map, towerPhi_eq]
    rfl
  · intro l s4 n s5 hsh h
    refine mapM_bodies _ _ ?_ hsh h
    intro j s6 n s7 hsh h
    have := newBody_ok hsh h
    rw [(C01_unit_spec _).2.1 (prod_unit hq (Ry_unit _))] at this
    exact this

/-! ### Arch -/

/-- The stones of an arch in its own frame: the two piers of the given number of boxes, and the voussoirs, each the same stone
turned about the arch's centre at height `ph`. -/
noncomputable def archPlan (w ph d : ℝ) (piers stones : ℕ) : List Brick :=
  let box := create_box (w / 5) (ph / piers) d
  let δ := Real.pi / stones
  let stone := archBrick d (w / 2 - w / 5) (w / 2) (w / 2 - w / 5 / 2) δ
  ((List.range piers).flatMap fun (i : ℕ) =>
    [⟨box.1, box.2, ⟨-w / 2 + w / 5 / 2, ph / piers / 2 + i * (ph / piers), 0⟩, Quat.identity⟩,
     ⟨box.1, box.2, ⟨w / 2 - w / 5 / 2, ph / piers / 2 + i * (ph / piers), 0⟩, Quat.identity⟩]) ++
  (List.range stones).map fun (i : ℕ) =>
    ⟨stone.1, stone.2, Quat.rotate (Quat.Rz (δ / 2 + i * δ)) ⟨w / 2 - w / 5 / 2, 0, d / 2⟩ + ⟨0, ph, 0⟩,
      Quat.Rz (δ / 2 + i * δ)⟩

theorem lit5 : (5.0:ℝ) = 5 := by norm_num

theorem arch_built {eig : Eig} (he : EigSpec eig) {r : V3} {q : Quat} (hq : IsUnitQ q) {w h d : ℝ} {piers stones : ℕ}
    {density : ℝ} {material : String} {s s' : Scene} {names : List String} (hok : s.OK)
    (hrun : create_arch eig r q w h d piers stones density material s = .ok (names, s')) :
    0 < w ∧ 0 < h ∧ 0 < d ∧ 0 < piers ∧ 2 < stones ∧ stones % 2 = 1 ∧ 0 < density ∧ w / 2 < h ∧
    PutUp (Finished false material density) s s' ((archPlan w (h - w / 2) d piers stones).map fun b => b.under r q) names := by
  unfold create_arch at hrun
  simp only [lit0, lit2, lit5] at hrun
  by_cases g1 : piers = 0
  · rw [if_pos g1] at hrun; exact absurd hrun raise_ok
  rw [if_neg g1] at hrun
  by_cases g2 : w ≤ 0
  · rw [if_pos g2] at hrun; exact absurd hrun raise_ok
  rw [if_neg g2] at hrun
  by_cases g3 : h ≤ 0
  · rw [if_pos g3] at hrun; exact absurd hrun raise_ok
  rw [if_neg g3] at hrun
  by_cases g4 : d ≤ 0
  · rw [if_pos g4] at hrun; exact absurd hrun raise_ok
  rw [if_neg g4] at hrun
  by_cases g5 : piers ≤ 0
  · rw [if_pos g5] at hrun; exact absurd hrun raise_ok
  rw [if_neg g5] at hrun
  by_cases g6 : stones ≤ 2
  · rw [if_pos g6] at hrun; exact absurd hrun raise_ok
  rw [if_neg g6] at hrun
  by_cases g7 : stones % 2 = 0
  · rw [if_pos g7] at hrun; exact absurd hrun raise_ok
  rw [if_neg g7] at hrun
  by_cases g8 : density ≤ 0
  · rw [if_pos g8] at hrun; exact absurd hrun raise_ok
  rw [if_neg g8] at hrun
  by_cases g9 : h - w / 2 ≤ 0
  · rw [if_pos g9] at hrun; exact absurd hrun raise_ok
  rw [if_neg g9] at hrun
  refine ⟨by linarith, by linarith, by linarith, by omega, by omega, by omega, by linarith, by linarith, ?_⟩
  rw [bind_ok] at hrun
  obtain ⟨k1, s1, h1, h2⟩ := hrun
  have hb := C33_box_closed (w / 5) ((h - w / 2) / piers) d
  simp only [archPlan]
  generalize create_box (w / 5) ((h - w / 2) / piers) d = VT at hb h1 ⊢
  obtain ⟨hg, hsh⟩ := newShape_ok he hok hb.1 hb.2 h1
  rw [bind_ok] at h2
  obtain ⟨rows, s2, h3, h4⟩ := h2
  have key1 := PutUp.of_grows hg (mapM_rows (Q := Placed) _ (fun (i : ℕ) =>
    [Brick.under ⟨VT.1, VT.2, ⟨-w / 2 + w / 5 / 2, (h - w / 2) / piers / 2 + i * ((h - w / 2) / piers), 0⟩, Quat.identity⟩ r q,
     Brick.under ⟨VT.1, VT.2, ⟨w / 2 - w / 5 / 2, (h - w / 2) / piers / 2 + i * ((h - w / 2) / piers), 0⟩, Quat.identity⟩ r q])
    (fun s => HasShape s k1 VT) (fun _ _ _ hg hh => hh.grows hg) ?_ hsh h3)
  · rw [bind_ok] at h4
    obtain ⟨k2, s3, h5, h6⟩ := h4
    have hc : IndicesBelow (archBrick d (w / 2 - w / 5) (w / 2) (w / 2 - w / 5 / 2) (Real.pi / stones)).2
        (archBrick d (w / 2 - w / 5) (w / 2) (w / 2 - w / 5 / 2) (Real.pi / stones)).1.length ∧
        ClosedOriented (archBrick d (w / 2 - w / 5) (w / 2) (w / 2 - w / 5 / 2) (Real.pi / stones)).2 :=
      C33_cuboid_closed _ _ _ _ _ _ _ _
    generalize archBrick d (w / 2 - w / 5) (w / 2) (w / 2 - w / 5 / 2) (Real.pi / stones) = VT2 at hc h5 ⊢
    obtain ⟨hg2, hsh2⟩ := newShape_ok he (key1.1.ok hok) hc.1 hc.2 h5
    rw [bind_ok] at h6
    obtain ⟨arch, s4, h7, h8⟩ := h6
    rw [bind_ok] at h8
    obtain ⟨u, s5, h9, h10⟩ := h8
    obtain ⟨rfl, rfl⟩ := pure_ok.1 h10
    have key2 := PutUp.of_grows hg2 (mapM_bodies (Q := Placed) _ (fun (i : ℕ) =>
      Brick.under ⟨VT2.1, VT2.2, Quat.rotate (Quat.Rz (Real.pi / stones / 2 + i * (Real.pi / stones))) ⟨w / 2 - w / 5 / 2, 0, d / 2⟩ +
        ⟨0, h - w / 2, 0⟩, Quat.Rz (Real.pi / stones / 2 + i * (Real.pi / stones))⟩ r q) ?_ hsh2 h7)
    · have := (key1.append key2)
      have := this.setup (forM_setup_ok (Or.inr ⟨rfl, rfl⟩) _ _ _ _ this.1.nodup h9)
      convert this using 1
      simp only [List.map_append, List.map_flatMap, List.map_map, List.map_cons, List.map_nil]
      rfl
    · intro j s6 n s7 hsh h
      have := newBody_ok hsh h
      rw [(C01_unit_spec _).2.1 (prod_unit hq (Rz_unit _))] at this
      exact this
  · intro l s4 n s5 hsh h
    rw [bind_ok] at h
    obtain ⟨n1, s6, h1, h2⟩ := h
    rw [bind_ok] at h2
    obtain ⟨n2, s7, h3, h4⟩ := h2
    obtain ⟨rfl, rfl⟩ := pure_ok.1 h4
    have a := newBody_ok hsh h1
    have b := newBody_ok (hsh.grows a.1) h3
    rw [(C01_unit_spec _).2.1 (prod_unit hq ident_unit)] at a b
    exact a.append b

/-! ### Dome -/

/-- The bricks of a dome in its own frame: layer l between the latitudes l·δφ and (l+1)·δφ, segment j turned by j·δθ about the
vertical axis. -/
noncomputable def domePlan (ri ro : ℝ) (layers segments : ℕ) : List Brick :=
  let δθ := 2 * Real.pi / segments
  let δφ := Real.pi / 2 / (layers + 1)
  (List.range layers).flatMap fun (l : ℕ) => (List.range segments).map fun (j : ℕ) =>
    ⟨(domeBrick ri ro δθ δφ (δφ * l)).1, (domeBrick ri ro δθ δφ (δφ * l)).2, 0, Quat.Ry (δθ * j)⟩

theorem dome_built {eig : Eig} (he : EigSpec eig) {r : V3} {q : Quat} (hq : IsUnitQ q) {ro ri : ℝ}
    {layers segments : ℕ} {density : ℝ} {material : String} {s s' : Scene} {names : List String}
    (hok : s.OK)
    (hrun : create_dome eig r q ro ri layers segments density material s = .ok (names, s')) :
    segments ≠ 0 ∧
    PutUp (Finished false material density) s s' ((domePlan ri ro layers segments).map fun b => b.under r q) names := by
  unfold create_dome at hrun
  split_ifs at hrun with hs
  · exact absurd hrun raise_ok
  refine ⟨hs, ?_⟩
  simp only [lit0, lit2] at hrun
  rw [bind_ok] at hrun
  obtain ⟨rows, s2, h3, h4⟩ := hrun
  rw [bind_ok] at h4
  obtain ⟨u, s3, h5, h6⟩ := h4
  obtain ⟨rfl, rfl⟩ := pure_ok.1 h6
  set δθ := 2 * Real.pi / segments with hδθ
  set δφ := Real.pi / 2 / ((layers : ℝ) + 1) with hδφ
  have key := mapM_rows (Q := Placed) _ (fun (l : ℕ) => (List.range segments).map fun (j : ℕ) =>
    Brick.under (⟨(domeBrick ri ro δθ δφ (δφ * l)).1, (domeBrick ri ro δθ δφ (δφ * l)).2, 0, Quat.Ry (δθ * j)⟩) r q)
    (fun s => s.OK) (fun _ _ _ hg hh => hg.ok hh) ?_ hok h3
  · have := key.setup (forM_setup_ok (Or.inr ⟨rfl, rfl⟩) _ _ _ _ key.1.nodup h5)
    convert this using 1
    unfold domePlan
    rw [List.map_flatMap]
    simp only [List.map_map]
    rfl
  · intro l s4 n s5 hok h
    rw [bind_ok] at h
    obtain ⟨k, s6, h1, h2⟩ := h
    have hc : IndicesBelow (domeBrick ri ro δθ δφ (δφ * l)).2 (domeBrick ri ro δθ δφ (δφ * l)).1.length ∧
        ClosedOriented (domeBrick ri ro δθ δφ (δφ * l)).2 := C33_cuboid_closed _ _ _ _ _ _ _ _
    obtain ⟨hg, hsh⟩ := newShape_ok he hok hc.1 hc.2 h1
    refine PutUp.of_grows hg (mapM_bodies _ _ ?_ hsh h2)
    intro j s6 n s7 hsh h
    have := newBody_ok hsh h
    rw [(C01_unit_spec _).2.1 (prod_unit hq (Ry_unit _))] at this
    have h0 : Quat.rotate (Quat.Ry (δθ * j)) ⟨0, 0, 0⟩ = 0 := rotate_zero _
    unfold globalPos at this
    rw [h0] at this
    exact this

/-! ### Ground -/

/-- The ground in its own frame: a box of 100 × 1 × 100 below the plane y = 0. -/
noncomputable def groundPlan : Brick := ⟨(create_box 100 1 100).1, (create_box 100 1 100).2, ⟨0, -1 / 2, 0⟩, Quat.identity⟩

theorem ground_built {eig : Eig} (he : EigSpec eig) {r : V3} {q : Quat} (hq : IsUnitQ q)
    {density : ℝ} {material : String} {s s' : Scene} {u : Unit} (hok : s.OK)
    (hrun : create_ground eig r q density material s = .ok (u, s')) :
    ∃ n, PutUp (Finished true material density) s s' [groundPlan.under r q] [n] := by
  unfold create_ground at hrun
  simp only [lit0, lit1, show (100.0:ℝ) = 100 by norm_num, show (-0.5:ℝ) = -1 / 2 by norm_num] at hrun
  rw [bind_ok] at hrun
  obtain ⟨k, s1, h1, h2⟩ := hrun
  obtain ⟨hg, hsh⟩ := newShape_ok he hok (C33_box_closed _ _ _).1 (C33_box_closed _ _ _).2 h1
  rw [bind_ok] at h2
  obtain ⟨n, s2, h3, h4⟩ := h2
  have := (PutUp.of_grows hg (newBody_ok hsh h3)).setup (setup_ok (Or.inl ⟨rfl, rfl⟩) h4)
  rw [(C01_unit_spec _).2.1 (prod_unit hq ident_unit)] at this
  exact ⟨n, this⟩

end Verif
