import Verif.Props.SceneAll3

/-! C110: in the eight stone scenes nothing overlaps, the ground included. -/

namespace Verif

open Rigid Rigid.SceneM SMesh
open VMesh (Tri)

/-! ### The stones stand above the ground -/

/-- No point of the bricks is below height 0. -/
def Above (B : List Brick) : Prop := ∀ b ∈ B, ∀ p ∈ b.world, 0 ≤ p.y

theorem Above.under {B : List Brick} (h : Above B) : Above (B.map fun b => b.under V3.zero Quat.identity) := by
  intro b hb p hp
  obtain ⟨b0, hb0, rfl⟩ := List.mem_map.1 hb
  rw [Brick.under_world, List.mem_map] at hp
  obtain ⟨x, hx, rfl⟩ := hp
  rw [rotate_ident_V3]
  show 0 ≤ x.y + 0
  linarith [h b0 hb0 x hx]

theorem stack_above {w h d : ℝ} (hh : 0 ≤ h) (K : ℕ) : Above (stackPlan w h d K) := by
  intro b hb p hp
  obtain ⟨k, -, rfl⟩ := List.mem_map.1 hb
  rcases stack_y hp with e | e <;> rw [e] <;> positivity

theorem pillar_above {w h d : ℝ} (hh : 0 ≤ h) {stones : ℕ} : Above (pillarPlan w h d stones) := by
  unfold pillarPlan
  simp only
  obtain ⟨L, hL⟩ : ∃ L, L = h - h / 20 - h / 15 * (7 / 10) - (h / 15 + h / 15 * (9 / 10)) := ⟨_, rfl⟩
  rw [← hL]
  have hL0 : 0 ≤ L := by rw [hL]; linarith
  intro b hb p hp
  rcases List.mem_append.1 hb with hb | hb
  · simp only [List.mem_cons, List.not_mem_nil, or_false] at hb
    rcases hb with rfl | rfl | rfl | rfl
    · exact le_trans (by linarith) (box_between (by linarith) p hp).1
    · exact le_trans (by linarith) (box_between (by linarith) p hp).1
    · exact le_trans (by linarith) (frustum_between (by linarith) p hp).1
    · exact le_trans (by linarith) (frustum_between (by linarith) p hp).1
  · obtain ⟨k, -, rfl⟩ := List.mem_map.1 hb
    refine le_trans ?_ (frustum_between (by positivity) p hp).1
    positivity

theorem pantheon_above {ro ri h sf : ℝ} {layers segments : ℕ} (hs : 3 ≤ segments) (hri : 0 ≤ ri) (hro : ri ≤ ro)
    (h0 : 0 ≤ sf) (h1 : sf ≤ 1) (hh : ro ≤ h) : Above (pantheonPlan ro ri h layers segments sf) := by
  unfold pantheonPlan
  have hw : 0 ≤ h - ro := by linarith
  intro b hb p hp
  rcases List.mem_append.1 hb with hb | hb
  · exact (tower_between hs hri hro h0 h1 hw hb p hp).1
  · obtain ⟨b', hb', rfl⟩ := List.mem_map.1 hb
    rw [Brick.under_world, List.mem_map] at hp
    obtain ⟨x, hx, rfl⟩ := hp
    have := dome_above hri (hri.trans hro) hb' hx
    rw [rotate_ident_V3]
    show 0 ≤ x.y + (h - ro)
    linarith

theorem colosseum_above {ro ri h sf : ℝ} {levels arches : ℕ} (hs : 3 ≤ arches) (hri : 0 ≤ ri) (hro : ri < ro)
    (h0 : 0 ≤ sf) (h1 : sf ≤ 1) (hw : 0 < 2 * (Real.tan (Real.pi / arches) * ri * sf)) (hL : 0 < h / levels)
    (hfit : 2 * (Real.tan (Real.pi / arches) * ri * sf) / 2 < h / levels * (9 / 10)) : Above (colosseumPlan ro ri h levels arches sf) := by
  unfold colosseumPlan
  simp only
  obtain ⟨w, hww⟩ : ∃ w, w = 2 * (Real.tan (Real.pi / arches) * ri * sf) := ⟨_, rfl⟩
  rw [← hww] at hw hfit ⊢
  obtain ⟨L, hLL⟩ : ∃ L, L = h / levels := ⟨_, rfl⟩
  rw [← hLL] at hL hfit ⊢
  intro b hb p hp
  rw [List.mem_flatMap] at hb
  obtain ⟨l, -, hb⟩ := hb
  have hl : 0 ≤ (l : ℝ) * L := by positivity
  rcases List.mem_append.1 hb with hb | hb
  · rw [List.mem_flatMap] at hb
    obtain ⟨a, -, hb⟩ := hb
    obtain ⟨b0, hb0, rfl⟩ := List.mem_map.1 hb
    rw [Brick.under_world] at hp
    obtain ⟨x, hx, rfl⟩ := List.mem_map.1 hp
    obtain ⟨c1, c2, c3, c4⟩ := arch_inside hw (by linarith) (by linarith) hb0 hx
    simp only [rotate_Ry, V3.add_y]
    linarith
  · obtain ⟨b0, hb0, rfl⟩ := List.mem_map.1 hb
    rw [Brick.under_world] at hp
    obtain ⟨x, hx, rfl⟩ := List.mem_map.1 hp
    have hb1 : b0 ∈ towerPlan (towerStone ro ri (L * (1 / 10) / (1 : ℕ)) arches false sf) ((ro + ri) / 2)
      (L * (1 / 10) / (1 : ℕ)) 1 arches := by simpa using hb0
    have := tower_between hs hri hro.le h0 h1 (by linarith) hb1 x hx
    rw [rotate_ident_V3]
    show 0 ≤ x.y + (l * L + L * (9 / 10))
    linarith

theorem fills_above {M : Measure} (hM : 0 ≤ M.s) {B : List Brick} {Ps : List Part} (h : List.Forall₂ (Fills M) B Ps)
    (hP : ∀ P ∈ Ps, ∀ p ∈ P, 0 ≤ p.2.1) : Above B := by
  intro b hb v hv
  obtain ⟨i, hi, rfl⟩ := List.getElem_of_mem hb
  have hi' : i < Ps.length := h.length_eq ▸ hi
  have hf := (List.forall₂_iff_get.1 h).2 i hi hi'
  obtain ⟨p, hp, rfl⟩ := (hf v).1 hv
  have := hP _ (List.getElem_mem hi') p hp
  show 0 ≤ (p.2.1 : ℝ) * (M.s / 2)
  have h2 : (0:ℝ) ≤ p.2.1 := by exact_mod_cast this
  positivity

theorem upright_low {poly : List (ℤ × ℤ)} {y0 y1 : ℤ} (h0 : 0 ≤ y0) (h1 : 0 ≤ y1) : ∀ p ∈ upright poly y0 y1, 0 ≤ p.2.1 := by
  intro p hp
  unfold upright at hp
  rw [List.mem_flatMap] at hp
  obtain ⟨x, -, hp⟩ := hp
  simp only [List.mem_cons, List.not_mem_nil, or_false] at hp
  rcases hp with rfl | rfl <;> assumption

theorem along_low {poly : List (ℤ × ℤ)} {z0 z1 : ℤ} (h : ∀ x ∈ poly, 0 ≤ x.2) : ∀ p ∈ along poly z0 z1, 0 ≤ p.2.1 := by
  intro p hp
  unfold along at hp
  rw [List.mem_flatMap] at hp
  obtain ⟨x, hx, hp⟩ := hp
  simp only [List.mem_cons, List.not_mem_nil, or_false] at hp
  rcases hp with rfl | rfl <;> exact h x hx

theorem temple_above {I n : ℕ} {w h : ℝ} (hh : 0 ≤ h) {stones : ℕ} {B : List Brick} (hB : IsTemple I n w h stones B) : Above B := by
  obtain ⟨B1, B2, rfl, h1, h2⟩ := hB
  have hM : 0 ≤ (templeMeasure I n w h).s := by show 0 ≤ h / 10; positivity
  have a1 : Above B1 := fills_above hM h1 (by
    intro P hP
    simp only [stepParts, List.mem_cons, List.not_mem_nil, or_false] at hP
    rcases hP with rfl | rfl | rfl | rfl <;> exact upright_low (by norm_num) (by norm_num))
  have a2 : Above B2 := fills_above hM h2 (by
    intro P hP
    simp only [List.mem_append] at hP
    rcases hP with (((((hP | hP) | hP) | hP) | hP) | hP) | hP
    · simp only [brickParts, List.mem_append, List.mem_flatMap, List.mem_map, List.mem_cons, List.not_mem_nil, or_false] at hP
      rcases hP with ⟨m, -, i, -, rfl⟩ | ⟨m, -, rfl | rfl⟩ <;> exact upright_low (by norm_num) (by norm_num)
    · simp only [cornerParts, List.mem_cons, List.not_mem_nil, or_false] at hP
      rcases hP with rfl | rfl | rfl | rfl | rfl | rfl | rfl | rfl <;> exact upright_low (by norm_num) (by norm_num)
    · simp only [wedgeParts, List.mem_flatMap, List.mem_cons, List.not_mem_nil, or_false] at hP
      rcases hP with ⟨m, -, rfl | rfl⟩ <;> exact upright_low (by norm_num) (by norm_num)
    · simp only [junctionParts, List.mem_flatMap, List.mem_cons, List.not_mem_nil, or_false] at hP
      rcases hP with ⟨m, -, rfl | rfl | rfl | rfl⟩ <;> exact upright_low (by norm_num) (by norm_num)
    · simp only [gableParts, List.mem_flatMap, List.mem_map] at hP
      obtain ⟨m, -, j, -, i, -, rfl⟩ := hP
      split_ifs <;> refine along_low ?_ <;> simp <;> omega
    · simp only [plankParts, List.mem_flatMap, List.mem_cons, List.not_mem_nil, or_false] at hP
      rcases hP with ⟨m, -, i, -, rfl | rfl⟩ <;> refine along_low ?_ <;> simp <;> omega
    · simp only [ridgeParts, List.mem_map] at hP
      obtain ⟨k, -, rfl⟩ := hP
      refine along_low ?_
      simp
      omega)
  have a3 : Above ((outerCells I n ++ innerCells I n).flatMap (pillarAt (templeMeasure I n w h) stones)) := by
    have hc : ∀ c ∈ outerCells I n ++ innerCells I n, 0 ≤ c.y0 ∧ c.y0 ≤ c.y1 := by
      intro c hc
      simp only [outerCells, innerCells, List.mem_append, List.mem_flatMap, List.mem_map, List.mem_cons, List.not_mem_nil, or_false] at hc
      rcases hc with (⟨i, -, rfl | rfl⟩ | ⟨k, -, rfl | rfl⟩) | ⟨m, -, i, -, rfl⟩ <;> constructor <;> dsimp only <;> norm_num
    intro b hb p hp
    rw [List.mem_flatMap] at hb
    obtain ⟨c, hc', hb⟩ := hb
    obtain ⟨hc0, hc1⟩ := hc c hc'
    unfold pillarAt at hb
    obtain ⟨b0, hb0, rfl⟩ := List.mem_map.1 hb
    rw [Brick.under_world, List.mem_map] at hp
    obtain ⟨x, hx, rfl⟩ := hp
    have h3 : (0:ℝ) ≤ ((c.y1 : ℝ) - c.y0) * ((templeMeasure I n w h).s / 2) := by
      have : (c.y0 : ℝ) ≤ c.y1 := by exact_mod_cast hc1
      have : (0:ℝ) ≤ (c.y1 : ℝ) - c.y0 := by linarith
      positivity
    have h4 := pillar_above h3 b0 hb0 x hx
    have h5 : (0:ℝ) ≤ c.y0 := by exact_mod_cast hc0
    rw [rotate_ident_V3]
    show 0 ≤ x.y + ((c.y0 : ℝ) * ((templeMeasure I n w h).s / 2) + (c.y0 : ℝ) * ((templeMeasure I n w h).s / 2)) / 2
    have : 0 ≤ (c.y0 : ℝ) * ((templeMeasure I n w h).s / 2) := by positivity
    linarith
  intro b hb
  rcases List.mem_append.1 hb with hb | hb
  · rcases List.mem_append.1 hb with hb | hb
    · exact a1 b hb
    · exact a3 b hb
  · exact a2 b hb

/-! ### Ground and stones -/

/-- The bodies of a stone scene: the ground, fixed, with its top at height 0, and free bodies above it. -/
structure StoneScene (s s' : Scene) (N : List String) : Prop where
  keys : ∃ g, s'.eng.bodies.keys = s.eng.bodies.keys ++ g :: N ∧ NoOverlap s' (g :: N) ∧
    (∃ o m, s'.eng.bodies.get? g = some o ∧ o.body.is_fixed = true ∧ s'.worldMesh g = some m ∧
      ∀ p, p ∈ m.V ↔ ∃ x y z : ℝ, (x = 50 ∨ x = -50) ∧ (y = 0 ∨ y = -1) ∧ (z = 50 ∨ z = -50) ∧ p = ⟨x, y, z⟩)
  free : ∀ n ∈ N, ∃ o m, s'.eng.bodies.get? n = some o ∧ o.body.is_fixed = false ∧ o.body.material = "default" ∧ s'.worldMesh n = some m ∧
    ∀ p ∈ m.V, 0 ≤ p.y

theorem stones_on_ground {O : Outside} (he : EigSpec O.eig) {s s1 s2 : Scene} {u : Unit} (hok : s.OK) (h1 : defaultGround O s = .ok (u, s1))
    {B : List Brick} {N : List String} {density : ℝ} (h2 : Adds s1 s2 N B false "default" density) (hN : NoOverlap s2 N) (hB : Above B) :
    StoneScene s s2 N := by
  obtain ⟨g, a1, hg⟩ := C90_ground he ident_unit hok h1
  obtain ⟨o, m, b1, b2, -, -, b5, -⟩ := a1.each 0 g _ rfl rfl
  have hgN : g ∉ N := fun hgN => by rw [h2.fresh g hgN] at b1; cases b1
  have hm2 := h2.oldMesh g m b2
  have hgm : ∀ p, p ∈ m.V ↔ ∃ x y z : ℝ, (x = 50 ∨ x = -50) ∧ (y = 0 ∨ y = -1) ∧ (z = 50 ∨ z = -50) ∧ p = ⟨x, y, z⟩ := by
    intro p
    rw [hg m b2 p]
    have e : ∀ x : V3, Quat.rotate Quat.identity x + V3.zero = x := by
      intro x
      rw [rotate_ident_V3]
      ext <;> simp [V3.zero]
    simp only [e]
  have hlow : ∀ p ∈ m.V, p.y ≤ 0 := by
    intro p hp
    obtain ⟨x, y, z, -, hy, -, rfl⟩ := (hgm p).1 hp
    rcases hy with rfl | rfl <;> norm_num
  have hfree : ∀ n ∈ N, ∃ o m, s2.eng.bodies.get? n = some o ∧ o.body.is_fixed = false ∧ o.body.material = "default" ∧ s2.worldMesh n = some m ∧
      ∀ p ∈ m.V, 0 ≤ p.y := by
    intro n hn
    obtain ⟨i, b, hi, hb⟩ := h2.mem hn
    obtain ⟨o, m, c1, c2, c3, -, c5, c6, -⟩ := h2.each i n b hi hb
    exact ⟨o, m, c1, c5, c6, c2, fun p hp => hB b (List.mem_of_getElem? hb) p (c3.mem_iff.1 hp)⟩
  refine ⟨⟨g, ?_, ?_, o, m, ?_, b5, hm2, hgm⟩, hfree⟩
  · rw [h2.keys, a1.keys]; simp
  · intro n hn n' hn' hne
    rcases List.mem_cons.1 hn with rfl | hn0
    · rcases List.mem_cons.1 hn' with rfl | hn'
      · exact absurd rfl hne
      · obtain ⟨o', m', -, -, -, e, hy⟩ := hfree n' hn'
        have ha : PlaneApart m.V m'.V := PlaneApart.of_y 0 hlow hy
        exact ⟨m, m', hm2, e, ha, ha.not_overlap⟩
    · rcases List.mem_cons.1 hn' with rfl | hn'
      · obtain ⟨o', m', -, -, -, e, hy⟩ := hfree n hn0
        have ha : PlaneApart m'.V m.V := (PlaneApart.of_y 0 hlow hy).symm
        exact ⟨m', m, e, hm2, ha, ha.not_overlap⟩
      · exact hN n hn0 n' hn' hne
  · rw [h2.old g hgN]; exact b1

theorem Pushed.worldMesh {E A : Force} {N : List String} {s s' : Scene} (h : Pushed E A N s s') (n : String) : s'.worldMesh n = s.worldMesh n := by
  unfold Scene.worldMesh
  rw [h.bodies, h.meshes]
  cases s.eng.bodies.get? n with
  | none => rfl
  | some o =>
    simp only [Option.map_some, Option.bind_eq_bind, Option.bind_some]
    split_ifs <;> rfl

theorem StoneScene.pushed {E A : Force} {M N : List String} {s s1 s2 : Scene} (h : StoneScene s s1 N) {F : Dict String Force}
    (hp : Pushed E A M { s1 with eng := { s1.eng with forces := F } } s2) : StoneScene s s2 N := by
  have hm : ∀ n, s2.worldMesh n = s1.worldMesh n := fun n => hp.worldMesh n
  have hb : ∀ n o, s1.eng.bodies.get? n = some o → ∃ o', s2.eng.bodies.get? n = some o' ∧ o'.body.is_fixed = o.body.is_fixed ∧ o'.body.material = o.body.material := by
    intro n o ho
    have := hp.bodies n
    rw [show ({ s1 with eng := { s1.eng with forces := F } } : Scene).eng.bodies.get? n = some o from ho, Option.map_some] at this
    refine ⟨_, this, ?_, ?_⟩ <;> split_ifs <;> rfl
  obtain ⟨⟨g, k1, k2, o, m, k3, k4, k5, k6⟩, hf⟩ := h
  refine ⟨⟨g, hp.keys.trans k1, ?_, ?_⟩, ?_⟩
  · intro n hn n' hn' hne
    rw [hm, hm]
    exact k2 n hn n' hn' hne
  · obtain ⟨o', q1, q2, -⟩ := hb g o k3
    exact ⟨o', m, q1, by rw [q2]; exact k4, by rw [hm]; exact k5, k6⟩
  · intro n hn
    obtain ⟨o, m, c1, c2, c3, c4, c5⟩ := hf n hn
    obtain ⟨o', q1, q2, q3⟩ := hb n o c1
    exact ⟨o', m, q1, by rw [q2]; exact c2, by rw [q3]; exact c3, by rw [hm]; exact c4, c5⟩

theorem ground_then {O : Outside} {m : SceneM (List String)} {s s' : Scene} {u : Unit} (h : (do
      defaultGround O
      let _ ← m : SceneM Unit) s = .ok (u, s')) :
    ∃ s1 N, defaultGround O s = .ok ((), s1) ∧ m s1 = .ok (N, s') := by
  rw [bind_ok] at h
  obtain ⟨⟨⟩, s1, h1, h⟩ := h
  rw [bind_ok] at h
  obtain ⟨N, s2, h2, h⟩ := h
  obtain ⟨-, rfl⟩ := pure_ok.1 h
  exact ⟨s1, N, h1, h2⟩

/-- How many stones the scenes have (the temple aside). -/
def stoneCount : List (String × ℕ) :=
  [("pillar", 7), ("arch", 11), ("dome", 44), ("tower", 66), ("colosseum", 720), ("pantheon", 88), ("box_stack", 5)]

theorem stage_stones {O : Outside} (he : EigSpec O.eig) {name : String} {c : ℕ} (hn : (name, c) ∈ stoneCount) {s s' : Scene} (hok : s.OK)
    (hrun : stage O name s = .ok ((), s')) : ∃ N, N.length = c ∧ StoneScene s s' N := by
  have gok : ∀ {u : Unit} {s1}, defaultGround O s = .ok (u, s1) → s1.OK := by
    intro u s1 h1
    obtain ⟨g, a1, -⟩ := C90_ground he ident_unit hok h1
    exact a1.ok hok
  simp only [stoneCount, List.mem_cons, List.not_mem_nil, or_false, Prod.mk.injEq] at hn
  rcases hn with h | h | h | h | h | h | h
  all_goals obtain ⟨rfl, rfl⟩ := h
  all_goals unfold stage at hrun
  all_goals simp only [reduceIte, String.reduceEq] at hrun
  all_goals obtain ⟨s1, N, h1, h2⟩ := ground_then hrun
  all_goals refine ⟨N, ?_⟩
  · obtain ⟨-, a1, a2, a3⟩ := C90_pillar he ident_unit (gok h1) (by norm_num) h2
    exact ⟨a3, stones_on_ground he hok h1 a1 a2 (pillar_above (by norm_num)).under⟩
  · obtain ⟨-, a1, a2, a3, -, -⟩ := C88_arch he ident_unit (gok h1) h2
    refine ⟨a3, stones_on_ground he hok h1 a1 a2 (Above.under fun b hb p hp => (arch_inside (by norm_num) (by norm_num) (by norm_num) hb hp).2.1)⟩
  · obtain ⟨a1, a2, a3, -⟩ := C89_dome he ident_unit (gok h1) (by norm_num) (by norm_num) (by norm_num) h2
    exact ⟨a3, stones_on_ground he hok h1 a1 a2 (Above.under fun b hb p hp => dome_above (by norm_num) (by norm_num) hb hp)⟩
  · obtain ⟨a1, a2, a3⟩ := C87_tower he ident_unit (gok h1) (by norm_num) (by norm_num) (by norm_num) (by norm_num) (by norm_num) (by norm_num) h2
    exact ⟨a3, stones_on_ground he hok h1 a1 a2 (Above.under fun b hb p hp =>
      (tower_between (by norm_num) (by norm_num) (by norm_num) (by norm_num) (by norm_num) (by norm_num) hb p hp).1)⟩
  · obtain ⟨a1, a2, a3⟩ := C91_colosseum he ident_unit (gok h1) (by norm_num) (by norm_num) (by norm_num) (by norm_num) h2
    have ht : 0 < Real.tan (Real.pi / (12 : ℕ)) := by
      refine Real.tan_pos_of_pos_of_lt_pi_div_two (by positivity) ?_
      push_cast
      linarith [Real.pi_pos]
    refine ⟨a3, stones_on_ground he hok h1 a1 a2 (Above.under (colosseum_above (by norm_num) (by norm_num) (by norm_num) (by norm_num) (by norm_num) ?_ (by norm_num) ?_))⟩
    · norm_num at ht ⊢
      exact ht
    · have := tan_pi_twelve
      push_cast
      norm_num
      linarith
  · obtain ⟨-, a1, a2, a3⟩ := C91_pantheon he ident_unit (gok h1) (by norm_num) (by norm_num) (by norm_num) (by norm_num) (by norm_num) h2
    exact ⟨a3, stones_on_ground he hok h1 a1 a2 (Above.under (pantheon_above (by norm_num) (by norm_num) (by norm_num) (by norm_num) (by norm_num) (by norm_num)))⟩
  · obtain ⟨a1, a2, a3, -⟩ := C86_box_stack he (by norm_num) (gok h1) h2
    exact ⟨a3, stones_on_ground he hok h1 a1 a2 (stack_above (by norm_num) _)⟩

theorem stage_temple {O : Outside} (he : EigSpec O.eig) (hH : TempleHulls O.hull 1 3 1) {s s' : Scene} (hok : s.OK)
    (hrun : stage O "temple" s = .ok ((), s')) : ∃ N B, IsTemple 4 2 1 3 3 B ∧ N.length = B.length ∧ StoneScene s s' N := by
  unfold stage at hrun
  simp only [reduceIte, String.reduceEq] at hrun
  obtain ⟨s1, N, h1, h2⟩ := ground_then hrun
  obtain ⟨g, a1, -⟩ := C90_ground he ident_unit hok h1
  rw [show (1.0 : ℝ) = 1 by norm_num, show (3.0 : ℝ) = 3 by norm_num] at h2
  obtain ⟨B, b1, b2, b3⟩ := C109_temple (n := 2) he (by norm_num) (by norm_num) (by norm_num) (by norm_num) (a1.ok hok) hH h2
  exact ⟨N, B, b1, b2.length, stones_on_ground he hok h1 b2 b3 (temple_above (by norm_num) b1)⟩

theorem scene_pushed {O : Outside} {name : String} {s s' : Scene} {u : Unit} (hs : EngineOk s.eng) (hrun : create_scene O name s = .ok (u, s')) :
    ∃ s1 F, stage O name s = .ok ((), s1) ∧ Pushed earthForce airForce s1.eng.bodies.keys { s1 with eng := { s1.eng with forces := F } } s' := by
  obtain ⟨h1, h2, s1, h3⟩ := scene_stage hrun
  have hc := calmly_stage _ _ _ h3
  obtain ⟨s2, hr2, hp⟩ := scene_runs (hs.forcesKnown.calm hc) h3 (by rw [hc.1.forces]; exact h1) (by rw [hc.1.forces]; exact h2)
  rw [hr2] at hrun
  cases hrun
  exact ⟨s1, _, h3, hp⟩

/-- **C110** (no overlap). The scenes "pillar", "arch", "dome", "tower", "colosseum", "pantheon" and "box_stack" add the ground — a fixed slab of 100 by 100
whose top is at height 0 — and the stated number of free bodies, all of which are above the ground, and no two of the added bodies overlap, the
ground included. -/
theorem C110_no_overlap {O : Outside} (he : EigSpec O.eig) {name : String} {c : ℕ} (hn : (name, c) ∈ stoneCount) {s s' : Scene} {u : Unit} (hok : s.OK)
    (hs : EngineOk s.eng) (hrun : create_scene O name s = .ok (u, s')) : ∃ N, N.length = c ∧ StoneScene s s' N := by
  obtain ⟨s1, F, h1, hp⟩ := scene_pushed hs hrun
  obtain ⟨N, h2, h3⟩ := stage_stones he hn hok h1
  exact ⟨N, h2, h3.pushed hp⟩

/-- **C110** (no overlap, temple). The same for the scene "temple", if the hulls of its wedges are what they should be. -/
theorem C110_no_overlap_temple {O : Outside} (he : EigSpec O.eig) (hH : TempleHulls O.hull 1 3 1) {s s' : Scene} {u : Unit} (hok : s.OK)
    (hs : EngineOk s.eng) (hrun : create_scene O "temple" s = .ok (u, s')) : ∃ N B, IsTemple 4 2 1 3 3 B ∧ N.length = B.length ∧ StoneScene s s' N := by
  obtain ⟨s1, F, h1, hp⟩ := scene_pushed hs hrun
  obtain ⟨N, B, h2, h3, h4⟩ := stage_temple he hH hok h1
  exact ⟨N, B, h2, h3, h4.pushed hp⟩

/-! ### Example -/

/-- An outside world in which all files contain a box and the hull library knows the wedges. -/
noncomputable def boxOutside (eig : Eig) (sys : Urdf.Sys) : Outside where
  eig := eig
  hull := someHull
  jack := create_box 1 1 1
  funnel := create_box 1 1 1
  glass := create_box 1 1 1
  objs := [create_box 1 1 1, create_box 1 2 3]
  grains := fun _ => create_box 1 1 1
  mountains := create_box 1 1 1
  buildings := [create_box 1 1 1]
  rocks := fun _ => create_box 1 1 1
  sys := sys
  ur5 := .error .runtimeError
  draw := fun _ _ _ => Quat.identity
  teeth := fun _ => 0
  omega := fun _ => 0

theorem boxOutside_good {eig : Eig} (he : EigSpec eig) (sys : Urdf.Sys) : GoodOutside (boxOutside eig sys) := by
  have hb : StarShaped (create_box 1 1 1) := box_star one_pos one_pos one_pos
  refine ⟨he, someHull_temple one_pos (by norm_num), hb, hb, hb, by simp [boxOutside], ?_, fun _ _ => hb, fun _ _ => hb, hb.solid, ?_⟩
  · intro VT hVT
    simp only [boxOutside, List.mem_cons, List.not_mem_nil, or_false] at hVT
    rcases hVT with rfl | rfl
    · exact hb
    · exact box_star one_pos (by norm_num) (by norm_num)
  · intro VT hVT
    simp only [boxOutside, List.mem_singleton] at hVT
    subst hVT
    exact hb.solid

theorem freshScene_newHinges : NewHinges freshScene := by
  refine ⟨fun _ _ _ _ => rfl, ?_⟩
  intro i j hij e
  have := congrArg (fun x => x.toList.length) e
  simp [freshScene] at this
  omega

/-- A pantheon is built in a fresh engine, and its 88 stones do not overlap. -/
example (eig : Eig) (he : EigSpec eig) (sys : Urdf.Sys) : ∃ s' N, create_scene (boxOutside eig sys) "pantheon" freshScene = .ok ((), s') ∧ N.length = 88 ∧ StoneScene freshScene s' N := by
  obtain ⟨s', h⟩ := C110_builds (boxOutside_good he sys) (name := "pantheon") (by decide) (by decide) freshScene_ready freshScene_newHinges rfl rfl
  obtain ⟨N, h1, h2⟩ := C110_no_overlap (O := boxOutside eig sys) he (name := "pantheon") (c := 88) (by decide) freshScene_ready.ok freshScene_ready.good.eng h
  exact ⟨s', N, h, h1, h2⟩

end Verif
