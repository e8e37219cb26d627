import Verif.Props.SceneAll6

/-! C110: every scene of `create_scene` (the robot aside) can be simulated. -/

namespace Verif

open Rigid Rigid.SceneM SMesh
open VMesh (Tri)

/-- What is assumed of the sizes of what comes from outside: a body must not be so thin that its mass is rounded to zero. -/
structure HeavyOutside (O : Outside) : Prop where
  jack : Bulky O.jack
  glass : Bulky O.glass
  objs : ∀ VT ∈ O.objs, Bulky VT
  grains : ∀ n < 20, Bulky (O.grains n)
  rocks : ∀ n < 20, Bulky (O.rocks n)
  buildings : ∀ VT ∈ O.buildings, 1e-10 < enclosedVolume VT.1 VT.2
  wedge : ∀ VT, VT = O.hull (wedgePoints 1 1 (2.0 * (0.1 * 3))) → 1e-10 < enclosedVolume VT.1 VT.2
  edge : ∀ VT, VT = O.hull (edgePoints (2.0 * 1) (0.1 * 3) (0.5 * 1)) → 1e-10 < enclosedVolume VT.1 VT.2
  ridge : ∀ VT, VT = O.hull (ridgePoints 1 1 (0.1 * 3)) → 1e-10 < enclosedVolume VT.1 VT.2

theorem bricks_heavy {κ : Type} {P : List (κ × V3 × Quat)} {mesh : κ → List V3 × List Tri} (h : ∀ c, 1e-10 < enclosedVolume (mesh c).1 (mesh c).2) :
    HeavyPlan (P.map (brickOf mesh)) := by
  intro b hb
  obtain ⟨p, -, rfl⟩ := List.mem_map.1 hb
  exact h p.1

theorem pillars_heavy {L : List V3} {w h d : ℝ} {stones : ℕ} (hp : HeavyPlan (pillarPlan w h d stones)) :
    HeavyPlan (L.flatMap fun r => (pillarPlan w h d stones).map fun b => b.under r Quat.identity) := by
  intro b hb
  obtain ⟨r, -, hb⟩ := List.mem_flatMap.1 hb
  exact hp.under _ _ b hb

theorem temple_heavy {O : Outside} (hO : HeavyOutside O) : HeavyPlan (templeBricks O.hull 4 7 1 3 1 3) := by
  unfold templeBricks
  simp only
  refine ((((((((HeavyPlan.append ?_ ?_).append ?_).append ?_).append ?_).append ?_).append ?_).append ?_).append ?_).append ?_
  · intro b hb
    simp only [List.mem_cons, List.not_mem_nil, or_false] at hb
    rcases hb with rfl | rfl | rfl | rfl
    all_goals refine lt_box ?_
    all_goals norm_num
  · exact pillars_heavy (pillar_heavy (by norm_num) (by norm_num) (by norm_num) (by norm_num) (by norm_num))
  · exact pillars_heavy (pillar_heavy (by norm_num) (by norm_num) (by norm_num) (by norm_num) (by norm_num))
  · exact bricks_heavy fun _ => lt_box (by norm_num)
  · refine bricks_heavy fun _ => ?_
    rw [corner_volume]; norm_num
  · exact bricks_heavy fun _ => hO.wedge _ rfl
  · refine bricks_heavy fun _ => ?_
    rw [junction_volume]; norm_num
  · refine bricks_heavy fun c => ?_
    cases c
    · simp only [Bool.false_eq_true, if_false]
      rw [gable_volume]; norm_num
    · exact hO.edge _ rfl
  · refine bricks_heavy fun c => ?_
    obtain ⟨a, b⟩ := c
    cases a <;> cases b <;> unfold plankMesh <;> simp only [Bool.false_eq_true, if_false, if_true]
    · rw [leftPlank_volume]; norm_num
    · rw [leftPlank_volume]; norm_num
    · rw [rightPlank_volume]; norm_num
    · rw [rightPlank_volume]; norm_num
  · exact bricks_heavy fun _ => hO.ridge _ rfl

theorem snapPos_ne {x : ℝ} (h : 1e-10 < x) : snapPos x ≠ 0 := by
  unfold snapPos
  rw [if_pos h]
  have h0 : (0 : ℝ) < 1e-10 := by norm_num
  exact ne_of_gt (h0.trans h)

theorem gear_fuller {eig : Eig} (he : EigSpec eig) {Z : ℕ → Fin 4} {omega : ℕ → ℝ} {N : ℕ} {density : ℝ} (hden : density ≠ 0) {s s' : Scene}
    {names : List String} (hok : s.OK) (h1 : create_gear_train eig Z omega N density "default" s = .ok (names, s')) : Fuller s s' := by
  obtain ⟨G, gr, pose, hn, hl, hk, hnd, hfr, hold, -, -, hst, hgr, hhk, hj, hho, -, -, hpar⟩ := C107_gear_train he hok h1
  refine ⟨fun hc0 => ?_, hpar⟩
  have hcase : ∀ n o, s'.eng.bodies.get? n = some o → o.body.shape ≠ none ∧ (o.body.is_fixed = false → o.body.mass ≠ 0) := by
    intro n o ho
    by_cases hin : n ∈ names
    · rw [hn] at hin
      rcases List.mem_append.1 hin with hin | hin
      · obtain ⟨i, hi⟩ := List.mem_iff_getElem?.1 hin
        obtain ⟨o', sh, m, a1, a2, -, -, -, -, a3⟩ := hst i n hi
        rw [ho] at a1
        cases a1
        refine ⟨by rw [a2]; simp, fun _ => ?_⟩
        rw [a3]
        exact mul_ne_zero (snapPos_ne (gear_heavy Z i)) hden
      · rw [List.mem_singleton] at hin
        subst hin
        obtain ⟨o', sh, m, a1, a2, -, -, a4, -⟩ := hgr
        rw [ho] at a1
        cases a1
        exact ⟨by rw [a2]; simp, fun h => by rw [a4] at h; cases h⟩
    · rw [hold n hin] at ho
      exact ⟨hc0.shape n o ho, hc0.mass n o ho⟩
  refine ⟨fun n o ho => (hcase n o ho).1, fun n o ho => (hcase n o ho).2, ?_⟩
  intro n hh hnn
  by_cases hin : n ∈ G.map (fun g => gr ++ "_" ++ g)
  · obtain ⟨g, hg, rfl⟩ := List.mem_map.1 hin
    obtain ⟨b, -, ho, pb, cb, ap, ac, np, nc, f0, -, -, f3, -⟩ := hj g hg
    rw [f0] at hnn
    cases hnn
    rw [f3]; simp
  · rw [hho n hin] at hnn
    exact hc0.hinge n hh hnn

theorem ground_next {O : Outside} (he : EigSpec O.eig) {m : SceneM (List String)} {s s' : Scene} {u : Unit} (hok : s.OK) (h : (do
      defaultGround O
      let _ ← m : SceneM Unit) s = .ok (u, s')) (hm : ∀ s1 N, s1.OK → m s1 = .ok (N, s') → Fuller s1 s') : Fuller s s' := by
  obtain ⟨s1, N, h1, h2⟩ := ground_then h
  obtain ⟨o1, f1⟩ := ground_fuller he hok h1
  exact f1.trans (hm s1 N o1 h2)

theorem just_then {α : Type} {m : SceneM α} {s s' : Scene} {u : Unit} (h : (do let _ ← m : SceneM Unit) s = .ok (u, s')) :
    ∃ N, m s = .ok (N, s') := by
  rw [bind_ok] at h
  obtain ⟨N, s2, h2, h⟩ := h
  obtain ⟨-, rfl⟩ := pure_ok.1 h
  exact ⟨N, h2⟩

theorem stage_fuller {O : Outside} (hO : GoodOutside O) (hH : HeavyOutside O) {name : String} (hn : name ∈ get_scene_names) (h5 : name ≠ "ur5")
    {s s' : Scene} (hr : Ready "default" s) (hrun : stage O name s = .ok ((), s')) : Fuller s s' := by
  have he := hO.eig
  have hok := hr.ok
  unfold get_scene_names at hn
  simp only [List.mem_cons, List.not_mem_nil, or_false] at hn
  rcases hn with h | h | h | h | h | h | h | h | h | h | h | h | h | h | h | h | h
  all_goals subst h
  all_goals unfold stage at hrun
  all_goals simp only [reduceIte, String.reduceEq] at hrun
  · refine ground_next he hok hrun fun s1 N o1 h2 => ?_
    obtain ⟨-, a1, -⟩ := C90_pillar he ident_unit o1 (by norm_num) h2
    exact .heavy a1 (by norm_num) (HeavyPlan.under (pillar_heavy (by norm_num) (by norm_num) (by norm_num) (by norm_num) (by norm_num)) _ _)
  · refine ground_next he hok hrun fun s1 N o1 h2 => ?_
    obtain ⟨-, a1, -⟩ := C88_arch he ident_unit o1 h2
    refine .heavy a1 (by norm_num) (HeavyPlan.under (arch_heavy ?_ ?_) _ _)
    · norm_num
    · have := sin_lower (n := 5) (by norm_num) (by norm_num)
      push_cast at this ⊢
      norm_num
      linarith
  · refine ground_next he hok hrun fun s1 N o1 h2 => ?_
    obtain ⟨a1, -⟩ := C89_dome he ident_unit o1 (by norm_num) (by norm_num) (by norm_num) h2
    exact .heavy a1 (by norm_num) (HeavyPlan.under (dome_heavy (dome_numbers (by norm_num) (by norm_num) (by norm_num))) _ _)
  · refine ground_next he hok hrun fun s1 N o1 h2 => ?_
    obtain ⟨a1, -⟩ := C87_tower he ident_unit o1 (by norm_num) (by norm_num) (by norm_num) (by norm_num) (by norm_num) (by norm_num) h2
    refine .heavy a1 (by norm_num) (HeavyPlan.under (tower_heavy ?_) _ _)
    have := tan_lower (n := 11) (by norm_num) (by norm_num)
    push_cast at this ⊢
    norm_num
    linarith
  · refine ground_next he hok hrun fun s1 N o1 h2 => ?_
    obtain ⟨a1, -⟩ := C91_colosseum he ident_unit o1 (by norm_num) (by norm_num) (by norm_num) (by norm_num) h2
    have := colosseum_heavy
    rw [show (5 : ℝ) = 5.0 by norm_num, show (4 : ℝ) = 4.0 by norm_num, show (7 : ℝ) = 7.0 by norm_num] at this
    exact .heavy a1 (by norm_num) (this.under _ _)
  · refine ground_next he hok hrun fun s1 N o1 h2 => ?_
    obtain ⟨-, a1, -⟩ := C91_pantheon he ident_unit o1 (by norm_num) (by norm_num) (by norm_num) (by norm_num) (by norm_num) h2
    have := pantheon_heavy
    rw [show (5 : ℝ) = 5.0 by norm_num, show (4 : ℝ) = 4.0 by norm_num, show (8 : ℝ) = 8.0 by norm_num] at this
    exact .heavy a1 (by norm_num) (this.under _ _)
  · refine ground_next he hok hrun fun s1 N o1 h2 => ?_
    obtain ⟨l, u, hb⟩ := star_box hO.funnel
    obtain ⟨hx, hy, hz⟩ := star_extent hO.funnel hb
    obtain ⟨s2, G, n, W, -, a1, -, a2, -⟩ := C105_funnel he o1 hO.jack.scalable ⟨hO.funnel.1, hO.funnel.2.1⟩ hb hx hy hz (by norm_num) (by norm_num)
      (by norm_num) (by norm_num) (by norm_num) h2
    refine (Fuller.rains a1 (by norm_num) ?_ ?_).trans (.fixed a2)
    · norm_num
    · simpa using ⟨hO.jack, hH.jack⟩
  · refine ground_next he hok hrun fun s1 N o1 h2 => ?_
    obtain ⟨l, u, hb⟩ := star_box hO.glass
    obtain ⟨hx, hy, hz⟩ := star_extent hO.glass hb
    obtain ⟨s2, G, n, W, -, a1, -, a2, -⟩ := C105_glasses he o1 ⟨hO.glass.1, hO.glass.2.1⟩ hb hx hy hz (by norm_num) (by norm_num)
      (by norm_num) (by norm_num) (by norm_num) h2
    refine (Fuller.rains a1 (by norm_num) ?_ ?_).trans (.fixed a2)
    · norm_num
    · simpa using ⟨hO.glass, hH.glass⟩
  · refine ground_next he hok hrun fun s1 N o1 h2 => ?_
    obtain ⟨VT, s2, G, P, -, -, a1, -, a2, -⟩ := C105_poles he o1 (fun VT h => (hO.objs VT h).scalable) (by norm_num) (by norm_num)
      (by norm_num) (by norm_num) (by norm_num) h2
    refine (Fuller.rains a1 (by norm_num) ?_ ?_).trans (.fixed a2)
    · norm_num
    · exact fun VT h => ⟨hO.objs VT h, hH.objs VT h⟩
  · refine ground_next he hok hrun fun s1 N o1 h2 => ?_
    rw [show (1.0 : ℝ) = 1 by norm_num, show (3.0 : ℝ) = 3 by norm_num] at h2
    obtain ⟨-, -, a1⟩ := temple_built he o1 hO.hull h2
    exact .heavy a1.adds (by norm_num) (temple_heavy hH)
  · rw [bind_ok] at hrun
    obtain ⟨N, s1, h1, h2⟩ := hrun
    obtain ⟨N', h2⟩ := just_then h2
    obtain ⟨N'', s1', h1', r1⟩ := C106_succeeds he (R := 2) (r := 0.5) (by norm_num) (by norm_num) 10 10 0.75 1.0 true hr
    rw [h1'] at h1
    cases h1
    have f1 : Fuller s s1 := ⟨fun hc => mail_complete he (by norm_num) (by norm_num) (by norm_num) hok hc h1',
      (C106_chainmail he (by norm_num) (by norm_num) hok h1').2.2.2.2.2.2.2.2.2.1⟩
    refine f1.trans (Fuller.rains (C105_jack_lattice he r1.ok hO.jack.scalable (by norm_num) (by norm_num) (by norm_num) h2) (by norm_num) ?_ ?_)
    · norm_num
    · simpa using ⟨hO.jack, hH.jack⟩
  · obtain ⟨N, h1⟩ := just_then hrun
    exact gear_fuller he (by norm_num) hok h1
  · obtain ⟨N, h1⟩ := just_then hrun
    obtain ⟨s1, s2, m, L, G, -, a1, a2, a3⟩ := C105_rock_slide he hok ⟨hO.mountains.idx, hO.mountains.closed⟩
      (fun VT h => ⟨(hO.buildings VT h).idx, (hO.buildings VT h).closed⟩) (fun n hn => (hO.rocks n hn).scalable) (by norm_num) (by norm_num) (by norm_num) h1
    refine ((Fuller.fixed a1).trans (.heavy a2 (by norm_num) ?_)).trans (.rains a3 (by norm_num) ?_ ?_)
    · intro b hb
      obtain ⟨VT, hVT, rfl⟩ := List.mem_map.1 hb
      exact hH.buildings VT hVT
    · norm_num
    · intro VT hVT
      obtain ⟨n, hn, rfl⟩ := List.mem_map.1 hVT
      exact ⟨hO.rocks n (List.mem_range.1 hn), hH.rocks n (List.mem_range.1 hn)⟩
  · obtain ⟨N, h1⟩ := just_then hrun
    obtain ⟨s1, G, W, -, a1, a2, -⟩ := C105_sandbox he hok (fun n hn => (hO.grains n hn).scalable) (by norm_num) (by norm_num) (by norm_num) h1
    refine (Fuller.rains a1 (by norm_num) ?_ ?_).trans (.fixed a2)
    · norm_num
    · intro VT hVT
      obtain ⟨n, hn, rfl⟩ := List.mem_map.1 hVT
      exact ⟨hO.grains n (List.mem_range.1 hn), hH.grains n (List.mem_range.1 hn)⟩
  · refine ground_next he hok hrun fun s1 N o1 h2 => ?_
    obtain ⟨a1, -⟩ := C86_box_stack he (by norm_num) o1 h2
    exact .heavy a1 (by norm_num) (stack_heavy (by norm_num) _)
  · obtain ⟨N, h1⟩ := just_then hrun
    obtain ⟨a1, -⟩ := C102_chain he (by norm_num) hok hr.good h1
    exact ⟨fun hc => C102_chain_complete a1 hc (by norm_num) (by norm_num), a1.rest.2.2⟩
  · exact absurd rfl h5

/-! ### The forces -/

theorem connectBoth_good {n : String} {s s' : Scene} {u : Unit} (hs : SceneGood s) (h : connectBoth n s = .ok (u, s')) : SceneGood s' := by
  unfold connectBoth at h
  rw [bind_ok] at h
  obtain ⟨⟨⟩, s1, h1, h2⟩ := h
  have g1 := hs.api (op := .connectForce n "earth") (by rintro _ _ _ _ _ ⟨⟩) h1
  exact g1.api (op := .connectForce n "air") (by rintro _ _ _ _ _ ⟨⟩) h2

theorem connectAll_good : ∀ (N : List String) {s s' : Scene} {u : Unit}, SceneGood s → N.forM connectBoth s = .ok (u, s') → SceneGood s'
  | [], s, s', u, hs, h => by
    obtain ⟨-, rfl⟩ := pure_ok.1 h
    exact hs
  | n :: N, s, s', u, hs, h => by
    obtain ⟨u1, s1, h1, h2⟩ := bind_ok.1 h
    exact connectAll_good N (connectBoth_good hs h1) h2

theorem scene_good {O : Outside} {name : String} {s s1 s' : Scene} {u : Unit} (h1 : stage O name s = .ok ((), s1)) (g1 : SceneGood s1)
    (h : create_scene O name s = .ok (u, s')) : SceneGood s' := by
  unfold create_scene at h
  rw [bind_ok] at h
  obtain ⟨⟨⟩, s1', h1', h⟩ := h
  rw [h1'] at h1
  cases h1
  rw [bind_ok] at h
  obtain ⟨⟨⟩, s2, h2, h⟩ := h
  rw [bind_ok] at h
  obtain ⟨⟨⟩, s3, h3, h⟩ := h
  have g2 := g1.api (op := .createGravity "earth" 9.81 V3.j) (by rintro _ _ _ _ _ ⟨⟩) h2
  have g3 := g2.api (op := .createDamping "air" 0.01 0.01) (by rintro _ _ _ _ _ ⟨⟩) h3
  exact connectAll_good _ g3 h

theorem Complete.pushed {E A : Force} {N : List String} {s s' : Scene} (hc : Complete s) {F : Dict String Force}
    (hp : Pushed E A N { s with eng := { s.eng with forces := F } } s') : Complete s' := by
  have hb : ∀ n o', s'.eng.bodies.get? n = some o' → ∃ o, s.eng.bodies.get? n = some o ∧ o'.body.shape = o.body.shape ∧
      o'.body.is_fixed = o.body.is_fixed ∧ o'.body.mass = o.body.mass := by
    intro n o' ho
    rw [hp.bodies n] at ho
    change Option.map _ (s.eng.bodies.get? n) = some o' at ho
    cases h : s.eng.bodies.get? n with
    | none => rw [h] at ho; cases ho
    | some o =>
      rw [h, Option.map_some] at ho
      injection ho with ho
      subst ho
      refine ⟨o, rfl, ?_, ?_, ?_⟩ <;> split_ifs <;> rfl
  refine ⟨?_, ?_, ?_⟩
  · intro n o' ho
    obtain ⟨o, h1, h2, -, -⟩ := hb n o' ho
    rw [h2]; exact hc.shape n o h1
  · intro n o' ho hf
    obtain ⟨o, h1, -, h2, h3⟩ := hb n o' ho
    rw [h3]; exact hc.mass n o h1 (by rw [← h2]; exact hf)
  · intro n h hh
    rw [hp.hinges] at hh
    exact hc.hinge n h hh

/-- **C110** (simulation). Every scene of `get_scene_names` but "ur5" is not only put up but can be simulated, for any length of time: in any engine with
nothing missing (no body without a shape or a mass, no hinge without sockets), that knows the material "default", gives new names and has no forces "earth" and
"air", `create_scene` returns, distance fields and hierarchies are made for all bodies, and `simulate` returns after the steps that add up to T. -/
theorem C110_simulates {O : Outside} (hO : GoodOutside O) (hH : HeavyOutside O) {name : String} (hn : name ∈ get_scene_names) (h5 : name ≠ "ur5") {s : Scene}
    (hr : Ready "default" s) (hh : NewHinges s) (hc : Complete s) (hts : 0 < s.eng.params.time_step) (h1 : s.eng.forces.get? "earth" = none)
    (h2 : s.eng.forces.get? "air" = none) {sd : SignedDistance} (hsd : OnePerNode sd) {P : GeoParams} (hP : GoodGeo P) :
    ∃ s' W C, create_scene O name s = .ok ((), s') ∧ s'.eng.toWorld = some W ∧ (∀ i, s'.collider sd P (W.bodies i) = .ok (C i)) ∧
      ∀ T : ℝ, 0 < T → ∃ w' dts, fullSimulate P.toCDParams (W, C) T = .ok w' ∧ fullRun P.toCDParams dts (W, C) = .ok w' ∧
        dts.sum = T ∧ (∀ dt ∈ dts, 0 < dt ∧ dt ≤ s.eng.params.time_step) ∧ SameWorld (W, C) w' ∧ Simulable w' := by
  obtain ⟨s1, h3, g1⟩ := stage_builds hO hn h5 hr hh
  obtain ⟨s', h4⟩ := C110_builds hO hn h5 hr hh h1 h2
  obtain ⟨s1', F, h5', hp⟩ := scene_pushed hr.good.eng h4
  rw [h3] at h5'
  cases h5'
  have f1 := stage_fuller hO hH hn h5 hr h3
  have hpar : s'.eng.params = s.eng.params := hp.params.trans f1.2
  obtain ⟨W, C, a1, a2, -, a4⟩ := C95_scene hsd hP (scene_good h3 g1 h4) ((f1.1 hc).pushed hp) (by rw [hpar]; exact hts)
  refine ⟨s', W, C, h4, a1, a2, fun T hT => ?_⟩
  obtain ⟨w', dts, b1, b2, -, b3, b4, b5, b6⟩ := a4 T hT
  rw [hpar] at b4
  exact ⟨w', dts, b1, b2, b3, b4, b5, b6⟩

/-! ### Example -/

theorem box_bulky {w h d M : ℝ} (hw : w ≤ M) (hh : h ≤ M) (hd : d ≤ M) (w0 : 0 ≤ w) (h0 : 0 ≤ h) (d0 : 0 ≤ d) (hv : 1e-8 * M ^ 3 < w * h * d) :
    Bulky (create_box w h d) := by
  intro l u hb
  obtain ⟨-, ⟨x1, m1, e1⟩, ⟨x2, m2, e2⟩, ⟨x3, m3, e3⟩, ⟨x4, m4, e4⟩, ⟨x5, m5, e5⟩, ⟨x6, m6, e6⟩⟩ := hb
  refine lt_box (lt_of_le_of_lt ?_ hv)
  have a1 : u.x - l.x ≤ w := by
    rw [← e1, ← e2]
    rcases (mem_box m1).1 with e | e <;> rcases (mem_box m2).1 with f | f <;> rw [e, f] <;> linarith
  have a2 : u.y - l.y ≤ h := by
    rw [← e3, ← e4]
    rcases (mem_box m3).2.1 with e | e <;> rcases (mem_box m4).2.1 with f | f <;> rw [e, f] <;> linarith
  have a3 : u.z - l.z ≤ d := by
    rw [← e5, ← e6]
    rcases (mem_box m5).2.2 with e | e <;> rcases (mem_box m6).2.2 with f | f <;> rw [e, f] <;> linarith
  have a4 : max (max (u.x - l.x) (u.y - l.y)) (u.z - l.z) ≤ M := max_le (max_le (by linarith) (by linarith)) (by linarith)
  have : (max (max (u.x - l.x) (u.y - l.y)) (u.z - l.z)) ^ 3 ≤ M ^ 3 := Odd.strictMono_pow (by decide) |>.monotone a4
  exact mul_le_mul_of_nonneg_left this (by norm_num)

theorem someHull_volume {P : List V3} {c : ℝ} (h : StarShaped (someHull P))
    (h1 : 0 < enclosedVolume P frontPrism → c < enclosedVolume P frontPrism) (h2 : 0 < enclosedVolume P backPrism → c < enclosedVolume P backPrism)
    (h3 : 0 < enclosedVolume P fivePrism → c < enclosedVolume P fivePrism) : c < enclosedVolume (someHull P).1 (someHull P).2 := by
  have hv := h.volume
  unfold someHull at hv ⊢
  split_ifs at hv ⊢
  · exact h1 hv
  · exact h2 hv
  · exact h3 hv

theorem boxOutside_heavy (eig : Eig) (sys : Urdf.Sys) : HeavyOutside (boxOutside eig sys) := by
  have hb : Bulky (create_box 1 1 1) := box_bulky (M := 1) le_rfl le_rfl le_rfl (by norm_num) (by norm_num) (by norm_num) (by norm_num)
  have hT := someHull_temple (w := 1) (h := 3) one_pos (by norm_num)
  refine ⟨hb, hb, ?_, fun _ _ => hb, fun _ _ => hb, ?_, ?_, ?_, ?_⟩
  · intro VT hVT
    simp only [boxOutside, List.mem_cons, List.not_mem_nil, or_false] at hVT
    rcases hVT with rfl | rfl
    · exact hb
    · exact box_bulky (M := 3) (by norm_num) (by norm_num) le_rfl (by norm_num) (by norm_num) (by norm_num) (by norm_num)
  · intro VT hVT
    simp only [boxOutside, List.mem_singleton] at hVT
    subst hVT
    exact lt_box (by norm_num)
  · rintro VT rfl
    refine someHull_volume hT.wedge.2 ?_ ?_ ?_ <;>
      simp [enclosedVolume, wedgePoints, frontPrism, backPrism, fivePrism, det3] <;> norm_num
  · rintro VT rfl
    refine someHull_volume hT.edge.2 ?_ ?_ ?_ <;>
      simp [enclosedVolume, edgePoints, frontPrism, backPrism, fivePrism, det3] <;> norm_num
  · rintro VT rfl
    refine someHull_volume hT.ridge.2 ?_ ?_ ?_ <;>
      simp [enclosedVolume, ridgePoints, frontPrism, backPrism, fivePrism, det3] <;> norm_num

/-- Every scene, with boxes for the files, in a new engine, simulated for a minute. -/
example (eig : Eig) (he : EigSpec eig) (sys : Urdf.Sys) (name : String) (hn : name ∈ get_scene_names) (h5 : name ≠ "ur5") :
    ∃ s' W C w', create_scene (boxOutside eig sys) name freshScene = .ok ((), s') ∧ s'.eng.toWorld = some W ∧
      (∀ i, s'.collider (fun nodes _ _ => nodes.map fun _ => 1) GeoParams.init (W.bodies i) = .ok (C i)) ∧
      fullSimulate GeoParams.init.toCDParams (W, C) 60 = .ok w' := by
  obtain ⟨s', W, C, a1, a2, a3, a4⟩ := C110_simulates (boxOutside_good he sys) (boxOutside_heavy eig sys) hn h5 freshScene_ready freshScene_newHinges
    ⟨fun n o h => (by cases h), fun n o h => (by cases h), fun n o h => (by cases h)⟩ (by show (0 : ℝ) < 0.01; norm_num) rfl rfl
    (sd := fun nodes _ _ => nodes.map fun _ => 1) (fun _ _ _ => by simp) goodGeo_default
  obtain ⟨w', dts, b1, -⟩ := a4 60 (by norm_num)
  exact ⟨s', W, C, w', a1, a2, a3, b1⟩

end Verif
