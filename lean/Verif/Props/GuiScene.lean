import Verif.Props.GuiView
import Verif.Props.UsdScene

/-! C128 with the package's own engine: what the viewer shows of a scene of the catalogue. -/

namespace Verif

open Rigid Rigid.SceneM SMesh Collision

variable {N : ℕ}

namespace Usd

variable {px : Pxr} {σ : Type}

theorem session_append (S : Sim σ) (A B : List (Frame σ)) (app : App σ) : session px S app (A ++ B) = (do
    let app ← session px S app A
    session px S app B) := by
  induction A generalizing app with
  | nil => rfl
  | cons f A ih =>
    rw [List.cons_append, session, session]
    cases callback px S app f with
    | error x => rfl
    | ok a => exact ih a

/-- A frame of a simulation that is running makes a step. -/
theorem frame_steps {S : Sim σ} {app app' : App σ} (he : app.engine ≠ none) (hlt : app.step < app.steps) (h : gui_simulate px S { app with simulating := true } = .ok app') :
    app'.engine ≠ none ∧ app'.step = app.step + 1 ∧ app'.steps = app.steps := by
  unfold gui_simulate at h
  cases heng : app.engine with
  | none => exact absurd heng he
  | some eng =>
    dsimp only at h
    rw [heng] at h
    dsimp only at h
    rw [if_neg (by simp), if_neg (by omega)] at h
    have key : ∀ usd : Except PyErr (Option USD), (do
          let usd ← usd
          let usd ← match usd with
            | some u => (do return some (← updateBodies u (S.bodies eng) app.step))
            | none => pure none
          let e ← S.simulate eng
          return (⟨some e, true, app.step + 1, app.steps, usd, app.file⟩ : App σ) : Except PyErr (App σ)) = .ok app' →
        app'.engine ≠ none ∧ app'.step = app.step + 1 ∧ app'.steps = app.steps := by
      intro usd h
      cases usd with
      | error x => cases h
      | ok usd =>
        have fin : ∀ r : Except PyErr (Option USD), (do
          let usd ← r
          let e ← S.simulate eng
          return (⟨some e, true, app.step + 1, app.steps, usd, app.file⟩ : App σ) : Except PyErr (App σ)) = .ok app' →
            app'.engine ≠ none ∧ app'.step = app.step + 1 ∧ app'.steps = app.steps := by
          intro r h
          cases r with
          | error x => cases h
          | ok r =>
            cases hs : S.simulate eng with
            | error x => rw [hs] at h; cases h
            | ok e =>
              rw [hs] at h
              obtain rfl := Except.ok.inj h
              exact ⟨by simp, rfl, rfl⟩
        cases usd with
        | none => exact fin (pure none) h
        | some u => exact fin (do return some (← updateBodies u (S.bodies eng) app.step)) h
    by_cases c : app.step = 0
    · rw [if_pos c] at h
      exact key _ h
    · rw [if_neg c] at h
      exact key (pure app.usd) h

theorem frames_step {S : Sim σ} (k : ℕ) {app app' : App σ} (he : app.engine ≠ none) (hlt : app.step + k ≤ app.steps)
    (h : session px S app (List.replicate k ⟨true, none⟩) = .ok app') : app'.engine ≠ none ∧ app'.step = app.step + k ∧ app'.steps = app.steps := by
  induction k generalizing app with
  | zero => obtain rfl := Except.ok.inj h; exact ⟨he, rfl, rfl⟩
  | succ k ih =>
    rw [List.replicate_succ, session] at h
    cases h1 : callback px S app ⟨true, none⟩ with
    | error x => rw [h1] at h; cases h
    | ok a =>
      rw [h1] at h
      obtain ⟨b1, b2, b3⟩ := frame_steps he (by omega) h1
      obtain ⟨c1, c2, c3⟩ := ih b1 (by omega) h
      exact ⟨c1, by omega, by omega⟩

end Usd

open Classical in
/-- Whether the body shown under a name is a fixed body of the engine. -/
noncomputable def fixedIn (s : Rigid.Sim N) (b : Usd.GuiBody) : Bool := decide (∃ k, (s.1.bodies k).name = b.name ∧ (s.1.bodies k).is_fixed = true)

/-- The viewer shows every body of the engine `s0`, and nothing else, where the engine `s` has it. -/
def ViewerShows (s0 s : Rigid.Sim N) (scr : Usd.Screen) : Prop :=
  scr.keys = List.ofFn (fun i => (s0.1.bodies i).name) ∧ ∀ i, ∃ sh, scr.get? (s0.1.bodies i).name = some sh ∧ sh.V = (s0.2 i).V ∧
    sh.T = (s0.2 i).T.map (fun t => (t.a, t.b, t.c)) ∧ sh.color = (if (s0.1.bodies i).is_fixed then ⟨0.1, 0.1, 1⟩ else ⟨1, 0.1, 0.1⟩) ∧
    ∀ p, sh.place p = Quat.rotate (Quat.unit (s.1.bodies i).q) p + (s.1.bodies i).r

/-- An engine that can be simulated is shown: after k + 1 frames it has made k + 1 steps, and the viewer shows it after k steps. -/
theorem view_of_engine (px : Usd.Pxr) {P : CDParams} (hK : P.K = 3 ∨ P.K = 4) (he : 0 ≤ P.envelope) {s : Rigid.Sim N}
    (hs : ∀ T : ℝ, 0 < T → ∃ s', fullSimulate P s T = .ok s' ∧ SameWorld s s' ∧ Simulable s') (hts : 0 < s.1.params.time_step)
    (hn : ∀ i j, (s.1.bodies i).name = (s.1.bodies j).name → i = j) (hl : ∀ i, px.legal (s.1.bodies i).name = true) {steps k : ℕ} (hk : k < steps) :
    ∃ (app : Usd.App (Rigid.Sim N)) (scr : Usd.Screen) (e : ℕ → Rigid.Sim N), Usd.viewSession px (rigidSim P) fixedIn (Usd.App.start, Dict.empty) (⟨true, some (s, steps)⟩ :: List.replicate k ⟨true, none⟩) = .ok (app, scr) ∧
      e 0 = s ∧ (∀ j ≤ k, fullSimulate P (e j) s.1.params.time_step = .ok (e (j + 1))) ∧ app.engine = some (e (k + 1)) ∧ ViewerShows s (e k) scr := by
  obtain ⟨app1, -, a1, -⟩ := film_of_engine px hK he hs hts hn hl (steps := steps) (by omega)
  let Good := fun s' : Rigid.Sim N => SameWorld s s' ∧ (s' = s ∨ Simulable s')
  have next : ∀ s' s'', Good s' → (rigidSim P).simulate s' = .ok s'' → SameWorld s' s'' ∧ Good s'' := by
    rintro s' s'' ⟨h1, rfl | h2⟩ h
    · obtain ⟨s3, a, b, c⟩ := hs _ hts
      obtain rfl := Except.ok.inj (a.symm.trans h)
      exact ⟨b, b, Or.inr c⟩
    · have ht : 0 < s'.1.params.time_step := by rw [h1.params]; exact hts
      obtain ⟨s3, -, a, -, -, -, -, b, c, -⟩ := C95_simulate hK he h2 ht ht
      obtain rfl := Except.ok.inj (a.symm.trans h)
      exact ⟨c, h1.trans c, Or.inr b⟩
  obtain ⟨L, eL⟩ : ∃ L : List (Usd.Frame (Rigid.Sim N)), L = ⟨true, some (s, steps)⟩ :: List.replicate k ⟨true, none⟩ := ⟨_, rfl⟩
  have hsplit : (⟨true, some (s, steps)⟩ :: List.replicate steps ⟨true, none⟩ : List (Usd.Frame (Rigid.Sim N))) = L ++ List.replicate (steps - k) ⟨true, none⟩ := by
    rw [eL, List.cons_append, ← List.replicate_add, Nat.add_sub_cancel' hk.le]
  rw [hsplit, Usd.session_append] at a1
  have hP : Usd.Proper Good (rigidSim P) L := by
    refine ⟨?_, fun e e' hg h => ⟨(next e e' hg h).2, same_names (next e e' hg h).1⟩⟩
    intro f hf e n hc
    rw [eL] at hf
    rcases List.mem_cons.1 hf with rfl | hf
    · obtain ⟨rfl, rfl⟩ := Prod.mk.inj (Option.some.inj hc)
      refine ⟨⟨SameWorld.refl _, Or.inl rfl⟩, ?_, by omega⟩
      simp only [rigidSim, List.map_ofFn]
      exact List.nodup_ofFn.2 fun i j h => hn i j h
    · rw [(List.mem_replicate.1 hf).2] at hc
      cases hc
  cases h1 : Usd.session px (rigidSim P) Usd.App.start L with
  | error x => rw [h1] at a1; cases a1
  | ok app =>
    have h2 := C128_unchanged px (rigidSim P) fixedIn hP
    rw [h1] at h2
    cases h3 : Usd.viewSession px (rigidSim P) fixedIn (Usd.App.start, Dict.empty) L with
    | error x => rw [h3] at h2; cases h2
    | ok v =>
      obtain ⟨app', scr⟩ := v
      rw [h3] at h2
      obtain rfl := Except.ok.inj h2
      -- the number of steps made
      have h4 : app'.engine ≠ none ∧ app'.step = k + 1 ∧ app'.steps = steps := by
        rw [eL, Usd.session] at h1
        cases h5 : Usd.callback px (rigidSim P) Usd.App.start ⟨true, some (s, steps)⟩ with
        | error x => rw [h5] at h1; cases h1
        | ok a =>
          rw [h5] at h1
          obtain ⟨b1, b2, b3⟩ := Usd.frame_steps (app := ⟨some s, false, 0, steps, none, none⟩) (by simp) (by show 0 < steps; omega) h5
          dsimp only at b2 b3
          obtain ⟨c1, c2, c3⟩ := Usd.frames_step k b1 (by omega) h1
          dsimp only at c1 c2 c3
          exact ⟨c1, by omega, by omega⟩
      rcases C128_view px (rigidSim P) fixedIn hP h3 with ⟨c, -⟩ | ⟨e, ⟨L1, f, L2, d1, d2, d3⟩, e1, e2, e3⟩
      · exact absurd (c ⟨true, some (s, steps)⟩ (by rw [eL]; simp)) (by simp)
      · rw [h4.2.1] at e1 e2 e3
        rw [Nat.add_sub_cancel] at e3
        have e0 : e 0 = s := by
          have : f ∈ L := by rw [d1]; simp
          rw [eL] at this
          rcases List.mem_cons.1 this with rfl | h
          · exact (Prod.mk.inj (Option.some.inj d2)).1.symm
          · rw [(List.mem_replicate.1 h).2] at d2
            cases d2
        have hgood : ∀ j ≤ k, Good (e j) := by
          intro j
          induction j with
          | zero => intro _; rw [e0]; exact ⟨SameWorld.refl _, Or.inl rfl⟩
          | succ j ih => intro h; exact (next _ _ (ih (by omega)) (e1 j (by omega))).2
        refine ⟨app', scr, e, eL ▸ h3, e0, ?_, e2, ?_, ?_⟩
        · intro j hj
          have := e1 j (by omega)
          rw [← (hgood j hj).1.params]
          exact this
        · rw [e3.names, e0]
          simp only [rigidSim, List.map_ofFn]
          rfl
        · intro i
          obtain ⟨sh, m1, m2, m3, m4⟩ := e3.meshes ⟨(s.1.bodies i).name, (s.2 i).V, (s.2 i).T.map fun t => (t.a, t.b, t.c), (s.1.bodies i).r, (s.1.bodies i).q⟩ (by
            rw [e0]; exact List.mem_ofFn.2 ⟨i, rfl⟩)
          obtain ⟨sh', n1, n2⟩ := e3.poses ⟨((e k).1.bodies i).name, ((e k).2 i).V, ((e k).2 i).T.map fun t => (t.a, t.b, t.c), ((e k).1.bodies i).r, ((e k).1.bodies i).q⟩
            (List.mem_ofFn.2 ⟨i, rfl⟩)
          have hname : ((e k).1.bodies i).name = (s.1.bodies i).name := by rw [(hgood k le_rfl).1.bodies i]
          dsimp only at m1 m2 m3 m4 n1 n2
          rw [hname, m1] at n1
          obtain rfl := Option.some.inj n1
          refine ⟨sh, m1, m2, m3, ?_, n2⟩
          rw [m4, e0]
          have : fixedIn s ⟨(s.1.bodies i).name, (s.2 i).V, (s.2 i).T.map fun t => (t.a, t.b, t.c), (s.1.bodies i).r, (s.1.bodies i).q⟩ = (s.1.bodies i).is_fixed := by
            unfold fixedIn
            cases hf : (s.1.bodies i).is_fixed with
            | true => exact decide_eq_true ⟨i, rfl, hf⟩
            | false =>
              refine decide_eq_false ?_
              rintro ⟨j, h, hj⟩
              rw [hn j i h, hf] at hj
              cases hj
          rw [this]

/-- **C128** for the catalogue: a scene is created and simulated with the check box on; after k + 1 frames no exception has been raised, the engine has made k + 1
steps, and the viewer shows all bodies of the scene as they were after k steps.  Left open is which names Pixar's library accepts. -/
theorem C128_scene {O : Outside} (hO : GoodOutside O) (hH : HeavyOutside O) {name : String} (hn : name ∈ get_scene_names) (h5 : name ≠ "ur5") {s : Scene}
    (hr : Ready "default" s) (hh : NewHinges s) (hc : Complete s) (hts : 0 < s.eng.params.time_step) (h1 : s.eng.forces.get? "earth" = none)
    (h2 : s.eng.forces.get? "air" = none) {sd : SignedDistance} (hsd : OnePerNode sd) {P : GeoParams} (hP : GoodGeo P) (px : Usd.Pxr) :
    ∃ s' W C, create_scene O name s = .ok ((), s') ∧ s'.eng.toWorld = some W ∧ (∀ i, s'.collider sd P (W.bodies i) = .ok (C i)) ∧
      ((∀ i, px.legal (W.bodies i).name = true) → ∀ steps k, k < steps → ∃ (app : Usd.App (Rigid.Sim _)) (scr : Usd.Screen) (e : ℕ → Rigid.Sim _),
        Usd.viewSession px (rigidSim P.toCDParams) fixedIn (Usd.App.start, Dict.empty) (⟨true, some ((W, C), steps)⟩ :: List.replicate k ⟨true, none⟩) = .ok (app, scr) ∧
        e 0 = (W, C) ∧ (∀ j ≤ k, fullSimulate P.toCDParams (e j) W.params.time_step = .ok (e (j + 1))) ∧ app.engine = some (e (k + 1)) ∧
        ViewerShows (W, C) (e k) scr) := by
  obtain ⟨s1, h3, g1⟩ := stage_builds hO hn h5 hr hh
  obtain ⟨s', h4⟩ := C110_builds hO hn h5 hr hh h1 h2
  obtain ⟨s1', F, h5', hp⟩ := scene_pushed hr.good.eng h4
  rw [h3] at h5'
  cases h5'
  have f1 := stage_fuller hO hH hn h5 hr h3
  have hpar : s'.eng.params = s.eng.params := hp.params.trans f1.2
  have hg := scene_good h3 g1 h4
  have hcom := (f1.1 hc).pushed hp
  obtain ⟨W, C, a1, a2, -, a4⟩ := C95_scene hsd hP hg hcom (by rw [hpar]; exact hts)
  obtain ⟨W', b1, -, b3, -, -, b6, -⟩ := C43_world s'.eng hg.eng (by
    intro k hk
    exact hcom.hinge _ _ (Dict.get?_entry hg.eng.hinges_nodup hk))
  rw [a1] at b1
  obtain rfl := Option.some.inj b1
  refine ⟨s', W, C, h4, a1, a2, fun hl steps k hk => ?_⟩
  refine view_of_engine (s := (W, C)) px hP.K (le_trans (by norm_num) hP.envelope) (fun T hT => ?_) (by show 0 < W.params.time_step; rw [b6, hpar]; exact hts) b3 hl hk
  obtain ⟨w', dts, c1, -, -, -, -, c5, c6⟩ := a4 T hT
  exact ⟨w', c1, c5, c6⟩

/-- A ball that moves one unit along x in each step. -/
noncomputable def movingBall : Usd.Sim ℕ where
  bodies k := [⟨"ball", [], [], ⟨k, 0, 0⟩, Quat.identity⟩]
  simulate k := .ok (k + 1)

/-- **C128** (finding): the viewer is one step behind.  After a step the engine has the ball at x = 1, and the viewer, also if the user pauses now, shows it at x = 0. -/
theorem C128_behind (px : Usd.Pxr) (hl : px.legal "ball" = true) : ∃ (app : Usd.App ℕ) (scr : Usd.Screen) (sh : Usd.Shown),
    Usd.viewSession px movingBall (fun _ _ => false) (Usd.App.start, Dict.empty) [⟨true, some (0, 2)⟩, ⟨false, none⟩] = .ok (app, scr) ∧ app.engine = some 1 ∧
      (∀ b ∈ movingBall.bodies 1, b.r = ⟨1, 0, 0⟩) ∧ scr.get? "ball" = some sh ∧ sh.place 0 = 0 := by
  obtain ⟨app1, -, a1, -⟩ := C118_written (Good := fun _ => True) px movingBall (fun k => k) 2 (by norm_num) (by simp [movingBall]) (by simp [movingBall, hl]) trivial
    (fun e e' _ _ => ⟨trivial, rfl⟩) (fun s _ => rfl)
  rw [Usd.session] at a1
  cases h5 : Usd.callback px movingBall Usd.App.start ⟨true, some (0, 2)⟩ with
  | error x => rw [h5] at a1; cases a1
  | ok a =>
    obtain ⟨b1, b2, b3⟩ := Usd.frame_steps (app := ⟨some 0, false, 0, 2, none, none⟩) (by simp) (by show 0 < 2; omega) h5
    dsimp only at b2 b3
    have hP : Usd.Proper (fun _ => True) movingBall [⟨true, some (0, 2)⟩, ⟨false, none⟩] := by
      refine ⟨fun f hf e n hc => ⟨trivial, by simp [movingBall], ?_⟩, fun e e' _ _ => ⟨trivial, rfl⟩⟩
      rcases List.mem_cons.1 hf with rfl | hf
      · rw [← (Prod.mk.inj (Option.some.inj hc)).2]; norm_num
      · rw [List.mem_singleton.1 hf] at hc; cases hc
    have h6 : Usd.callback px movingBall a ⟨false, none⟩ = .ok { a with simulating := false } := by
      show Usd.gui_simulate px movingBall { a with simulating := false } = _
      unfold Usd.gui_simulate
      cases he : a.engine with
      | none => exact absurd he b1
      | some e => rfl
    have h7 : Usd.session px movingBall Usd.App.start [⟨true, some (0, 2)⟩, ⟨false, none⟩] = .ok { a with simulating := false } := by
      rw [Usd.session, h5]
      show (Usd.session px movingBall a [⟨false, none⟩]) = _
      rw [Usd.session, h6]
      rfl
    have h2 := C128_unchanged px movingBall (fun _ _ => false) hP
    rw [h7] at h2
    cases h3 : Usd.viewSession px movingBall (fun _ _ => false) (Usd.App.start, Dict.empty) [⟨true, some (0, 2)⟩, ⟨false, none⟩] with
    | error x => rw [h3] at h2; cases h2
    | ok v =>
      obtain ⟨app', scr⟩ := v
      rw [h3] at h2
      replace h2 : app' = { a with simulating := false } := Except.ok.inj h2
      have hstep : app'.step = 1 := by rw [h2]; exact b2
      rcases C128_view px movingBall (fun _ _ => false) hP h3 with ⟨c, -⟩ | ⟨e, ⟨L1, f, L2, d1, d2, d3⟩, e1, e2, e3⟩
      · exact absurd (c ⟨true, some (0, 2)⟩ (by simp)) (by simp)
      · have e0 : e 0 = 0 := by
          have : f ∈ ([⟨true, some (0, 2)⟩, ⟨false, none⟩] : List (Usd.Frame ℕ)) := by rw [d1]; simp
          rcases List.mem_cons.1 this with rfl | h
          · exact (Prod.mk.inj (Option.some.inj d2)).1.symm
          · rw [List.mem_singleton.1 h] at d2
            cases d2
        rw [hstep] at e1 e2 e3
        have e4 : e 1 = 1 := by
          have := e1 0 (by norm_num)
          rw [e0] at this
          exact (Except.ok.inj this).symm
        obtain ⟨sh, m1, m2⟩ := e3.poses ⟨"ball", [], [], ⟨0, 0, 0⟩, Quat.identity⟩ (by rw [Nat.sub_self, e0]; simp [movingBall])
        refine ⟨app', scr, sh, rfl, by rw [e2, e4], ?_, m1, ?_⟩
        · intro b hb
          simp only [movingBall, List.mem_singleton] at hb
          rw [hb]
          simp
        · rw [m2 0, rotate_eq_mulVec (Quat.unit_isUnit _)]
          refine V3.ext ?_ ?_ ?_ <;> simp [M3.mulVec]

end Verif
