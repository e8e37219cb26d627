import Verif.Props.UsdApp
import Verif.Props.SceneAll7

/-! C118 with the package's own engine: every scene of the catalogue, simulated and recorded by the application. -/

namespace Verif

open Rigid Rigid.SceneM SMesh Collision

variable {N : ℕ}

/-- What the application sees of the rigid body engine: the bodies in the order of their numbers, and `API.simulate(engine, T=engine.params.time_step)`. -/
noncomputable def rigidSim (P : CDParams) : Usd.Sim (Rigid.Sim N) where
  bodies s := List.ofFn fun k : Fin N =>
    { name := (s.1.bodies k).name, V := (s.2 k).V, T := (s.2 k).T.map fun t => (t.a, t.b, t.c), r := (s.1.bodies k).r, q := (s.1.bodies k).q }
  simulate s := fullSimulate P s s.1.params.time_step

theorem same_names {P : CDParams} {s s' : Rigid.Sim N} (h : SameWorld s s') :
    ((rigidSim P).bodies s').map (·.name) = ((rigidSim P).bodies s).map (·.name) := by
  simp only [rigidSim, List.map_ofFn]
  congr 1
  funext k
  simp only [Function.comp]
  rw [h.bodies k]

/-- The engine is recorded: the film of an engine whose bodies have different names that Pixar accepts. -/
theorem film_of_engine (px : Usd.Pxr) {P : CDParams} (hK : P.K = 3 ∨ P.K = 4) (he : 0 ≤ P.envelope) {s : Rigid.Sim N}
    (hs : ∀ T : ℝ, 0 < T → ∃ s', fullSimulate P s T = .ok s' ∧ SameWorld s s' ∧ Simulable s') (hts : 0 < s.1.params.time_step)
    (hn : ∀ i j, (s.1.bodies i).name = (s.1.bodies j).name → i = j) (hl : ∀ i, px.legal (s.1.bodies i).name = true) {steps : ℕ} (hpos : 0 < steps) :
    ∃ app stage, Usd.session px (rigidSim P) Usd.App.start (⟨true, some (s, steps)⟩ :: List.replicate steps ⟨true, none⟩) = .ok app ∧
      app.file = some stage ∧ Usd.Film px (rigidSim P) s steps stage := by
  let Good := fun s' : Rigid.Sim N => SameWorld s s' ∧ (s' = s ∨ Simulable s')
  have next : ∀ s', Good s' → ∃ s'', (rigidSim P).simulate s' = .ok s'' ∧ SameWorld s' s'' ∧ Good s'' := by
    rintro s' ⟨h1, rfl | h2⟩
    · obtain ⟨s'', a, b, c⟩ := hs _ hts
      exact ⟨s'', a, b, b, Or.inr c⟩
    · have ht : 0 < s'.1.params.time_step := by rw [h1.params]; exact hts
      obtain ⟨s'', -, a, -, -, -, -, b, c, -⟩ := C95_simulate hK he h2 ht ht
      exact ⟨s'', a, c, h1.trans c, Or.inr b⟩
  have h0 : Good s := ⟨SameWorld.refl s, Or.inl rfl⟩
  choose! f hf using next
  have hgood : ∀ k, Good (f^[k] s) := by
    intro k
    induction k with
    | zero => exact h0
    | succ k ih => rw [Function.iterate_succ_apply']; exact (hf _ ih).2.2
  refine C118_written (Good := Good) px (rigidSim P) (fun k => f^[k] s) steps hpos ?_ ?_ h0 ?_ ?_
  · simp only [rigidSim, List.map_ofFn]
    exact List.nodup_ofFn.2 fun i j h => hn i j h
  · intro b hb
    simp only [rigidSim, List.mem_ofFn] at hb
    obtain ⟨k, rfl⟩ := hb
    exact hl k
  · intro e e' hg h
    obtain ⟨a, b, c⟩ := hf e hg
    rw [a] at h
    obtain rfl := Except.ok.inj h
    exact ⟨c, same_names b⟩
  · intro k _
    rw [(hf _ (hgood k)).1, Function.iterate_succ_apply']

/-- **C118** for the catalogue: a scene is created, the simulation runs with the check box on, and after the last step the file shows each body at each step
where the simulation had it.  Left open is which names Pixar's library accepts. -/
theorem C118_scene {O : Outside} (hO : GoodOutside O) (hH : HeavyOutside O) {name : String} (hn : name ∈ get_scene_names) (h5 : name ≠ "ur5") {s : Scene}
    (hr : Ready "default" s) (hh : NewHinges s) (hc : Complete s) (hts : 0 < s.eng.params.time_step) (h1 : s.eng.forces.get? "earth" = none)
    (h2 : s.eng.forces.get? "air" = none) {sd : SignedDistance} (hsd : OnePerNode sd) {P : GeoParams} (hP : GoodGeo P) (px : Usd.Pxr) :
    ∃ s' W C, create_scene O name s = .ok ((), s') ∧ s'.eng.toWorld = some W ∧ (∀ i, s'.collider sd P (W.bodies i) = .ok (C i)) ∧
      ((∀ i, px.legal (W.bodies i).name = true) → ∀ steps, 0 < steps → ∃ app stage,
        Usd.session px (rigidSim P.toCDParams) Usd.App.start (⟨true, some ((W, C), steps)⟩ :: List.replicate steps ⟨true, none⟩) = .ok app ∧
        app.file = some stage ∧ Usd.Film px (rigidSim P.toCDParams) (W, C) steps stage) := by
  obtain ⟨s1, h3, g1⟩ := stage_builds hO hn h5 hr hh
  obtain ⟨s', h4⟩ := C110_builds hO hn h5 hr hh h1 h2
  obtain ⟨s1', F, h5', hp⟩ := scene_pushed hr.good.eng h4
  rw [h3] at h5'
  cases h5'
  have f1 := stage_fuller hO hH hn h5 hr h3
  have hpar : s'.eng.params = s.eng.params := hp.params.trans f1.2
  have hg := scene_good h3 g1 h4
  have hcom := (f1.1 hc).pushed hp
  obtain ⟨W, C, a1, a2, -, a4⟩ := C95_scene hsd hP hg hcom (by rw [hpar]; exact hts)
  obtain ⟨W', b1, -, b3, -, -, b6, -⟩ := C43_world s'.eng hg.eng (by
    intro k hk
    exact hcom.hinge _ _ (Dict.get?_entry hg.eng.hinges_nodup hk))
  rw [a1] at b1
  obtain rfl := Option.some.inj b1
  refine ⟨s', W, C, h4, a1, a2, fun hl steps hpos => ?_⟩
  refine film_of_engine px hP.K (le_trans (by norm_num) hP.envelope) (fun T hT => ?_) (by show 0 < W.params.time_step; rw [b6, hpar]; exact hts) b3 hl hpos
  obtain ⟨w', dts, c1, -, -, -, -, c5, c6⟩ := a4 T hT
  exact ⟨w', c1, c5, c6⟩

end Verif
