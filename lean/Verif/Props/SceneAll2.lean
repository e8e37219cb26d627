import Verif.Props.SceneAll

/-! C110: `create_scene` connects gravity and damping to every body. -/

namespace Verif

open Rigid Rigid.SceneM SMesh
open VMesh (Tri)

/-! ### The loop that connects the forces -/

/-- The two scenes differ only in the forces of the bodies N, which have got two more. -/
structure Pushed (E A : Force) (N : List String) (s s' : Scene) : Prop where
  bodies : ∀ n, s'.eng.bodies.get? n = (s.eng.bodies.get? n).map fun o =>
    if n ∈ N then ⟨o.idx, { o.body with forces := o.body.forces ++ [E, A] }⟩ else o
  keys : s'.eng.bodies.keys = s.eng.bodies.keys
  forces : s'.eng.forces = s.eng.forces
  shapes : s'.eng.shapes = s.eng.shapes
  hinges : s'.eng.hinges = s.eng.hinges
  inter : s'.eng.surfaces_interactions = s.eng.surfaces_interactions
  params : s'.eng.params = s.eng.params
  meshes : s'.meshes = s.meshes
  gen : s'.gen = s.gen

theorem connect_runs {e : Engine} {n f : String} {o : BodyObj} {F : Force} (ho : e.bodies.get? n = some o) (hf : e.forces.get? f = some F)
    (hn : ∀ x ∈ o.body.forces, x.name ≠ F.name) :
    e.connect_force n f = .ok { e with bodies := e.bodies.setItem n ⟨o.idx, { o.body with forces := o.body.forces ++ [F] }⟩ } := by
  have h1 : e.findBody n = .ok o := findBody_ok.2 ho
  have h2 : e.findForce f = .ok F := by
    unfold Engine.findForce
    rw [if_pos (Dict.mem_of_get? hf)]
    unfold Dict.getItem
    rw [hf]
  have h3 : (o.body.forces.any fun x => x.name == F.name) = false := by
    rw [List.any_eq_false]
    intro x hx
    simpa using hn x hx
  unfold Engine.connect_force Engine.updateBody
  simp only [h1, h2, bind, Except.bind, h3, Bool.false_eq_true, if_false]
  rfl

theorem connectBoth_runs {E A : Force} (hE : E.name = "earth") (hA : A.name = "air") {s : Scene} {n : String} {o : BodyObj}
    (ho : s.eng.bodies.get? n = some o) (h1 : s.eng.forces.get? "earth" = some E) (h2 : s.eng.forces.get? "air" = some A)
    (hn : ∀ x ∈ o.body.forces, x.name ≠ "earth" ∧ x.name ≠ "air") :
    ∃ s', connectBoth n s = .ok ((), s') ∧ Pushed E A [n] s s' := by
  have c1 := connect_runs ho h1 fun x hx => by rw [hE]; exact (hn x hx).1
  have c2 := connect_runs (e := { s.eng with bodies := s.eng.bodies.setItem n ⟨o.idx, { o.body with forces := o.body.forces ++ [E] }⟩ }) (n := n)
    (f := "air") (F := A) (Dict.get?_setItem_self _ _ _) h2 (by
      intro x hx
      rw [hA]
      rcases List.mem_append.1 hx with hx | hx
      · exact (hn x hx).2
      · rw [List.mem_singleton] at hx
        rw [hx, hE]
        decide)
  refine ⟨_, bind_ok.2 ⟨(), _, api_ok.2 ⟨_, c1, rfl⟩, api_ok.2 ⟨_, c2, rfl⟩⟩, ?_⟩
  refine ⟨?_, ?_, rfl, rfl, rfl, rfl, rfl, rfl, rfl⟩
  · intro m
    by_cases hm : m = n
    · subst hm
      rw [Dict.get?_setItem_self, ho]
      simp
    · rw [Dict.get?_setItem_ne _ _ hm, Dict.get?_setItem_ne _ _ hm]
      simp only [List.mem_singleton, hm, if_false]
      cases s.eng.bodies.get? m <;> rfl
  · rw [Dict.keys_replace (Dict.get?_setItem_self _ _ _), Dict.keys_replace ho]

theorem connectAll_runs {E A : Force} (hE : E.name = "earth") (hA : A.name = "air") : ∀ (N : List String) (_ : N.Nodup) (s : Scene),
    s.eng.forces.get? "earth" = some E → s.eng.forces.get? "air" = some A →
    (∀ n ∈ N, ∃ o, s.eng.bodies.get? n = some o ∧ ∀ x ∈ o.body.forces, x.name ≠ "earth" ∧ x.name ≠ "air") →
    ∃ s', N.forM connectBoth s = .ok ((), s') ∧ Pushed E A N s s'
  | [], _, s, _, _, _ => ⟨s, rfl, by
      refine ⟨fun n => ?_, rfl, rfl, rfl, rfl, rfl, rfl, rfl, rfl⟩
      simp⟩
  | n :: N, hN, s, h1, h2, hb => by
    rw [List.nodup_cons] at hN
    obtain ⟨o, ho, hx⟩ := hb n (by simp)
    obtain ⟨s1, r1, p1⟩ := connectBoth_runs hE hA ho h1 h2 hx
    obtain ⟨s2, r2, p2⟩ := connectAll_runs hE hA N hN.2 s1 (by rw [p1.forces]; exact h1) (by rw [p1.forces]; exact h2) (by
      intro m hm
      obtain ⟨o', ho', hx'⟩ := hb m (by simp [hm])
      refine ⟨o', ?_, hx'⟩
      rw [p1.bodies, ho']
      have : m ≠ n := fun e => hN.1 (e ▸ hm)
      simp [this])
    refine ⟨s2, bind_ok.2 ⟨(), s1, r1, r2⟩, ?_⟩
    refine ⟨?_, p2.keys.trans p1.keys, p2.forces.trans p1.forces, p2.shapes.trans p1.shapes, p2.hinges.trans p1.hinges,
      p2.inter.trans p1.inter, p2.params.trans p1.params, p2.meshes.trans p1.meshes, p2.gen.trans p1.gen⟩
    intro m
    rw [p2.bodies, p1.bodies]
    cases hm : s.eng.bodies.get? m with
    | none => rfl
    | some o' =>
      by_cases e : m = n
      · subst e
        simp [hN.1]
      · simp [e]

/-- The force "earth" of `create_scene`. -/
noncomputable def earthForce : Force := ⟨"earth", .gravity 9.81 V3.j⟩
/-- The force "air" of `create_scene`. -/
noncomputable def airForce : Force := ⟨"air", .damping 0.01 0.01⟩

theorem unit_j : V3.unit V3.j = V3.j := by
  have hn : V3.norm V3.j = 1 := by
    unfold V3.norm
    rw [Real.sqrt_eq_one]
    simp [V3.dot, V3.j]
  unfold V3.unit
  rw [hn]
  norm_num
  ext <;> simp [V3.j, V3.divs]

/-- What the engine must be like for the forces: no body is connected to a force the engine does not know. -/
def ForcesKnown (e : Engine) : Prop :=
  e.bodies.keys.Nodup ∧ ∀ n o, e.bodies.get? n = some o → o.body.name = n ∧ ∀ f ∈ o.body.forces, e.forces.get? f.name = some f

theorem EngineOk.forcesKnown {e : Engine} (h : EngineOk e) : ForcesKnown e := by
  refine ⟨h.bodies_nodup, fun n o ho => ?_⟩
  obtain ⟨i, -, -, h1, -, h2, -⟩ := h.bodies.get? ho
  exact ⟨h1, h2⟩

theorem ForcesKnown.calm {e e' : Engine} (h : ForcesKnown e) (hc : Calm e e') : ForcesKnown e' := by
  refine ⟨hc.1.nodup h.1, fun n o ho => ?_⟩
  rcases hc.1.bodies n o ho with ⟨o1, h1, e1, e2⟩ | ⟨h1, e1, e2⟩
  · obtain ⟨h2, h3⟩ := h.2 n o1 h1
    rw [e1, e2, hc.1.forces]
    exact ⟨h2, h3⟩
  · rw [e2]
    exact ⟨e1, by simp⟩

/-- Whatever the scene is, if its bodies are built and the two names are free, the forces are connected to all bodies. -/
theorem scene_runs {O : Outside} {name : String} {s s1 : Scene} (hk : ForcesKnown s1.eng) (h1 : stage O name s = .ok ((), s1))
    (he : s1.eng.forces.get? "earth" = none) (ha : s1.eng.forces.get? "air" = none) :
    ∃ s', create_scene O name s = .ok ((), s') ∧
      Pushed earthForce airForce s1.eng.bodies.keys { s1 with eng := { s1.eng with forces := (s1.eng.forces.setItem "earth" earthForce).setItem "air" airForce } } s' := by
  have g1 : s1.eng.create_gravity_force "earth" 9.81 V3.j = .ok { s1.eng with forces := s1.eng.forces.setItem "earth" earthForce } := by
    unfold Engine.create_gravity_force
    rw [(Dict.get?_eq_none _ _).1 he, if_neg (by simp), if_neg (by norm_num), unit_j]
    rfl
  have g2 : ({ s1.eng with forces := s1.eng.forces.setItem "earth" earthForce } : Engine).create_damping_force "air" 0.01 0.01 =
      .ok { s1.eng with forces := (s1.eng.forces.setItem "earth" earthForce).setItem "air" airForce } := by
    unfold Engine.create_damping_force
    have : (s1.eng.forces.setItem "earth" earthForce).get? "air" = none := by rw [Dict.get?_setItem_ne _ _ (by decide)]; exact ha
    rw [(Dict.get?_eq_none _ _).1 this, if_neg (by simp), if_neg (by norm_num), if_neg (by norm_num)]
    rfl
  have hnames : (s1.eng.bodies.values.map fun b => b.body.name) = s1.eng.bodies.keys := by
    unfold Dict.values Dict.keys
    rw [List.map_map]
    refine List.map_congr_left fun x hx => ?_
    obtain ⟨i, hi, rfl⟩ := List.getElem_of_mem hx
    exact (hk.2 _ _ (Dict.get?_entry hk.1 hi)).1
  obtain ⟨s', r, p⟩ := connectAll_runs (E := earthForce) (A := airForce) rfl rfl s1.eng.bodies.keys hk.1
    { s1 with eng := { s1.eng with forces := (s1.eng.forces.setItem "earth" earthForce).setItem "air" airForce } }
    (by rw [Dict.get?_setItem_ne _ _ (by decide), Dict.get?_setItem_self]) (by rw [Dict.get?_setItem_self]) (by
      intro n hn
      obtain ⟨o, ho⟩ := Dict.mem_iff_get?.1 ((Dict.mem_iff_keys _ _).2 hn)
      refine ⟨o, ho, fun x hx => ?_⟩
      have := (hk.2 n o ho).2 x hx
      refine ⟨fun e => ?_, fun e => ?_⟩
      · rw [e, he] at this; cases this
      · rw [e, ha] at this; cases this)
  refine ⟨s', ?_, p⟩
  unfold create_scene
  refine bind_ok.2 ⟨(), s1, h1, bind_ok.2 ⟨(), _, api_ok.2 ⟨_, g1, rfl⟩, bind_ok.2 ⟨(), _, api_ok.2 ⟨_, g2, rfl⟩, ?_⟩⟩⟩
  rw [hnames]
  exact r

/-- If `create_scene` succeeds, then its scene was built, and the names of the two forces were free. -/
theorem scene_stage {O : Outside} {name : String} {s s' : Scene} {u : Unit} (h : create_scene O name s = .ok (u, s')) :
    s.eng.forces.get? "earth" = none ∧ s.eng.forces.get? "air" = none ∧ ∃ s1, stage O name s = .ok ((), s1) := by
  unfold create_scene at h
  rw [bind_ok] at h
  obtain ⟨⟨⟩, s1, h1, h⟩ := h
  rw [bind_ok] at h
  obtain ⟨⟨⟩, s2, h2, h⟩ := h
  rw [bind_ok] at h
  obtain ⟨⟨⟩, s3, h3, h⟩ := h
  have hc := calmly_stage _ _ _ h1
  replace h2 := api_ok.1 h2
  replace h3 := api_ok.1 h3
  obtain ⟨e2, h2, rfl⟩ := h2
  obtain ⟨e3, h3, rfl⟩ := h3
  unfold Engine.create_gravity_force at h2
  split at h2
  · cases h2
  rename_i he
  split at h2
  · cases h2
  cases h2
  unfold Engine.create_damping_force at h3
  split at h3
  · cases h3
  rename_i ha
  refine ⟨?_, ?_, s1, h1⟩
  · rw [← hc.1.forces]
    exact (Dict.get?_eq_none _ _).2 (by simpa using he)
  · rw [← hc.1.forces]
    have := (Dict.get?_eq_none _ _).2 (by simpa using ha : _ = false)
    rwa [Dict.get?_setItem_ne _ _ (by decide)] at this

/-! ### The theorems -/

/-- **C110** (forces). After `create_scene` has succeeded — for any name, in any engine built through the API — every body that is now in the engine,
whether the scene added it or not, is pulled down by its weight (9.81 per unit of mass along −y) and damped by 0.01 times its velocity and spin, in
addition to the forces it had; bodies added by the scene have no other forces. -/
theorem C110_forces {O : Outside} {name : String} {s s' : Scene} {u : Unit} (hs : EngineOk s.eng) (hrun : create_scene O name s = .ok (u, s'))
    {n : String} {o' : BodyObj} (ho : s'.eng.bodies.get? n = some o') (mass : ℝ) (v w : V3) :
    (∀ o, s.eng.bodies.get? n = some o →
      appliedForce { o'.body with mass := mass, v := v, w := w } =
        appliedForce { o.body with mass := mass, v := v, w := w } + ⟨0, -(9.81 * mass), 0⟩ - (1 / 100 : ℝ) • v ∧
      o'.body.forces = o.body.forces ++ [earthForce, airForce]) ∧
    (s.eng.bodies.get? n = none →
      appliedForce { o'.body with mass := mass, v := v, w := w } = ⟨0, -(9.81 * mass), 0⟩ - (1 / 100 : ℝ) • v ∧
      appliedTorque { o'.body with mass := mass, v := v, w := w } = -((1 / 100 : ℝ) • w) -
        V3.cross w ((worldInertia { o'.body with mass := mass, v := v, w := w }).mulVec w)) := by
  obtain ⟨h1, h2, s1, h3⟩ := scene_stage hrun
  have hc := calmly_stage _ _ _ h3
  obtain ⟨s2, hr2, hp⟩ := scene_runs (hs.forcesKnown.calm hc) h3 (by rw [hc.1.forces]; exact h1) (by rw [hc.1.forces]; exact h2)
  rw [hr2] at hrun
  cases hrun
  rw [hp.bodies] at ho
  cases ho1 : s1.eng.bodies.get? n with
  | none => rw [ho1] at ho; cases ho
  | some o1 =>
    rw [ho1] at ho
    have hk : n ∈ s1.eng.bodies.keys := (Dict.mem_iff_keys _ _).1 (Dict.mem_of_get? ho1)
    rw [Option.map_some, if_pos hk] at ho
    cases ho
    refine ⟨?_, ?_⟩
    · intro o ho
      rcases hc.1.bodies n o1 ho1 with ⟨o2, ho2, -, e2⟩ | ⟨h0, -⟩
      · rw [ho] at ho2
        cases ho2
        refine ⟨?_, by rw [← e2]⟩
        unfold appliedForce
        simp only [List.map_append, List.map_cons, List.map_nil, List.sum_append, List.sum_cons, List.sum_nil, e2, earthForce, airForce]
        refine V3.ext ?_ ?_ ?_ <;> simp [V3.j] <;> norm_num <;> ring
      · rw [ho] at h0; cases h0
    · intro h0
      rcases hc.1.bodies n o1 ho1 with ⟨o2, ho2, -⟩ | ⟨-, -, e2⟩
      · rw [h0] at ho2; cases ho2
      · unfold appliedForce appliedTorque
        simp only [e2, List.nil_append, List.map_cons, List.map_nil, List.sum_cons, List.sum_nil, earthForce, airForce]
        refine ⟨?_, ?_⟩
        · refine V3.ext ?_ ?_ ?_ <;> simp [V3.j] <;> norm_num <;> ring
        · congr 1
          refine V3.ext ?_ ?_ ?_ <;> simp <;> norm_num

/-- **C110.** A second scene cannot be added to an engine: once `create_scene` has succeeded, every further call of it raises. -/
theorem C110_once {O O' : Outside} {name name' : String} {s s' : Scene} {u : Unit} (hs : EngineOk s.eng) (hrun : create_scene O name s = .ok (u, s')) :
    ∃ err, create_scene O' name' s' = .error err := by
  obtain ⟨h1, h2, s1, h3⟩ := scene_stage hrun
  have hc := calmly_stage _ _ _ h3
  obtain ⟨s2, hr2, hp⟩ := scene_runs (hs.forcesKnown.calm hc) h3 (by rw [hc.1.forces]; exact h1) (by rw [hc.1.forces]; exact h2)
  rw [hr2] at hrun
  cases hrun
  cases h : create_scene O' name' s' with
  | error err => exact ⟨err, rfl⟩
  | ok r =>
    obtain ⟨u, s4⟩ := r
    obtain ⟨h0, -⟩ := scene_stage h
    rw [hp.forces, Dict.get?_setItem_ne _ _ (by decide), Dict.get?_setItem_self] at h0
    cases h0

/-- **C110.** A name that is not one of `get_scene_names` is not reported: `create_scene` succeeds, adds the two forces and connects them to the bodies
that are there, and adds no body. -/
theorem C110_unknown {O : Outside} {name : String} {s : Scene} (hs : EngineOk s.eng) (hn : name ∉ get_scene_names)
    (h1 : s.eng.forces.get? "earth" = none) (h2 : s.eng.forces.get? "air" = none) :
    ∃ s', create_scene O name s = .ok ((), s') ∧ s'.eng.bodies.keys = s.eng.bodies.keys := by
  have hst : stage O name s = .ok ((), s) := by
    unfold get_scene_names at hn
    simp only [List.mem_cons, List.not_mem_nil, not_or, or_false] at hn
    obtain ⟨a1, a2, a3, a4, a5, a6, a7, a8, a9, a10, a11, a12, a13, a14, a15, a16, a17⟩ := hn
    unfold stage
    rw [if_neg a1, if_neg a2, if_neg a3, if_neg a4, if_neg a5, if_neg a6, if_neg a7, if_neg a8, if_neg a9, if_neg a10, if_neg a11, if_neg a12,
      if_neg a13, if_neg a14, if_neg a15, if_neg a16, if_neg a17]
    rfl
  obtain ⟨s', hr, hp⟩ := scene_runs hs.forcesKnown hst h1 h2
  exact ⟨s', hr, hp.keys⟩

/-- **C110.** The scene "ur5" exists only where the robot description is found: elsewhere the error of reading the file is passed on. -/
theorem C110_ur5 {O : Outside} {s : Scene} {e : PyErr} (h : O.ur5 = .error e) : create_scene O "ur5" s = .error e := by
  have hst : stage O "ur5" s = .error e := by
    unfold stage
    rw [if_neg (by decide), if_neg (by decide), if_neg (by decide), if_neg (by decide), if_neg (by decide), if_neg (by decide), if_neg (by decide),
      if_neg (by decide), if_neg (by decide), if_neg (by decide), if_neg (by decide), if_neg (by decide), if_neg (by decide), if_neg (by decide),
      if_neg (by decide), if_neg (by decide), if_pos rfl]
    unfold ur5Scene
    rw [h]
    rfl
  unfold create_scene
  exact scene_bind_error hst

end Verif
