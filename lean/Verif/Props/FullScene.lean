import Verif.Props.FullSim
import Verif.Props.SceneRuns

/-! C95: a scene that is completely set up can be simulated, by the code of the package from one end to the other. -/

namespace Verif

open Rigid Rigid.SceneM SMesh Collision
open VMesh (Tri)

/-! ### Histories of calls -/

/-- The calls a program can make to set up a scene: any function of the API, where shapes are made from vertices and triangles. -/
inductive SceneCall where
  | api (op : Engine.Op)
  | createShape (name : String) (VT : List V3 × List Tri)

/-- What the caller has to see to: the meshes are solids, and shapes are made from meshes only. -/
def SceneCall.Ok : SceneCall → Prop
  | .api op => ∀ n r q m I, op ≠ .createShape n r q m I
  | .createShape _ VT => Solid VT

/-- The call. -/
noncomputable def SceneCall.run (eig : Eig) (s : Scene) : SceneCall → Except PyErr Scene
  | .api op => (s.eng.call op).map fun e => { s with eng := e }
  | .createShape name VT => do
    let mesh ← create_mesh eig VT.1 VT.2
    s.create_shape eig name mesh

/-- The scene after the call; a call that raises changes nothing. -/
noncomputable def SceneCall.after (eig : Eig) (s : Scene) (c : SceneCall) : Scene := (c.run eig s).toOption.getD s

theorem SceneGood.after {eig : Eig} (he : EigSpec eig) {s : Scene} (hs : SceneGood s) {c : SceneCall} (hc : c.Ok) :
    SceneGood (c.after eig s) := by
  unfold SceneCall.after
  cases hr : c.run eig s with
  | error e => exact hs
  | ok s' =>
    show SceneGood s'
    cases c with
    | api op =>
      simp only [SceneCall.run] at hr
      cases h1 : s.eng.call op with
      | error e => rw [h1] at hr; cases hr
      | ok e => rw [h1] at hr; cases hr; exact hs.call hc h1
    | createShape name VT =>
      simp only [SceneCall.run, bind, Except.bind] at hr
      cases h1 : create_mesh eig VT.1 VT.2 with
      | error e => rw [h1] at hr; cases hr
      | ok m => rw [h1] at hr; exact hs.shape he (create_mesh_solid he hc h1) hr

/-- **C95.** Whatever calls are made on a fresh engine, in whatever order, and whichever of them raise: every shape keeps a
solid as its mesh, described in a frame whose origin is its centre of mass. -/
theorem C95_history {eig : Eig} (he : EigSpec eig) (gen : ℕ → String → String) (calls : List SceneCall) (hc : ∀ c ∈ calls, c.Ok) :
    SceneGood (calls.foldl (SceneCall.after eig) ⟨Engine.create_engine, Dict.empty, gen⟩) := by
  have h0 : SceneGood ⟨Engine.create_engine, Dict.empty, gen⟩ := ⟨create_engine_ok, fun n sh h => by cases h⟩
  revert h0
  generalize (⟨Engine.create_engine, Dict.empty, gen⟩ : Scene) = s
  induction calls generalizing s with
  | nil => exact fun h => h
  | cons c cs ih =>
    intro h
    exact ih (fun d hd => hc d (by simp [hd])) _ (h.after he (hc c (by simp)))

/-! ### Complete scenes -/

/-- Nothing is missing: every body has a shape, a body that can move has a mass, and every hinge joins two bodies. -/
structure Complete (s : Scene) : Prop where
  shape : ∀ n o, s.eng.bodies.get? n = some o → o.body.shape ≠ none
  mass : ∀ n o, s.eng.bodies.get? n = some o → o.body.is_fixed = false → o.body.mass ≠ 0
  hinge : ∀ n h, s.eng.hinges.get? n = some h → h.parent ≠ none

/-- **C95.** A scene in which nothing is missing can be simulated: distance fields and bounding volume hierarchies can be made for all
its bodies, and `simulate` returns, for every length of time, having stepped in time steps of at most `time_step` adding up to T.  The
bodies have kept everything but their placements and velocities, the fixed bodies have not moved, and the simulation can go on. -/
theorem C95_scene {sd : SignedDistance} (hsd : OnePerNode sd) {P : GeoParams} (hP : GoodGeo P) {s : Scene} (hs : SceneGood s)
    (hc : Complete s) (hts : 0 < s.eng.params.time_step) :
    ∃ w C, s.eng.toWorld = some w ∧ (∀ i, s.collider sd P (w.bodies i) = .ok (C i)) ∧
      (∀ i, w.bodies i = (s.eng.bodyAt i).body) ∧
      ∀ T : ℝ, 0 < T → ∃ s' dts, fullSimulate P.toCDParams (w, C) T = .ok s' ∧ fullRun P.toCDParams dts (w, C) = .ok s' ∧
        dts.length = ⌈T / s.eng.params.time_step⌉₊ ∧ dts.sum = T ∧ (∀ dt ∈ dts, 0 < dt ∧ dt ≤ s.eng.params.time_step) ∧
        SameWorld (w, C) s' ∧ Simulable s' := by
  obtain ⟨w, hw, hbod, -, -, hint, hpar, -⟩ := C43_world s.eng hs.eng (by
    intro k hk
    exact hc.hinge _ _ (Dict.get?_entry hs.eng.hinges_nodup hk))
  have hex : ∀ i, ∃ c, s.collider sd P (w.bodies i) = .ok c ∧ ColliderOK c := by
    intro i
    obtain ⟨h1, h2, h3⟩ := hbod i
    have hsh := hc.shape _ _ h3
    rw [← h1] at hsh
    obtain ⟨sh, hsh⟩ := Option.ne_none_iff_exists'.1 hsh
    obtain ⟨-, -, -, -, -, h4, -⟩ := hs.eng.bodies i.1 i.2
    have h5 := h4 sh (by rw [h1] at hsh; exact hsh)
    obtain ⟨m, hm1, hm2⟩ := hs.meshes _ _ h5
    obtain ⟨c, hc1, -, -, hc2⟩ := C95_collider hsd hP hsh hm1 hm2
    exact ⟨c, hc1, hc2⟩
  choose C hC1 hC2 using hex
  refine ⟨w, C, hw, hC1, ?_, ?_⟩
  · unfold Engine.toWorld at hw
    cases h : s.eng.hinges.values.mapM s.eng.toHinge with
    | none => rw [h] at hw; cases hw
    | some hs' => rw [h] at hw; cases hw; intro i; rfl
  intro T hT
  have hsim : Simulable (w, C) := by
    refine ⟨?_, ?_, hC2, ?_⟩
    · intro k hk
      obtain ⟨h1, -, h3⟩ := hbod k
      simp only [h1] at hk ⊢
      exact hc.mass _ _ h3 hk
    · intro k
      obtain ⟨h1, -, h3⟩ := hbod k
      obtain ⟨-, -, h4, -⟩ := hs.eng.bodies k.1 k.2
      simp only [h1]
      exact h4
    · simp only [hint]
      exact Dict.mem_iff_get?.1 hs.eng.default_exists
  have hK := hP.K
  have he : 0 ≤ P.envelope := le_trans (by norm_num) hP.envelope
  obtain ⟨s', dts, h1, h2, h3, h4, h5, h6, h7, -⟩ := C95_simulate (P := P.toCDParams) hK he hsim (by simp only [hpar]; exact hts) hT
  simp only [hpar] at h3 h5
  exact ⟨s', dts, h1, h2, h3, h4, h5, h7, h6⟩

/-! ### Built scenes are complete -/

/-- What a builder adds is complete, if its bodies are fixed or have a volume above the threshold 1e-10 of mass.py and a density. -/
theorem Complete.adds {s s' : Scene} {N : List String} {B : List Brick} {fixed : Bool} {material : String} {density : ℝ}
    (hc : Complete s) (h : Adds s s' N B fixed material density)
    (hm : fixed = true ∨ density ≠ 0 ∧ ∀ b ∈ B, 1e-10 < enclosedVolume b.V b.T) : Complete s' := by
  have hcase : ∀ n o, s'.eng.bodies.get? n = some o → (s.eng.bodies.get? n = some o) ∨
      (o.body.shape ≠ none ∧ (o.body.is_fixed = false → o.body.mass ≠ 0)) := by
    intro n o ho
    by_cases hn : n ∈ N
    · right
      obtain ⟨i, b, hi, hb⟩ := h.mem hn
      obtain ⟨o', m, h1, h2, -, -, h3, -, h4, -⟩ := h.each i n b hi hb
      rw [ho] at h1
      cases h1
      refine ⟨?_, ?_⟩
      · intro h0
        unfold Scene.worldMesh at h2
        rw [ho] at h2
        change (o.body.shape >>= _) = _ at h2
        rw [h0] at h2
        cases h2
      · intro hf
        rcases hm with hm | ⟨hd, hv⟩
        · rw [hm, hf] at h3; cases h3
        · rw [h4]
          have hb' := hv b (List.mem_of_getElem? hb)
          unfold snapPos
          rw [if_pos hb']
          exact mul_ne_zero (by linarith [show (0:ℝ) < 1e-10 by norm_num]) hd
    · left
      rw [← h.old n hn]; exact ho
  refine ⟨?_, ?_, ?_⟩
  · intro n o ho
    rcases hcase n o ho with h1 | h1
    · exact hc.shape n o h1
    · exact h1.1
  · intro n o ho hf
    rcases hcase n o ho with h1 | h1
    · exact hc.mass n o h1 hf
    · exact h1.2 hf
  · intro n hh hn
    rw [h.rest.2.1] at hn
    exact hc.hinge n hh hn

/-- **C95.** From the first call to the last: a box stack is built in a fresh engine, and simulated, for all sizes (with a volume above
1e-10), heights, densities other than zero, and times; whatever the distance fields say, nothing raises. -/
theorem C95_box_stack {eig : Eig} (he : EigSpec eig) {w h d : ℝ} (hw : 0 < w) (hh : 0 < h) (hd : 0 < d) (hv : 1e-10 < w * h * d) (K : ℕ)
    {density : ℝ} (hden : density ≠ 0) {sd : SignedDistance} (hsd : OnePerNode sd) {T : ℝ} (hT : 0 < T) :
    ∃ names s W C s', create_box_stack eig w h d K density "default" freshScene = .ok (names, s) ∧ names.length = K ∧
      s.eng.toWorld = some W ∧ (∀ i, s.collider sd GeoParams.init (W.bodies i) = .ok (C i)) ∧
      fullSimulate GeoParams.init.toCDParams (W, C) T = .ok s' ∧ SameWorld (W, C) s' ∧ Simulable s' := by
  obtain ⟨names, s, h1, h2⟩ := C86_box_stack_succeeds he hw hh hd K density freshScene_ready
  obtain ⟨h3, -, h4, -⟩ := C86_box_stack he hh.le freshScene_ready.ok h1
  have hc0 : Complete freshScene := ⟨fun n o h => (by cases h), fun n o h => (by cases h), fun n o h => (by cases h)⟩
  have hc : Complete s := hc0.adds h3 (Or.inr ⟨hden, by
    intro b hb
    obtain ⟨k, -, rfl⟩ := List.mem_map.1 hb
    show 1e-10 < enclosedVolume (create_box w h d).1 (create_box w h d).2
    rw [(C33_box w h d).2.2]; exact hv⟩)
  have hts : s.eng.params.time_step = 0.01 := by rw [h3.rest.2.2.2]; rfl
  obtain ⟨W, C, a1, a2, -, a4⟩ := C95_scene hsd goodGeo_default h2.good hc (by rw [hts]; norm_num)
  obtain ⟨s', dts, b1, -, -, -, -, b2, b3⟩ := a4 T hT
  exact ⟨names, s, W, C, s', h1, h4, a1, a2, b1, b2, b3⟩

/-- A tower of ten unit boxes, with a distance field that reports one everywhere, simulated for a second. -/
example (eig : Eig) (he : EigSpec eig) : ∃ names s W C s', create_box_stack eig 1 1 1 10 1 "default" freshScene = .ok (names, s) ∧
    names.length = 10 ∧ s.eng.toWorld = some W ∧
    (∀ i, s.collider (fun nodes _ _ => nodes.map fun _ => 1) GeoParams.init (W.bodies i) = .ok (C i)) ∧
    fullSimulate GeoParams.init.toCDParams (W, C) 1 = .ok s' ∧ SameWorld (W, C) s' ∧ Simulable s' :=
  C95_box_stack he one_pos one_pos one_pos (by norm_num) 10 one_ne_zero (fun _ _ _ => by simp) one_pos

end Verif
