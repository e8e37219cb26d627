import Verif.Props.SoftApp
import Verif.Props.FullSoftScene

/-! C123: the soft body application: the theorems about `initialize_usd` and `simulate`, and about the calls that make a scene. -/

namespace Verif

open Soft SoftApp

/-- `np.round`: the nearest integer, the even one if two are equally near. -/
theorem npRound_spec (x : ℝ) : |(npRound x : ℝ) - x| ≤ 1 / 2 ∧ (|(npRound x : ℝ) - x| = 1 / 2 → Even (npRound x)) := by
  have h0 := Int.floor_le x
  have h1 := Int.lt_floor_add_one x
  unfold npRound
  split_ifs with c1 c2 c3
  · refine ⟨abs_le.2 ⟨by linarith, by linarith⟩, fun h => ?_⟩
    rw [abs_of_nonpos (by linarith)] at h
    linarith
  · push_cast
    refine ⟨abs_le.2 ⟨by linarith, by linarith⟩, fun h => ?_⟩
    rw [abs_of_nonneg (by linarith)] at h
    linarith
  · exact ⟨abs_le.2 ⟨by linarith, by linarith⟩, fun _ => Int.even_iff.2 c3⟩
  · push_cast
    refine ⟨abs_le.2 ⟨by linarith, by linarith⟩, fun _ => ?_⟩
    rw [Int.even_iff]
    omega

/-! ### The faces in the film -/

/-- The faces of the tetrahedra of a body (`C62_to_triangles` says which they are). -/
def tetFaces (b : SoftBody) : List VMesh.Tri := VMesh.to_triangles (List.ofFn fun e => ⟨b.T e 0, b.T e 1, b.T e 2, b.T e 3⟩)

open Usd in
/-- The faces of a prim. -/
def facesOf (p : Prim) : Option (List ℕ) × Option (List ℕ) := (p.counts, p.indices)

open Usd in
theorem updateMeshes_faces {px : Pxr} {skip : List String} {t : ℝ} {L : List (String × Slot)} {u u' : USD} (h : updateMeshes px skip t u L = .ok u') (name : String) :
    (u'.stage.prims.get? name).map facesOf = (u.stage.prims.get? name).map facesOf := by
  induction L generalizing u with
  | nil => rw [updateMeshes] at h; obtain rfl := Except.ok.inj h; rfl
  | cons kv L ih =>
    obtain ⟨k, s⟩ := kv
    cases s with
    | broken =>
      rw [updateMeshes] at h
      split_ifs at h
      exact ih h
    | ready b =>
      rw [updateMeshes] at h
      split_ifs at h
      · exact ih h
      · cases hr : raising (set_mesh_positions px u b.name (List.ofFn b.x) t) with
        | error e => rw [hr] at h; cases h
        | ok u1 =>
          rw [hr] at h
          obtain ⟨-, rfl⟩ := raising_ok hr
          rw [ih h]
          have e := call_prim (px := px) u (.setPositions b.name (List.ofFn b.x) t) name
          simp only [call] at e
          rw [e]
          simp only [primAfter]
          split_ifs
          · cases u.stage.prims.get? name <;> rfl
          · rfl

open Usd in
theorem renderLoop_faces {V : Env} {ts rdt fps : ℝ} {skip : List String} {L : List ℕ} {w : World} {u0 : USD} {s : World × Option USD}
    (h : renderLoop V ts rdt fps true skip L (w, some u0) = .ok s) :
    ∃ u1, s.2 = some u1 ∧ ∀ name, (u1.stage.prims.get? name).map facesOf = (u0.stage.prims.get? name).map facesOf := by
  induction L generalizing w u0 with
  | nil => rw [renderLoop] at h; obtain rfl := Except.ok.inj h; exact ⟨u0, rfl, fun _ => rfl⟩
  | cons k L ih =>
    rw [renderLoop] at h
    cases hloop : whileLoop (simTrip V ts) (w, rdt) with
    | error e => rw [hloop] at h; cases h
    | ok s1 =>
      rw [hloop] at h
      simp only [bind, Except.bind, if_true] at h
      cases hup : updateMeshes V.px skip (↑k * rdt * fps) u0 s1.1.eng.bodies.entries with
      | error e => rw [hup] at h; cases h
      | ok u1 =>
        rw [hup] at h
        simp only at h
        obtain ⟨u2, a, b⟩ := ih h
        exact ⟨u2, a, fun name => (b name).trans (updateMeshes_faces hup name)⟩

/-- **C123** (number of frames). A film of T seconds with fps frames per second has as many frames as the integer nearest to T · fps. -/
theorem C123_frames {T fps : ℝ} (h : 0 ≤ T * fps) : |(frameCount T fps : ℝ) - T * fps| ≤ 1 / 2 := by
  obtain ⟨h1, -⟩ := npRound_spec (T * fps)
  unfold frameCount
  have h0 : 0 ≤ npRound (T * fps) := by
    by_contra c
    have : (npRound (T * fps) : ℝ) ≤ -1 := by exact_mod_cast (by omega : npRound (T * fps) ≤ -1)
    have := (abs_le.1 h1).1
    linarith
  have e : ((npRound (T * fps)).toNat : ℝ) = (npRound (T * fps) : ℝ) := by
    have := Int.toNat_of_nonneg h0
    exact_mod_cast this
  rw [e]
  exact h1

/-- **C123** (what is simulated). A successful `simulate` has carried the scene in round(T · fps) intervals of 1/fps seconds each, every interval in
steps of the simulator that are not longer than its time step; without recording nothing else has changed. -/
theorem C123_simulate {V : Env} {app app' : SoftApp} (hok : SoftOk app.scene.eng) (hts : 0 < app.scene.eng.params.time_step) {T fps : ℝ} (hfps : 0 < fps)
    {upd : Bool} {skip : List String} (h : simulate V app T fps upd skip = .ok app') :
    (∃ ws : ℕ → World, ws 0 = app.scene ∧ app'.scene = ws (frameCount T fps) ∧ ∀ k < frameCount T fps, Advances V (1 / fps) (ws k) (ws (k + 1))) ∧
    (upd = false → app'.usd = app.usd) ∧ (upd = true → app.usd ≠ none) := by
  obtain ⟨usd, s, h1, h2, h3, h4, rfl⟩ := simulate_ok hfps h
  have hp : 0 < 1 / fps := one_div_pos.2 hfps
  obtain ⟨ws, a1, a2, a3, -, a5, -⟩ := renderLoop_spec hts hp (by field_simp) List.nodup_range rfl (named_of_ok hok) h3
  rw [List.length_range] at a2 a3
  refine ⟨⟨ws, a1, a2, a3⟩, fun hu => ?_, fun hu => ?_⟩
  · subst hu
    simp only [Bool.false_eq_true, if_false]
    rw [a5 rfl, h2 rfl]
  · obtain ⟨u, e, -⟩ := h1 hu
    rw [e]
    simp

open Usd in
/-- **C123** (the film). `initialize_usd`, then `simulate`: the file that is saved has round(T · fps) frames.  Under frame number k it shows every body
that is not excluded where the simulator has it after k + 1 intervals — the scene at the time (k + 1)/fps, not k/fps; the start is not in the film.
Every body has the four faces of each of its tetrahedra.  Before frame 0 and after the last frame it shows the first and the last of them.  The excluded bodies stand undeformed.  The film runs from 0 to T · fps, but
the number of frames per second is not recorded. -/
theorem C123_film {V : Env} {app0 app app' : SoftApp} (hok : SoftOk app0.scene.eng) (hts : 0 < app0.scene.eng.params.time_step) {T fps : ℝ} (hfps : 0 < fps)
    {skip : List String} (hi : initialize_usd V app0 = .ok app) (h : simulate V app T fps true skip = .ok app') :
    ∃ (ws : ℕ → World) (stage : Stage), ws 0 = app0.scene ∧ app'.scene = ws (frameCount T fps) ∧
      (∀ k < frameCount T fps, Advances V (1 / fps) (ws k) (ws (k + 1))) ∧ app'.usd.bind (·.file) = some stage ∧
      stage.startTime = some 0 ∧ stage.endTime = some (T * fps) ∧ stage.fps = none ∧
      (∀ name b0, HasBody app0.scene.eng name b0 → ∃ p, stage.prims.get? name = some p ∧ p.counts = some ((tetFaces b0).map fun _ => 3) ∧
        p.indices = some ((tetFaces b0).flatMap fun f => [f.a, f.b, f.c])) ∧
      (∀ name b0, HasBody app0.scene.eng name b0 → name ∈ skip → ∀ t, shownAt stage name t = some (V.px.vec3f (List.ofFn b0.x0))) ∧
      ∀ name, name ∉ skip → ∀ k < frameCount T fps, ∀ b, HasBody (ws (k + 1)).eng name b →
        shownAt stage name k = some (V.px.vec3f (List.ofFn b.x)) ∧
        (k = 0 → ∀ t < 0, shownAt stage name t = some (V.px.vec3f (List.ofFn b.x))) ∧
        (k + 1 = frameCount T fps → ∀ t : ℝ, (k : ℝ) < t → shownAt stage name t = some (V.px.vec3f (List.ofFn b.x))) := by
  have hn := named_of_ok hok
  unfold initialize_usd at hi
  cases hadd : addMeshes V.px Usd.new app0.scene.eng.bodies.entries with
  | error e => rw [hadd] at hi; cases hi
  | ok u0 =>
  rw [hadd] at hi
  replace hi := Except.ok.inj hi
  subst hi
  obtain ⟨i1, -, ⟨-, -, i4⟩, i5, i6⟩ := addMeshes_spec ⟨[], rfl⟩ hn.1 (fun k b hb => hn.2 k b (has_of_mem hn.1 hb)) (fun _ _ => rfl) hadd
  obtain ⟨usd, s, h1, -, h3, -, rfl⟩ := simulate_ok hfps h
  obtain ⟨u, hu, rfl⟩ := h1 rfl
  injection hu with hu
  subst hu
  have hp : 0 < 1 / fps := one_div_pos.2 hfps
  have hreach : Reach V.px (set_animation_time u0 (T * fps)) := by
    obtain ⟨hist, rfl⟩ := i1
    exact ⟨hist ++ [.setTime (T * fps)], by rw [run_snoc]; rfl⟩
  obtain ⟨ws, a1, a2, a3, a4, -, a6⟩ := renderLoop_spec hts hp (by field_simp) List.nodup_range rfl hn h3
  rw [List.length_range] at a2 a3 a4
  obtain ⟨u1, b1, b2, b3, b4, ⟨b5, b6, b7⟩, b8, b9, b10⟩ := a6 _ rfl rfl hreach
  have hkeys : ∀ k ≤ frameCount T fps, (ws k).eng.bodies.keys = app0.scene.eng.bodies.keys := by
    intro k
    induction k with
    | zero => intro _; rw [a1]
    | succ k ih => intro hk; rw [(a3 k (by omega)).same.2.1]; exact ih (by omega)
  refine ⟨ws, u1.stage, a1, a2, a3, ?_, b5, b6, ?_, ?_, ?_, ?_⟩
  · simp only [if_true, b1, Option.map_some, Option.bind_some]
    rfl
  · rw [b7]
    exact i4
  · intro name body hbody
    obtain ⟨-, -, p, hp', -, -, hidx, hcnt⟩ := i6 name body (mem_of_has hbody)
    obtain ⟨u2, e1, e2⟩ := renderLoop_faces h3
    rw [b1] at e1
    obtain rfl := Option.some.inj e1
    have e3 := e2 name
    replace hp' : (set_animation_time u0 (T * fps)).stage.prims.get? name = some p := hp'
    rw [hp'] at e3
    obtain ⟨q, hq, hf⟩ := Option.map_eq_some_iff.1 e3
    refine ⟨q, hq, ?_, ?_⟩
    · rw [(Prod.mk.inj hf).1, hcnt]
      simp [faceRows, tetFaces, Function.comp_def]
    · rw [(Prod.mk.inj hf).2, hidx]
      simp [faceRows, tetFaces, List.flatMap]
  · intro name body hbody hskip t
    obtain ⟨-, -, p, hp', hd, hs, -⟩ := i6 name body (mem_of_has hbody)
    unfold shownAt
    rw [b8 name (Or.inl hskip)]
    change (u0.stage.prims.get? name).bind _ = _
    rw [hp']
    simp only [Option.bind_some]
    rw [get_default (hn := by rw [Dict.keys, keys_nil hs]; simp) hs, hd]
  · intro name hname k hk b hb
    have hget : (List.range (frameCount T fps))[k]? = some k := by
      rw [List.getElem?_range hk]
    have hsamp := b10 k k hget name b hb hname
    obtain ⟨hist, rfl⟩ := b2
    have hmem : name ∈ app0.scene.eng.bodies.keys := by
      rw [← hkeys (k + 1) (by omega)]
      exact List.mem_map.2 ⟨_, mem_of_has hb, rfl⟩
    obtain ⟨kv, hkv, hkv1⟩ := List.mem_map.1 hmem
    have hready : ∃ b0, kv.2 = .ready b0 := by
      have : ∀ (L : List (String × Slot)) (u u' : USD), addMeshes V.px u L = .ok u' → ∀ kv ∈ L, ∃ b0, kv.2 = .ready b0 := by
        intro L
        induction L with
        | nil => intro u u' _ kv hkv; exact absurd hkv (by simp)
        | cons kv0 L ih =>
          intro u u' hh kv hkv
          obtain ⟨k0, s0⟩ := kv0
          cases s0 with
          | broken => cases hh
          | ready b0 =>
            rw [addMeshes] at hh
            cases hr : raising (add_mesh V.px u b0.name (List.ofFn b0.x0) (faceRows b0)) with
            | error e => rw [hr] at hh; cases hh
            | ok u2 =>
              rw [hr] at hh
              rcases List.mem_cons.1 hkv with rfl | hkv
              · exact ⟨b0, rfl⟩
              · exact ih u2 u' hh kv hkv
      exact this _ _ _ hadd kv hkv
    obtain ⟨body, hbody⟩ := hready
    obtain ⟨k0, s0⟩ := kv
    dsimp only at hkv1 hbody
    subst hkv1 hbody
    obtain ⟨-, -, p0, hp0, -, hnone, -⟩ := i6 k0 body hkv
    have only : ∀ t W, sampleAt ((run V.px new hist).stage.prims.get? k0) t = some W → ∃ j < frameCount T fps, t = (j : ℝ) := by
      intro t W hW
      by_contra c
      push_neg at c
      rw [b9 k0 t (fun j hj => c j (List.mem_range.1 hj))] at hW
      change (u0.stage.prims.get? k0).bind _ = _ at hW
      rw [hp0] at hW
      simp only [Option.bind_some, hnone] at hW
      cases hW
    have hsound := sound V.px hist k0
    unfold shownAt
    cases hprim : (run V.px new hist).stage.prims.get? k0 with
    | none => rw [hprim] at hsamp; cases hsamp
    | some p =>
      rw [hprim] at hsamp only
      simp only [sampleAt, Option.bind_some] at hsamp only
      have hnd := hsound.nodup p hprim
      simp only [Option.bind_some]
      refine ⟨get_at hnd hsamp, ?_, ?_⟩
      · rintro rfl t ht
        refine get_before hnd hsamp (by simpa using ht) fun s W hW => ?_
        obtain ⟨j, -, rfl⟩ := only s W hW
        simp
      · intro hlast t ht
        refine get_after hnd hsamp ht fun s W hW => ?_
        obtain ⟨j, hj, rfl⟩ := only s W hW
        exact_mod_cast (by omega : j ≤ k)

open Usd in
/-- **C123** (requests that fail). Recording without a recorder is a ValueError before anything is simulated; zero frames per second are a
ZeroDivisionError; when there is no frame to simulate and nothing was simulated before, the request for the log fails with an AttributeError. -/
theorem C123_errors (V : Env) (app : SoftApp) (T fps : ℝ) (upd : Bool) (skip : List String) :
    (fps ≠ 0 → app.usd = none → simulate V app T fps true skip = .error .valueError) ∧
    simulate V app T 0 upd skip = .error .zeroDivision ∧
    (fps ≠ 0 → frameCount T fps = 0 → (upd = true → app.usd ≠ none) → app.scene.eng.stepper = none → simulate V app T fps upd skip = .error .attributeError) := by
  refine ⟨fun hf hu => ?_, ?_, fun hf hc hu hst => ?_⟩
  · unfold SoftApp.simulate
    dsimp only
    rw [if_neg hf, hu]
    rfl
  · unfold SoftApp.simulate
    simp
  · unfold SoftApp.simulate
    dsimp only
    have e : T / (1.0 / fps) = T * fps := by rw [lit1]; field_simp
    have hc' : (npRound (T / (1.0 / fps))).toNat = 0 := by rw [e]; exact hc
    rw [if_neg hf, hc']
    cases upd with
    | false => simp [renderLoop, bind, Except.bind, pure, Except.pure, hst]
    | true =>
      cases hu' : app.usd with
      | none => exact absurd hu' (hu rfl)
      | some u => simp [renderLoop, bind, Except.bind, pure, Except.pure, hst]

/-- **C123** (a time step that is not positive). `simulate` is a ValueError when there is a frame to simulate. -/
theorem C123_bad_time_step {V : Env} {app : SoftApp} (hts : app.scene.eng.params.time_step ≤ 0) {T fps : ℝ} (hfps : 0 < fps) (hn : 0 < frameCount T fps)
    (upd : Bool) (skip : List String) : simulate V app T fps upd skip = .error .valueError := by
  obtain ⟨m, hm⟩ : ∃ m, frameCount T fps = m + 1 := ⟨frameCount T fps - 1, by omega⟩
  have hp : 0 < 1 / fps := one_div_pos.2 hfps
  have hsim : (World.simulateLogged V.eps V.listOf V.P true (app.scene, []) (min (1 / fps) app.scene.eng.params.time_step)).map Prod.fst = .error .valueError := by
    unfold World.simulateLogged
    rw [if_pos (le_trans (min_le_right _ _) hts)]
    rfl
  have hl : whileLoop (SoftApp.simTrip V app.scene.eng.params.time_step) (app.scene, 1 / fps) = .error .valueError := by
    refine whileLoop_eq (.raised ?_)
    simp only [SoftApp.simTrip, gt_iff_lt, if_pos hp, hsim]
  have e : T / (1 / fps) = T * fps := by field_simp
  have hc : (npRound (T / (1 / fps))).toNat = m + 1 := by rw [e]; exact hm
  unfold SoftApp.simulate
  dsimp only
  rw [if_neg hfps.ne', lit1, hc, List.range_succ_eq_map]
  cases upd with
  | false => simp only [renderLoop, bind, Except.bind, pure, Except.pure, hl, Bool.false_eq_true, if_false]
  | true =>
    cases hu' : app.usd with
    | none => rfl
    | some u => simp only [renderLoop, bind, Except.bind, pure, Except.pure, hl, if_true]

/-! ### What the application does not do -/

/-- **C123** (the time step of the constructor). Whatever time step is given, the scene that is made and simulated has the time step 0.001 of the package:
the attribute that the constructor sets is never read. -/
theorem C123_time_step_ignored (V : Env) (ts : ℝ) :
    (SoftApp.init V ts).scene.eng.params.time_step = 0.001 ∧ (∀ ts', (SoftApp.init V ts).scene = (SoftApp.init V ts').scene) ∧
    ∀ (app : SoftApp) (T fps : ℝ) (upd : Bool) (skip : List String),
      simulate V { app with time_step := ts } T fps upd skip = (simulate V app T fps upd skip).map fun a => { a with time_step := ts } := by
  refine ⟨rfl, fun _ => rfl, fun app T fps upd skip => ?_⟩
  unfold SoftApp.simulate
  dsimp only
  split_ifs with c1 c2
  · rfl
  · cases hu : app.usd with
    | none => rfl
    | some u =>
      simp only [bind, Except.bind, pure, Except.pure]
      cases renderLoop V app.scene.eng.params.time_step (1.0 / fps) fps upd skip (List.range (npRound (T / (1.0 / fps))).toNat)
          (app.scene, some (Usd.set_animation_time u (T * fps))) with
      | error e => rfl
      | ok s => dsimp only; split_ifs <;> rfl
  · simp only [bind, Except.bind, pure, Except.pure]
    cases renderLoop V app.scene.eng.params.time_step (1.0 / fps) fps upd skip (List.range (npRound (T / (1.0 / fps))).toNat) (app.scene, app.usd) with
    | error e => rfl
    | ok s => dsimp only; split_ifs <;> rfl

open Classical in
/-- **C123** (materials). With a name that is not taken, a known model, a positive viscosity and parameters in the legal range, `create_soft_material` adds
one material with these parameters — and the damping coefficient 0: the viscosity is tested and then forgotten. -/
theorem C123_material {V : Env} {app : SoftApp} {name : String} (hname : app.scene.eng.materials.mem name = false) {E nu rho : ℝ} (hE : 0 < E) (hnu : 0 ≤ nu ∧ nu ≤ 0.5)
    (hrho : 0 ≤ rho) {model : String} {law : (M3 → ℝ → ℝ → Except PyErr M3) × (M3 → ℝ → ℝ → Except PyErr ℝ)} (hlaw : MODEL_MAP V model = some law)
    {viscosity : ℝ} (hv : 0 < viscosity) :
    create_soft_material V name E nu rho model viscosity app =
      ({ app with scene := { app.scene with eng := { app.scene.eng with materials := app.scene.eng.materials.setItem name ⟨law.1, law.2, 0, rho, E, nu, name⟩ } } }, none) := by
  have hset : ∀ m m' : Material, (app.scene.eng.materials.setItem name m).setItem name m' = app.scene.eng.materials.setItem name m' := fun m m' => setItem_setItem _ _ _ _
  have hfind : ∀ (w : Soft.Engine) (m : Material), ({ w with materials := app.scene.eng.materials.setItem name m } : Soft.Engine).findMaterial name = .ok m := by
    intro w m
    unfold Engine.findMaterial
    simp only [Dict.get?_setItem_self]
  unfold create_soft_material
  rw [hlaw]
  dsimp only
  rw [if_neg (not_le.2 hv)]
  unfold Call.andThen api Engine.create_material Engine.set_elasticity Engine.set_mass_density Engine.set_constitutive_model
  have hnu' : ¬ (nu < 0 ∨ nu > 0.5) := by
    rintro (h | h)
    · linarith [hnu.1]
    · exact absurd h (not_lt.2 hnu.2)
  simp only [hname, Bool.false_eq_true, if_false, hfind, bind, Except.bind, if_neg (not_le.2 hE), if_neg hnu', if_neg (not_lt.2 hrho), pure, Except.pure,
    Engine.putMaterial, hset]
  rfl

/-- **C123** (the viscosity of a material is not used). -/
theorem C123_viscosity_ignored (V : Env) (name : String) (E nu rho : ℝ) (model : String) {v v' : ℝ} (hv : 0 < v) (hv' : 0 < v') :
    create_soft_material V name E nu rho model v = create_soft_material V name E nu rho model v' := by
  unfold create_soft_material
  simp only [if_neg (not_le.2 hv), if_neg (not_le.2 hv')]

open Classical in
/-- **C123** (a material that is refused stays). When only Young's modulus is out of range the call is a ValueError, but the name is taken, by a material
with the default values; the same call with legal values is then a ValueError too. -/
theorem C123_material_not_atomic {V : Env} {app : SoftApp} {name : String} (hname : app.scene.eng.materials.mem name = false) {E nu rho : ℝ} (hE : E ≤ 0)
    {model : String} (hlaw : MODEL_MAP V model ≠ none) {viscosity : ℝ} (hv : 0 < viscosity) :
    (create_soft_material V name E nu rho model viscosity app).2 = some .valueError ∧
    (create_soft_material V name E nu rho model viscosity app).1.scene.eng.materials.get? name = some { Material.init V.eigh with name := name } ∧
    ∀ E' nu' rho' model' v', (create_soft_material V name E' nu' rho' model' v' (create_soft_material V name E nu rho model viscosity app).1).2 = some .valueError := by
  obtain ⟨law, hlaw⟩ := Option.ne_none_iff_exists'.1 hlaw
  have hfind : ∀ (w : Soft.Engine) (m : Material), ({ w with materials := app.scene.eng.materials.setItem name m } : Soft.Engine).findMaterial name = .ok m := by
    intro w m
    unfold Engine.findMaterial
    simp only [Dict.get?_setItem_self]
  have hrun : create_soft_material V name E nu rho model viscosity app = ({ app with scene := { app.scene with eng := { app.scene.eng with
      materials := app.scene.eng.materials.setItem name { Material.init V.eigh with name := name } } } }, some .valueError) := by
    unfold create_soft_material
    rw [hlaw]
    dsimp only
    rw [if_neg (not_le.2 hv)]
    unfold Call.andThen api Engine.create_material Engine.set_elasticity
    simp only [hname, Bool.false_eq_true, if_false, hfind, bind, Except.bind, if_pos hE]
  rw [hrun]
  refine ⟨rfl, Dict.get?_setItem_self _ _ _, fun E' nu' rho' model' v' => ?_⟩
  unfold create_soft_material
  cases MODEL_MAP V model' with
  | none => rfl
  | some law' =>
    dsimp only
    split_ifs
    · rfl
    · have hmem : (app.scene.eng.materials.setItem name { Material.init V.eigh with name := name }).mem name = true :=
        Dict.mem_of_get? (Dict.get?_setItem_self _ _ _)
      unfold Call.andThen api Engine.create_material
      simp only [hmem, if_true]

/-- **C123** (damping). `set_damping_coefficient` changes the coefficient of the material and nothing else — no range is checked — so a body that was given
the material before keeps the damping forces it had. -/
theorem C123_damping {app : SoftApp} {name : String} {m : Material} (hm : app.scene.eng.materials.get? name = some m) (c : ℝ) :
    (set_damping_coefficient name c app).2 = none ∧ (set_damping_coefficient name c app).1.scene.eng.materials.get? name = some { m with c := c } ∧
    (∀ other ≠ name, (set_damping_coefficient name c app).1.scene.eng.materials.get? other = app.scene.eng.materials.get? other) ∧
    (set_damping_coefficient name c app).1.scene.eng.bodies = app.scene.eng.bodies := by
  unfold set_damping_coefficient api Engine.putMaterial
  simp only [hm]
  exact ⟨trivial, Dict.get?_setItem_self _ _ _, fun other ho => Dict.get?_setItem_ne _ _ ho, trivial⟩

end Verif
