import Verif.Model.UsdApp
import Verif.Props.Usd

/-! C118: what the rigid body application writes into its animation file. -/

namespace Verif

namespace Usd

variable {px : Pxr} {σ : Type} {Good : σ → Prop}

/-- The stage is the animation of the scene `e0` over so many steps: its vertices and triangles are those of the scene's bodies, and at each step each body stands where the simulation,
run from `e0`, has it. -/
def Film (px : Pxr) (S : Sim σ) (e0 : σ) (steps : ℕ) (stage : Stage) : Prop :=
  ∃ e : ℕ → σ, e 0 = e0 ∧ (∀ s < steps, S.simulate (e s) = .ok (e (s + 1))) ∧
    stage.startTime = some 0 ∧ stage.endTime = some (steps : ℝ) ∧ stage.fps = some ((steps : ℝ) / 10) ∧
    (∀ b ∈ S.bodies e0, ∀ t : ℝ, ((stage.prims.get? b.name).bind fun p => p.points.get t) = some (px.vec3f b.V)) ∧
    (∀ b ∈ S.bodies e0, ∃ p, stage.prims.get? b.name = some p ∧ p.counts = some (b.T.map fun _ => 3) ∧ p.indices = some (b.T.flatMap fun t => [t.1, t.2.1, t.2.2])) ∧
    ∀ s < steps, ∀ b ∈ S.bodies (e s), ∀ p, placed stage b.name s p = some (Quat.rotate b.q p + b.r)

/-- A recorder that some calls have led to. -/
def Reach (px : Pxr) (u : USD) : Prop := ∃ h, u = run px new h

/-- The mesh of a prim: its points and its faces. -/
def mesh (p : Prim) : Attr × Option (List ℕ) × Option (List ℕ) := (p.points, p.counts, p.indices)

/-- What is kept when bodies are recorded. -/
structure Keeps (u u' : USD) : Prop where
  handle : ∀ n, u'.meshes.get? n = u.meshes.get? n
  points : ∀ n, (u'.stage.prims.get? n).map mesh = (u.stage.prims.get? n).map mesh
  start : u'.stage.startTime = u.stage.startTime
  stop : u'.stage.endTime = u.stage.endTime
  fps : u'.stage.fps = u.stage.fps

theorem Keeps.trans {u v w : USD} (h : Keeps u v) (h' : Keeps v w) : Keeps u w :=
  ⟨fun n => (h'.handle n).trans (h.handle n), fun n => (h'.points n).trans (h.points n), h'.start.trans h.start, h'.stop.trans h.stop, h'.fps.trans h.fps⟩

theorem raising_ok {r : Except PyErr Unit × USD} {u : USD} (h : raising r = .ok u) : r.1 = .ok () ∧ r.2 = u := by
  unfold raising at h
  split at h
  · exact ⟨by assumption, Except.ok.inj h⟩
  · cases h

theorem edit_time (s : Stage) (n : String) (f : Prim → Prim) : (s.edit n f).startTime = s.startTime ∧ (s.edit n f).endTime = s.endTime ∧ (s.edit n f).fps = s.fps := by
  unfold Stage.edit
  split <;> exact ⟨rfl, rfl, rfl⟩

theorem define_time (s : Stage) (n : String) : (s.define n).startTime = s.startTime ∧ (s.define n).endTime = s.endTime ∧ (s.define n).fps = s.fps := by
  unfold Stage.define
  split_ifs <;> exact ⟨rfl, rfl, rfl⟩

theorem update_time (u : USD) (n : String) (r q : List ℝ) (t : ℝ) : (update_rigid_body u n r q t).2.stage.startTime = u.stage.startTime ∧
    (update_rigid_body u n r q t).2.stage.endTime = u.stage.endTime ∧ (update_rigid_body u n r q t).2.stage.fps = u.stage.fps := by
  unfold update_rigid_body set_translation set_orientation
  cases u.meshes.get? n with
  | none => exact ⟨rfl, rfl, rfl⟩
  | some hh =>
    cases hh with
    | mesh => exact ⟨rfl, rfl, rfl⟩
    | rigid =>
      by_cases c1 : r.length = 3
      · by_cases c2 : q.length = 4 <;> simp [c1, c2, edit_time]
      · simp [c1]

theorem update1_spec {u u' : USD} (hu : Reach px u) {b : GuiBody} {t : ℝ} (h : update1 u b t = .ok u') : Reach px u' ∧ Keeps u u' ∧
    PoseAt (u'.stage.prims.get? b.name) t [b.r.x, b.r.y, b.r.z] [b.q.s, b.q.x, b.q.y, b.q.z] ∧
    ∀ n s r q, (s ≠ t ∨ n ≠ b.name) → PoseAt (u.stage.prims.get? n) s r q → PoseAt (u'.stage.prims.get? n) s r q := by
  obtain ⟨ok, rfl⟩ := raising_ok h
  obtain ⟨hist, rfl⟩ := hu
  have ok' : (call px (run px new hist) (.updateRigid b.name [b.r.x, b.r.y, b.r.z] [b.q.s, b.q.x, b.q.y, b.q.z] t)).1 = .ok () := ok
  have hm := (update_ok rfl rfl).1 ok'
  have e : ∀ n, (update_rigid_body (run px new hist) b.name [b.r.x, b.r.y, b.r.z] [b.q.s, b.q.x, b.q.y, b.q.z] t).2.stage.prims.get? n = _ :=
    call_prim (px := px) (run px new hist) (.updateRigid b.name [b.r.x, b.r.y, b.r.z] [b.q.s, b.q.x, b.q.y, b.q.z] t)
  have eh : ∀ n, (update_rigid_body (run px new hist) b.name [b.r.x, b.r.y, b.r.z] [b.q.s, b.q.x, b.q.y, b.q.z] t).2.meshes.get? n = _ :=
    call_handle (px := px) (run px new hist) (.updateRigid b.name [b.r.x, b.r.y, b.r.z] [b.q.s, b.q.x, b.q.y, b.q.z] t)
  obtain ⟨t1, t2, t3⟩ := update_time (run px new hist) b.name [b.r.x, b.r.y, b.r.z] [b.q.s, b.q.x, b.q.y, b.q.z] t
  refine ⟨⟨hist ++ [.updateRigid b.name [b.r.x, b.r.y, b.r.z] [b.q.s, b.q.x, b.q.y, b.q.z] t], by rw [run_snoc]; rfl⟩, ⟨fun n => eh n, fun n => ?_, t1, t2, t3⟩, ?_, ?_⟩
  · rw [e]
    simp only [primAfter]
    split_ifs
    · cases (run px new hist).stage.prims.get? n <;> rfl
    · cases (run px new hist).stage.prims.get? n <;> rfl
    · rfl
  · rw [e, hm]
    have hs := sound px hist b.name
    rw [hm] at hs
    exact pose_after hs _ _ rfl rfl
  · intro n s r q hne hp
    rw [e]
    refine pose_stays hp ?_
    rintro r' q' ec
    cases ec
    rcases hne with hne | hne <;> exact hne rfl

theorem updateBodies_spec {u u' : USD} (hu : Reach px u) {L : List GuiBody} (hL : (L.map (·.name)).Nodup) {t : ℝ} (h : updateBodies u L t = .ok u') :
    Reach px u' ∧ Keeps u u' ∧ (∀ b ∈ L, PoseAt (u'.stage.prims.get? b.name) t [b.r.x, b.r.y, b.r.z] [b.q.s, b.q.x, b.q.y, b.q.z]) ∧
    ∀ n s r q, (s ≠ t ∨ n ∉ L.map (·.name)) → PoseAt (u.stage.prims.get? n) s r q → PoseAt (u'.stage.prims.get? n) s r q := by
  induction L generalizing u with
  | nil =>
    obtain rfl := Except.ok.inj h
    exact ⟨hu, ⟨fun _ => rfl, fun _ => rfl, rfl, rfl, rfl⟩, by simp, fun n s r q _ hp => hp⟩
  | cons b L ih =>
    rw [updateBodies] at h
    cases h1 : update1 u b t with
    | error e => rw [h1] at h; cases h
    | ok v =>
      rw [h1] at h
      simp only [List.map_cons, List.nodup_cons] at hL
      obtain ⟨a1, a2, a3, a4⟩ := update1_spec hu h1
      obtain ⟨b1, b2, b3, b4⟩ := ih a1 hL.2 h
      refine ⟨b1, a2.trans b2, ?_, ?_⟩
      · intro c hc
        rcases List.mem_cons.1 hc with rfl | hc
        · exact b4 _ _ _ _ (Or.inr hL.1) a3
        · exact b3 c hc
      · intro n s r q hne hp
        have hne' : s ≠ t ∨ (n ≠ b.name ∧ n ∉ L.map (·.name)) := by simpa using hne
        exact b4 _ _ _ _ (hne'.imp id And.right) (a4 _ _ _ _ (hne'.imp id And.left) hp)

/-- A mesh that was added and has no recorded positions. -/
def Stands (px : Pxr) (u : USD) (n : String) (V : List V3) (T : List (ℕ × ℕ × ℕ)) : Prop :=
  u.meshes.get? n = some .rigid ∧ ∃ pts, (u.stage.prims.get? n).map mesh = some (pts, some (T.map fun _ => 3), some (T.flatMap fun t => [t.1, t.2.1, t.2.2])) ∧
    pts.dflt = some (px.vec3f V) ∧ pts.samples = .empty

theorem Stands.keep {u u' : USD} {n : String} {V : List V3} {T : List (ℕ × ℕ × ℕ)} (h : Stands px u n V T) (hk : Keeps u u') : Stands px u' n V T := by
  obtain ⟨h1, pts, h2, h3⟩ := h
  exact ⟨(hk.handle n).trans h1, pts, (hk.points n).trans h2, h3⟩

theorem Stands.get {u : USD} {n : String} {V : List V3} {T : List (ℕ × ℕ × ℕ)} (h : Stands px u n V T) (t : ℝ) :
    ((u.stage.prims.get? n).bind fun p => p.points.get t) = some (px.vec3f V) := by
  obtain ⟨-, pts, h2, h3, h4⟩ := h
  obtain ⟨p, hp, hm⟩ := Option.map_eq_some_iff.1 h2
  obtain ⟨rfl, -⟩ := Prod.mk.inj hm
  rw [hp, Option.bind_some, get_default (by simp [h4, Dict.keys, Dict.empty]) (by simp [h4]), h3]

theorem Stands.faces {u : USD} {n : String} {V : List V3} {T : List (ℕ × ℕ × ℕ)} (h : Stands px u n V T) :
    ∃ p, u.stage.prims.get? n = some p ∧ p.counts = some (T.map fun _ => 3) ∧ p.indices = some (T.flatMap fun t => [t.1, t.2.1, t.2.2]) := by
  obtain ⟨-, pts, h2, -⟩ := h
  obtain ⟨p, hp, hm⟩ := Option.map_eq_some_iff.1 h2
  exact ⟨p, hp, (Prod.mk.inj (Prod.mk.inj hm).2).1, (Prod.mk.inj (Prod.mk.inj hm).2).2⟩

/-- No prim stands at a name that is not known. -/
def Clean (u : USD) : Prop := ∀ n, u.meshes.get? n = none → u.stage.prims.get? n = none

theorem add1_spec {u u' : USD} (hu : Reach px u) (hc : Clean u) {b : GuiBody} (h : raising (add_rigid_body px u b.name b.V b.T) = .ok u') :
    Reach px u' ∧ Clean u' ∧ Stands px u' b.name b.V b.T ∧ (∀ n ≠ b.name, u'.meshes.get? n = u.meshes.get? n ∧ u'.stage.prims.get? n = u.stage.prims.get? n) ∧
    u.meshes.get? b.name = none ∧
    u'.stage.startTime = u.stage.startTime ∧ u'.stage.endTime = u.stage.endTime ∧ u'.stage.fps = u.stage.fps := by
  obtain ⟨ok, rfl⟩ := raising_ok h
  have hok := (C117_errors px u b.name).1 b.V b.T
  rw [ok] at hok
  have hnone : u.meshes.get? b.name = none := by
    by_contra c
    rw [if_pos c] at hok
    cases hok
  rw [if_neg (by simp [hnone])] at hok
  have hl : px.legal b.name = true := by
    by_contra c
    rw [if_neg c] at hok
    cases hok
  have e : ∀ n, (add_rigid_body px u b.name b.V b.T).2.stage.prims.get? n = _ := call_prim (px := px) u (.addRigid b.name b.V b.T)
  have eh : ∀ n, (add_rigid_body px u b.name b.V b.T).2.meshes.get? n = _ := call_handle (px := px) u (.addRigid b.name b.V b.T)
  have hother : ∀ n ≠ b.name, (add_rigid_body px u b.name b.V b.T).2.meshes.get? n = u.meshes.get? n ∧
      (add_rigid_body px u b.name b.V b.T).2.stage.prims.get? n = u.stage.prims.get? n := by
    intro n hn
    rw [e, eh]
    simp [primAfter, handleAfter, Ne.symm hn]
  have hst : Stands px (add_rigid_body px u b.name b.V b.T).2 b.name b.V b.T := by
    refine ⟨?_, ?_⟩
    · rw [eh]; simp [handleAfter, hnone, hl]
    · rw [e]
      simp only [primAfter, hnone, hl, and_self, if_true, hc _ hnone]
      refine ⟨⟨some (px.vec3f b.V), .empty⟩, ?_, rfl, rfl⟩
      simp [mesh, Prim.fresh]
  refine ⟨?_, ?_, hst, hother, hnone, ?_⟩
  · obtain ⟨hist, rfl⟩ := hu
    exact ⟨hist ++ [.addRigid b.name b.V b.T], by rw [run_snoc]; rfl⟩
  · intro n hn
    by_cases c : n = b.name
    · subst c
      rw [hst.1] at hn; cases hn
    · rw [(hother n c).1] at hn
      rw [(hother n c).2]
      exact hc n hn
  · unfold add_rigid_body
    have c1 : ¬ u.meshes.mem b.name = true := by
      rw [Dict.get?_eq_none] at hnone; simp [hnone]
    rw [if_neg c1, if_neg (by simp [hl])]
    simp [edit_time, define_time]

theorem addBodies_spec {u u' : USD} (hu : Reach px u) (hc : Clean u) {L : List GuiBody} (h : addBodies px u L = .ok u') :
    Reach px u' ∧ (∀ b ∈ L, Stands px u' b.name b.V b.T) ∧ (∀ n V T, Stands px u n V T → Stands px u' n V T) ∧
    u'.stage.startTime = u.stage.startTime ∧ u'.stage.endTime = u.stage.endTime ∧ u'.stage.fps = u.stage.fps := by
  induction L generalizing u with
  | nil =>
    obtain rfl := Except.ok.inj h
    exact ⟨hu, by simp, fun _ _ _ h => h, rfl, rfl, rfl⟩
  | cons b L ih =>
    rw [addBodies] at h
    cases h1 : raising (add_rigid_body px u b.name b.V b.T) with
    | error e => rw [h1] at h; cases h
    | ok v =>
      rw [h1] at h
      replace h : (update1 v b 0 >>= fun u => addBodies px u L) = .ok u' := h
      cases h2 : update1 v b 0 with
      | error e => rw [h2] at h; cases h
      | ok w =>
        rw [h2] at h
        replace h : addBodies px w L = .ok u' := h
        obtain ⟨a1, a2, a3, a4, a5, a6⟩ := add1_spec hu hc h1
        obtain ⟨b1, b2, b3, b4⟩ := update1_spec a1 h2
        have hcw : Clean w := by
          intro n hn
          rw [b2.handle] at hn
          have := b2.points n
          rw [a2 n hn] at this
          simpa using this
        obtain ⟨c1, c2, c3, c4, c5, c6⟩ := ih b1 hcw h
        refine ⟨c1, ?_, ?_, c4.trans (b2.start.trans a6.1), c5.trans (b2.stop.trans a6.2.1), c6.trans (b2.fps.trans a6.2.2)⟩
        · intro c hcL
          rcases List.mem_cons.1 hcL with rfl | hcL
          · exact c3 _ _ _ (a3.keep b2)
          · exact c2 c hcL
        · intro n V T hst
          refine c3 _ _ _ (Stands.keep ?_ b2)
          have hne : n ≠ b.name := by
            rintro rfl
            have := hst.1
            rw [a5] at this; cases this
          obtain ⟨h1, pts, h2, h3⟩ := hst
          exact ⟨(a4 n hne).1.trans h1, pts, by rw [(a4 n hne).2]; exact h2, h3⟩

/-- What holds of the recorder after so many steps. -/
structure Filming (px : Pxr) (S : Sim σ) (e : ℕ → σ) (step steps : ℕ) (u : USD) : Prop where
  reach : Reach px u
  stands : ∀ b ∈ S.bodies (e 0), Stands px u b.name b.V b.T
  poses : ∀ s < step, ∀ b ∈ S.bodies (e s), PoseAt (u.stage.prims.get? b.name) s [b.r.x, b.r.y, b.r.z] [b.q.s, b.q.x, b.q.y, b.q.z]
  sims : ∀ s < step, S.simulate (e s) = .ok (e (s + 1))
  start : u.stage.startTime = some 0
  stop : u.stage.endTime = some (steps : ℝ)
  fps : u.stage.fps = some ((steps : ℝ) / 10)

theorem Filming.film {S : Sim σ} {e : ℕ → σ} {steps : ℕ} {u : USD} (h : Filming px S e steps steps u) : Film px S (e 0) steps u.stage :=
  ⟨e, rfl, h.sims, h.start, h.stop, h.fps, fun b hb t => (h.stands b hb).get t, fun b hb => (h.stands b hb).faces, fun s hs b hb p => (h.poses s hs b hb).placed p⟩

/-- The scenes the user created in a session: they are `Good`, have steps to run, and names are given once; a step of the simulation keeps this and the names. -/
structure Proper (Good : σ → Prop) (S : Sim σ) (L : List (Frame σ)) : Prop where
  names : ∀ f ∈ L, ∀ e steps, f.created = some (e, steps) → Good e ∧ ((S.bodies e).map (·.name)).Nodup ∧ 0 < steps
  keeps : ∀ e e', Good e → S.simulate e = .ok e' → Good e' ∧ (S.bodies e').map (·.name) = (S.bodies e).map (·.name)

/-- What holds of the application between frames. -/
structure Inv (px : Pxr) (Good : σ → Prop) (S : Sim σ) (L : List (Frame σ)) (app : App σ) : Prop where
  file : ∀ s, app.file = some s → ∃ f ∈ L, ∃ e steps, f.created = some (e, steps) ∧ Film px S e steps s
  engine : ∀ e, app.engine = some e → Good e ∧ ((S.bodies e).map (·.name)).Nodup ∧ 0 < app.steps
  recording : ∀ eng, app.engine = some eng → 0 < app.step → app.step ≤ app.steps ∧
    (app.usd = none → app.step = app.steps) ∧ ∀ u, app.usd = some u → ∃ e, e app.step = eng ∧ Filming px S e app.step app.steps u ∧
      ∃ f ∈ L, f.created = some (e 0, app.steps)
  fresh : ∀ eng, app.engine = some eng → app.step = 0 → ∃ f ∈ L, f.created = some (eng, app.steps)

theorem begin_spec {S : Sim σ} {e0 : σ} {steps : ℕ} {u : USD} (h : begin_ px (S.bodies e0) steps = .ok u) : Reach px u ∧
    (∀ b ∈ S.bodies e0, Stands px u b.name b.V b.T) ∧ u.stage.startTime = some 0 ∧ u.stage.endTime = some (steps : ℝ) ∧
    u.stage.fps = some ((steps : ℝ) / 10) := by
  obtain ⟨a1, a2, -, a4, a5, a6⟩ := addBodies_spec (px := px) (u := set_animation_time (set_frames_per_second new ((steps : ℝ) / 10)) steps)
    ⟨[.setFps ((steps : ℝ) / 10), .setTime steps], rfl⟩ (fun n _ => rfl) h
  exact ⟨a1, a2, a4, a5, a6⟩

/-- One recorded step. -/
theorem step_spec {S : Sim σ} {e : ℕ → σ} {step steps : ℕ} {u u' : USD} {eng' : σ} (hf : Filming px S e step steps u)
    (hn : ((S.bodies (e step)).map (·.name)).Nodup) (h : updateBodies u (S.bodies (e step)) step = .ok u') (hs : S.simulate (e step) = .ok eng') :
    ∃ e', e' 0 = e 0 ∧ e' (step + 1) = eng' ∧ Filming px S e' (step + 1) steps u' := by
  obtain ⟨a1, a2, a3, a4⟩ := updateBodies_spec hf.reach hn h
  obtain ⟨e', old, new'⟩ : ∃ e' : ℕ → σ, (∀ s, s ≤ step → e' s = e s) ∧ e' (step + 1) = eng' :=
    ⟨fun s => if s = step + 1 then eng' else e s, fun s hs => by dsimp only; rw [if_neg (by omega)], by simp⟩
  refine ⟨e', old 0 (by omega), new', a1, ?_, ?_, ?_, a2.start.trans hf.start, a2.stop.trans hf.stop, a2.fps.trans hf.fps⟩
  · rw [old 0 (by omega)]
    exact fun b hb => (hf.stands b hb).keep a2
  · intro s hs
    rw [old s (by omega)]
    intro b hb
    by_cases c : s = step
    · subst c; exact a3 b hb
    · exact a4 _ _ _ _ (Or.inl (by exact_mod_cast c)) (hf.poses s (by omega) b hb)
  · intro s hs'
    rw [old s (by omega)]
    by_cases c : s = step
    · subst c; rw [new']; exact hs
    · rw [old (s + 1) (by omega)]
      exact hf.sims s (by omega)

theorem inv_gui {S : Sim σ} {L : List (Frame σ)} (hL : Proper Good S L) {app app' : App σ} (hi : Inv px Good S L app) (h : gui_simulate px S app = .ok app') :
    Inv px Good S L app' := by
  unfold gui_simulate at h
  cases heng : app.engine with
  | none => rw [heng] at h; obtain rfl := Except.ok.inj h; exact hi
  | some eng =>
    rw [heng] at h
    dsimp only at h
    split_ifs at h with c1 c2 c3
    · obtain rfl := Except.ok.inj h; exact hi
    · obtain ⟨hgood, hn, hpos⟩ := hi.engine eng heng
      obtain ⟨r1, r2, r3⟩ := hi.recording eng heng (by omega)
      cases hu : app.usd with
      | none => rw [hu] at h; obtain rfl := Except.ok.inj h; exact hi
      | some u =>
        rw [hu] at h
        obtain rfl := Except.ok.inj h
        obtain ⟨e, he, hfilm, f, hf, hfc⟩ := r3 u hu
        have hs : app.step = app.steps := by omega
        refine ⟨?_, fun e he => hi.engine e (heng.trans he), ?_, fun e he => hi.fresh e (heng.trans he)⟩
        · intro s hsf
          obtain rfl := Option.some.inj hsf
          rw [hs] at hfilm
          exact ⟨f, hf, e 0, app.steps, hfc, hfilm.film⟩
        · intro eng' he' hp
          exact ⟨r1, fun _ => hs, fun u hu => by cases hu⟩
    · obtain ⟨hgood, hn, hpos⟩ := hi.engine eng heng
      · skip
        cases hb : begin_ px (S.bodies eng) app.steps with
        | error x => rw [hb] at h; cases h
        | ok u =>
          rw [hb] at h
          replace h : ((updateBodies u (S.bodies eng) app.step >>= fun u => pure (some u)) >>= fun usd => S.simulate eng >>= fun e =>
            (pure { app with usd := usd, engine := some e, step := app.step + 1 } : Except PyErr (App σ))) = .ok app' := h
          cases hv : updateBodies u (S.bodies eng) app.step with
          | error x => rw [hv] at h; cases h
          | ok v =>
            rw [hv] at h
            cases hs : S.simulate eng with
            | error x => rw [hs] at h; cases h
            | ok eng' =>
              rw [hs] at h
              obtain rfl := Except.ok.inj h
              obtain ⟨b1, b2, b3, b4, b5⟩ := begin_spec hb
              have hf0 : Filming px S (fun _ => eng) 0 app.steps u := ⟨b1, b2, fun s hs => absurd hs (by omega), fun s hs => absurd hs (by omega), b3, b4, b5⟩
              rw [c3] at hv
              obtain ⟨e', e0, e1, e2⟩ := step_spec hf0 hn hv hs
              refine ⟨hi.file, ?_, ?_, ?_⟩
              · intro e he
                obtain rfl := Option.some.inj he
                exact ⟨(hL.keeps _ _ hgood hs).1, by rw [(hL.keeps _ _ hgood hs).2]; exact hn, hpos⟩
              · intro e he hp
                obtain rfl := Option.some.inj he
                dsimp only
                rw [c3]
                refine ⟨by omega, fun hu => (by cases hu), ?_⟩
                intro u' hu'
                obtain rfl := Option.some.inj hu'
                refine ⟨e', e1, e2, ?_⟩
                rw [e0]
                exact hi.fresh eng heng c3
              · intro e he hp
                dsimp only at hp
                omega
    · obtain ⟨hgood, hn, hpos⟩ := hi.engine eng heng
      · skip
        obtain ⟨r1, r2, r3⟩ := hi.recording eng heng (by omega)
        cases hu : app.usd with
        | none => have := r2 hu; omega
        | some u =>
          rw [hu] at h
          replace h : ((updateBodies u (S.bodies eng) app.step >>= fun u => pure (some u)) >>= fun usd => S.simulate eng >>= fun e =>
            (pure { app with usd := usd, engine := some e, step := app.step + 1 } : Except PyErr (App σ))) = .ok app' := h
          cases hv : updateBodies u (S.bodies eng) app.step with
          | error x => rw [hv] at h; cases h
          | ok v =>
            rw [hv] at h
            cases hs : S.simulate eng with
            | error x => rw [hs] at h; cases h
            | ok eng' =>
              rw [hs] at h
              obtain rfl := Except.ok.inj h
              obtain ⟨e, he, hfilm, f, hf, hfc⟩ := r3 u hu
              subst he
              obtain ⟨e', e0, e1, e2⟩ := step_spec hfilm hn hv hs
              refine ⟨hi.file, ?_, ?_, ?_⟩
              · intro e he
                obtain rfl := Option.some.inj he
                exact ⟨(hL.keeps _ _ hgood hs).1, by rw [(hL.keeps _ _ hgood hs).2]; exact hn, hpos⟩
              · intro e'' he hp
                obtain rfl := Option.some.inj he
                dsimp only
                refine ⟨by omega, fun hu => (by cases hu), ?_⟩
                intro u' hu'
                obtain rfl := Option.some.inj hu'
                exact ⟨e', e1, e2, f, hf, by rw [e0]; exact hfc⟩
              · intro e he hp
                dsimp only at hp
                omega

theorem inv_callback {S : Sim σ} {L : List (Frame σ)} (hL : Proper Good S L) {app app' : App σ} {f : Frame σ} (hf : f ∈ L) (hi : Inv px Good S L app)
    (h : callback px S app f = .ok app') : Inv px Good S L app' := by
  unfold callback at h
  cases hc : f.created with
  | none =>
    rw [hc] at h
    replace h : gui_simulate px S { app with simulating := f.simulating } = .ok app' := h
    exact inv_gui (app := { app with simulating := f.simulating }) hL ⟨hi.file, hi.engine, hi.recording, hi.fresh⟩ h
  | some p =>
    obtain ⟨e, steps⟩ := p
    rw [hc] at h
    obtain ⟨hgood, hn, hpos⟩ := hL.names f hf e steps hc
    replace h : gui_simulate px S { app with simulating := f.simulating, engine := some e, steps := steps, step := 0 } = .ok app' := h
    refine inv_gui (app := { app with simulating := f.simulating, engine := some e, steps := steps, step := 0 }) hL ⟨hi.file, ?_, ?_, ?_⟩ h
    · intro e' he'
      obtain rfl := Option.some.inj he'
      exact ⟨hgood, hn, hpos⟩
    · intro e' _ hp
      exact absurd hp (by simp)
    · intro e' he' _
      obtain rfl := Option.some.inj he'
      exact ⟨f, hf, hc⟩

theorem inv_session {S : Sim σ} {L : List (Frame σ)} (hL : Proper Good S L) {M : List (Frame σ)} (hM : ∀ f ∈ M, f ∈ L) {app app' : App σ}
    (hi : Inv px Good S L app) (h : session px S app M = .ok app') : Inv px Good S L app' := by
  induction M generalizing app with
  | nil => obtain rfl := Except.ok.inj h; exact hi
  | cons f M ih =>
    rw [session] at h
    cases h1 : callback px S app f with
    | error x => rw [h1] at h; cases h
    | ok a =>
      rw [h1] at h
      exact ih (fun g hg => hM g (by simp [hg])) (inv_callback hL (hM f (by simp)) hi h1) h

end Usd

open Usd in
/-- Whatever the user does with the check box and the button, frame after frame: when the file holds an animation, it is the whole animation of one
scene that was created, each body at each step where the simulation had it. -/
theorem C118_film {σ : Type} {Good : σ → Prop} (px : Pxr) (S : Sim σ) {L : List (Frame σ)} (hL : Proper Good S L) {app : App σ} (h : session px S App.start L = .ok app)
    {stage : Stage} (hs : app.file = some stage) : ∃ f ∈ L, ∃ e steps, f.created = some (e, steps) ∧ Film px S e steps stage := by
  refine (inv_session hL (fun f hf => hf) ?_ h).file stage hs
  exact ⟨fun s h => (by cases h), fun e h => (by cases h), fun e h => (by cases h), fun e h => (by cases h)⟩

namespace Usd

variable {px : Pxr} {σ : Type}

theorem raising_runs {r : Except PyErr Unit × USD} (h : r.1 = .ok ()) : raising r = .ok r.2 := by unfold raising; rw [h]

theorem update1_runs {u : USD} (hu : Reach px u) {b : GuiBody} (hm : u.meshes.get? b.name = some .rigid) (t : ℝ) :
    ∃ u', update1 u b t = .ok u' ∧ Reach px u' ∧ ∀ n, u'.meshes.get? n = u.meshes.get? n := by
  have h : update1 u b t = .ok _ := raising_runs ((update_ok (px := px) rfl rfl).2 hm)
  obtain ⟨a1, a2, -⟩ := update1_spec hu h
  exact ⟨_, h, a1, a2.handle⟩

theorem updateBodies_runs {u : USD} (hu : Reach px u) {L : List GuiBody} (hm : ∀ b ∈ L, u.meshes.get? b.name = some .rigid) (t : ℝ) :
    ∃ u', updateBodies u L t = .ok u' ∧ Reach px u' ∧ ∀ n, u'.meshes.get? n = u.meshes.get? n := by
  induction L generalizing u with
  | nil => exact ⟨u, rfl, hu, fun _ => rfl⟩
  | cons b L ih =>
    obtain ⟨v, h1, h2, h3⟩ := update1_runs hu (hm b (by simp)) t
    obtain ⟨w, k1, k2, k3⟩ := ih h2 fun c hc => by rw [h3]; exact hm c (by simp [hc])
    refine ⟨w, ?_, k2, fun n => (k3 n).trans (h3 n)⟩
    rw [updateBodies, h1]
    exact k1

theorem addBodies_runs {u : USD} (hu : Reach px u) (hc : Clean u) {L : List GuiBody} (hn : (L.map (·.name)).Nodup) (hl : ∀ b ∈ L, px.legal b.name = true)
    (hm : ∀ b ∈ L, u.meshes.get? b.name = none) : ∃ u', addBodies px u L = .ok u' := by
  induction L generalizing u with
  | nil => exact ⟨u, rfl⟩
  | cons b L ih =>
    simp only [List.map_cons, List.nodup_cons] at hn
    have hok := (C117_errors px u b.name).1 b.V b.T
    rw [if_neg (by simp [hm b (by simp)]), if_pos (hl b (by simp))] at hok
    obtain ⟨a1, a2, a3, a4, -⟩ := add1_spec hu hc (raising_runs hok)
    obtain ⟨w, k1, k2, k3⟩ := update1_runs a1 a3.1 0
    obtain ⟨-, b2, -⟩ := update1_spec a1 k1
    have hcw : Clean w := by
      intro n hn
      rw [b2.handle] at hn
      have := b2.points n
      rw [a2 n hn] at this
      simpa using this
    obtain ⟨v, hv⟩ := ih k2 hcw hn.2 (fun c hc => hl c (by simp [hc])) fun c hc => by
      have hne : c.name ≠ b.name := fun e => hn.1 (e ▸ List.mem_map_of_mem hc)
      rw [k3, (a4 _ hne).1]
      exact hm c (by simp [hc])
    refine ⟨v, ?_⟩
    rw [addBodies, raising_runs hok]
    show (update1 _ b 0 >>= fun u => addBodies px u L) = _
    rw [k1]
    exact hv

end Usd

open Usd in
/-- The file does get written: a scene is created with the check box on, its names are given once and Pixar accepts them, and its simulation raises
nothing; then after its last step and one more frame the file holds its animation. -/
theorem C118_written {σ : Type} {Good : σ → Prop} (px : Pxr) (S : Sim σ) (e : ℕ → σ) (steps : ℕ) (hpos : 0 < steps) (hn : ((S.bodies (e 0)).map (·.name)).Nodup)
    (hl : ∀ b ∈ S.bodies (e 0), px.legal b.name = true)
    (h0 : Good (e 0)) (hkeep : ∀ e e', Good e → S.simulate e = .ok e' → Good e' ∧ (S.bodies e').map (·.name) = (S.bodies e).map (·.name))
    (hs : ∀ s < steps, S.simulate (e s) = .ok (e (s + 1))) :
    ∃ app stage, session px S App.start (⟨true, some (e 0, steps)⟩ :: List.replicate steps ⟨true, none⟩) = .ok app ∧ app.file = some stage ∧
      Film px S (e 0) steps stage := by
  have names' : ∀ s ≤ steps, Good (e s) ∧ (S.bodies (e s)).map (·.name) = (S.bodies (e 0)).map (·.name) := by
    intro s
    induction s with
    | zero => intro _; exact ⟨h0, rfl⟩
    | succ s ih =>
      intro h
      obtain ⟨g, n⟩ := ih (by omega)
      obtain ⟨g', n'⟩ := hkeep _ _ g (hs s (by omega))
      exact ⟨g', n'.trans n⟩
  have names : ∀ s ≤ steps, (S.bodies (e s)).map (·.name) = (S.bodies (e 0)).map (·.name) := fun s h => (names' s h).2
  -- the recorder knows every body of the scene
  let Knows := fun u : USD => ∀ n ∈ (S.bodies (e 0)).map (·.name), u.meshes.get? n = some .rigid
  have knows : ∀ u, Knows u → ∀ s ≤ steps, ∀ b ∈ S.bodies (e s), u.meshes.get? b.name = some .rigid := by
    intro u hu s hs b hb
    refine hu _ ?_
    rw [← names s hs]
    exact List.mem_map_of_mem hb
  have frame : ∀ s u, 0 < s → s < steps → Reach px u → Knows u → ∃ u', callback px S ⟨some (e s), true, s, steps, some u, none⟩ ⟨true, none⟩ =
      .ok ⟨some (e (s + 1)), true, s + 1, steps, some u', none⟩ ∧ Reach px u' ∧ Knows u' := by
    intro s u h0 h1 hr hu
    obtain ⟨u', k1, k2, k3⟩ := updateBodies_runs hr (knows u hu s h1.le) s
    refine ⟨u', ?_, k2, fun n hn => by rw [k3]; exact hu n hn⟩
    have c1 : ¬ steps ≤ s := by omega
    have c2 : s ≠ 0 := by omega
    simp only [callback, gui_simulate, c1, c2, if_false]
    show ((updateBodies u (S.bodies (e s)) s >>= fun u => pure (some u)) >>= fun usd => S.simulate (e s) >>= fun e =>
            (pure ⟨some e, true, s + 1, steps, usd, none⟩ : Except PyErr (App σ))) = _
    rw [k1, hs s h1]
    rfl
  have rest : ∀ k s u, s + k = steps → 0 < s → Reach px u → Knows u → ∃ app stage, session px S ⟨some (e s), true, s, steps, some u, none⟩
      (List.replicate (k + 1) ⟨true, none⟩) = .ok app ∧ app.file = some stage := by
    intro k
    induction k with
    | zero =>
      intro s u hsk h0 hr hu
      obtain rfl : s = steps := by omega
      exact ⟨⟨some (e s), true, s, s, none, some u.stage⟩, u.stage, by simp [session, callback, gui_simulate, save]; rfl, rfl⟩
    | succ k ih =>
      intro s u hsk h0 hr hu
      obtain ⟨u', k1, k2, k3⟩ := frame s u h0 (by omega) hr hu
      obtain ⟨app, stage, k4, k5⟩ := ih (s + 1) u' (by omega) (by omega) k2 k3
      refine ⟨app, stage, ?_, k5⟩
      rw [List.replicate_succ, session, k1]
      exact k4
  -- the first frame
  have hr0 : Reach px (set_animation_time (set_frames_per_second new ((steps : ℝ) / 10)) steps) := ⟨[.setFps ((steps : ℝ) / 10), .setTime steps], rfl⟩
  have hc0 : Clean (set_animation_time (set_frames_per_second new ((steps : ℝ) / 10)) steps) := fun n _ => rfl
  obtain ⟨u0, hb⟩ := addBodies_runs hr0 hc0 hn hl (fun _ _ => rfl)
  have hb' : begin_ px (S.bodies (e 0)) steps = .ok u0 := hb
  obtain ⟨a1, a2, -⟩ := begin_spec hb'
  obtain ⟨u1, k1, k2, k3⟩ := updateBodies_runs a1 (fun b hb => (a2 b hb).1) ((0 : ℕ) : ℝ)
  have first : callback px S App.start ⟨true, some (e 0, steps)⟩ = .ok ⟨some (e 1), true, 1, steps, some u1, none⟩ := by
    have c1 : ¬ steps ≤ 0 := by omega
    simp only [callback, gui_simulate, App.start, c1, if_false, if_true, Bool.true_eq_false]
    rw [hb']
    show ((updateBodies u0 (S.bodies (e 0)) ((0 : ℕ) : ℝ) >>= fun u => pure (some u)) >>= fun usd => S.simulate (e 0) >>= fun e =>
            (pure ⟨some e, true, 0 + 1, steps, usd, none⟩ : Except PyErr (App σ))) = _
    rw [k1, hs 0 hpos]
    rfl
  obtain ⟨app, stage, h1, h2⟩ := rest (steps - 1) 1 u1 (by omega) (by omega) k2 fun n hn => by
    obtain ⟨b, hb, rfl⟩ := List.mem_map.1 hn
    rw [k3]
    exact (a2 b hb).1
  rw [show steps - 1 + 1 = steps by omega] at h1
  have hsess : session px S App.start (⟨true, some (e 0, steps)⟩ :: List.replicate steps ⟨true, none⟩) = .ok app := by
    rw [session, first]
    exact h1
  refine ⟨app, stage, hsess, h2, ?_⟩
  obtain ⟨f, hf, e', steps', hc, hfilm⟩ := C118_film (Good := Good) px S (L := ⟨true, some (e 0, steps)⟩ :: List.replicate steps ⟨true, none⟩) ⟨(by
    intro f hf e' steps' hc
    rcases List.mem_cons.1 hf with rfl | hf
    · simp only [Option.some.injEq, Prod.mk.injEq] at hc
      obtain ⟨rfl, rfl⟩ := hc
      exact ⟨h0, hn, hpos⟩
    · rw [List.eq_of_mem_replicate hf] at hc
      cases hc), hkeep⟩ hsess h2
  rcases List.mem_cons.1 hf with rfl | hf
  · simp only [Option.some.injEq, Prod.mk.injEq] at hc
    obtain ⟨rfl, rfl⟩ := hc
    exact hfilm
  · rw [List.eq_of_mem_replicate hf] at hc
    cases hc

open Usd in
/-- A falling ball that is recorded for three steps. -/
example (px : Pxr) (hl : px.legal "ball" = true) : ∃ app stage,
    session px ⟨fun h : ℝ => [⟨"ball", [⟨0, 0, 0⟩], [], ⟨0, h, 0⟩, ⟨1, 0, 0, 0⟩⟩], fun h => .ok (h - 1)⟩ App.start
      (⟨true, some (10, 3)⟩ :: List.replicate 3 ⟨true, none⟩) = .ok app ∧ app.file = some stage ∧
      placed stage "ball" 2 ⟨1, 0, 0⟩ = some (Quat.rotate ⟨1, 0, 0, 0⟩ ⟨1, 0, 0⟩ + ⟨0, 8, 0⟩) := by
  obtain ⟨app, stage, h1, h2, e, h0, hs, -, -, -, -, -, hp⟩ := C118_written (Good := fun _ => True) px
    ⟨fun h : ℝ => [⟨"ball", [⟨0, 0, 0⟩], [], ⟨0, h, 0⟩, ⟨1, 0, 0, 0⟩⟩], fun h => .ok (h - 1)⟩ (fun s => 10 - s) 3 (by omega) (by simp) (by simp [hl])
    trivial (fun e e' _ _ => ⟨trivial, rfl⟩) (by intro s _; simp only [Except.ok.injEq]; push_cast; ring)
  refine ⟨app, stage, by simpa using h1, h2, ?_⟩
  have e1 := hs 0 (by omega)
  have e2 := hs 1 (by omega)
  simp only [Except.ok.injEq] at e1 e2
  simp only [CharP.cast_eq_zero, sub_zero] at h0
  have : e 2 = 8 := by
    rw [← e2, ← e1, h0]; norm_num
  have := hp 2 (by omega) ⟨"ball", [⟨0, 0, 0⟩], [], ⟨0, e 2, 0⟩, ⟨1, 0, 0, 0⟩⟩ (by simp) ⟨1, 0, 0⟩
  simp only [*] at this
  exact_mod_cast this

end Verif
