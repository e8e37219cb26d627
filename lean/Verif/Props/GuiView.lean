import Verif.Model.GuiView
import Verif.Props.UsdApp
import Verif.Props.Quaternion
import Verif.Lemmas.Dict

/-! C128: what the rigid body application shows in its viewer. -/

namespace Verif

namespace Usd

variable {px : Pxr} {σ : Type} {Good : σ → Prop}

/-- Where the viewer draws the vertex p of a registered mesh. -/
def Shown.place (s : Shown) (p : V3) : V3 := s.A.mulVec p + s.t

/-- The viewer shows the bodies `B0` of a scene (meshes, blue if fixed and red if not, nothing else) in the poses of the bodies `B`. -/
structure Shows (is_fixed : GuiBody → Bool) (B0 B : List GuiBody) (scr : Screen) : Prop where
  names : scr.keys = B0.map (·.name)
  meshes : ∀ b ∈ B0, ∃ s, scr.get? b.name = some s ∧ s.V = b.V ∧ s.T = b.T ∧ s.color = if is_fixed b then ⟨0.1, 0.1, 1⟩ else ⟨1, 0.1, 0.1⟩
  poses : ∀ b ∈ B, ∃ s, scr.get? b.name = some s ∧ ∀ p, s.place p = Quat.rotate (Quat.unit b.q) p + b.r

/-- The scene the user created last. -/
def LastCreated (L : List (Frame σ)) (e : σ) (steps : ℕ) : Prop :=
  ∃ L1 f L2, L = L1 ++ f :: L2 ∧ f.created = some (e, steps) ∧ ∀ g ∈ L2, g.created = none

/-- The mesh of b with its transform set; nothing happens if there is none. -/
noncomputable def posed (scr : Screen) (b : GuiBody) : Screen :=
  match scr.get? b.name with
  | none => scr
  | some s => scr.setItem b.name { s with A := Quat.to_matrix b.q, t := b.r }

theorem show_pose_eq {scr : Screen} {b : GuiBody} (h : b.name ∈ scr.keys) : show_pose scr b = .ok (posed scr b) := by
  obtain ⟨s, hs⟩ := Dict.mem_iff_get?.1 ((Dict.mem_iff_keys _ _).2 h)
  unfold show_pose posed
  rw [hs]

theorem posed_keys (scr : Screen) (b : GuiBody) : (posed scr b).keys = scr.keys := by
  unfold posed
  cases h : scr.get? b.name with
  | none => rfl
  | some s => exact Dict.keys_replace h

theorem posed_ne (scr : Screen) (b : GuiBody) {n : String} (h : n ≠ b.name) : (posed scr b).get? n = scr.get? n := by
  unfold posed
  cases hs : scr.get? b.name with
  | none => rfl
  | some s => exact Dict.get?_setItem_ne _ _ h

theorem posed_self {scr : Screen} {b : GuiBody} {s : Shown} (h : scr.get? b.name = some s) :
    (posed scr b).get? b.name = some { s with A := Quat.to_matrix b.q, t := b.r } := by
  unfold posed
  rw [h]
  exact Dict.get?_setItem_self _ _ _

theorem place_pose (s : Shown) (b : GuiBody) (p : V3) :
    ({ s with A := Quat.to_matrix b.q, t := b.r } : Shown).place p = Quat.rotate (Quat.unit b.q) p + b.r := by
  unfold Shown.place
  rw [rotate_eq_mulVec (Quat.unit_isUnit b.q), Quat.to_matrix_unit]

/-- All bodies posed. -/
noncomputable def poseAll (scr : Screen) (L : List GuiBody) : Screen := L.foldl posed scr

theorem poseAll_keys (L : List GuiBody) (scr : Screen) : (poseAll scr L).keys = scr.keys := by
  induction L generalizing scr with
  | nil => rfl
  | cons b L ih => exact (ih _).trans (posed_keys _ _)

theorem poseAll_other {L : List GuiBody} {n : String} (h : n ∉ L.map (·.name)) (scr : Screen) : (poseAll scr L).get? n = scr.get? n := by
  induction L generalizing scr with
  | nil => rfl
  | cons b L ih =>
    simp only [List.map_cons, List.mem_cons, not_or] at h
    exact (ih h.2 _).trans (posed_ne _ _ h.1)

/-- Posing changes transforms only. -/
theorem poseAll_mesh (L : List GuiBody) {scr : Screen} {n : String} {s : Shown} (h : scr.get? n = some s) :
    ∃ s', (poseAll scr L).get? n = some s' ∧ s'.V = s.V ∧ s'.T = s.T ∧ s'.color = s.color := by
  induction L generalizing scr s with
  | nil => exact ⟨s, h, rfl, rfl, rfl⟩
  | cons b L ih =>
    by_cases c : n = b.name
    · subst c
      obtain ⟨s', a1, a2, a3, a4⟩ := ih (posed_self h)
      exact ⟨s', a1, a2, a3, a4⟩
    · exact ih ((posed_ne _ _ c).trans h)

theorem poseAll_poses {L : List GuiBody} (hn : (L.map (·.name)).Nodup) {scr : Screen} (hk : ∀ b ∈ L, b.name ∈ scr.keys) :
    ∀ b ∈ L, ∃ s, (poseAll scr L).get? b.name = some s ∧ ∀ p, s.place p = Quat.rotate (Quat.unit b.q) p + b.r := by
  induction L generalizing scr with
  | nil => intro b hb; cases hb
  | cons c L ih =>
    rw [List.map_cons, List.nodup_cons] at hn
    intro b hb
    rcases List.mem_cons.1 hb with rfl | hb
    · obtain ⟨s, hs⟩ := Dict.mem_iff_get?.1 ((Dict.mem_iff_keys _ _).2 (hk b (by simp)))
      refine ⟨_, (poseAll_other hn.1 (posed scr b)).trans (posed_self hs), fun p => place_pose s b p⟩
    · exact ih hn.2 (fun d hd => by rw [posed_keys]; exact hk d (by simp [hd])) b hb

theorem Shows.pose {is_fixed : GuiBody → Bool} {B0 B B' : List GuiBody} {scr : Screen} (h : Shows is_fixed B0 B scr)
    (hn : (B0.map (·.name)).Nodup) (hB : B'.map (·.name) = B0.map (·.name)) : Shows is_fixed B0 B' (poseAll scr B') := by
  refine ⟨(poseAll_keys _ _).trans h.names, ?_, poseAll_poses (by rw [hB]; exact hn) ?_⟩
  · intro b hb
    obtain ⟨s, a1, a2, a3, a4⟩ := h.meshes b hb
    obtain ⟨s', c1, c2, c3, c4⟩ := poseAll_mesh B' a1
    exact ⟨s', c1, c2.trans a2, c3.trans a3, c4.trans a4⟩
  · intro b hb
    rw [h.names, ← hB]
    exact List.mem_map_of_mem hb

theorem create_fold {is_fixed : GuiBody → Bool} (L : List GuiBody) (M : List GuiBody) (hn : ((M ++ L).map (·.name)).Nodup) (scr : Screen) (h : Shows is_fixed M M scr) :
    ∃ scr', L.foldlM (show_body is_fixed) scr = .ok scr' ∧ Shows is_fixed (M ++ L) (M ++ L) scr' := by
  induction L generalizing M scr with
  | nil => exact ⟨scr, rfl, by simpa using h⟩
  | cons b L ih =>
    have hb : b.name ∉ M.map (·.name) := by
      intro hm
      rw [List.map_append, List.nodup_append] at hn
      exact hn.2.2 _ hm _ (by simp) rfl
    have hk : scr.mem b.name = false := by
      rw [Bool.eq_false_iff]
      intro hm
      exact hb (by rw [← h.names]; exact (Dict.mem_iff_keys _ _).1 hm)
    obtain ⟨scr1, e1⟩ : ∃ scr1, scr1 = scr.setItem b.name ⟨b.V, b.T, body_color (is_fixed b), M3.identity, 0⟩ := ⟨_, rfl⟩
    have g1 : scr1.get? b.name = some ⟨b.V, b.T, body_color (is_fixed b), M3.identity, 0⟩ := by rw [e1]; exact Dict.get?_setItem_self _ _ _
    have k1 : scr1.keys = scr.keys ++ [b.name] := by
      rw [e1, Dict.keys_setItem, hk]
      rfl
    have s1 : show_body is_fixed scr b = .ok (posed scr1 b) := by
      unfold show_body
      rw [← e1]
      exact show_pose_eq (by rw [k1]; simp)
    have old : ∀ n ∈ M.map (·.name), (posed scr1 b).get? n = scr.get? n := by
      intro n hm
      have hne : n ≠ b.name := fun c => hb (c ▸ hm)
      rw [posed_ne _ _ hne, e1, Dict.get?_setItem_ne _ _ hne]
    have s2 : Shows is_fixed (M ++ [b]) (M ++ [b]) (posed scr1 b) := by
      refine ⟨by rw [posed_keys, k1, h.names, List.map_append]; rfl, ?_, ?_⟩
      · intro c hc
        rcases List.mem_append.1 hc with hc | hc
        · obtain ⟨s, a1, a2⟩ := h.meshes c hc
          exact ⟨s, (old _ (List.mem_map_of_mem hc)).trans a1, a2⟩
        · obtain rfl := List.mem_singleton.1 hc
          refine ⟨_, posed_self g1, rfl, rfl, ?_⟩
          show body_color (is_fixed c) = _
          unfold body_color
          norm_num
      · intro c hc
        rcases List.mem_append.1 hc with hc | hc
        · obtain ⟨s, a1, a2⟩ := h.poses c hc
          exact ⟨s, (old _ (List.mem_map_of_mem hc)).trans a1, a2⟩
        · obtain rfl := List.mem_singleton.1 hc
          exact ⟨_, posed_self g1, fun p => place_pose _ c p⟩
    obtain ⟨scr', a1, a2⟩ := ih (M ++ [b]) (by simpa using hn) _ s2
    refine ⟨scr', ?_, by simpa using a2⟩
    rw [List.foldlM_cons, s1]
    exact a1

/-- `create_visual_geometry` succeeds and shows the scene as it is. -/
theorem create_shows (is_fixed : GuiBody → Bool) {B : List GuiBody} (hn : (B.map (·.name)).Nodup) :
    ∃ scr, create_visual_geometry is_fixed B = .ok scr ∧ Shows is_fixed B B scr := by
  obtain ⟨scr, a, b⟩ := create_fold (is_fixed := is_fixed) B [] (by simpa using hn) Dict.empty
    ⟨rfl, fun b hb => absurd hb (by simp), fun b hb => absurd hb (by simp)⟩
  exact ⟨scr, a, by simpa using b⟩

/-- The loop over the bodies records as before, and poses all bodies. -/
theorem showBodies_eq (L : List GuiBody) (t : ℝ) {scr : Screen} (hk : ∀ b ∈ L, b.name ∈ scr.keys) (usd : Option USD) :
    showBodies (usd, scr) L t = (match usd with
      | some u => (updateBodies u L t).map some
      | none => .ok none).map fun r => (r, poseAll scr L) := by
  induction L generalizing usd scr with
  | nil => cases usd <;> rfl
  | cons b L ih =>
    have hb := show_pose_eq (hk b (by simp))
    have hk' : ∀ c ∈ L, c.name ∈ (posed scr b).keys := fun c hc => by rw [posed_keys]; exact hk c (by simp [hc])
    rw [showBodies]
    dsimp only
    rw [hb]
    cases usd with
    | none => exact ih hk' none
    | some u =>
      cases hu : update1 u b t with
      | error x => simp only [updateBodies, hu]; rfl
      | ok u' =>
        have := ih hk' (some u')
        simp only [updateBodies, hu]
        exact this

/-- What holds of the application and the viewer after the frames `L`. -/
structure Viewing (Good : σ → Prop) (S : Sim σ) (is_fixed : σ → GuiBody → Bool) (L : List (Frame σ)) (v : App σ × Screen) : Prop where
  nothing : v.1.engine = none → v.2 = Dict.empty ∧ ∀ f ∈ L, f.created = none
  shows : ∀ eng, v.1.engine = some eng → ∃ e : ℕ → σ, LastCreated L (e 0) v.1.steps ∧ (∀ s < v.1.step, S.simulate (e s) = .ok (e (s + 1))) ∧ e v.1.step = eng ∧
    Good eng ∧ ((S.bodies (e 0)).map (·.name)).Nodup ∧ (S.bodies eng).map (·.name) = (S.bodies (e 0)).map (·.name) ∧
    Shows (is_fixed (e 0)) (S.bodies (e 0)) (S.bodies (e (v.1.step - 1))) v.2

theorem view_simulate {S : Sim σ} {is_fixed : σ → GuiBody → Bool} {L : List (Frame σ)}
    (hkeep : ∀ e e', Good e → S.simulate e = .ok e' → Good e' ∧ (S.bodies e').map (·.name) = (S.bodies e).map (·.name))
    {v : App σ × Screen} (hv : Viewing Good S is_fixed L v) : (viewSimulate px S v).map Prod.fst = gui_simulate px S v.1 ∧
      ∀ v', viewSimulate px S v = .ok v' → Viewing Good S is_fixed L v' := by
  obtain ⟨app, scr⟩ := v
  unfold viewSimulate gui_simulate
  dsimp only
  cases heng : app.engine with
  | none => exact ⟨rfl, fun v' h => Except.ok.inj h ▸ hv⟩
  | some eng =>
    obtain ⟨e, a1, a2, a3, a4, a5, a6, a7⟩ := hv.shows eng heng
    dsimp only at a1 a2 a3 a7 ⊢
    by_cases c1 : app.simulating = false
    · rw [if_pos c1, if_pos c1]
      exact ⟨rfl, fun v' h => Except.ok.inj h ▸ hv⟩
    rw [if_neg c1, if_neg c1]
    by_cases c2 : app.steps ≤ app.step
    · rw [if_pos c2, if_pos c2]
      cases hu : app.usd with
      | none => exact ⟨rfl, fun v' h => Except.ok.inj h ▸ hv⟩
      | some u =>
        refine ⟨rfl, fun v' h => ?_⟩
        obtain rfl := Except.ok.inj h
        exact ⟨fun h => hv.nothing (heng.trans h), fun eng' h => hv.shows eng' (heng.trans h)⟩
    · rw [if_neg c2, if_neg c2]
      suffices main : ∀ usd : Except PyErr (Option USD), (do
          let usd ← usd
          let s ← showBodies (usd, scr) (S.bodies eng) (app.step : ℝ)
          let e ← S.simulate eng
          return ((⟨some e, app.simulating, app.step + 1, app.steps, s.1, app.file⟩ : App σ), s.2) : Except PyErr (App σ × Screen)).map Prod.fst = (do
          let usd ← usd
          let usd ← match usd with
            | some u => (do return some (← updateBodies u (S.bodies eng) app.step))
            | none => pure none
          let e ← S.simulate eng
          return (⟨some e, app.simulating, app.step + 1, app.steps, usd, app.file⟩ : App σ) : Except PyErr (App σ)) ∧
          ∀ v', (do
          let usd ← usd
          let s ← showBodies (usd, scr) (S.bodies eng) (app.step : ℝ)
          let e ← S.simulate eng
          return ((⟨some e, app.simulating, app.step + 1, app.steps, s.1, app.file⟩ : App σ), s.2) : Except PyErr (App σ × Screen)) = .ok v' → Viewing Good S is_fixed L v' by
        by_cases c3 : app.step = 0
        · have := main (do return some (← begin_ px (S.bodies eng) app.steps))
          rw [if_pos c3, if_pos c3]
          exact this
        · have := main (pure app.usd)
          rw [if_neg c3, if_neg c3]
          exact this
      intro usd
      cases usd with
      | error x => exact ⟨rfl, fun v' h => by cases h⟩
      | ok usd =>
        have hk : ∀ b ∈ S.bodies eng, b.name ∈ scr.keys := fun b hb => by
          rw [a7.names, ← a6]; exact List.mem_map_of_mem hb
        have key : ∀ s : Option USD, (do
            let e' ← S.simulate eng
            return ((⟨some e', app.simulating, app.step + 1, app.steps, s, app.file⟩ : App σ), poseAll scr (S.bodies eng)) : Except PyErr (App σ × Screen)).map Prod.fst =
            (do
            let e' ← S.simulate eng
            return (⟨some e', app.simulating, app.step + 1, app.steps, s, app.file⟩ : App σ) : Except PyErr (App σ)) ∧
            ∀ v', (do
            let e' ← S.simulate eng
            return ((⟨some e', app.simulating, app.step + 1, app.steps, s, app.file⟩ : App σ), poseAll scr (S.bodies eng)) : Except PyErr (App σ × Screen)) = .ok v' →
              Viewing Good S is_fixed L v' := by
          intro s
          cases hs : S.simulate eng with
          | error x => exact ⟨rfl, fun v' h => by cases h⟩
          | ok eng' =>
            refine ⟨rfl, fun v' h => ?_⟩
            obtain rfl := Except.ok.inj h
            refine ⟨fun h => (by cases h), fun e1 h => ?_⟩
            obtain rfl := Option.some.inj h
            obtain ⟨g1, g2⟩ := hkeep _ _ a4 hs
            obtain ⟨e', old, new'⟩ : ∃ e' : ℕ → σ, (∀ s, s ≤ app.step → e' s = e s) ∧ e' (app.step + 1) = eng' :=
              ⟨fun s => if s = app.step + 1 then eng' else e s, fun s hs => by dsimp only; rw [if_neg (by omega)], by simp⟩
            refine ⟨e', ?_, ?_, new', g1, ?_, ?_, ?_⟩
            · rw [old 0 (by omega)]; exact a1
            · intro s hs'
              dsimp only at hs'
              rw [old s (by omega)]
              by_cases c : s = app.step
              · subst c; rw [new', a3]; exact hs
              · rw [old (s + 1) (by omega)]
                exact a2 s (by omega)
            · rw [old 0 (by omega)]; exact a5
            · rw [old 0 (by omega)]; exact g2.trans a6
            · dsimp only
              rw [old 0 (by omega), Nat.add_sub_cancel, old app.step le_rfl, a3]
              exact a7.pose a5 a6
        have hshow := showBodies_eq (S.bodies eng) (app.step : ℝ) hk usd
        cases usd with
        | none =>
          simp only [bind, Except.bind] at key ⊢
          rw [hshow]
          exact key none
        | some u =>
          simp only [bind, Except.bind] at key ⊢
          rw [hshow]
          dsimp only
          cases hu : updateBodies u (S.bodies eng) app.step with
          | error x => exact ⟨rfl, fun v' h => by cases h⟩
          | ok u' => exact key (some u')

theorem LastCreated.snoc {L : List (Frame σ)} {e : σ} {steps : ℕ} (h : LastCreated L e steps) {f : Frame σ} (hf : f.created = none) : LastCreated (L ++ [f]) e steps := by
  obtain ⟨L1, g, L2, a, b, c⟩ := h
  refine ⟨L1, g, L2 ++ [f], by rw [a]; simp, b, ?_⟩
  intro k hk
  rcases List.mem_append.1 hk with hk | hk
  · exact c k hk
  · rw [List.mem_singleton.1 hk]; exact hf

theorem view_callback {S : Sim σ} {is_fixed : σ → GuiBody → Bool} {L : List (Frame σ)} {f : Frame σ} (hP : Proper Good S (L ++ [f]))
    {v : App σ × Screen} (hv : Viewing Good S is_fixed L v) : (viewCallback px S is_fixed v f).map Prod.fst = callback px S v.1 f ∧
      ∀ v', viewCallback px S is_fixed v f = .ok v' → Viewing Good S is_fixed (L ++ [f]) v' := by
  unfold viewCallback callback
  cases hc : f.created with
  | none =>
    refine view_simulate (px := px) (v := ({ v.1 with simulating := f.simulating }, v.2)) hP.keeps ⟨fun h => ?_, fun eng h => ?_⟩
    · obtain ⟨a, b⟩ := hv.nothing h
      refine ⟨a, fun g hg => ?_⟩
      rcases List.mem_append.1 hg with hg | hg
      · exact b g hg
      · rw [List.mem_singleton.1 hg]; exact hc
    · obtain ⟨e, a1, a2⟩ := hv.shows eng h
      exact ⟨e, a1.snoc hc, a2⟩
  | some p =>
    obtain ⟨e, steps⟩ := p
    obtain ⟨g1, g2, -⟩ := hP.names f (by simp) e steps hc
    obtain ⟨scr, b1, b2⟩ := create_shows (is_fixed e) g2
    dsimp only
    rw [b1]
    refine view_simulate (px := px) (v := ({ v.1 with simulating := f.simulating, engine := some e, steps := steps, step := 0 }, scr)) hP.keeps
      ⟨fun h => (by cases h), fun eng h => ?_⟩
    obtain rfl := Option.some.inj h
    exact ⟨fun _ => e, ⟨L, f, [], rfl, hc, fun g hg => by cases hg⟩, fun s hs => absurd hs (Nat.not_lt_zero s), rfl, g1, g2, rfl, b2⟩

theorem view_session {S : Sim σ} {is_fixed : σ → GuiBody → Bool} (M : List (Frame σ)) {L : List (Frame σ)} (hP : Proper Good S (L ++ M))
    {v : App σ × Screen} (hv : Viewing Good S is_fixed L v) : (viewSession px S is_fixed v M).map Prod.fst = session px S v.1 M ∧
      ∀ v', viewSession px S is_fixed v M = .ok v' → Viewing Good S is_fixed (L ++ M) v' := by
  induction M generalizing L v with
  | nil => exact ⟨rfl, fun v' h => by rw [List.append_nil]; exact Except.ok.inj h ▸ hv⟩
  | cons f M ih =>
    obtain ⟨a, b⟩ := view_callback (px := px) (f := f) ⟨fun g hg => hP.names g (by
      rcases List.mem_append.1 hg with hg | hg
      · exact List.mem_append.2 (Or.inl hg)
      · rw [List.mem_singleton.1 hg]; simp), hP.keeps⟩ hv
    rw [viewSession, session, ← a]
    cases hc : viewCallback px S is_fixed v f with
    | error x => exact ⟨rfl, fun v' h => by cases h⟩
    | ok v1 =>
      have := ih (L := L ++ [f]) (by simpa using hP) (b v1 hc)
      rw [List.append_assoc] at this
      exact this

end Usd

open Usd in
/-- **C128.** Whatever the user does, frame after frame, the viewer holds exactly the bodies of the scene created last (nothing before a scene is created), with
their meshes and colours, all in the poses of one moment of the simulation: the moment before the last step, or the scene as created if no step was made. -/
theorem C128_view {σ : Type} {Good : σ → Prop} (px : Pxr) (S : Sim σ) (is_fixed : σ → GuiBody → Bool) {L : List (Frame σ)} (hL : Proper Good S L)
    {app : App σ} {scr : Screen} (h : viewSession px S is_fixed (App.start, Dict.empty) L = .ok (app, scr)) :
    ((∀ f ∈ L, f.created = none) ∧ scr.keys = []) ∨
    ∃ e : ℕ → σ, LastCreated L (e 0) app.steps ∧ (∀ s < app.step, S.simulate (e s) = .ok (e (s + 1))) ∧ app.engine = some (e app.step) ∧
      Shows (is_fixed (e 0)) (S.bodies (e 0)) (S.bodies (e (app.step - 1))) scr := by
  have hv := (view_session (px := px) (is_fixed := is_fixed) L (L := []) (by simpa using hL) (v := (App.start, Dict.empty))
    ⟨fun _ => ⟨rfl, fun f hf => (by cases hf)⟩, fun e h => (by cases h)⟩).2 _ h
  rw [List.nil_append] at hv
  cases he : app.engine with
  | none =>
    obtain ⟨a, b⟩ := hv.nothing he
    refine Or.inl ⟨b, ?_⟩
    dsimp only at a
    rw [a]
    rfl
  | some eng =>
    obtain ⟨e, a1, a2, a3, -, -, -, a4⟩ := hv.shows eng he
    exact Or.inr ⟨e, a1, a2, by rw [← a3], a4⟩

open Usd in
/-- **C128.** The viewer changes nothing else: a session returns, or raises, as it does without a viewer, and leaves the same engine, recorder and file. -/
theorem C128_unchanged {σ : Type} {Good : σ → Prop} (px : Pxr) (S : Sim σ) (is_fixed : σ → GuiBody → Bool) {L : List (Frame σ)} (hL : Proper Good S L) :
    (viewSession px S is_fixed (App.start, Dict.empty) L).map Prod.fst = session px S App.start L :=
  (view_session (px := px) (is_fixed := is_fixed) L (L := []) (by simpa using hL) (v := (App.start, Dict.empty))
    ⟨fun _ => ⟨rfl, fun f hf => (by cases hf)⟩, fun e h => (by cases h)⟩).1

open Usd in
/-- **C128.** A body that got into the engine behind the back of the application, and so has no mesh in the viewer, makes the loop of a frame that records nothing end with a
ValueError. -/
theorem C128_no_mesh (L : List GuiBody) (t : ℝ) {scr : Screen} {b : GuiBody} (hb : b ∈ L) (hn : b.name ∉ scr.keys) :
    showBodies (none, scr) L t = .error .valueError := by
  induction L generalizing scr with
  | nil => cases hb
  | cons c L ih =>
    rw [showBodies]
    dsimp only
    by_cases hc : c.name ∈ scr.keys
    · rw [show_pose_eq hc]
      have hm : b ∈ L := by
        rcases List.mem_cons.1 hb with rfl | h
        · exact absurd hc hn
        · exact h
      exact ih hm (by rw [posed_keys]; exact hn)
    · have : show_pose scr c = .error .valueError := by
        unfold show_pose
        cases hg : scr.get? c.name with
        | none => rfl
        | some s => exact absurd ((Dict.mem_iff_keys _ _).1 (Dict.mem_iff_get?.2 ⟨s, hg⟩)) hc
      rw [this]
      rfl

end Verif
