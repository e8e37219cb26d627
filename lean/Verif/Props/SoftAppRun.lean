import Verif.Props.SoftAppScene
import Verif.Props.TetFaces

/-! C123: how a film ends; the script hanging_beam_simulation.py from the beginning to the end. -/

namespace Verif

open Soft SoftApp Mech
open VMesh (Tri Tet)

namespace SoftApp

/-- The scene can be run and its stepper fits it. -/
structure Fit (P : FullParams) (w : World) : Prop where
  ready : SoftReady P w
  stepper : ∃ W, getStepper w.eng = .ok W ∧ W.1 = w.eng.number_of_nodes * 3
  step : 0 < w.eng.params.time_step
  energy : EnergyKnown w.eng

theorem fit_of_runnable {P : FullParams} {w : World} (h : Runnable P w) (hts : 0 < w.eng.params.time_step) (hen : EnergyKnown w.eng) : Fit P w := by
  obtain ⟨W, h1, h2, -⟩ := C100_stepper h.ready.ok h.ready.finished h.heavy h.fresh
  exact ⟨h.ready, ⟨W, h1, h2⟩, hts, hen⟩

/-- The energies are those of the one material of all bodies. -/
theorem energyKnown_one {e : Soft.Engine} {d : String} {m : Material} (hm : e.materials.get? d = some m)
    (hlaw : m.energy_density = SVK.energy_density ∨ m.energy_density = SNH.energy_density) (hb : ∀ k b, HasBody e k b → b.material_description = d) : EnergyKnown e := by
  intro k b m' h h'
  unfold material at h'
  rw [hb k b h] at h'
  simp only [hm] at h'
  rw [← Except.ok.inj h']
  exact hlaw

theorem debugRun_total {V : Env} (hlist : ∀ s x, x ∈ V.listOf s ↔ x ∈ s) (hP : GoodGeo V.P.toGeoParams) {W : ℕ × (ℕ → ℕ → ℝ)} (dts : List ℝ) {w : World}
    (hw : SoftReady V.P w) (hen : EnergyKnown w.eng) (hW : W.1 = w.eng.number_of_nodes * 3) :
    (∃ w', debugRun V W dts w = .ok w' ∧ SoftReady V.P w' ∧ EnergyKnown w'.eng) ∨ debugRun V W dts w = .error .runtimeError := by
  induction dts generalizing w with
  | nil => exact Or.inl ⟨w, rfl, hw, hen⟩
  | cons dt dts ih =>
    obtain ⟨hup, hdown⟩ := C100_step (eps := V.eps) hlist hP hw hW dt
    by_cases hu : Upright w.eng
    · obtain ⟨v, hs, hv, -⟩ := hup hu
      have henv := energyKnown_step hs hen
      obtain ⟨r1, r2⟩ := record_total hv henv dt
      by_cases hf : FreeUpright v.eng
      · obtain ⟨r, hr⟩ := r1 hf
        have hd : debugStep V W dt w = .ok v := by
          unfold debugStep World.stepLogged
          simp only [bind, Except.bind, hs, if_true, hr]
          rfl
        unfold debugRun
        rw [hd]
        exact ih hv henv (by rw [(worldStep_params hs).2]; exact hW)
      · right
        unfold debugRun debugStep World.stepLogged
        simp only [bind, Except.bind, hs, if_true, r2 hf]
        rfl
    · right
      unfold debugRun debugStep World.stepLogged
      simp only [bind, Except.bind, hdown hu]
      rfl

theorem worldRun_nodes {eps : ℝ} {listOf : Finset (ℤ × ℤ) → List (ℤ × ℤ)} {P : FullParams} {W : ℕ × (ℕ → ℕ → ℝ)} {dts : List ℝ} {w w' : World}
    (h : worldRun eps listOf P W dts w = .ok w') : w'.eng.number_of_nodes = w.eng.number_of_nodes := by
  induction dts generalizing w with
  | nil =>
    rw [worldRun] at h
    injection h with h
    subst h
    rfl
  | cons dt dts ih =>
    simp only [worldRun] at h
    cases hs : w.step eps listOf P W dt with
    | error e => rw [hs] at h; cases h
    | ok w1 =>
      rw [hs] at h
      exact (ih h).trans (worldStep_params hs).2

theorem interval_runs {V : Env} (hlist : ∀ s x, x ∈ V.listOf s ↔ x ∈ s) (hP : GoodGeo V.P.toGeoParams) {w : World} (hw : Fit V.P w) {d : ℝ} (hd : 0 < d) :
    (∃ w', whileLoop (simTrip V w.eng.params.time_step) (w, d) = .ok (w', 0) ∧ Fit V.P w' ∧ w'.eng.bodies.keys = w.eng.bodies.keys ∧
      w'.eng.params.time_step = w.eng.params.time_step ∧ w'.eng.stepper ≠ none) ∨
    whileLoop (simTrip V w.eng.params.time_step) (w, d) = .error .runtimeError := by
  obtain ⟨W, hW, hsize⟩ := hw.stepper
  obtain ⟨dts, -, -, -, hloop⟩ := interval V w hd hw.step
  rw [hW] at hloop
  dsimp only at hloop
  have hready : SoftReady V.P { w with eng := { w.eng with stepper := some W } } :=
    ⟨hw.ready.ok.congr rfl rfl rfl rfl, hw.ready.finished, hw.ready.geo, hw.ready.elastic, hw.ready.friction, hw.ready.plain, hw.ready.pins, hw.ready.hash, hw.ready.scheme⟩
  rcases debugRun_total hlist hP (W := W) dts hready hw.energy hsize with ⟨w', h3, h4, hen⟩ | h3
  · left
    have h3' := debugRun_ok h3
    obtain ⟨-, k2, k3, k4⟩ := worldRun_same h3'
    refine ⟨w', by rw [hloop, h3]; rfl, ⟨h4, ⟨W, ?_, ?_⟩, ?_, hen⟩, k2, k4, ?_⟩
    · unfold getStepper; rw [k3]
    · rw [worldRun_nodes h3']; exact hsize
    · rw [k4]; exact hw.step
    · rw [k3]; simp
  · right
    rw [hloop, h3]
    rfl

open Usd in
theorem updateMeshes_runs {px : Pxr} {skip : List String} {t : ℝ} {u : USD} {L : List (String × Slot)} (hL : ∀ kv ∈ L, ∃ b, kv.2 = .ready b ∧ b.name = kv.1)
    (hm : ∀ kv ∈ L, u.meshes.get? kv.1 = some .mesh) :
    ∃ u', updateMeshes px skip t u L = .ok u' ∧ ∀ n, u'.meshes.get? n = u.meshes.get? n := by
  induction L generalizing u with
  | nil => exact ⟨u, rfl, fun _ => rfl⟩
  | cons kv L ih =>
    obtain ⟨k, s⟩ := kv
    obtain ⟨b, hs, hbk⟩ := hL _ List.mem_cons_self
    obtain rfl : s = .ready b := hs
    dsimp only at hbk
    rw [updateMeshes, hbk]
    split_ifs with c
    · exact ih (fun kv h => hL kv (List.mem_cons_of_mem _ h)) fun kv h => hm kv (List.mem_cons_of_mem _ h)
    · have hk : u.meshes.get? k = some .mesh := hm _ List.mem_cons_self
      have hok := (set_ok (px := px) (u := u) (n := k) (V := List.ofFn b.x) (t := t)).2 hk
      have handle : ∀ n, (set_mesh_positions px u k (List.ofFn b.x) t).2.meshes.get? n = u.meshes.get? n := by
        intro n
        unfold set_mesh_positions
        rw [hk]
      obtain ⟨u', h1, h2⟩ := ih (u := (set_mesh_positions px u k (List.ofFn b.x) t).2) (fun kv h => hL kv (List.mem_cons_of_mem _ h)) fun kv h => by
        rw [handle]; exact hm kv (List.mem_cons_of_mem _ h)
      refine ⟨u', ?_, fun n => (h2 n).trans (handle n)⟩
      rw [raising_runs (r := set_mesh_positions px u k (List.ofFn b.x) t) hok]
      exact h1

theorem slots_ready {P : FullParams} {w : World} (hw : SoftReady P w) : ∀ kv ∈ w.eng.bodies.entries, ∃ b, kv.2 = .ready b ∧ b.name = kv.1 ∧ HasBody w.eng kv.1 b := by
  intro kv hkv
  obtain ⟨b, hb⟩ := bodyList_ready.1 hw.finished kv.2 (List.mem_map.2 ⟨kv, hkv, rfl⟩)
  have hh : HasBody w.eng kv.1 b := has_of_mem hw.ok.nodup (by rw [← hb]; exact hkv)
  exact ⟨b, hb, (named_of_ok hw.ok).2 _ _ hh, hh⟩

open Usd in
theorem renderLoop_runs {V : Env} (hlist : ∀ s x, x ∈ V.listOf s ↔ x ∈ s) (hP : GoodGeo V.P.toGeoParams) {ts rdt fps : ℝ} (hr : 0 < rdt) {upd : Bool} {skip : List String}
    {L : List ℕ} {w : World} {u : Option USD} (hts : w.eng.params.time_step = ts) (hw : Fit V.P w)
    (hu : upd = true → ∃ u0, u = some u0 ∧ ∀ n ∈ w.eng.bodies.keys, u0.meshes.get? n = some .mesh) :
    (∃ s, renderLoop V ts rdt fps upd skip L (w, u) = .ok s ∧ Fit V.P s.1 ∧ s.1.eng.params.time_step = ts ∧ s.1.eng.bodies.keys = w.eng.bodies.keys ∧
      (L ≠ [] → s.1.eng.stepper ≠ none)) ∨ renderLoop V ts rdt fps upd skip L (w, u) = .error .runtimeError := by
  induction L generalizing w u with
  | nil => exact Or.inl ⟨(w, u), rfl, hw, hts, rfl, fun h => absurd rfl h⟩
  | cons k0 L ih =>
    rw [renderLoop]
    rcases interval_runs hlist hP hw hr with ⟨w1, h1, h2, h3, h4, h5⟩ | h1
    · rw [hts] at h1 h4
      rw [h1]
      simp only [bind, Except.bind]
      have fin : ∀ u1 : Option USD, (upd = true → ∃ u0, u1 = some u0 ∧ ∀ n ∈ w1.eng.bodies.keys, u0.meshes.get? n = some .mesh) →
          (∃ s, renderLoop V ts rdt fps upd skip L (w1, u1) = .ok s ∧ Fit V.P s.1 ∧ s.1.eng.params.time_step = ts ∧ s.1.eng.bodies.keys = w.eng.bodies.keys ∧
            (k0 :: L ≠ [] → s.1.eng.stepper ≠ none)) ∨ renderLoop V ts rdt fps upd skip L (w1, u1) = .error .runtimeError := by
        intro u1 hu1
        rcases ih h4 h2 hu1 with ⟨s, a1, a2, a3, a4, a5⟩ | a1
        · refine Or.inl ⟨s, a1, a2, a3, a4.trans h3, fun _ => ?_⟩
          cases L with
          | nil =>
            rw [renderLoop] at a1
            injection a1 with a1
            rw [← a1]
            exact h5
          | cons k L => exact a5 (by simp)
        · exact Or.inr a1
      cases upd with
      | false =>
        simp only [Bool.false_eq_true, if_false] at fin ⊢
        exact fin u fun h => absurd h (by simp)
      | true =>
        obtain ⟨u0, rfl, hm⟩ := hu rfl
        simp only [if_true]
        obtain ⟨u1, c1, c2⟩ := updateMeshes_runs (px := V.px) (skip := skip) (t := ↑k0 * rdt * fps) (u := u0) (L := w1.eng.bodies.entries)
          (fun kv hkv => by obtain ⟨b, e1, e2, -⟩ := slots_ready h2.ready kv hkv; exact ⟨b, e1, e2⟩)
          (fun kv hkv => hm _ (by rw [← h3]; exact List.mem_map.2 ⟨kv, hkv, rfl⟩))
        rw [c1]
        exact fin (some u1) fun _ => ⟨u1, rfl, fun n hn => by rw [c2]; exact hm n (by rw [← h3]; exact hn)⟩
    · right
      rw [hts] at h1
      rw [h1]
      rfl

theorem faceRows_ne {b : SoftBody} (h : 0 < b.K) : faceRows b ≠ [] := by
  intro e
  have hl := (C62_to_triangles (List.ofFn fun e => (⟨b.T e 0, b.T e 1, b.T e 2, b.T e 3⟩ : Tet))).1
  unfold faceRows at e
  rw [List.map_eq_nil_iff] at e
  rw [e, List.length_ofFn, List.length_nil] at hl
  omega

end SoftApp

open Usd in
/-- **C123** (how a film ends). A scene that can be run, whose bodies have elements, legal names and a law with an energy that works, at least one frame: `initialize_usd` succeeds, and
`simulate` then succeeds, or it raises RuntimeError (the exception of a tetrahedron that became flat or inverted, see C100); the same without recording. -/
theorem C123_outcome {V : Env} (hlist : ∀ s x, x ∈ V.listOf s ↔ x ∈ s) (hP : GoodGeo V.P.toGeoParams) {app : SoftApp} (hw : Runnable V.P app.scene)
    (hts : 0 < app.scene.eng.params.time_step) (hen : EnergyKnown app.scene.eng) (hb : ∀ k b, HasBody app.scene.eng k b → 0 < b.K ∧ V.px.legal k = true)
    {T fps : ℝ} (hfps : 0 < fps) (hn : 0 < frameCount T fps) (skip : List String) :
    (∃ app1, initialize_usd V app = .ok app1 ∧ app1.scene = app.scene ∧ ((∃ app2, simulate V app1 T fps true skip = .ok app2) ∨ simulate V app1 T fps true skip = .error .runtimeError)) ∧
    ((∃ app2, simulate V app T fps false skip = .ok app2) ∨ simulate V app T fps false skip = .error .runtimeError) := by
  have hfit := fit_of_runnable hw hts hen
  have hp : 0 < 1 / fps := one_div_pos.2 hfps
  have hne : List.range (frameCount T fps) ≠ [] := by
    intro h
    have := congrArg List.length h
    rw [List.length_range, List.length_nil] at this
    omega
  have e : T / (1 / fps) = T * fps := by field_simp
  have hslots := slots_ready hw.ready
  constructor
  · obtain ⟨u, hu⟩ := addMeshes_runs (px := V.px) Usd.new (L := app.scene.eng.bodies.entries) (fun kv hkv => by
      obtain ⟨b, e1, e2, e3⟩ := hslots kv hkv
      obtain ⟨c1, c2⟩ := hb kv.1 b e3
      exact ⟨b, e1, by rw [e2]; exact c2, faceRows_ne c1⟩)
    refine ⟨{ app with usd := some u }, ?_, rfl, ?_⟩
    · unfold initialize_usd
      rw [hu]
      rfl
    · have hN := named_of_ok hw.ready.ok
      obtain ⟨-, -, -, -, i6⟩ := addMeshes_spec ⟨[], rfl⟩ hN.1 (fun k b hb => hN.2 k b (has_of_mem hN.1 hb)) (fun _ _ => rfl) hu
      have hmesh : ∀ n ∈ app.scene.eng.bodies.keys, (set_animation_time u (T * fps)).meshes.get? n = some .mesh := by
        intro n hn
        obtain ⟨kv, hkv, rfl⟩ := List.mem_map.1 hn
        obtain ⟨b, e1, -⟩ := hslots kv hkv
        exact (i6 kv.1 b (by rw [← e1]; exact hkv)).2.1
      unfold SoftApp.simulate
      dsimp only
      rw [if_neg hfps.ne', lit1, e]
      change (∃ app2, (do
        let usd ← pure (some (set_animation_time u (T * fps)))
        let s ← renderLoop V app.scene.eng.params.time_step (1 / fps) fps true skip (List.range (frameCount T fps)) (app.scene, usd)
        let usd := if true then s.2.map save else s.2
        if s.1.eng.stepper = none then Except.error PyErr.attributeError
        else return { app with scene := s.1, usd := usd }) = Except.ok app2) ∨ (do
        let usd ← pure (some (set_animation_time u (T * fps)))
        let s ← renderLoop V app.scene.eng.params.time_step (1 / fps) fps true skip (List.range (frameCount T fps)) (app.scene, usd)
        let usd := if true then s.2.map save else s.2
        if s.1.eng.stepper = none then Except.error PyErr.attributeError
        else return { app with scene := s.1, usd := usd }) = Except.error PyErr.runtimeError
      rcases renderLoop_runs hlist hP (fps := fps) hp (upd := true) (skip := skip) (L := List.range (frameCount T fps)) (u := some (set_animation_time u (T * fps))) rfl hfit
        (fun _ => ⟨_, rfl, hmesh⟩) with ⟨s, a1, -, -, -, a5⟩ | a1
      · left
        simp only [bind, Except.bind, pure, Except.pure, a1, if_neg (a5 hne)]
        exact ⟨_, rfl⟩
      · right
        simp only [bind, Except.bind, pure, Except.pure, a1]
  · unfold SoftApp.simulate
    dsimp only
    rw [if_neg hfps.ne', lit1, e]
    have hfc : (npRound (T * fps)).toNat = frameCount T fps := rfl
    rw [hfc]
    rcases renderLoop_runs hlist hP (fps := fps) hp (upd := false) (skip := skip) (L := List.range (frameCount T fps)) (u := app.usd) rfl hfit
      (fun h => absurd h (by simp)) with ⟨s, a1, -, -, -, a5⟩ | a1
    · left
      simp only [bind, Except.bind, pure, Except.pure, a1, if_neg (a5 hne), Bool.false_eq_true, if_false]
      exact ⟨_, rfl⟩
    · right
      simp only [bind, Except.bind, pure, Except.pure, a1, Bool.false_eq_true, if_false]

end Verif
