import Verif.Model.SoftApp
import Verif.Props.SoftProfile
import Verif.Props.FullSoftRun
import Verif.Props.UsdApp

/-! C123: the soft body application: what it simulates and what it records. -/

namespace Verif

open Soft SoftApp

namespace SoftApp

/-! ### Specification -/

/-- The simulator has carried the scene w over the time d to the scene w', in ⌈d / time_step⌉ steps that are not longer than the time step. -/
def Advances (V : Env) (d : ℝ) (w w' : World) : Prop :=
  ∃ W dts, getStepper w.eng = .ok W ∧ dts.length = ⌈d / w.eng.params.time_step⌉₊ ∧ dts.sum = d ∧ (∀ dt ∈ dts, 0 < dt ∧ dt ≤ w.eng.params.time_step) ∧
    worldRun V.eps V.listOf V.P W dts { w with eng := { w.eng with stepper := some W } } = .ok w'

/-- What a viewer shows at the time t of the mesh of that name. -/
noncomputable def shownAt (s : Usd.Stage) (name : String) (t : ℝ) : Option (List V3) := (s.prims.get? name).bind fun p => p.points.get t

/-- The number of frames of a film of T seconds. -/
noncomputable def frameCount (T fps : ℝ) : ℕ := (npRound (T * fps)).toNat

/-- The bodies are filed under their names, each once. -/
def Named (e : Soft.Engine) : Prop := e.bodies.keys.Nodup ∧ ∀ k b, HasBody e k b → b.name = k

/-! ### One interval between two frames -/

theorem named_of_ok {e : Soft.Engine} (h : SoftOk e) : Named e := ⟨h.nodup, fun _ _ hb => (h.bodyOk hb).name⟩

theorem Named.same {e e' : Soft.Engine} (h : Named e) (hs : SoftSame e e') : Named e' := by
  refine ⟨by rw [hs.names]; exact h.1, fun k c hc => ?_⟩
  obtain ⟨b, hb, x, u, rfl, -⟩ := (hs.bodies k c).1 hc
  exact h.2 k b hb

theorem worldStep_same {eps : ℝ} {listOf : Finset (ℤ × ℤ) → List (ℤ × ℤ)} {P : FullParams} {W : ℕ × (ℕ → ℕ → ℝ)} {dt : ℝ} {w w' : World}
    (h : w.step eps listOf P W dt = .ok w') : SoftSame w.eng w'.eng := by
  unfold World.step at h
  simp only [bind, Except.bind] at h
  split at h
  · cases h
  rename_i e' he'
  split at h
  · cases h
  simp only [pure, Except.pure, Except.ok.injEq] at h
  rw [← h]
  exact (C76_frame he').1

theorem worldRun_same {eps : ℝ} {listOf : Finset (ℤ × ℤ) → List (ℤ × ℤ)} {P : FullParams} {W : ℕ × (ℕ → ℕ → ℝ)} {dts : List ℝ} {w w' : World}
    (h : worldRun eps listOf P W dts w = .ok w') : (Named w.eng → Named w'.eng) ∧ w'.eng.bodies.keys = w.eng.bodies.keys ∧ w'.eng.stepper = w.eng.stepper ∧
      w'.eng.params.time_step = w.eng.params.time_step := by
  induction dts generalizing w with
  | nil =>
    rw [worldRun] at h
    injection h with h
    subst h
    exact ⟨id, rfl, rfl, rfl⟩
  | cons dt dts ih =>
    simp only [worldRun] at h
    cases hs : w.step eps listOf P W dt with
    | error e => rw [hs] at h; cases h
    | ok w1 =>
      rw [hs] at h
      obtain ⟨h1, h2, h3, h4⟩ := ih h
      have same := worldStep_same hs
      exact ⟨fun hn => h1 (hn.same same), h2.trans same.names, h3.trans same.stepper, h4.trans (worldStep_params hs).1⟩

/-- One step of the simulator with debugging: afterwards the energies are computed. -/
noncomputable def debugStep (V : Env) (W : ℕ × (ℕ → ℕ → ℝ)) (dt : ℝ) (w : World) : Except PyErr World :=
  (World.stepLogged V.eps V.listOf V.P W true dt (w, [])).map Prod.fst

/-- Steps of the given sizes with debugging. -/
noncomputable def debugRun (V : Env) (W : ℕ × (ℕ → ℕ → ℝ)) : List ℝ → World → Except PyErr World
  | [], w => .ok w
  | dt :: dts, w => match debugStep V W dt w with
    | .error err => .error err
    | .ok w' => debugRun V W dts w'

theorem stepLogged_log (V : Env) (W : ℕ × (ℕ → ℕ → ℝ)) (dt : ℝ) (w : World) (log : SoftLog) :
    (World.stepLogged V.eps V.listOf V.P W true dt (w, log)).map Prod.fst = debugStep V W dt w := by
  unfold debugStep World.stepLogged
  simp only [bind, Except.bind]
  cases w.step V.eps V.listOf V.P W dt with
  | error err => rfl
  | ok v =>
    simp only [if_true]
    cases record dt v.eng <;> rfl

theorem debugStep_ok {V : Env} {W : ℕ × (ℕ → ℕ → ℝ)} {dt : ℝ} {w w' : World} (h : debugStep V W dt w = .ok w') : w.step V.eps V.listOf V.P W dt = .ok w' := by
  unfold debugStep at h
  cases hs : World.stepLogged V.eps V.listOf V.P W true dt (w, []) with
  | error err => rw [hs] at h; cases h
  | ok v =>
    rw [hs] at h
    rw [← Except.ok.inj h]
    exact stepLogged_fst hs

theorem debugRun_ok {V : Env} {W : ℕ × (ℕ → ℕ → ℝ)} {dts : List ℝ} {w w' : World} (h : debugRun V W dts w = .ok w') :
    worldRun V.eps V.listOf V.P W dts w = .ok w' := by
  induction dts generalizing w with
  | nil => exact h
  | cons dt dts ih =>
    unfold debugRun at h
    cases hs : debugStep V W dt w with
    | error err => rw [hs] at h; cases h
    | ok v =>
      rw [hs] at h
      unfold worldRun
      rw [debugStep_ok hs]
      exact ih h

/-- A call of the simulator for at most one time step makes one step. -/
theorem simulate_once (V : Env) (w : World) {dt : ℝ} (h0 : 0 < dt) (h1 : dt ≤ w.eng.params.time_step) :
    (World.simulateLogged V.eps V.listOf V.P true (w, []) dt).map Prod.fst = match getStepper w.eng with
      | .error e => .error e
      | .ok W => debugStep V W dt { w with eng := { w.eng with stepper := some W } } := by
  unfold World.simulateLogged
  rw [if_neg (not_le.2 h0)]
  dsimp only
  cases hW : getStepper w.eng with
  | error e => rfl
  | ok W =>
    simp only [bind, Except.bind]
    have := worldLoopLogged (eps := V.eps) (listOf := V.listOf) (P := V.P) W true 0 ({ w with eng := { w.eng with stepper := some W } }, startLog true (w, [])) dt w.eng.params.time_step rfl (lt_of_lt_of_le h0 h1)
      (by simpa using h0) (by simpa using h1)
    rw [whileLoop_eq this]
    simp only [Nat.cast_zero, zero_mul, sub_zero, List.replicate_zero, List.nil_append, worldRunLogged]
    rw [← stepLogged_log V W dt _ (startLog true (w, []))]
    cases World.stepLogged V.eps V.listOf V.P W true dt ({ w with eng := { w.eng with stepper := some W } }, startLog true (w, [])) <;> rfl

theorem interval_loop (V : Env) (n : ℕ) (w : World) (T ts : ℝ) (hts : w.eng.params.time_step = ts) (h0 : 0 < ts) (h1 : n * ts < T) (h2 : T ≤ (n + 1) * ts) :
    LoopEnds (simTrip V ts) (w, T) (match getStepper w.eng with
      | .error e => .error e
      | .ok W => (debugRun V W (List.replicate n ts ++ [T - n * ts]) { w with eng := { w.eng with stepper := some W } }).map fun w' => (w', 0)) := by
  induction n generalizing w T with
  | zero =>
    simp only [Nat.cast_zero, zero_mul, zero_add, one_mul] at h1 h2
    simp only [Nat.cast_zero, zero_mul, sub_zero, List.replicate_zero, List.nil_append, debugRun]
    have hmin : min T ts = T := min_eq_left h2
    have hone := simulate_once V w h1 (by rw [hts]; exact h2)
    cases hW : getStepper w.eng with
    | error e =>
      rw [hW] at hone
      refine .raised ?_
      simp only [simTrip, gt_iff_lt, if_pos h1, hmin, hone]
    | ok W =>
      rw [hW] at hone
      dsimp only at hone ⊢
      cases hs : debugStep V W T { w with eng := { w.eng with stepper := some W } } with
      | error e =>
        refine .raised ?_
        simp only [simTrip, gt_iff_lt, if_pos h1, hmin, hone, hs]
      | ok w' =>
        refine .next (s' := (w', 0)) ?_ (.done ?_)
        · simp only [simTrip, gt_iff_lt, if_pos h1, hmin, hone, hs, sub_self]
        · simp [simTrip]
  | succ n ih =>
    push_cast at h1 h2
    have hT : 0 < T := by nlinarith [(Nat.cast_nonneg n : (0 : ℝ) ≤ n)]
    have hmin : min T ts = ts := min_eq_right (by nlinarith [(Nat.cast_nonneg n : (0 : ℝ) ≤ n)])
    have hone := simulate_once V w h0 (le_of_eq hts.symm)
    cases hW : getStepper w.eng with
    | error e =>
      rw [hW] at hone
      refine .raised ?_
      simp only [simTrip, gt_iff_lt, if_pos hT, hmin, hone]
    | ok W =>
      rw [hW] at hone
      dsimp only at hone ⊢
      rw [List.replicate_succ, List.cons_append]
      unfold debugRun
      cases hs : debugStep V W ts { w with eng := { w.eng with stepper := some W } } with
      | error e =>
        refine .raised ?_
        simp only [simTrip, gt_iff_lt, if_pos hT, hmin, hone, hs]
      | ok w' =>
        have e : T - ((n + 1 : ℕ) : ℝ) * ts = (T - ts) - n * ts := by push_cast; ring
        rw [e]
        have hst : w'.eng.stepper = some W := (worldStep_same (debugStep_ok hs)).stepper
        have hg : getStepper w'.eng = .ok W := by unfold getStepper; rw [hst]
        have hw : ({ w' with eng := { w'.eng with stepper := some W } } : World) = w' := by rw [← hst]
        have := ih w' (T - ts) ((worldStep_params (debugStep_ok hs)).1.trans hts) (by linarith) (by linarith)
        rw [hg] at this
        dsimp only at this
        rw [hw] at this
        refine .next (s' := (w', T - ts)) ?_ this
        simp only [simTrip, gt_iff_lt, if_pos hT, hmin, hone, hs]

/-- The inner loop carries the scene over the time d, or ends as the simulator ends. -/
theorem interval (V : Env) (w : World) {d : ℝ} (hd : 0 < d) (hts : 0 < w.eng.params.time_step) :
    ∃ dts : List ℝ, dts.length = ⌈d / w.eng.params.time_step⌉₊ ∧ dts.sum = d ∧ (∀ dt ∈ dts, 0 < dt ∧ dt ≤ w.eng.params.time_step) ∧
      whileLoop (simTrip V w.eng.params.time_step) (w, d) = (match getStepper w.eng with
      | .error e => .error e
      | .ok W => (debugRun V W dts { w with eng := { w.eng with stepper := some W } }).map fun w' => (w', 0)) := by
  obtain ⟨ts, hts'⟩ : ∃ ts, ts = w.eng.params.time_step := ⟨_, rfl⟩
  rw [← hts'] at hts ⊢
  obtain ⟨n, hn⟩ : ∃ n, n = ⌈d / ts⌉₊ := ⟨_, rfl⟩
  have hn0 : 0 < n := by rw [hn]; exact Nat.ceil_pos.2 (div_pos hd hts)
  have h1 : ((n - 1 : ℕ) : ℝ) * ts < d := by
    have : ((n - 1 : ℕ) : ℝ) < d / ts := by
      rw [← Nat.lt_ceil, ← hn]
      exact Nat.sub_lt hn0 one_pos
    rwa [lt_div_iff₀ hts] at this
  have h2 : d ≤ (((n - 1 : ℕ) : ℝ) + 1) * ts := by
    have h3 := Nat.le_ceil (d / ts)
    rw [div_le_iff₀ hts, ← hn] at h3
    have h4 : ((n - 1 : ℕ) : ℝ) + 1 = (n : ℝ) := by
      rw [← Nat.cast_succ]; congr 1; omega
    rw [h4]
    exact h3
  refine ⟨List.replicate (n - 1) ts ++ [d - (n - 1 : ℕ) * ts], ?_, ?_, ?_, whileLoop_eq (interval_loop V (n - 1) w d ts hts'.symm hts h1 h2)⟩
  · simp only [List.length_append, List.length_replicate, List.length_singleton]
    omega
  · simp only [List.sum_append, List.sum_replicate, List.sum_singleton, nsmul_eq_mul]
    ring
  · intro dt hdt
    rcases List.mem_append.1 hdt with h | h
    · rw [(List.mem_replicate.1 h).2]
      exact ⟨hts, le_rfl⟩
    · rw [List.mem_singleton.1 h]
      exact ⟨by linarith, by linarith⟩

theorem interval_ok {V : Env} {w : World} {d : ℝ} (hd : 0 < d) (hts : 0 < w.eng.params.time_step) {s : World × ℝ}
    (h : whileLoop (simTrip V w.eng.params.time_step) (w, d) = .ok s) : Advances V d w s.1 := by
  obtain ⟨dts, h1, h2, h3, h4⟩ := interval V w hd hts
  rw [h4] at h
  cases hW : getStepper w.eng with
  | error e => rw [hW] at h; cases h
  | ok W =>
    rw [hW] at h
    dsimp only at h
    cases hr : debugRun V W dts { w with eng := { w.eng with stepper := some W } } with
    | error e => rw [hr] at h; cases h
    | ok w' =>
      rw [hr] at h
      simp only [Except.map, Except.ok.injEq] at h
      rw [← h]
      exact ⟨W, dts, hW, h1, h2, h3, debugRun_ok hr⟩

theorem Advances.same {V : Env} {d : ℝ} {w w' : World} (h : Advances V d w w') : (Named w.eng → Named w'.eng) ∧ w'.eng.bodies.keys = w.eng.bodies.keys ∧
    w'.eng.params.time_step = w.eng.params.time_step ∧ w'.eng.stepper ≠ none := by
  obtain ⟨W, dts, -, -, -, -, hr⟩ := h
  obtain ⟨h1, h2, h3, h4⟩ := worldRun_same hr
  exact ⟨h1, h2, h4, by rw [h3]; simp⟩

/-! ### Recording one frame -/

open Usd in
/-- What recording the bodies at the time t does. -/
theorem updateMeshes_spec {px : Pxr} {skip : List String} {t : ℝ} {u u' : USD} (hu : Reach px u) {L : List (String × Slot)} (hL : (L.map Prod.fst).Nodup)
    (hn : ∀ k b, (k, Slot.ready b) ∈ L → b.name = k) (h : updateMeshes px skip t u L = .ok u') :
    Reach px u' ∧ (∀ name, u'.meshes.get? name = u.meshes.get? name) ∧ u'.file = u.file ∧
    (u'.stage.startTime = u.stage.startTime ∧ u'.stage.endTime = u.stage.endTime ∧ u'.stage.fps = u.stage.fps) ∧
    (∀ name, (name ∈ skip ∨ name ∉ L.map Prod.fst) → u'.stage.prims.get? name = u.stage.prims.get? name) ∧
    (∀ name t', t' ≠ t → sampleAt (u'.stage.prims.get? name) t' = sampleAt (u.stage.prims.get? name) t') ∧
    ∀ k b, (k, Slot.ready b) ∈ L → k ∉ skip → sampleAt (u'.stage.prims.get? k) t = some (px.vec3f (List.ofFn b.x)) := by
  induction L generalizing u with
  | nil =>
    rw [updateMeshes] at h
    injection h with h
    subst h
    exact ⟨hu, fun _ => rfl, rfl, ⟨rfl, rfl, rfl⟩, fun _ _ => rfl, fun _ _ _ => rfl, fun k b hb => absurd hb (by simp)⟩
  | cons kv L ih =>
    obtain ⟨k, s⟩ := kv
    have hL' := List.nodup_cons.1 hL
    have hn' : ∀ k b, (k, Slot.ready b) ∈ L → b.name = k := fun k b hb => hn k b (List.mem_cons_of_mem _ hb)
    cases s with
    | broken =>
      rw [updateMeshes] at h
      split_ifs at h with c
      obtain ⟨h1, h2, h3, h4, h5, h6, h7⟩ := ih hu hL'.2 hn' h
      refine ⟨h1, h2, h3, h4, fun name hname => ?_, h6, fun k' b hb => ?_⟩
      · rcases hname with hname | hname
        · exact h5 name (Or.inl hname)
        · exact h5 name (Or.inr fun hh => hname (List.mem_cons_of_mem _ hh))
      · rcases List.mem_cons.1 hb with hb | hb
        · injection hb with _ hb; cases hb
        · exact h7 k' b hb
    | ready b =>
      have hbk : b.name = k := hn k b List.mem_cons_self
      rw [updateMeshes, hbk] at h
      split_ifs at h with c
      · obtain ⟨h1, h2, h3, h4, h5, h6, h7⟩ := ih hu hL'.2 hn' h
        refine ⟨h1, h2, h3, h4, fun name hname => ?_, h6, fun k' b' hb => ?_⟩
        · rcases hname with hname | hname
          · exact h5 name (Or.inl hname)
          · exact h5 name (Or.inr fun hh => hname (List.mem_cons_of_mem _ hh))
        · rcases List.mem_cons.1 hb with hb | hb
          · injection hb with hb _
            subst hb
            exact fun h => absurd c h
          · exact h7 k' b' hb
      · cases hr : raising (set_mesh_positions px u k (List.ofFn b.x) t) with
        | error e => rw [hr] at h; cases h
        | ok u1 =>
          rw [hr] at h
          replace h : updateMeshes px skip t u1 L = .ok u' := h
          obtain ⟨hok, rfl⟩ := raising_ok hr
          obtain ⟨hist, rfl⟩ := hu
          have hm : (run px new hist).meshes.get? k = some .mesh := (set_ok (px := px)).1 hok
          have hu1 : Reach px (set_mesh_positions px (run px new hist) k (List.ofFn b.x) t).2 :=
            ⟨hist ++ [.setPositions k (List.ofFn b.x) t], by rw [run_snoc]; rfl⟩
          have prim := fun name => call_prim (px := px) (run px new hist) (.setPositions k (List.ofFn b.x) t) name
          have handle := fun name => call_handle (px := px) (run px new hist) (.setPositions k (List.ofFn b.x) t) name
          have samp := fun name t' => sample_after (px := px) (sound px hist name) name (.setPositions k (List.ofFn b.x) t) t'
          simp only [call] at prim handle
          simp only [← prim] at samp
          simp only [handleAfter] at handle
          obtain ⟨h1, h2, h3, h4, h5, h6, h7⟩ := ih hu1 hL'.2 hn' h
          have htime : (set_mesh_positions px (run px new hist) k (List.ofFn b.x) t).2.file = (run px new hist).file ∧
              (set_mesh_positions px (run px new hist) k (List.ofFn b.x) t).2.stage.startTime = (run px new hist).stage.startTime ∧
              (set_mesh_positions px (run px new hist) k (List.ofFn b.x) t).2.stage.endTime = (run px new hist).stage.endTime ∧
              (set_mesh_positions px (run px new hist) k (List.ofFn b.x) t).2.stage.fps = (run px new hist).stage.fps := by
            unfold set_mesh_positions
            rw [hm]
            exact ⟨rfl, edit_time _ _ _⟩
          refine ⟨h1, fun name => (h2 name).trans (handle name), h3.trans htime.1, ⟨h4.1.trans htime.2.1, h4.2.1.trans htime.2.2.1, h4.2.2.trans htime.2.2.2⟩,
            fun name hname => ?_, fun name t' ht' => ?_, fun k' b' hb' hk' => ?_⟩
          · have hne : k ≠ name := by
              rintro rfl
              rcases hname with hname | hname
              · exact c hname
              · exact hname List.mem_cons_self
            rw [h5 name (hname.imp id fun hname hh => hname (List.mem_cons_of_mem _ hh)), prim]
            simp [primAfter, hne]
          · rw [h6 name t' ht', samp]
            rw [if_neg fun hh => ht' hh.2.2.symm]
          · rcases List.mem_cons.1 hb' with hb' | hb'
            · injection hb' with e1 e2
              injection e2 with e2
              subst e1 e2
              rw [h5 k' (Or.inr hL'.1), samp]
              simp [hm]
            · exact h7 k' b' hb' hk'

theorem mem_of_has {e : Soft.Engine} {k : String} {b : SoftBody} (h : HasBody e k b) : (k, Slot.ready b) ∈ e.bodies.entries := by
  obtain ⟨i, hi, e⟩ := Dict.get?_some h
  rw [← e]
  exact List.getElem_mem hi

theorem has_of_mem {e : Soft.Engine} (hn : e.bodies.keys.Nodup) {k : String} {b : SoftBody} (h : (k, Slot.ready b) ∈ e.bodies.entries) : HasBody e k b := by
  obtain ⟨i, hi, e⟩ := List.getElem_of_mem h
  have := Dict.get?_entry hn hi
  rw [e] at this
  exact this

/-! ### The loop over the frames -/

open Usd in
/-- What the outer loop does: it carries the scene from frame to frame, and it records under every frame number the scene that it has reached then. -/
theorem renderLoop_spec {V : Env} {ts rdt fps : ℝ} (hts : 0 < ts) (hr : 0 < rdt) (hrf : rdt * fps = 1) {upd : Bool} {skip : List String} {L : List ℕ}
    (hL : L.Nodup) {w : World} {u : Option USD} (hw : w.eng.params.time_step = ts) (hn : Named w.eng) {s : World × Option USD}
    (h : renderLoop V ts rdt fps upd skip L (w, u) = .ok s) :
    ∃ ws : ℕ → World, ws 0 = w ∧ s.1 = ws L.length ∧ (∀ k < L.length, Advances V rdt (ws k) (ws (k + 1))) ∧ (∀ k ≤ L.length, Named (ws k).eng) ∧
      (upd = false → s.2 = u) ∧
      ∀ u0, upd = true → u = some u0 → Reach V.px u0 → ∃ u1, s.2 = some u1 ∧ Reach V.px u1 ∧ (∀ name, u1.meshes.get? name = u0.meshes.get? name) ∧ u1.file = u0.file ∧
        (u1.stage.startTime = u0.stage.startTime ∧ u1.stage.endTime = u0.stage.endTime ∧ u1.stage.fps = u0.stage.fps) ∧
        (∀ name, (name ∈ skip ∨ name ∉ w.eng.bodies.keys) → u1.stage.prims.get? name = u0.stage.prims.get? name) ∧
        (∀ name t, (∀ k ∈ L, t ≠ (k : ℝ)) → sampleAt (u1.stage.prims.get? name) t = sampleAt (u0.stage.prims.get? name) t) ∧
        ∀ (i : ℕ) (k : ℕ), L[i]? = some k → ∀ name b, HasBody (ws (i + 1)).eng name b → name ∉ skip →
          sampleAt (u1.stage.prims.get? name) k = some (V.px.vec3f (List.ofFn b.x)) := by
  induction L generalizing w u with
  | nil =>
    rw [renderLoop] at h
    injection h with h
    subst h
    exact ⟨fun _ => w, rfl, rfl, fun k hk => absurd hk (by simp), fun k _ => hn, fun _ => rfl, fun u0 _ hu hreach =>
      ⟨u0, hu, hreach, fun _ => rfl, rfl, ⟨rfl, rfl, rfl⟩, fun _ _ => rfl, fun _ _ _ => rfl, fun i k hk => absurd hk (by simp)⟩⟩
  | cons k0 L ih =>
    obtain ⟨hk0, hL'⟩ := List.nodup_cons.1 hL
    rw [renderLoop] at h
    cases hloop : whileLoop (simTrip V ts) (w, rdt) with
    | error e => rw [hloop] at h; cases h
    | ok s1 =>
      rw [hloop] at h
      simp only [bind, Except.bind] at h
      have adv : Advances V rdt w s1.1 := interval_ok hr (by rw [hw]; exact hts) (by rw [hw]; exact hloop)
      obtain ⟨a1, a2, a3, a4⟩ := adv.same
      have hn1 := a1 hn
      have glue : ∀ (ws : ℕ → World), ws 0 = s1.1 → (∀ k < L.length, Advances V rdt (ws k) (ws (k + 1))) → (∀ k ≤ L.length, Named (ws k).eng) →
          ∀ ws' : ℕ → World, ws' = (fun k => match k with | 0 => w | k + 1 => ws k) →
          (∀ k < (k0 :: L).length, Advances V rdt (ws' k) (ws' (k + 1))) ∧ ∀ k ≤ (k0 :: L).length, Named (ws' k).eng := by
        rintro ws e1 e2 e3 ws' rfl
        constructor
        · intro k hk
          cases k with
          | zero => simp only [e1]; exact adv
          | succ k => exact e2 k (by simpa using hk)
        · intro k hk
          cases k with
          | zero => exact hn
          | succ k => exact e3 k (by simpa using hk)
      cases upd with
      | false =>
        simp only [Bool.false_eq_true, if_false] at h
        obtain ⟨ws, b1, b2, b3, b4, b5, -⟩ := ih hL' (a3.trans hw) hn1 h
        obtain ⟨g1, g2⟩ := glue ws b1 b3 b4 _ rfl
        exact ⟨_, rfl, b2, g1, g2, b5, fun u0 hf => absurd hf (by simp)⟩
      | true =>
        simp only [if_true] at h
        cases u with
        | none => cases h
        | some u0 =>
          simp only at h
          cases hup : updateMeshes V.px skip (↑k0 * rdt * fps) u0 s1.1.eng.bodies.entries with
          | error e => rw [hup] at h; cases h
          | ok u1 =>
            rw [hup] at h
            simp only at h
            obtain ⟨ws, b1, b2, b3, b4, -, b6⟩ := ih hL' (a3.trans hw) hn1 h
            obtain ⟨g1, g2⟩ := glue ws b1 b3 b4 _ rfl
            refine ⟨_, rfl, b2, g1, g2, fun hf => absurd hf (by simp), ?_⟩
            intro u0' _ hu0 hreach
            injection hu0 with hu0
            subst hu0
            rw [mul_assoc, hrf, mul_one] at hup
            obtain ⟨c1, c2, c3, c4, c5, c6, c7⟩ := updateMeshes_spec hreach hn1.1 (fun k b hb => hn1.2 k b (has_of_mem hn1.1 hb)) hup
            obtain ⟨u2, d1, d2, d3, d4, d5, d6, d7, d8⟩ := b6 u1 rfl rfl c1
            refine ⟨u2, d1, d2, fun name => (d3 name).trans (c2 name), d4.trans c3, ⟨d5.1.trans c4.1, d5.2.1.trans c4.2.1, d5.2.2.trans c4.2.2⟩, ?_, ?_, ?_⟩
            · intro name hname
              rw [d6 name (hname.imp id fun h => by rw [a2]; exact h)]
              refine c5 name (hname.imp id fun h => ?_)
              rw [← a2] at h
              exact h
            · intro name t ht
              rw [d7 name t fun k hk => ht k (List.mem_cons_of_mem _ hk)]
              exact c6 name t (ht k0 List.mem_cons_self)
            · intro i k hik name b hb hname
              cases i with
              | zero =>
                simp only [List.getElem?_cons_zero, Option.some.injEq] at hik
                subst hik
                rw [d7 name (k0 : ℝ) (fun k hk hh => hk0 (by rw [Nat.cast_inj.1 hh]; exact hk))]
                simp only [b1] at hb
                exact c7 name b (mem_of_has hb) hname
              | succ i =>
                simp only [List.getElem?_cons_succ] at hik
                exact d8 i k hik name b hb hname

/-! ### The recorder after `initialize_usd` -/

open Usd in
theorem addMeshes_spec {px : Pxr} {u u' : USD} (hu : Reach px u) {L : List (String × Slot)} (hL : (L.map Prod.fst).Nodup)
    (hn : ∀ k b, (k, Slot.ready b) ∈ L → b.name = k) (hfresh : ∀ k ∈ L.map Prod.fst, u.stage.prims.get? k = none) (h : addMeshes px u L = .ok u') :
    Reach px u' ∧ u'.file = u.file ∧ (u'.stage.startTime = u.stage.startTime ∧ u'.stage.endTime = u.stage.endTime ∧ u'.stage.fps = u.stage.fps) ∧
    (∀ name, name ∉ L.map Prod.fst → u'.stage.prims.get? name = u.stage.prims.get? name ∧ u'.meshes.get? name = u.meshes.get? name) ∧
    ∀ k b, (k, Slot.ready b) ∈ L → px.legal k = true ∧ u'.meshes.get? k = some .mesh ∧ ∃ p, u'.stage.prims.get? k = some p ∧
      p.points.dflt = some (px.vec3f (List.ofFn b.x0)) ∧ (∀ t, p.points.samples.get? t = none) ∧ p.indices = some (faceRows b).flatten ∧
      p.counts = some ((faceRows b).map List.length) := by
  induction L generalizing u with
  | nil =>
    rw [addMeshes] at h
    injection h with h
    subst h
    exact ⟨hu, rfl, ⟨rfl, rfl, rfl⟩, fun _ _ => ⟨rfl, rfl⟩, fun k b hb => absurd hb (by simp)⟩
  | cons kv L ih =>
    obtain ⟨k, s⟩ := kv
    have hL' := List.nodup_cons.1 hL
    have hn' : ∀ k b, (k, Slot.ready b) ∈ L → b.name = k := fun k b hb => hn k b (List.mem_cons_of_mem _ hb)
    cases s with
    | broken => cases h
    | ready b =>
      have hbk : b.name = k := hn k b List.mem_cons_self
      rw [addMeshes, hbk] at h
      cases hr : raising (add_mesh px u k (List.ofFn b.x0) (faceRows b)) with
      | error e => rw [hr] at h; cases h
      | ok u1 =>
        rw [hr] at h
        replace h : addMeshes px u1 L = .ok u' := h
        obtain ⟨hok, rfl⟩ := raising_ok hr
        obtain ⟨hist, rfl⟩ := hu
        obtain ⟨hl, hT⟩ := (add_ok (px := px)).1 hok
        have prim := fun name => call_prim (px := px) (run px new hist) (.addMesh k (List.ofFn b.x0) (faceRows b)) name
        have handle := fun name => call_handle (px := px) (run px new hist) (.addMesh k (List.ofFn b.x0) (faceRows b)) name
        simp only [call] at prim handle
        have hk : (run px new hist).stage.prims.get? k = none := hfresh k List.mem_cons_self
        have hu1 : Reach px (add_mesh px (run px new hist) k (List.ofFn b.x0) (faceRows b)).2 :=
          ⟨hist ++ [.addMesh k (List.ofFn b.x0) (faceRows b)], by rw [run_snoc]; rfl⟩
        have hother : ∀ name, name ≠ k → (add_mesh px (run px new hist) k (List.ofFn b.x0) (faceRows b)).2.stage.prims.get? name = (run px new hist).stage.prims.get? name ∧
            (add_mesh px (run px new hist) k (List.ofFn b.x0) (faceRows b)).2.meshes.get? name = (run px new hist).meshes.get? name := by
          intro name hne
          rw [prim, handle]
          simp [primAfter, handleAfter, Ne.symm hne]
        obtain ⟨h1, h2, h3, h4, h5⟩ := ih hu1 hL'.2 hn' (fun k' hk' => by
          rw [(hother k' (by rintro rfl; exact hL'.1 hk')).1]
          exact hfresh k' (List.mem_cons_of_mem _ hk')) h
        have htime : (add_mesh px (run px new hist) k (List.ofFn b.x0) (faceRows b)).2.file = (run px new hist).file ∧
            (add_mesh px (run px new hist) k (List.ofFn b.x0) (faceRows b)).2.stage.startTime = (run px new hist).stage.startTime ∧
            (add_mesh px (run px new hist) k (List.ofFn b.x0) (faceRows b)).2.stage.endTime = (run px new hist).stage.endTime ∧
            (add_mesh px (run px new hist) k (List.ofFn b.x0) (faceRows b)).2.stage.fps = (run px new hist).stage.fps := by
          unfold add_mesh
          rw [if_neg (by simp [hl]), if_neg hT]
          simp [edit_time, define_time]
        refine ⟨h1, h2.trans htime.1, ⟨h3.1.trans htime.2.1, h3.2.1.trans htime.2.2.1, h3.2.2.trans htime.2.2.2⟩, fun name hname => ?_, fun k' b' hb' => ?_⟩
        · have hname' := not_or.1 (fun h => hname (List.mem_cons.2 h))
          obtain ⟨e1, e2⟩ := h4 name hname'.2
          obtain ⟨f1, f2⟩ := hother name hname'.1
          exact ⟨e1.trans f1, e2.trans f2⟩
        · rcases List.mem_cons.1 hb' with hb' | hb'
          · injection hb' with e1 e2
            injection e2 with e2
            subst e1 e2
            obtain ⟨e1, e2⟩ := h4 k' hL'.1
            refine ⟨hl, ?_, ?_⟩
            · rw [e2, handle]; simp [handleAfter, hl, hT]
            · rw [e1, prim, hk]
              simp only [primAfter, hl, and_self, if_true, Option.getD_none, if_neg hT]
              exact ⟨_, rfl, rfl, fun t => rfl, rfl, rfl⟩
          · exact h5 k' b' hb'

open Usd in
theorem addMeshes_runs {px : Pxr} (u : USD) {L : List (String × Slot)} (hL : ∀ kv ∈ L, ∃ b, kv.2 = .ready b ∧ px.legal b.name = true ∧ faceRows b ≠ []) :
    ∃ u', addMeshes px u L = .ok u' := by
  induction L generalizing u with
  | nil => exact ⟨u, rfl⟩
  | cons kv L ih =>
    obtain ⟨k, s⟩ := kv
    obtain ⟨b, hs, h1, h2⟩ := hL _ List.mem_cons_self
    obtain rfl : s = .ready b := hs
    have hok := (add_ok (px := px) (u := u) (n := b.name) (V := List.ofFn b.x0) (T := faceRows b)).2 ⟨h1, h2⟩
    obtain ⟨u', hu'⟩ := ih (call px u (.addMesh b.name (List.ofFn b.x0) (faceRows b))).2 fun kv hkv => hL kv (List.mem_cons_of_mem _ hkv)
    refine ⟨u', ?_⟩
    rw [addMeshes, raising_runs (r := add_mesh px u b.name (List.ofFn b.x0) (faceRows b)) hok]
    exact hu'

/-! ### `simulate` -/

open Usd in
/-- What a successful `simulate` has done. -/
theorem simulate_ok {V : Env} {app app' : SoftApp} {T fps : ℝ} (hfps : 0 < fps) {upd : Bool} {skip : List String} (h : simulate V app T fps upd skip = .ok app') :
    ∃ usd s, (upd = true → ∃ u, app.usd = some u ∧ usd = some (set_animation_time u (T * fps))) ∧ (upd = false → usd = app.usd) ∧
      renderLoop V app.scene.eng.params.time_step (1 / fps) fps upd skip (List.range (frameCount T fps)) (app.scene, usd) = .ok s ∧
      s.1.eng.stepper ≠ none ∧ app' = { app with scene := s.1, usd := if upd then s.2.map save else s.2 } := by
  unfold SoftApp.simulate at h
  dsimp only at h
  rw [if_neg hfps.ne', lit1] at h
  have e : T / (1 / fps) = T * fps := by field_simp
  rw [e] at h
  change (do
    let usd ← if upd then
        match app.usd with
        | none => Except.error PyErr.valueError
        | some u => pure (some (set_animation_time u (T * fps)))
      else pure app.usd
    let s ← renderLoop V app.scene.eng.params.time_step (1 / fps) fps upd skip (List.range (frameCount T fps)) (app.scene, usd)
    let usd := if upd then s.2.map save else s.2
    if s.1.eng.stepper = none then Except.error PyErr.attributeError
    else return { app with scene := s.1, usd := usd }) = Except.ok app' at h
  cases upd with
  | false =>
    simp only [Bool.false_eq_true, if_false, bind, Except.bind, pure, Except.pure] at h
    cases hr : renderLoop V app.scene.eng.params.time_step (1 / fps) fps false skip (List.range (frameCount T fps)) (app.scene, app.usd) with
    | error e => rw [hr] at h; cases h
    | ok s =>
      rw [hr] at h
      simp only at h
      split_ifs at h with c
      injection h with h
      exact ⟨app.usd, s, fun hh => absurd hh (by simp), fun _ => rfl, hr, c, by simpa using h.symm⟩
  | true =>
    simp only [if_true] at h
    cases hu : app.usd with
    | none => rw [hu] at h; cases h
    | some u =>
      rw [hu] at h
      simp only [bind, Except.bind, pure, Except.pure] at h
      cases hr : renderLoop V app.scene.eng.params.time_step (1 / fps) fps true skip (List.range (frameCount T fps)) (app.scene, some (set_animation_time u (T * fps))) with
      | error e => rw [hr] at h; cases h
      | ok s =>
        rw [hr] at h
        simp only at h
        split_ifs at h with c
        injection h with h
        exact ⟨some (set_animation_time u (T * fps)), s, fun _ => ⟨u, rfl, rfl⟩, fun hh => absurd hh (by simp), hr, c, by simpa using h.symm⟩

end SoftApp

end Verif
