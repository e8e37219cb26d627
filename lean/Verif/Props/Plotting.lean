import Verif.Props.ProfileRun
import Verif.Model.Plotting

/-! C129: what the applications plot of a simulation. -/

namespace Verif

open Rigid ProxSolver

variable {N : ℕ}

/-- `P` holds of the `i`-th step of the run: of its record and of the engine it left -/
def OfStep (run : List (Entry × Sim N)) (i : ℕ) (Q : Entry → Sim N → Prop) : Prop := ∃ x, run[i]? = some x ∧ Q x.1 x.2

/-- The lines of a convergence plot and the steps of a run: a line for every step with contacts or hinges, in order and in the colour of that step, and no other;
its values are what the solver reported, a falling sequence of merits filled up with infinities. -/
structure ShowsConvergence {κ : Type} (col : ℕ → κ) (run : List (Entry × Sim N)) (L : List (PlotLine κ)) : Prop where
  count : L.length = (run.filter fun x => decide (x.2.1.contact_points ≠ [] ∨ x.2.1.hinges ≠ [])).length
  line : ∀ l ∈ L, ∃ i, OfStep run i fun e s => (s.1.contact_points ≠ [] ∨ s.1.hinges ≠ []) ∧ l.color = col i ∧
    ∃ R, e.solver = some R ∧ l.y = R.residuals ∧ TruthfulReport s.1.params.toParams R
  step : ∀ i, OfStep run i (fun _ s => s.1.contact_points ≠ [] ∨ s.1.hinges ≠ []) → ∃ l ∈ L, l.color = col i ∧
    OfStep run i fun e _ => ∃ R, e.solver = some R ∧ l.y = R.residuals

theorem loggedRun_append {P : Collision.CDParams} (A B : List (Entry × Sim N)) : ∀ {s s1 s' : Sim N}, LoggedRun P s A s1 → LoggedRun P s1 B s' →
    LoggedRun P s (A ++ B) s' := by
  induction A with
  | nil => intro s s1 s' h1 h2; rw [show s1 = s from h1] at h2; exact h2
  | cons x A ih => intro s s1 s' h1 h2; exact ⟨h1.1, h1.2.1, ih h1.2.2 h2⟩

theorem loggedRun_describes {P : Collision.CDParams} {s s' : Sim N} {run : List (Entry × Sim N)} (h : LoggedRun P s run s') :
    ∀ x ∈ run, EntryDescribes x.1 x.1.dt x.2.1 := (loggedRun_time_step run h).2

/-- The frames of the application: every frame is one step with a record. -/
theorem frames_run {P : Collision.CDParams} (k : ℕ) : ∀ {s s' : Sim N} {log log' : List Entry} {dt : ℝ}, 0 < dt → s.1.params.time_step = dt →
    simulateAll P (List.replicate k (dt, true)) (s, log) = .ok (s', log') →
    ∃ run : List (Entry × Sim N), log' = log ++ run.map Prod.fst ∧ LoggedRun P s run s' ∧ run.length = k ∧ ∀ x ∈ run, x.1.dt = dt := by
  induction k with
  | zero =>
    intro s s' log log' dt _ _ h
    have h := Except.ok.inj h
    rw [Prod.mk.injEq] at h
    exact ⟨[], by simp [h.2], h.1.symm, rfl, by simp⟩
  | succ k ih =>
    intro s s' log log' dt hdt hs h
    rw [List.replicate_succ] at h
    unfold simulateAll at h
    cases h1 : simulateLogged P true (s, log) dt with
    | error e => rw [h1] at h; cases h
    | ok sl =>
      obtain ⟨s1, log1⟩ := sl
      rw [h1] at h
      replace h : simulateAll P (List.replicate k (dt, true)) (s1, log1) = .ok (s', log') := h
      obtain ⟨A, a1, a2, a3, a4, -, -⟩ := C126_log (by rw [hs]; exact hdt) h1
      rw [hs, div_self hdt.ne', Nat.ceil_one] at a3
      obtain ⟨B, b1, b2, b3, b4⟩ := ih hdt ((loggedRun_time_step A a2).1.trans hs) h
      obtain ⟨x, rfl⟩ := List.length_eq_one_iff.1 a3
      refine ⟨[x] ++ B, ?_, loggedRun_append _ _ a2 b2, by simp [b3, Nat.add_comm], ?_⟩
      · rw [b1, a1]; simp
      · intro y hy
        rcases List.mem_append.1 hy with hy | hy
        · rw [List.mem_singleton] at hy
          subst hy
          simpa using a4
        · exact b4 y hy

theorem convergence_shows {κ : Type} (col : ℕ → κ) {run : List (Entry × Sim N)} (h : ∀ x ∈ run, EntryDescribes x.1 x.1.dt x.2.1) :
    ShowsConvergence col run (convergenceLines col (run.map Prod.fst)) := by
  have hsome : ∀ x ∈ run, (∃ R, x.1.solver = some R) ↔ (x.2.1.contact_points ≠ [] ∨ x.2.1.hinges ≠ []) := by
    intro x hx
    rw [← Option.isSome_iff_exists, Option.isSome_iff_ne_none, ne_eq, (h x hx).solver_missing]
    tauto
  have hmem : ∀ l, l ∈ convergenceLines col (run.map Prod.fst) ↔
      ∃ i x R, run[i]? = some x ∧ x.1.solver = some R ∧ (⟨"", col i, R.residuals⟩ : PlotLine κ) = l := by
    intro l
    unfold convergenceLines
    rw [List.mem_filterMap]
    constructor
    · rintro ⟨⟨e, i⟩, hei, hl⟩
      rw [List.mem_zipIdx_iff_getElem?] at hei
      rw [List.getElem?_map, Option.map_eq_some_iff] at hei
      obtain ⟨x, hx, rfl⟩ := hei
      obtain ⟨R, hR, hl⟩ := Option.map_eq_some_iff.1 hl
      exact ⟨i, x, R, hx, hR, hl⟩
    · rintro ⟨i, x, R, hx, hR, hl⟩
      refine ⟨(x.1, i), ?_, ?_⟩
      · rw [List.mem_zipIdx_iff_getElem?, List.getElem?_map, hx]; rfl
      · dsimp only
        rw [hR, Option.map_some, hl]
  refine ⟨?_, ?_, ?_⟩
  · unfold convergenceLines
    have aux : ∀ (L : List (Entry × Sim N)) (n : ℕ), (∀ x ∈ L, (∃ R, x.1.solver = some R) ↔ (x.2.1.contact_points ≠ [] ∨ x.2.1.hinges ≠ [])) →
        (((L.map Prod.fst).zipIdx n).filterMap fun x => x.1.solver.map fun R => (⟨"", col x.2, R.residuals⟩ : PlotLine κ)).length =
          (L.filter fun x => decide (x.2.1.contact_points ≠ [] ∨ x.2.1.hinges ≠ [])).length := by
      intro L
      induction L with
      | nil => intro n _; rfl
      | cons x L ih =>
        intro n hL
        have hx := hL x List.mem_cons_self
        have ih' := ih (n + 1) (fun y hy => hL y (List.mem_cons_of_mem _ hy))
        rw [List.map_cons, List.zipIdx_cons, List.filterMap_cons]
        cases hs : x.1.solver with
        | none =>
          have hn : ¬ (x.2.1.contact_points ≠ [] ∨ x.2.1.hinges ≠ []) := by
            rw [← hx, hs]; simp
          rw [List.filter_cons_of_neg (by simpa using hn)]
          simpa [hs] using ih'
        | some R =>
          have hn : (x.2.1.contact_points ≠ [] ∨ x.2.1.hinges ≠ []) := hx.1 ⟨R, hs⟩
          rw [List.filter_cons_of_pos (by simpa using hn)]
          simp only [Option.map_some, List.length_cons]
          rw [ih']
    exact aux run 0 hsome
  · intro l hl
    obtain ⟨i, x, R, hx, hR, rfl⟩ := (hmem l).1 hl
    have hxm := List.mem_of_getElem? hx
    exact ⟨i, x, hx, (hsome x hxm).1 ⟨R, hR⟩, rfl, R, hR, rfl, (h x hxm).solver R hR⟩
  · rintro i ⟨x, hx, hc⟩
    obtain ⟨R, hR⟩ := (hsome x (List.mem_of_getElem? hx)).2 hc
    exact ⟨_, (hmem _).2 ⟨i, x, R, hx, hR, rfl⟩, rfl, x, hx, R, hR, rfl⟩

/-- **C129** (what holds).  After `k` frames of the application with a scene, closing the window with profiling checked draws three plots.  The energies at x = i are
those of the engine after step i (counted from 0); the convergence plot has a line for every step with contacts or hinges, coloured by the step modulo twenty.  The third plot has
one point less: at x = i it shows the size, the contacts and the penetration of step i + 1. -/
theorem C129_gui_partial {P : Collision.CDParams} {s s' : Sim N} {log : List Entry} (k : ℕ) (hdt : 0 < s.1.params.time_step)
    (h : simulateAll P (List.replicate k (s.1.params.time_step, true)) (s, []) = .ok (s', log)) :
    ∃ (run : List (Entry × Sim N)) (conv : List (PlotLine String)) (size contacts penetration kinetic potential : List (Option ℝ)),
      LoggedRun P s run s' ∧ run.length = k ∧
      guiEnd true (some log) = .ok [⟨"Convergence rates", true, conv⟩,
        ⟨"Profiling data", false, [⟨"Step size", "#3cb44b", size⟩, ⟨"Contacts", "#ffe119", contacts⟩, ⟨"Penetrations", "#46f0f0", penetration⟩]⟩,
        ⟨"Energy Plots", false, [⟨"Kinetic Energy", "#f58231", kinetic⟩, ⟨"Potential Energy", "#911eb4", potential⟩]⟩] ∧
      ShowsConvergence (fun i => plotColor (i % 20)) run conv ∧
      kinetic.length = k ∧ potential.length = k ∧ size.length = k - 1 ∧ contacts.length = k - 1 ∧ penetration.length = k - 1 ∧
      (∀ i < k, OfStep run i fun e s => EntryDescribes e s.1.params.time_step s.1 ∧ kinetic[i]? = some (some e.kinetic_energy) ∧ potential[i]? = some (some e.potential_energy)) ∧
      (∀ i, i + 1 < k → OfStep run (i + 1) fun e s => EntryDescribes e s.1.params.time_step s.1 ∧ size[i]? = some (some s.1.params.time_step) ∧
        contacts[i]? = some (some (s.1.contact_points.length : ℝ)) ∧ penetration[i]? = some (some e.max_penetration)) := by
  obtain ⟨run, r1, r2, r3, r4⟩ := frames_run k hdt rfl h
  rw [List.nil_append] at r1
  have hd := loggedRun_describes r2
  have hts : ∀ (L : List (Entry × Sim N)) {a b : Sim N}, LoggedRun P a L b → ∀ x ∈ L, x.2.1.params.time_step = a.1.params.time_step := by
    intro L
    induction L with
    | nil => intro a b _ x hx; cases hx
    | cons y L ih =>
      intro a b hL x hx
      have := fullStep_time_step hL.1
      rcases List.mem_cons.1 hx with rfl | hx
      · exact this
      · exact (ih hL.2.2 x hx).trans this
  have hts := hts run r2
  refine ⟨run, _, _, _, _, _, _, r2, r3, rfl, ?_, ?_, ?_, ?_, ?_, ?_, ?_, ?_⟩
  · rw [r1]; exact convergence_shows _ hd
  · simp [r1, r3]
  · simp [r1, r3]
  · simp [r1, r3]
  · simp [r1, r3]
  · simp [r1, r3]
  · intro i hi
    have hx : run[i]? = some (run[i]'(by omega)) := List.getElem?_eq_getElem (by omega)
    have hm := List.mem_of_getElem? hx
    refine ⟨_, hx, ?_, ?_, ?_⟩
    · rw [hts _ hm, ← r4 _ hm]; exact hd _ hm
    · simp [r1, hx]
    · simp [r1, hx]
  · intro i hi
    have hx : run[i + 1]? = some (run[i + 1]'(by omega)) := List.getElem?_eq_getElem (by omega)
    have hm := List.mem_of_getElem? hx
    refine ⟨_, hx, ?_, ?_, ?_, ?_⟩
    · rw [hts _ hm, ← r4 _ hm]; exact hd _ hm
    · rw [hts _ hm, ← r4 _ hm]
      simp [r1, List.getElem?_drop, Nat.add_comm 1 i, hx]
    · rw [← (hd _ hm).contact_points]
      simp [r1, List.getElem?_drop, Nat.add_comm 1 i, hx]
    · simp [r1, List.getElem?_drop, Nat.add_comm 1 i, hx]

/-- **C129** fails: after the very first frame the plot of the profiling data is empty, although that step was recorded. -/
theorem C129_first_lost {P : Collision.CDParams} {s s' : Sim N} {log : List Entry} (hdt : 0 < s.1.params.time_step)
    (h : simulateAll P [(s.1.params.time_step, true)] (s, []) = .ok (s', log)) :
    log.length = 1 ∧ ∃ a c figs, guiEnd true (some log) = .ok figs ∧ figs = [a, ⟨"Profiling data", false,
      [⟨"Step size", "#3cb44b", []⟩, ⟨"Contacts", "#ffe119", []⟩, ⟨"Penetrations", "#46f0f0", []⟩]⟩, c] := by
  obtain ⟨run, r1, r2, r3, r4⟩ := frames_run 1 hdt rfl h
  obtain ⟨x, rfl⟩ := List.length_eq_one_iff.1 r3
  subst r1
  exact ⟨rfl, _, _, _, rfl, rfl⟩

/-- **C129.** Closing the window with profiling checked and no scene created is an AttributeError; without profiling nothing is drawn. -/
theorem C129_no_engine : guiEnd true none = .error .attributeError ∧ ∀ log, guiEnd false log = .ok [] := ⟨rfl, fun _ => rfl⟩

/-- **C129.** Two steps have the same colour in the convergence plot of the window exactly if their numbers differ by a multiple of twenty; in the plot of
the command line program different steps always have different colours, in the order of the colour map. -/
theorem C129_colours (i j : ℕ) :
    (plotColor (i % 20) = plotColor (j % 20) ↔ i ≡ j [MOD 20]) ∧
    ∀ n, i < n → j < n → (0 ≤ linspace01 n i ∧ linspace01 n i ≤ 1 ∧ (linspace01 n i < linspace01 n j ↔ i < j)) := by
  constructor
  · have key : ∀ a b : Fin 20, plotColor a = plotColor b ↔ a = b := by decide
    have := key ⟨i % 20, Nat.mod_lt _ (by norm_num)⟩ ⟨j % 20, Nat.mod_lt _ (by norm_num)⟩
    simpa [Nat.ModEq] using this
  · intro n hi hj
    unfold linspace01
    by_cases hn : n = 1
    · subst hn
      have : i = 0 := by omega
      have : j = 0 := by omega
      subst_vars
      simp
    · simp only [if_neg hn]
      have h2 : (0 : ℝ) < (n : ℝ) - 1 := by
        have : (2 : ℝ) ≤ n := by exact_mod_cast (show 2 ≤ n by omega)
        linarith
      have h3 : (i : ℝ) ≤ (n : ℝ) - 1 := by
        have : ((i + 1 : ℕ) : ℝ) ≤ n := by exact_mod_cast hi
        push_cast at this; linarith
      refine ⟨by positivity, (div_le_one h2).2 h3, ?_⟩
      rw [div_lt_div_iff_of_pos_right h2, Nat.cast_lt]

/-- **C129.** The command line program ends with a plot of the fifty steps: a line for every step with contacts. -/
theorem C129_cmd {eig : Eig} (heig : EigSpec eig) {sd : SignedDistance} (hsd : OnePerNode sd) {P : GeoParams} (hP : GoodGeo P)
    (gen : ℕ → String → String) :
    ∃ s w C s' log run, SceneM.setup_scene eig ⟨Engine.create_engine, Dict.empty, gen⟩ = .ok ((), s) ∧ s.eng.toWorld = some w ∧
      (∀ i, s.collider sd P (w.bodies i) = .ok (C i)) ∧
      simulateAll P.toCDParams (List.replicate 50 (0.01, true)) ((w, C), []) = .ok (s', log) ∧ LoggedRun P.toCDParams (w, C) run s' ∧ run.length = 50 ∧
      ShowsConvergence (linspace01 50) run (cmdPlot log).lines := by
  obtain ⟨s, w, C, s', log, h1, h2, h3, h4, h5, -⟩ := C126_main heig hsd hP gen
  obtain ⟨s2, w2, C2, s2', a1, a2, a3, a4, -, a5, -⟩ := C124_main heig hsd hP gen
  obtain rfl : s = s2 := by
    have := h1.symm.trans a1
    exact (Prod.mk.inj (Except.ok.inj this)).2
  obtain ⟨ball, -, -, -, hpar, -⟩ := id a2
  have hw : w.params.time_step = 0.01 := by
    rw [toWorld_params h2, hpar]; rfl
  obtain ⟨run, r1, r2, r3, r4⟩ := frames_run 50 (by norm_num) hw h4
  rw [List.nil_append] at r1
  refine ⟨s, w, C, s', log, run, h1, h2, h3, h4, r2, r3, ?_⟩
  unfold cmdPlot
  dsimp only
  rw [h5, r1]
  exact convergence_shows _ (loggedRun_describes r2)

end Verif
