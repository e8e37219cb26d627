import Verif.Model.Profile
import Verif.Lemmas.While
import Verif.Props.RigidSim
import Verif.Props.ProxRigid
import Verif.Props.ContactSolve

/-! C126: the log of the rigid body simulator. -/

namespace Verif

open Rigid ProxSolver

variable {N : ℕ}

/-! ### The specification -/

/-- A report of the solver is truthful: the array has one place per allowed iteration; the first m hold the residuals, which do not
increase, the others are infinite; and the exit code tells why the solver stopped: 1 = the last residual is below the absolute tolerance, 2 = it differs
from the one before by less than the relative tolerance, 0 = all iterations were made.  "iterations" is m after an exit 0, and m - 1 otherwise. -/
def TruthfulReport (p : ProxSolver.Params) (R : SolverReport) : Prop :=
  R.residuals.length = p.max_iterations ∧
  ∃ res : List ℝ, R.residuals = res.map some ++ List.replicate (p.max_iterations - res.length) none ∧ res.Pairwise (· ≥ ·) ∧
    ((R.exitcode = 0 ∧ res.length = p.max_iterations ∧ R.iterations = res.length) ∨
     (R.exitcode = 1 ∧ R.iterations + 1 = res.length ∧ ∃ v, res.getLast? = some v ∧ v < p.absolute_tolerance) ∨
     (R.exitcode = 2 ∧ R.iterations + 1 = res.length ∧ ∃ pre u v, res = pre ++ [u, v] ∧ |v - u| < p.relative_tolerance * u))

/-- An entry of the log describes the step of size `dt` that left the world `w`. -/
structure EntryDescribes (e : Entry) (dt : ℝ) (w : World N) : Prop where
  dt_eq : e.dt = dt
  contact_points : e.contact_points = w.contact_points.length
  kinetic : e.kinetic_energy = ∑ k, (if (w.bodies k).is_fixed then 0 else (w.bodies k).mass * V3.dot (w.bodies k).v (w.bodies k).v / 2 +
    V3.dot (w.bodies k).w ((worldInertia (w.bodies k)).mulVec (w.bodies k).w) / 2)
  potential : e.potential_energy = ∑ k, (if (w.bodies k).is_fixed then 0 else (w.bodies k).mass * V3.dot (gravitySum w.forces) (w.bodies k).r)
  penetration : 0 ≤ e.max_penetration ∧ (∀ cp ∈ w.contact_points, -cp.g ≤ e.max_penetration) ∧
    (e.max_penetration = 0 ∨ ∃ cp ∈ w.contact_points, e.max_penetration = -cp.g)
  solver_missing : e.solver = none ↔ w.contact_points = [] ∧ w.hinges = []
  solver : ∀ R, e.solver = some R → TruthfulReport w.params.toParams R
  post_missing : e.post_stabilization = none ↔
    w.params.use_post_stabilization = false ∨ ∀ cp ∈ w.contact_points, cp.g < -w.params.min_gap_value → cp.g = 0
  post : ∀ R, e.post_stabilization = some R → TruthfulReport w.params.toParams R

/-- The engine `s` goes through the steps whose entries and results are listed, and ends as `s'`. -/
def LoggedRun (P : Collision.CDParams) : Sim N → List (Entry × Sim N) → Sim N → Prop
  | s, [], s' => s' = s
  | s, (e, v) :: L, s' => fullStep P e.dt s = .ok v ∧ EntryDescribes e e.dt v.1 ∧ LoggedRun P v L s'

/-! ### Proofs -/

theorem getLast?_range_map {α : Type*} (f : ℕ → α) (m : ℕ) (hm : 0 < m) : ((List.range m).map f).getLast? = some (f (m - 1)) := by
  obtain ⟨k, rfl⟩ : ∃ k, m = k + 1 := ⟨m - 1, by omega⟩
  rw [List.range_succ]
  simp

theorem truthful_solverReport {M : Type} (p : ProxSolver.Params) (Ps : List (Prob M)) {R : RigidResult M}
    (h : rigidSolve p Ps = .ok R) : TruthfulReport p (solverReport p R) := by
  by_cases hne : ∀ q ∈ Ps, Nonempty q.ι
  · obtain ⟨R', m, h1, hm, -, hres, hmono, -, hex⟩ := C37_rigid_solve p Ps hne
    rw [h1] at h
    injection h with h
    subst h
    have hlen : R'.residuals.length = m := by rw [hres]; simp
    refine ⟨by simp [solverReport], R'.residuals, ?_, hmono, ?_⟩
    · apply List.ext_getElem?
      intro i
      simp only [solverReport, List.getElem?_map, List.getElem?_append, List.length_map, hlen]
      by_cases hi : i < m
      · rw [if_pos hi, List.getElem?_range (by omega), List.getElem?_eq_getElem (by omega)]
        simp
      · rw [if_neg hi]
        by_cases hi' : i < p.max_iterations
        · rw [List.getElem?_range hi', List.getElem?_replicate, if_pos (by omega), Option.map_some,
            List.getElem?_eq_none (l := R'.residuals) (by omega)]
        · rw [List.getElem?_eq_none (by simpa using hi'), List.getElem?_eq_none (by simp; omega)]
          rfl
    · rcases hex with ⟨a, b, c⟩ | ⟨a, b, c, d⟩ | ⟨a, b, c, d⟩
      · exact Or.inl ⟨a, by omega, by simp only [solverReport]; omega⟩
      · refine Or.inr (Or.inl ⟨a, by simp only [solverReport]; omega, globalMerit p Ps m, ?_, d⟩)
        rw [hres, getLast?_range_map _ _ b, show m - 1 + 1 = m by omega]
      · refine Or.inr (Or.inr ⟨a, by simp only [solverReport]; omega, (List.range (m - 2)).map (fun i => globalMerit p Ps (i + 1)),
          globalMerit p Ps (m - 1), globalMerit p Ps m, ?_, d⟩)
        rw [hres]
        obtain ⟨k, rfl⟩ : ∃ k, m = k + 2 := ⟨m - 2, by omega⟩
        rw [List.range_succ, List.range_succ]
        simp
  · unfold rigidSolve at h
    by_cases hp : 0 < p.max_iterations
    · rw [if_pos] at h
      · cases h
      · push Not at hne
        obtain ⟨q, hq, hq'⟩ := hne
        exact ⟨⟨q, hq, hq'⟩, hp⟩
    · have h0 : p.max_iterations = 0 := by omega
      rw [if_neg (fun hc => hp hc.2), h0] at h
      injection h with h
      subst h
      refine ⟨by simp [solverReport], [], ?_, List.Pairwise.nil, Or.inl ⟨rfl, by simp [h0], ?_⟩⟩
      · simp [solverReport, h0]
      · simp [solverReport, rigidLoop, h0]

theorem solveReported_map {M : Type} (p : ProxSolver.Params) (Ps : List (Prob M)) (d : M → ℝ) :
    (solveReported p Ps d).map Prod.fst = solveAndAdd p Ps d := by
  unfold solveReported solveAndAdd
  cases rigidSolve p Ps <;> rfl

theorem velocityChangeReported_map (p : ProxSolver.Params) (Ps : List (Prob (Vel N))) (d : Vel N → ℝ) :
    (velocityChangeReported p Ps d).map Prod.fst = velocityChange p Ps d := by
  unfold velocityChangeReported velocityChange
  by_cases h : Ps.isEmpty = true
  · rw [if_pos h, if_pos h]; rfl
  · rw [if_neg h, if_neg h, ← solveReported_map]
    cases solveReported p Ps d <;> rfl

theorem stabilizedReported_map (w : World N) (C : Option (ContactProblem N w.contact_points.length)) (s : StateStorage N) :
    (stabilizedReported w C s).map Prod.fst = stabilized w C s := by
  unfold stabilizedReported stabilized
  cases C with
  | none => rfl
  | some C =>
    dsimp only
    by_cases h : w.params.use_post_stabilization = true
    · rw [if_pos h, if_pos h]
      unfold postStabilizationReported apply_post_stabilization
      dsimp only
      by_cases hb : (PostStabilization.initialize w C.data).b = 0
      · rw [if_pos hb, if_pos hb]; rfl
      · rw [if_neg hb, if_neg hb, ← solveReported_map]
        cases solveReported w.params.toParams [(PostStabilization.initialize w C.data).problem normalProx] 0 <;> rfl
    · rw [if_neg h, if_neg h]; rfl

/-- The part of a step after the collision detection, without and with the log. -/
noncomputable def stepTail (dt : ℝ) (s : StateStorage N) (w : World N) : Except PyErr (World N) := do
  let C ← contactProblem dt s w
  let delta_u ← velocityChange w.params.toParams (problemList dt s w C) (dt • s.delta_u_ext)
  let s := velocity_update s delta_u
  let s := position_update s dt w.bodies s.u
  let s ← stabilized w C s
  return { w with bodies := copy_to_engine s w.bodies }

/-- The same with the log. -/
noncomputable def stepTailLogged (b : Bool) (dt : ℝ) (s : StateStorage N) (w : World N) (log : List Entry) : Except PyErr (World N × List Entry) := do
  let C ← contactProblem dt s w
  let v ← velocityChangeReported w.params.toParams (problemList dt s w C) (dt • s.delta_u_ext)
  let s := velocity_update s v.1
  let s := position_update s dt w.bodies s.u
  let ps ← stabilizedReported w C s
  let w : World N := { w with bodies := copy_to_engine ps.1 w.bodies }
  if b then
    return (w, log ++ [⟨v.2, ps.2, dt, w.contact_points.length, (compute_total_energy ps.1 w).1, (compute_total_energy ps.1 w).2,
      get_largest_penetration w.contact_points⟩])
  else return (w, log)

theorem step_tail (cd : World N → Except PyErr (List (ContactPoint N))) (dt : ℝ) (w : World N) : step cd dt w =
    (copy_from_engine w.bodies).bind fun s => (cd w).bind fun cps => stepTail dt s { w with contact_points := cps } := rfl

theorem stepLogged_tail (cd : World N → Except PyErr (List (ContactPoint N))) (b : Bool) (dt : ℝ) (wl : World N × List Entry) :
    stepLogged cd b dt wl =
    (copy_from_engine wl.1.bodies).bind fun s => (cd wl.1).bind fun cps => stepTailLogged b dt s { wl.1 with contact_points := cps } wl.2 := rfl

theorem stepTail_map (b : Bool) (dt : ℝ) (s : StateStorage N) (w : World N) (log : List Entry) :
    (stepTailLogged b dt s w log).map Prod.fst = stepTail dt s w := by
  unfold stepTailLogged stepTail
  dsimp only
  simp only [bind, Except.bind]
  cases contactProblem dt s w with
  | error e => rfl
  | ok C =>
    dsimp only
    rw [← velocityChangeReported_map]
    cases velocityChangeReported w.params.toParams (problemList dt s w C) (dt • s.delta_u_ext) with
    | error e => rfl
    | ok v =>
      simp only [Except.map]
      rw [← stabilizedReported_map]
      cases stabilizedReported w C (position_update (velocity_update s v.1) dt w.bodies (velocity_update s v.1).u) with
      | error e => rfl
      | ok ps => cases b <;> rfl

/-- One step with and without the log. -/
theorem stepLogged_map (cd : World N → Except PyErr (List (ContactPoint N))) (b : Bool) (dt : ℝ) (wl : World N × List Entry) :
    (stepLogged cd b dt wl).map Prod.fst = step cd dt wl.1 := by
  rw [stepLogged_tail, step_tail]
  cases copy_from_engine wl.1.bodies with
  | error e => rfl
  | ok s =>
    cases cd wl.1 with
    | error e => rfl
    | ok cps => exact stepTail_map b dt s _ _

theorem velocityChangeReported_spec {p : ProxSolver.Params} {Ps : List (Prob (Vel N))} {d : Vel N → ℝ} {v : (Vel N → ℝ) × Option SolverReport}
    (h : velocityChangeReported p Ps d = .ok v) : (v.2 = none ↔ Ps = []) ∧ ∀ R, v.2 = some R → TruthfulReport p R := by
  unfold velocityChangeReported at h
  cases Ps with
  | nil =>
    replace h : Except.ok (d, none) = Except.ok v := h
    injection h with h
    subst h
    exact ⟨by simp, fun R hR => by cases hR⟩
  | cons q Qs =>
    rw [if_neg (by simp)] at h
    unfold solveReported at h
    cases hr : rigidSolve p (q :: Qs) with
    | error e => rw [hr] at h; cases h
    | ok res =>
      rw [hr] at h
      replace h := Except.ok.inj h
      subst h
      refine ⟨by simp, fun R hR => ?_⟩
      rw [← Option.some.inj hR]
      exact truthful_solverReport p _ hr

theorem stabilizedReported_spec {w : World N} {C : Option (ContactProblem N w.contact_points.length)} {s : StateStorage N}
    {v : StateStorage N × Option SolverReport} (hC : C = none ↔ w.contact_points = []) (h : stabilizedReported w C s = .ok v) :
    (v.2 = none ↔ w.params.use_post_stabilization = false ∨ ∀ cp ∈ w.contact_points, cp.g < -w.params.min_gap_value → cp.g = 0) ∧
    ∀ R, v.2 = some R → TruthfulReport w.params.toParams R := by
  unfold stabilizedReported at h
  cases C with
  | none =>
    replace h := Except.ok.inj h
    subst h
    refine ⟨⟨fun _ => Or.inr ?_, fun _ => rfl⟩, fun R hR => by cases hR⟩
    rw [hC.1 rfl]
    simp
  | some C =>
    dsimp only at h
    by_cases hp : w.params.use_post_stabilization = true
    · rw [if_pos hp] at h
      unfold postStabilizationReported at h
      dsimp only at h
      have key : (PostStabilization.initialize w C.data).b = 0 ↔ ∀ cp ∈ w.contact_points, cp.g < -w.params.min_gap_value → cp.g = 0 := by
        constructor
        · intro hb cp hcp hg
          obtain ⟨i, hi⟩ := List.get_of_mem hcp
          have := congrFun hb (i, 0)
          simp only [PostStabilization.initialize, postError, hi, true_and, if_pos hg] at this
          exact this
        · intro hb
          funext i
          simp only [PostStabilization.initialize, postError, Pi.zero_apply]
          split_ifs with hi
          · exact hb _ (List.get_mem _ _) hi.2
          · rfl
      by_cases hb : (PostStabilization.initialize w C.data).b = 0
      · rw [if_pos hb] at h
        replace h := Except.ok.inj h
        subst h
        exact ⟨⟨fun _ => Or.inr (key.1 hb), fun _ => rfl⟩, fun R hR => by cases hR⟩
      · rw [if_neg hb] at h
        unfold solveReported at h
        cases hr : rigidSolve w.params.toParams [(PostStabilization.initialize w C.data).problem normalProx] with
        | error e => rw [hr] at h; cases h
        | ok res =>
          rw [hr] at h
          replace h := Except.ok.inj h
          subst h
          refine ⟨⟨fun hc => (by cases hc), fun hc => ?_⟩, fun R hR => ?_⟩
          · rcases hc with hc | hc
            · rw [hp] at hc; cases hc
            · exact absurd (key.2 hc) hb
          · rw [← Option.some.inj hR]
            exact truthful_solverReport _ _ hr
    · rw [if_neg hp] at h
      replace h := Except.ok.inj h
      subst h
      exact ⟨⟨fun _ => Or.inl (by simpa using hp), fun _ => rfl⟩, fun R hR => by cases hR⟩

/-- One step appends one entry, which describes it; nothing without profiling. -/
theorem stepLogged_spec {cd : World N → Except PyErr (List (ContactPoint N))} {b : Bool} {dt : ℝ} {w w' : World N} {log log' : List Entry}
    (h : stepLogged cd b dt (w, log) = .ok (w', log')) :
    step cd dt w = .ok w' ∧ (b = false → log' = log) ∧ (b = true → ∃ e, log' = log ++ [e] ∧ EntryDescribes e dt w') := by
  refine ⟨by rw [← stepLogged_map cd b dt (w, log), h]; rfl, ?_⟩
  rw [stepLogged_tail] at h
  cases hs : copy_from_engine w.bodies with
  | error e => rw [hs] at h; cases h
  | ok s =>
    rw [hs] at h
    cases hcd : cd w with
    | error e => simp only [Except.bind, hcd] at h; cases h
    | ok cps =>
      simp only [Except.bind, hcd] at h
      generalize ({ w with contact_points := cps } : World N) = wc at h
      unfold stepTailLogged at h
      dsimp only at h
      simp only [bind, Except.bind] at h
      cases hC : contactProblem dt s wc with
      | error e => rw [hC] at h; cases h
      | ok C =>
        rw [hC] at h
        dsimp only at h
        have hCn : C = none ↔ wc.contact_points = [] := by
          unfold contactProblem at hC
          split_ifs at hC with hc
          · rw [← Except.ok.inj hC]; simp [hc]
          · cases hi : Contacts.initialize dt s wc with
            | error e => rw [hi] at hC; cases hC
            | ok c => rw [hi] at hC; rw [← Except.ok.inj hC]; simp [hc]
        cases hv : velocityChangeReported wc.params.toParams (problemList dt s wc C) (dt • s.delta_u_ext) with
        | error e => rw [hv] at h; cases h
        | ok v =>
          rw [hv] at h
          dsimp only at h
          cases hps : stabilizedReported wc C (position_update (velocity_update s v.1) dt wc.bodies (velocity_update s v.1).u) with
          | error e => rw [hps] at h; cases h
          | ok ps =>
            rw [hps] at h
            dsimp only at h
            have hv' := velocityChangeReported_spec hv
            have hp' := stabilizedReported_spec hCn hps
            cases b with
            | false =>
              have h := Except.ok.inj h
              rw [Prod.mk.injEq] at h
              exact ⟨fun _ => h.2.symm, fun hc => by cases hc⟩
            | true =>
              have h := Except.ok.inj h
              rw [Prod.mk.injEq] at h
              obtain ⟨h1, h2⟩ := h
              refine ⟨fun hc => (by cases hc), fun _ => ⟨_, h2.symm, ?_⟩⟩
              have hen := C67_energy ps.1 ({ wc with bodies := copy_to_engine ps.1 wc.bodies } : World N)
              dsimp only at hen
              have hb : copy_to_engine ps.1 (copy_to_engine ps.1 wc.bodies) = copy_to_engine ps.1 wc.bodies := rfl
              rw [hb] at hen
              rw [← h1]
              refine ⟨rfl, rfl, ?_, ?_, C40_largest_penetration _, ?_, hv'.2, hp'.1, hp'.2⟩
              · dsimp only
                rw [hen]
              · dsimp only
                rw [hen]
              · refine hv'.1.trans ?_
                dsimp only
                unfold problemList
                cases C with
                | none =>
                  have := hCn.1 rfl
                  simp only [this, List.nil_append, true_and]
                  split_ifs with hh <;> simp [hh]
                | some c =>
                  have : ¬ wc.contact_points = [] := fun hc => by cases hCn.2 hc
                  simp [this]

theorem fullStepLogged_map (P : Collision.CDParams) (b : Bool) (dt : ℝ) (sl : Sim N × List Entry) :
    (fullStepLogged P b dt sl).map Prod.fst = fullStep P dt sl.1 := by
  unfold fullStepLogged fullStep
  rw [← stepLogged_map _ b dt (sl.1.1, sl.2)]
  cases stepLogged (fun w => (Collision.run_collision_detection P w.bodies sl.1.2).map Prod.snd) b dt (sl.1.1, sl.2) with
  | error e => rfl
  | ok wl => cases hr : Collision.run_collision_detection P sl.1.1.bodies sl.1.2 <;> simp only [Except.map, bind, Except.bind, hr] <;> rfl

theorem fullStepLogged_spec {P : Collision.CDParams} {b : Bool} {dt : ℝ} {s s' : Sim N} {log log' : List Entry}
    (h : fullStepLogged P b dt (s, log) = .ok (s', log')) :
    fullStep P dt s = .ok s' ∧ (b = false → log' = log) ∧ (b = true → ∃ e, log' = log ++ [e] ∧ EntryDescribes e dt s'.1) := by
  refine ⟨by rw [← fullStepLogged_map P b dt (s, log), h]; rfl, ?_⟩
  unfold fullStepLogged at h
  dsimp only at h
  cases hst : stepLogged (fun w => (Collision.run_collision_detection P w.bodies s.2).map Prod.snd) b dt (s.1, log) with
  | error e => rw [hst] at h; cases h
  | ok wl =>
    rw [hst] at h
    cases hr : Collision.run_collision_detection P s.1.bodies s.2 with
    | error e => simp only [bind, Except.bind, hr] at h; cases h
    | ok r =>
      simp only [bind, Except.bind, hr] at h
      have h := Except.ok.inj h
      rw [Prod.mk.injEq] at h
      obtain ⟨h1, h2⟩ := h
      rw [← h1, ← h2]
      exact (stepLogged_spec hst).2

theorem fullStep_time_step {P : Collision.CDParams} {dt : ℝ} {s s' : Sim N} (h : fullStep P dt s = .ok s') :
    s'.1.params.time_step = s.1.params.time_step := by
  unfold fullStep at h
  cases hst : step (fun w => (Collision.run_collision_detection P w.bodies s.2).map Prod.snd) dt s.1 with
  | error e => rw [hst] at h; cases h
  | ok w =>
    rw [hst] at h
    cases hr : Collision.run_collision_detection P s.1.bodies s.2 with
    | error e => simp only [bind, Except.bind, hr] at h; cases h
    | ok r =>
      simp only [bind, Except.bind, hr] at h
      rw [← Except.ok.inj h]
      exact step_keeps _ _ _ _ hst

/-- **C126.** Profiling never changes a simulation: whether it is on or off, and whatever is in the log already, `simulate` leaves the same
world, or raises the same exception. -/
theorem C126_unchanged (P : Collision.CDParams) (profiling_on : Bool) (s : Sim N) (log : List Entry) (T : ℝ) :
    (simulateLogged P profiling_on (s, log) T).map Prod.fst = fullSimulate P s T := by
  unfold simulateLogged fullSimulate
  by_cases hT : T ≤ 0
  · rw [if_pos hT, if_pos hT]; rfl
  · rw [if_neg hT, if_neg hT]
    rw [show whileLoop (fullTrip P) (s, T) = _ from
      (whileLoop_forget (loggedTrip P profiling_on) (fullTrip P) (fun s => (s.1.1, s.2)) ?_ ((s, log), T)).symm]
    · cases whileLoop (loggedTrip P profiling_on) ((s, log), T) <;> rfl
    · rintro ⟨wl, t⟩
      unfold loggedTrip fullTrip
      dsimp only
      by_cases ht : t = 0
      · rw [if_pos ht, if_pos ht]; rfl
      · rw [if_neg ht, if_neg ht, ← fullStepLogged_map P profiling_on _ wl]
        cases fullStepLogged P profiling_on (min t wl.1.1.params.time_step) wl <;> rfl

/-- The entries that a loop adds. -/
theorem logged_loop {P : Collision.CDParams} {b : Bool} {s : (Sim N × List Entry) × ℝ}
    {r : Except PyErr ((Sim N × List Entry) × ℝ)} (h : LoopEnds (loggedTrip P b) s r) :
    ∀ s', r = .ok s' → s'.2 = 0 ∧ (b = false → s'.1.2 = s.1.2) ∧ (b = true → ∃ run : List (Entry × Sim N), s'.1.2 = s.1.2 ++ run.map Prod.fst ∧
      LoggedRun P s.1.1 run s'.1.1 ∧ (run.map fun x => x.1.dt).sum = s.2 ∧
      ((0 < s.1.1.1.params.time_step ∧ 0 ≤ s.2) → (∀ x ∈ run, 0 < x.1.dt ∧ x.1.dt ≤ s.1.1.1.params.time_step) ∧
        (∀ x ∈ run.dropLast, x.1.dt = s.1.1.1.params.time_step))) := by
  induction h with
  | @done s hs =>
    intro s' hs'
    cases hs'
    have h0 : s.2 = 0 := by
      by_contra hc
      unfold loggedTrip at hs
      rw [if_neg hc] at hs
      dsimp only at hs
      cases hst : fullStepLogged P b (min s.2 s.1.1.1.params.time_step) s.1 with
      | error e => rw [hst] at hs; cases hs
      | ok w => rw [hst] at hs; cases Except.ok.inj hs
    exact ⟨h0, fun _ => rfl, fun _ => ⟨[], by simp, rfl, by simp [h0], fun _ => ⟨by simp, by simp⟩⟩⟩
  | raised hs => intro s' hs'; cases hs'
  | @next s s1 r hs _ ih =>
    intro s' hs'
    obtain ⟨h0, h1, h2⟩ := ih s' hs'
    unfold loggedTrip at hs
    by_cases ht : s.2 = 0
    · rw [if_pos ht] at hs; cases Except.ok.inj hs
    · rw [if_neg ht] at hs
      dsimp only at hs
      cases hst : fullStepLogged P b (min s.2 s.1.1.1.params.time_step) s.1 with
      | error e => rw [hst] at hs; cases hs
      | ok wl =>
        rw [hst] at hs
        have hs := Option.some.inj (Except.ok.inj hs)
        subst hs
        obtain ⟨k1, k2, k3⟩ := fullStepLogged_spec (s := s.1.1) (log := s.1.2) (s' := wl.1) (log' := wl.2) hst
        refine ⟨h0, fun hb => (h1 hb).trans (k2 hb), fun hb => ?_⟩
        obtain ⟨e, he, hd⟩ := k3 hb
        obtain ⟨run, r1, r2, r3, r4⟩ := h2 hb
        have hpar : wl.1.1.params.time_step = s.1.1.1.params.time_step := fullStep_time_step k1
        refine ⟨(e, wl.1) :: run, ?_, ⟨by rw [hd.dt_eq]; exact k1, by rw [hd.dt_eq]; exact hd, r2⟩, ?_, ?_⟩
        · rw [r1]
          dsimp only
          rw [he]
          simp
        · simp only [List.map_cons, List.sum_cons, r3, hd.dt_eq]
          ring
        · rintro ⟨p1, p2⟩
          have hpos : 0 < s.2 := lt_of_le_of_ne p2 (Ne.symm ht)
          dsimp only at r4
          rw [hpar] at r4
          obtain ⟨q1, q2⟩ := r4 ⟨p1, by have := min_le_left s.2 s.1.1.1.params.time_step; linarith⟩
          refine ⟨?_, ?_⟩
          · intro x hx
            rcases List.mem_cons.1 hx with rfl | hx
            · dsimp only
              rw [hd.dt_eq]
              exact ⟨lt_min hpos p1, min_le_right _ _⟩
            · exact q1 x hx
          · cases run with
            | nil => simp
            | cons y Y =>
              intro x hx
              rw [List.dropLast_cons_of_ne_nil (by simp)] at hx
              rcases List.mem_cons.1 hx with rfl | hx
              · dsimp only
                rw [hd.dt_eq]
                apply min_eq_right
                by_contra hc
                have hm : min s.2 s.1.1.1.params.time_step = s.2 := min_eq_left (by linarith)
                rw [hm, sub_self] at r3
                have hy : ∀ x ∈ (y :: Y).map (fun x => x.1.dt), 0 ≤ x := by
                  intro z hz
                  obtain ⟨x, hx, rfl⟩ := List.mem_map.1 hz
                  exact (q1 x hx).1.le
                have h3 := List.single_le_sum hy y.1.dt (by simp)
                rw [r3] at h3
                have := (q1 y (by simp)).1
                linarith
              · exact q2 x hx

/-- **C126.** With profiling on, `simulate(T)` appends one entry per step to the log and nothing else: the sizes of the logged steps add up to T, each
is positive and at most the time step, and only the last may be smaller; the k-th entry describes the world after the k-th step, and the last world is the one
`simulate` leaves.  With profiling off the log is untouched. -/
theorem C126_log {P : Collision.CDParams} {s s' : Sim N} {log log' : List Entry} {T : ℝ}
    (hts : 0 < s.1.params.time_step) (h : simulateLogged P true (s, log) T = .ok (s', log')) :
    ∃ run : List (Entry × Sim N), log' = log ++ run.map Prod.fst ∧ LoggedRun P s run s' ∧ run.length = ⌈T / s.1.params.time_step⌉₊ ∧
      (run.map fun x => x.1.dt).sum = T ∧ (∀ x ∈ run, 0 < x.1.dt ∧ x.1.dt ≤ s.1.params.time_step) ∧
      (∀ x ∈ run.dropLast, x.1.dt = s.1.params.time_step) := by
  unfold simulateLogged at h
  by_cases hT : T ≤ 0
  · rw [if_pos hT] at h; cases h
  · rw [if_neg hT] at h
    by_cases hex : ∃ r, LoopEnds (loggedTrip P true) ((s, log), T) r
    · obtain ⟨r, hr⟩ := hex
      rw [whileLoop_eq hr] at h
      cases r with
      | error e => cases h
      | ok t' =>
        have hs' := Except.ok.inj h
        obtain ⟨-, -, h2⟩ := logged_loop hr t' rfl
        obtain ⟨run, r1, r2, r3, r4⟩ := h2 rfl
        obtain ⟨r5, r6⟩ := r4 ⟨hts, by dsimp only; linarith⟩
        rw [hs'] at r1 r2
        refine ⟨run, r1, r2, ?_, r3, r5, r6⟩
        have hne : run ≠ [] := by
          rintro rfl
          simp at r3
          linarith
        obtain ⟨A, x, rfl⟩ : ∃ A x, run = A ++ [x] := ⟨run.dropLast, run.getLast hne, (List.dropLast_append_getLast hne).symm⟩
        rw [List.dropLast_concat] at r6
        have hsum : (A.map fun x => x.1.dt).sum = A.length * s.1.params.time_step := by
          clear r1 r2 r3 r4 r5 hne hr
          induction A with
          | nil => simp
          | cons a A ih =>
            simp only [List.map_cons, List.sum_cons, List.length_cons, Nat.cast_add, Nat.cast_one]
            rw [ih (fun x hx => r6 x (List.mem_cons_of_mem _ hx)), r6 a List.mem_cons_self]
            ring
        obtain ⟨x1, x2⟩ := r5 x (by simp)
        simp only [List.map_append, List.sum_append, List.map_cons, List.map_nil, List.sum_singleton, hsum] at r3
        symm
        rw [Nat.ceil_eq_iff (by simp)]
        simp only [List.length_append, List.length_singleton, Nat.add_sub_cancel, Nat.cast_add, Nat.cast_one]
        constructor
        · rw [lt_div_iff₀ hts]; linarith
        · rw [div_le_iff₀ hts]; linarith
    · rw [whileLoop_diverges (not_exists.1 hex)] at h
      cases h

/-- **C126.** Without profiling the log stays as it is. -/
theorem C126_off {P : Collision.CDParams} {s s' : Sim N} {log log' : List Entry} {T : ℝ}
    (h : simulateLogged P false (s, log) T = .ok (s', log')) : log' = log := by
  unfold simulateLogged at h
  by_cases hT : T ≤ 0
  · rw [if_pos hT] at h; cases h
  · rw [if_neg hT] at h
    by_cases hex : ∃ r, LoopEnds (loggedTrip P false) ((s, log), T) r
    · obtain ⟨r, hr⟩ := hex
      rw [whileLoop_eq hr] at h
      cases r with
      | error e => cases h
      | ok t' =>
        have hs' := Except.ok.inj h
        have := (logged_loop hr t' rfl).2.1 rfl
        rw [hs'] at this
        exact this
    · rw [whileLoop_diverges (not_exists.1 hex)] at h
      cases h
