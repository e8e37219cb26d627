import Verif.Model.FullSim

/-! Model of the profiling of `prox_rigid_bodies`: the records that `steppers.py` and `gauss_seidel_solver.py` write when `profiling_on` is true, and
`get_log` of `api.py`.  The timings are left out. -/

namespace Verif.Rigid

open Matrix ProxSolver

variable {N : ℕ}

/-- gauss_seidel_solver.py:32-36, 77-101: "residuals" (an array of `max_iterations` numbers, `none` for np.inf), "iterations", "exitcode". -/
structure SolverReport where
  residuals : List (Option ℝ)
  iterations : ℕ
  exitcode : ℕ

/-- gauss_seidel_solver.py:32-36, 77: the array starts as infinities and the residuals are written from the front. -/
def solverReport {M : Type} (p : ProxSolver.Params) (R : RigidResult M) : SolverReport where
  residuals := (List.range p.max_iterations).map fun i => R.residuals[i]?
  iterations := R.iterations
  exitcode := R.exitcode

/-- steppers.py:100-105: `profile_data`; `solver` are the entries without a prefix, `post_stabilization` those with the prefix of that name;
`none` if these keys are missing. -/
structure Entry where
  solver : Option SolverReport
  post_stabilization : Option SolverReport
  dt : ℝ
  contact_points : ℕ
  kinetic_energy : ℝ
  potential_energy : ℝ
  max_penetration : ℝ

/-- steppers.py:78-81: the solver is run, its report written and the solutions added. -/
noncomputable def solveReported {M : Type} (p : ProxSolver.Params) (Ps : List (Prob M)) (delta_u : M → ℝ) :
    Except PyErr ((M → ℝ) × SolverReport) :=
  match rigidSolve p Ps with
  | .error e => .error e
  | .ok res => .ok (res.problems.foldl (fun d q => d + q.finalize q.st.sol) delta_u, solverReport p res)

/-- steppers.py:73-81. -/
noncomputable def velocityChangeReported (p : ProxSolver.Params) (Ps : List (Prob (Vel N))) (delta_u : Vel N → ℝ) :
    Except PyErr ((Vel N → ℝ) × Option SolverReport) :=
  if Ps.isEmpty then .ok (delta_u, none) else (solveReported p Ps delta_u).map fun r => (r.1, some r.2)

open Classical in
/-- steppers.py:15-35 `_apply_post_stabilization`. -/
noncomputable def postStabilizationReported (w : World N) (D : Data w.contact_points.length 4 (Vel N)) (s : StateStorage N) :
    Except PyErr (StateStorage N × Option SolverReport) := do
  let P := PostStabilization.initialize w D
  if P.b = 0 then return (s, none)
  else
    let r ← solveReported w.params.toParams [P.problem normalProx] 0
    return (position_update s 1.0 w.bodies r.1, some r.2)

/-- steppers.py:86-87. -/
noncomputable def stabilizedReported (w : World N) (C : Option (ContactProblem N w.contact_points.length)) (s : StateStorage N) :
    Except PyErr (StateStorage N × Option SolverReport) :=
  match C with
  | none => .ok (s, none)
  | some C => if w.params.use_post_stabilization then postStabilizationReported w C.data s else .ok (s, none)

/-- steppers.py:47-106 `SemiImplicitStepper.step`: the second component of the state is `self.log`. -/
noncomputable def stepLogged (cd : World N → Except PyErr (List (ContactPoint N))) (profiling_on : Bool) (dt : ℝ)
    (wl : World N × List Entry) : Except PyErr (World N × List Entry) := do
  let w := wl.1
  let s ← copy_from_engine w.bodies
  let cps ← cd w
  let w : World N := { w with contact_points := cps }
  let C ← contactProblem dt s w
  let v ← velocityChangeReported w.params.toParams (problemList dt s w C) (dt • s.delta_u_ext)
  let s := velocity_update s v.1
  let s := position_update s dt w.bodies s.u
  let ps ← stabilizedReported w C s
  let w : World N := { w with bodies := copy_to_engine ps.1 w.bodies }
  if profiling_on then
    let energy := compute_total_energy ps.1 w
    let profile_data : Entry :=
      { solver := v.2, post_stabilization := ps.2, dt := dt, contact_points := w.contact_points.length,
        kinetic_energy := energy.1, potential_energy := energy.2, max_penetration := get_largest_penetration w.contact_points }
    return (w, wl.2 ++ [profile_data])
  else return (w, wl.2)

/-- steppers.py:47-106 with the package's own collision detection (cf. `fullStep`). -/
noncomputable def fullStepLogged (P : Collision.CDParams) (profiling_on : Bool) (dt : ℝ) (sl : Sim N × List Entry) : Except PyErr (Sim N × List Entry) := do
  let wl ← stepLogged (fun w => (Collision.run_collision_detection P w.bodies sl.1.2).map Prod.snd) profiling_on dt (sl.1.1, sl.2)
  let r ← Collision.run_collision_detection P sl.1.1.bodies sl.1.2
  return ((wl.1, r.1), wl.2)

open Classical in
/-- api.py:689-692: one trip of the loop of `simulate`. -/
noncomputable def loggedTrip (P : Collision.CDParams) (profiling_on : Bool) : LoopStep ((Sim N × List Entry) × ℝ) := fun s =>
  if s.2 = 0 then .ok none
  else
    let dt := min s.2 s.1.1.1.params.time_step
    match fullStepLogged P profiling_on dt s.1 with
    | .error e => .error e
    | .ok w => .ok (some (w, s.2 - dt))

open Classical in
/-- api.py:676-693 `simulate` with the stepper of the package installed; the second component is what `get_log` (api.py:696-705) returns.  The
log after an exception is left out. -/
noncomputable def simulateLogged (P : Collision.CDParams) (profiling_on : Bool) (sl : Sim N × List Entry) (T : ℝ) : Except PyErr (Sim N × List Entry) :=
  if T ≤ 0 then .error .valueError else (whileLoop (loggedTrip P profiling_on) (sl, T)).map Prod.fst

/-- Several calls of `simulate` one after the other, each with its time and its flag. -/
noncomputable def simulateAll (P : Collision.CDParams) : List (ℝ × Bool) → Sim N × List Entry → Except PyErr (Sim N × List Entry)
  | [], sl => .ok sl
  | (T, b) :: L, sl => do
    let sl ← simulateLogged P b sl T
    simulateAll P L sl

end Verif.Rigid
