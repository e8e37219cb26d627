import Verif.Model.Constraints
import Verif.Model.While

/-! Model of `rainbow/simulators/prox_rigid_bodies/steppers.py` and of `simulate` in `api.py`. -/

namespace Verif.Rigid

open Matrix ProxSolver

variable {N : ℕ}

/-- steppers.py:78-81 (and 33-34): `SOLVER.solve(engine, problems, ...)`, then
`for prb in problems: delta_u += prb.finalize_solution()`. -/
noncomputable def solveAndAdd {M : Type} (p : ProxSolver.Params) (Ps : List (Prob M)) (delta_u : M → ℝ) :
    Except PyErr (M → ℝ) :=
  match rigidSolve p Ps with
  | .error e => .error e
  | .ok res => .ok (res.problems.foldl (fun d q => d + q.finalize q.st.sol) delta_u)

open Classical in
/-- steppers.py:15-35 `_apply_post_stabilization` on the state. -/
noncomputable def apply_post_stabilization (w : World N) (D : Data w.contact_points.length 4 (Vel N))
    (s : StateStorage N) : Except PyErr (StateStorage N) := do
  let P := PostStabilization.initialize w D
  if P.b = 0 then return s
  else
    let delta_r ← solveAndAdd w.params.toParams [P.problem normalProx] 0
    return position_update s 1.0 w.bodies delta_r

open Classical in
/-- steppers.py:68-69, 75-76: the contact problem after `initialize`, if there are contacts. -/
noncomputable def contactProblem (dt : ℝ) (s : StateStorage N) (w : World N) :
    Except PyErr (Option (ContactProblem N w.contact_points.length)) :=
  if w.contact_points = [] then .ok none else (Contacts.initialize dt s w).map some

open Classical in
/-- steppers.py:64-71: the list `problems`. -/
noncomputable def problemList (dt : ℝ) (s : StateStorage N) (w : World N)
    (C : Option (ContactProblem N w.contact_points.length)) : List (Prob (Vel N)) :=
  (match C with | none => [] | some C => [C.data.problem (contactProx Prox.prox_sphere C.mu)]) ++
  (if w.hinges = [] then [] else [(Hinges.initialize dt s w).problem freeProx])

/-- steppers.py:73-81: `if problems: ...`. -/
noncomputable def velocityChange (p : ProxSolver.Params) (Ps : List (Prob (Vel N))) (delta_u : Vel N → ℝ) :
    Except PyErr (Vel N → ℝ) :=
  if Ps.isEmpty then .ok delta_u else solveAndAdd p Ps delta_u

/-- steppers.py:86-87: post-stabilization, only with contacts. -/
noncomputable def stabilized (w : World N) (C : Option (ContactProblem N w.contact_points.length)) (s : StateStorage N) :
    Except PyErr (StateStorage N) :=
  match C with
  | none => .ok s
  | some C => if w.params.use_post_stabilization then apply_post_stabilization w C.data s else .ok s

/-- steppers.py:47-89 `SemiImplicitStepper.step` without profiling.  `cd` stands for `CD.run_collision_detection`, which
only replaces the contact points (and the bounding volumes). -/
noncomputable def step (cd : World N → Except PyErr (List (ContactPoint N))) (dt : ℝ) (w : World N) :
    Except PyErr (World N) := do
  let s ← copy_from_engine w.bodies
  let cps ← cd w
  let w : World N := { w with contact_points := cps }
  let C ← contactProblem dt s w
  let delta_u ← velocityChange w.params.toParams (problemList dt s w C) (dt • s.delta_u_ext)
  let s := velocity_update s delta_u
  let s := position_update s dt w.bodies s.u
  let s ← stabilized w C s
  return { w with bodies := copy_to_engine s w.bodies }

open Classical in
/-- api.py:689-692: one trip of the loop of `simulate`; the state is the engine and `T_left`. -/
noncomputable def simTrip (stepper : ℝ → World N → Except PyErr (World N)) : LoopStep (World N × ℝ) := fun s =>
  if s.2 = 0 then .ok none
  else
    let dt := min s.2 s.1.params.time_step
    match stepper dt s.1 with
    | .error e => .error e
    | .ok w => .ok (some (w, s.2 - dt))

open Classical in
/-- api.py:676-693 `simulate`; the stepper is `engine.stepper`, for instance `step cd`. -/
noncomputable def simulate (stepper : Option (ℝ → World N → Except PyErr (World N))) (w : World N) (T : ℝ) :
    Except PyErr (World N) :=
  if T ≤ 0 then .error .valueError
  else
    match stepper with
    | none => .error .valueError
    | some st => (whileLoop (simTrip st) (w, T)).map Prod.fst

end Verif.Rigid
