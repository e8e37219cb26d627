import Verif.Model.FullSoft

/-! Model of the debug log of `prox_soft_bodies`: the records that `solver.py` appends when `debug_on` is true, and `get_log` of `api.py`.  The timings
and the entries of the contact solvers are left out. -/

namespace Verif.Soft

/-- solver.py:1155-1160: the entries of `stats` that are not timings. -/
structure SoftEntry where
  dt : ℝ
  contact_points : ℕ
  kinetic_energy : ℝ
  potential_energy : ℝ
  elastic_energy : ℝ
  max_penetration : ℝ

/-- `stepper.log`: `none` is the record of timings that the constructor of the stepper appends (solver.py:1035-1040); it has none of these keys. -/
abbrev SoftLog := List (Option SoftEntry)

/-- solver.py:1152-1160: the record made at the end of a step. -/
noncomputable def record (dt : ℝ) (e : Engine) : Except PyErr SoftEntry := do
  let kinetic ← compute_kinetic_energy e
  let potential ← compute_potential_energy e
  let elastic ← global_elastic_energy e
  return ⟨dt, e.contact_points.length, kinetic, potential, elastic, get_largest_penetration_error e⟩

/-- solver.py:1042-1161 `SemiImplicitStepper.step` with the log. -/
noncomputable def World.stepLogged (eps : ℝ) (listOf : Finset (ℤ × ℤ) → List (ℤ × ℤ)) (P : FullParams) (W : ℕ × (ℕ → ℕ → ℝ)) (debug_on : Bool)
    (dt : ℝ) (wl : World × SoftLog) : Except PyErr (World × SoftLog) := do
  let w ← wl.1.step eps listOf P W dt
  if debug_on then
    let stats ← record dt w.eng
    return (w, wl.2 ++ [some stats])
  else return (w, wl.2)

open Classical in
/-- api.py:401-404: one trip of the loop of `simulate`. -/
noncomputable def World.tripLogged (eps : ℝ) (listOf : Finset (ℤ × ℤ) → List (ℤ × ℤ)) (P : FullParams) (W : ℕ × (ℕ → ℕ → ℝ)) (debug_on : Bool) :
    LoopStep ((World × SoftLog) × ℝ) := fun s =>
  if s.2 = 0 then .ok none
  else
    let dt := min s.2 s.1.1.eng.params.time_step
    match World.stepLogged eps listOf P W debug_on dt s.1 with
    | .error e => .error e
    | .ok wl => .ok (some (wl, s.2 - dt))

/-- api.py:398-399 with solver.py:1035-1040: the log with which the loop starts; a new stepper has its own. -/
def startLog (debug_on : Bool) (wl : World × SoftLog) : SoftLog :=
  match wl.1.eng.stepper with
  | some _ => wl.2
  | none => if debug_on then [none] else []

open Classical in
/-- api.py:389-404 `simulate` with the log.  The world and the log after an exception are left out. -/
noncomputable def World.simulateLogged (eps : ℝ) (listOf : Finset (ℤ × ℤ) → List (ℤ × ℤ)) (P : FullParams) (debug_on : Bool)
    (wl : World × SoftLog) (T : ℝ) : Except PyErr (World × SoftLog) :=
  if T ≤ 0 then .error .valueError
  else do
    let W ← getStepper wl.1.eng
    let s ← whileLoop (World.tripLogged eps listOf P W debug_on) (({ wl.1 with eng := { wl.1.eng with stepper := some W } }, startLog debug_on wl), T)
    return s.1

/-- api.py:407-414 `get_log`: before the first call of `simulate` there is no stepper (AttributeError). -/
def World.get_log (wl : World × SoftLog) : Except PyErr SoftLog :=
  match wl.1.eng.stepper with
  | none => .error .attributeError
  | some _ => .ok wl.2

/-- `[entry["dt"] for entry in get_log(engine)]`: the way a user reads the sizes of the steps; a record without the key raises KeyError. -/
def readSteps (log : SoftLog) : Except PyErr (List ℝ) := log.mapM fun r => match r with
  | none => .error .keyError
  | some e => .ok e.dt

end Verif.Soft
