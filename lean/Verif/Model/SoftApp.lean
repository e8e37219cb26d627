import Verif.Model.SoftProfile
import Verif.Model.UsdApp
import Verif.Model.VolumeMesh

/-! sandbox/soft_body_app/soft_application.py: `SoftBodyApplication`, without the viewer, the progress bar and the contents of the log. -/

namespace Verif.SoftApp

open Soft Usd

/-- What lies outside the application: eigensolvers, the signed distance of libigl, machine precision, the enumeration of sets and the random
table of the simulator, its parameters, and Pixar's library. -/
structure Env where
  eig : Rigid.Eig
  eigh : M3 → V3 × M3
  sd : Rigid.SignedDistance
  eps : ℝ
  listOf : Finset (ℤ × ℤ) → List (ℤ × ℤ)
  Phi : ℤ → ℤ → ℤ → ℤ
  P : FullParams
  px : Pxr

/-- soft_application.py:54-58: the attributes; `time_step` is the attribute of that name which the constructor gives to the engine. -/
structure SoftApp where
  scene : World
  time_step : ℝ
  usd : Option USD

/-- soft_application.py:54-58 `__init__` -/
noncomputable def SoftApp.init (V : Env) (time_step : ℝ := 0.001) : SoftApp := ⟨World.create_engine V.eigh V.Phi, time_step, none⟩

/-- A call that changes the application, also when it raises. -/
abbrev Call := SoftApp → SoftApp × Option PyErr

/-- One call after the other; an exception ends both. -/
def Call.andThen (a b : Call) : Call := fun s => match a s with
  | (s', some e) => (s', some e)
  | (s', none) => b s'

/-- A call of the API that leaves the engine alone when it raises. -/
def api (f : Engine → Except PyErr Engine) : Call := fun s => match f s.scene.eng with
  | .ok e => ({ s with scene := { s.scene with eng := e } }, none)
  | .error err => (s, some err)

/-- The exception at the start of a function. -/
def raise (err : PyErr) : Call := fun s => (s, some err)

/-- soft_application.py:48-52 `MODEL_MAP`: the stress and the energy of the model. -/
noncomputable def MODEL_MAP (V : Env) (name : String) : Option ((M3 → ℝ → ℝ → Except PyErr M3) × (M3 → ℝ → ℝ → Except PyErr ℝ)) :=
  if name = "SVK" then some (Mech.SVK.pk1_stress, Mech.SVK.energy_density)
  else if name = "COR" then some (Mech.COR.pk1_stress V.eigh, Mech.COR.energy_density V.eigh)
  else if name = "SNH" then some (Mech.SNH.pk1_stress, Mech.SNH.energy_density)
  else none

open Classical in
/-- soft_application.py:60-79 `create_soft_material` -/
noncomputable def create_soft_material (V : Env) (material_name : String) (E : ℝ := 10e5) (nu : ℝ := 0.3) (rho : ℝ := 1000) (model_name : String := "SVK")
    (viscosity : ℝ := 0.5) : Call :=
  match MODEL_MAP V model_name with
  | none => raise .valueError
  | some model =>
    if viscosity ≤ 0 then raise .valueError
    else
      ((api fun e => Engine.create_material V.eigh e material_name).andThen
        (api fun e => e.set_elasticity material_name E nu)).andThen
        ((api fun e => e.set_mass_density material_name rho).andThen
          (api fun e => e.set_constitutive_model material_name model.1 model.2))

/-- soft_application.py:81-88 `set_damping_coefficient`: an unknown name is a KeyError; there is no test of the value. -/
def set_damping_coefficient (material_name : String) (damping : ℝ) : Call := api fun e =>
  match e.materials.get? material_name with
  | none => .error .keyError
  | some m => .ok (e.putMaterial material_name { m with c := damping })

/-- soft_application.py:90-98 `set_friction_coefficient` -/
noncomputable def set_friction_coefficient (material_name_1 material_name_2 : String) (friction : ℝ) : Call :=
  api fun e => e.create_surfaces_interaction material_name_1 material_name_2 friction

/-- The arguments of `create_beam`. -/
structure BeamArgs where
  I : ℕ
  J : ℕ
  K : ℕ
  width : ℝ
  height : ℝ
  depth : ℝ

/-- soft_application.py:113: `API.create_soft_body(self.scene, body_name, V, T)` -/
noncomputable def addBody (V : Env) (body_name : String) (X : List V3) (T : List VMesh.Tet) : Call := fun s =>
  let r := s.scene.create_soft_body V.eig V.sd V.P body_name X T
  ({ s with scene := r.1 }, r.2)

/-- soft_application.py:100-116 `create_soft_body` -/
noncomputable def create_soft_body (V : Env) (body_name material_name : String) (mesh : BeamArgs) (gravity : ℝ := -9.8) (is_free : Bool := true)
    (center_position : V3 := ⟨0, 0, 0⟩) : Call :=
  match VMesh.create_beam mesh.I mesh.J mesh.K mesh.width mesh.height mesh.depth with
  | .error err => raise err
  | .ok (X, T) =>
    ((addBody V body_name (X.map fun p => ⟨p.x + center_position.x, p.y + center_position.y, p.z + center_position.z⟩) T).andThen
      (api fun e => e.set_type body_name (some (!is_free)))).andThen
      ((api fun e => e.set_gravity body_name ⟨0, gravity, 0⟩).andThen
        (api fun e => e.set_material body_name material_name))

/-- soft_application.py:186-193 `create_dirichlet_conditions` -/
noncomputable def create_dirichlet_conditions (body_name : String) (condition_func : V3 → ℝ) : Call :=
  api fun e => e.create_dirichlet_conditions body_name condition_func

/-- soft_application.py:195-202 `create_traction_conditions` -/
noncomputable def create_traction_conditions (body_name : String) (traction_condition_func : V3 → ℝ) (force : V3) : Call :=
  api fun e => e.create_traction_conditions body_name traction_condition_func force

/-- soft_application.py:169: `VM.to_triangles(body.T)` as rows. -/
def faceRows (b : SoftBody) : List (List ℕ) :=
  (VMesh.to_triangles (List.ofFn fun e => ⟨b.T e 0, b.T e 1, b.T e 2, b.T e 3⟩)).map fun t => [t.a, t.b, t.c]

/-- soft_application.py:168-170: the loop; a body without arrays raises TypeError. -/
def addMeshes (px : Pxr) : USD → List (String × Slot) → Except PyErr USD
  | u, [] => .ok u
  | _, (_, .broken) :: _ => .error .typeError
  | u, (_, .ready b) :: L => do
    let u ← raising (add_mesh px u b.name (List.ofFn b.x0) (faceRows b))
    addMeshes px u L

/-- soft_application.py:161-170 `initialize_usd`; the state after an exception is left out. -/
def initialize_usd (V : Env) (app : SoftApp) : Except PyErr SoftApp := do
  let u ← addMeshes V.px Usd.new app.scene.eng.bodies.entries
  return { app with usd := some u }

/-- soft_application.py:179-182: the loop of `upadte_usd`; a body without arrays is taken to raise TypeError. -/
noncomputable def updateMeshes (px : Pxr) (non_update_bodies : List String) (time : ℝ) : USD → List (String × Slot) → Except PyErr USD
  | u, [] => .ok u
  | u, (k, .broken) :: L => if k ∈ non_update_bodies then updateMeshes px non_update_bodies time u L else .error .typeError
  | u, (_, .ready b) :: L =>
    if b.name ∈ non_update_bodies then updateMeshes px non_update_bodies time u L
    else do
      let u ← raising (set_mesh_positions px u b.name (List.ofFn b.x) time)
      updateMeshes px non_update_bodies time u L

open Classical in
/-- `np.round`: to the nearest integer, a half to the even one. -/
noncomputable def npRound (x : ℝ) : ℤ :=
  if x - ⌊x⌋ < 1 / 2 then ⌊x⌋ else if 1 / 2 < x - ⌊x⌋ then ⌊x⌋ + 1 else if ⌊x⌋ % 2 = 0 then ⌊x⌋ else ⌊x⌋ + 1

open Classical in
/-- soft_application.py:232-236: one trip of the inner loop; the state is the engine and `dT`.  The call has `debug_on=True`; its log, which changes nothing
else, is left out. -/
noncomputable def simTrip (V : Env) (sim_dt : ℝ) : LoopStep (World × ℝ) := fun s =>
  if s.2 > 0 then
    let dt := min s.2 sim_dt
    match (World.simulateLogged V.eps V.listOf V.P true (s.1, []) dt).map Prod.fst with
    | .error e => .error e
    | .ok w => .ok (some (w, s.2 - dt))
  else .ok none

/-- soft_application.py:230-240: the outer loop over the numbers of the frames. -/
noncomputable def renderLoop (V : Env) (sim_dt render_dt render_fps : ℝ) (update_usd : Bool) (non_update_bodies : List String) :
    List ℕ → World × Option USD → Except PyErr (World × Option USD)
  | [], s => .ok s
  | step :: L, (w, u) => do
    let s ← whileLoop (simTrip V sim_dt) (w, render_dt)
    if update_usd then
      match u with
      | none => .error .attributeError
      | some u => do
        let u ← updateMeshes V.px non_update_bodies (step * render_dt * render_fps) u s.1.eng.bodies.entries
        renderLoop V sim_dt render_dt render_fps update_usd non_update_bodies L (s.1, some u)
    else renderLoop V sim_dt render_dt render_fps update_usd non_update_bodies L (s.1, u)

open Classical in
/-- soft_application.py:204-245 `simulate`; the returned log is left out (`get_log` of an engine that has made no step is an AttributeError), and so is
the state after an exception. -/
noncomputable def simulate (V : Env) (app : SoftApp) (T : ℝ := 1.0) (render_fps : ℝ := 60.0) (update_usd : Bool := true)
    (non_update_bodies : List String := []) : Except PyErr SoftApp := do
  let sim_dt := app.scene.eng.params.time_step
  if render_fps = 0 then .error .zeroDivision
  else
    let render_dt := 1.0 / render_fps
    let render_steps := (npRound (T / render_dt)).toNat
    let usd ← if update_usd then
        match app.usd with
        | none => .error .valueError
        | some u => pure (some (set_animation_time u (T * render_fps)))
      else pure app.usd
    let s ← renderLoop V sim_dt render_dt render_fps update_usd non_update_bodies (List.range render_steps) (app.scene, usd)
    let usd := if update_usd then s.2.map save else s.2
    if s.1.eng.stepper = none then .error .attributeError
    else return { app with scene := s.1, usd := usd }

/-! ### The scripts -/

/-- hanging_beam_simulation.py:14-26 `run` up to the simulation (the viewer left out). -/
noncomputable def hangingBeam (V : Env) : SoftApp × Option PyErr :=
  ((((create_soft_material V "default_material" (model_name := "SNH")).andThen
    (set_friction_coefficient "default_material" "default_material" 0.5)).andThen
    (create_soft_body V "beam" "default_material" ⟨12, 3, 3, 4.0, 1.0, 1.0⟩)).andThen
    ((create_soft_body V "wall" "default_material" ⟨2, 2, 2, 0.1, 8.0, 8.0⟩ (is_free := false) (center_position := ⟨-2.05, 0, 0⟩)).andThen
      (create_dirichlet_conditions "beam" fun x => x.x + 1.9))) (SoftApp.init V)

/-- midpoint_traction_beam_simulation.py:22-24: the function `center_beam`. -/
noncomputable def center_beam (x : V3) : ℝ := open Classical in if x.x < 0.05 ∨ x.x > -0.05 then -1 else 1

/-- midpoint_traction_beam_simulation.py:14-29 `run` up to the simulation. -/
noncomputable def midpointTraction (V : Env) : SoftApp × Option PyErr :=
  ((((create_soft_material V "default_material" (model_name := "SNH")).andThen
    (set_friction_coefficient "default_material" "default_material" 0.5)).andThen
    (create_soft_body V "beam" "default_material" ⟨20, 2, 2, 4.0, 0.1, 0.1⟩ (gravity := 0.0))).andThen
    ((create_traction_conditions "beam" center_beam ⟨0, 2000, 0⟩).andThen
      ((create_dirichlet_conditions "beam" fun x => x.x + 1.9).andThen (create_dirichlet_conditions "beam" fun x => 1.9 - x.x)))) (SoftApp.init V)

/-- soft_sheet.py:14-28 `run` up to the simulation. -/
noncomputable def softSheet (V : Env) : SoftApp × Option PyErr :=
  (((((create_soft_material V "default_material").andThen
    (set_friction_coefficient "default_material" "default_material" 0.5)).andThen
    (set_damping_coefficient "default_material" 0.5)).andThen
    (create_soft_body V "cube" "default_material" ⟨4, 4, 4, 0.5, 0.5, 0.5⟩)).andThen
    ((create_soft_body V "sheet" "default_material" ⟨20, 2, 10, 4, 0.05, 4⟩ (center_position := ⟨0, 0.275, 0⟩)).andThen
      ((create_dirichlet_conditions "sheet" fun x => x.x + 1.9).andThen (create_dirichlet_conditions "sheet" fun x => 1.9 - x.x))))
    (SoftApp.init V (time_step := 0.0001))

end Verif.SoftApp
