import Verif.Model.Usd

/-! rigid_bodies_app_gui.py: the application's frame callback, as far as it simulates and records.  The viewer, logging and the XML option are left out;
the engine is any state with a list of bodies and a step that may raise. -/

namespace Verif.Usd

/-- What the application reads of a rigid body. -/
structure GuiBody where
  name : String
  V : List V3
  T : List (ℕ × ℕ × ℕ)
  r : V3
  q : Quat

/-- An engine: the bodies in the order of the dictionary, and `API.simulate` for one time step. -/
structure Sim (σ : Type) where
  bodies : σ → List GuiBody
  simulate : σ → Except PyErr σ

/-- `app_params`, the global `usd_scene` and the file `./animation.usda`. -/
structure App (σ : Type) where
  engine : Option σ
  simulating : Bool
  step : ℕ
  steps : ℕ
  usd : Option USD
  file : Option Stage

/-- An exception leaves the callback. -/
def raising (r : Except PyErr Unit × USD) : Except PyErr USD :=
  match r.1 with
  | .ok _ => .ok r.2
  | .error e => .error e

/-- rigid_bodies_app_gui.py:222: `usd_scene.update_rigid_body(body.name, body.r, body.q, t)` -/
noncomputable def update1 (u : USD) (b : GuiBody) (t : ℝ) : Except PyErr USD :=
  raising (update_rigid_body u b.name [b.r.x, b.r.y, b.r.z] [b.q.s, b.q.x, b.q.y, b.q.z] t)

/-- rigid_bodies_app_gui.py:210-212: the loop that adds every body and places it at time 0. -/
noncomputable def addBodies (px : Pxr) : USD → List GuiBody → Except PyErr USD
  | u, [] => .ok u
  | u, b :: L => do
    let u ← raising (add_rigid_body px u b.name b.V b.T)
    let u ← update1 u b 0
    addBodies px u L

/-- rigid_bodies_app_gui.py:215-222: the loop that records every body at the time t. -/
noncomputable def updateBodies : USD → List GuiBody → ℝ → Except PyErr USD
  | u, [], _ => .ok u
  | u, b :: L, t => do
    let u ← update1 u b t
    updateBodies u L t

/-- rigid_bodies_app_gui.py:206-212: a new recorder in the first step. -/
noncomputable def begin_ (px : Pxr) (bodies : List GuiBody) (steps : ℕ) : Except PyErr USD :=
  let u := set_frames_per_second new ((steps : ℝ) / 10)
  let u := set_animation_time u steps
  addBodies px u bodies

/-- rigid_bodies_app_gui.py:188-227 `simulate` -/
noncomputable def gui_simulate {σ : Type} (px : Pxr) (S : Sim σ) (app : App σ) : Except PyErr (App σ) :=
  match app.engine with
  | none => .ok app
  | some e =>
    if app.simulating = false then .ok app
    else if app.steps ≤ app.step then
      match app.usd with
      | some u => .ok { app with file := (save u).file, usd := none }
      | none => .ok app
    else do
      let usd ← if app.step = 0 then (do return some (← begin_ px (S.bodies e) app.steps)) else pure app.usd
      let usd ← match usd with
        | some u => (do return some (← updateBodies u (S.bodies e) app.step))
        | none => pure none
      let e ← S.simulate e
      return { app with usd := usd, engine := some e, step := app.step + 1 }

/-- What the user did before a frame: the state of the check box, and the scene created with its number of steps, if the button was pressed. -/
structure Frame (σ : Type) where
  simulating : Bool
  created : Option (σ × ℕ)

/-- rigid_bodies_app_gui.py:148-186, 230-232 `callback`: `create_gui`, then `simulate`. -/
noncomputable def callback {σ : Type} (px : Pxr) (S : Sim σ) (app : App σ) (f : Frame σ) : Except PyErr (App σ) :=
  let app := { app with simulating := f.simulating }
  let app := match f.created with
    | some (e, steps) => { app with engine := some e, steps := steps, step := 0 }
    | none => app
  gui_simulate px S app

/-- The application at its start (main, lines 244-249). -/
def App.start {σ : Type} : App σ := ⟨none, false, 0, 0, none, none⟩

/-- A session: frame after frame; an exception ends it. -/
noncomputable def session {σ : Type} (px : Pxr) (S : Sim σ) : App σ → List (Frame σ) → Except PyErr (App σ)
  | app, [] => .ok app
  | app, f :: L => do
    let app ← callback px S app f
    session px S app L

end Verif.Usd
