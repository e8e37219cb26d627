import Verif.Model.Scenes
import Verif.Model.FullSim
import Verif.Model.SoftApp

/-! Model of `rigid_bodies_app_cmd.py`, the command line program that sets up a small scene and simulates half a second of it.

Left out: printing, the profile log and its plot. -/

namespace Verif.Rigid.SceneM

open SMesh (Mesh)
open VMesh (Tri)

/-- rigid_bodies_app_cmd.py:13-14, 17-18, 21-22: `mesh = API.create_mesh(V, T)`, `API.create_shape(engine, name, mesh)`. -/
noncomputable def namedShape (eig : Eig) (name : String) (VT : List V3 × List Tri) : SceneM Unit := fun s => do
  let mesh ← create_mesh eig VT.1 VT.2
  let s ← s.create_shape eig name mesh
  return ((), s)

/-- rigid_bodies_app_cmd.py:25-31, 34-40, 42-48: a body is made, given its shape, its mass, its placement and no motion. -/
noncomputable def cmdBody (name shape_name : String) (r : V3) : SceneM Unit := do
  api fun e => e.create_rigid_body name
  api fun e => e.connect_shape name shape_name
  api fun e => e.set_mass_properties name 1.0
  api fun e => e.set_orientation name Quat.identity true
  api fun e => e.set_position name r true
  api fun e => e.set_velocity name ⟨0.0, 0.0, 0.0⟩
  api fun e => e.set_spin name ⟨0.0, 0.0, 0.0⟩

/-- rigid_bodies_app_cmd.py:11-60 `setup_scene`; `MESH.create_sphere` may raise. -/
noncomputable def setup_scene (eig : Eig) : SceneM Unit := do
  namedShape eig "ground" (SMesh.create_box 10.0 1.0 10.0)
  namedShape eig "box" (SMesh.create_box 2.0 2.0 2.0)
  match SMesh.create_sphere 1.0 16 16 with
  | .error e => raise e
  | .ok VT =>
    namedShape eig "sphere" VT
    cmdBody "A" "ground" ⟨0.0, 0.0, 0.0⟩
    api fun e => e.set_body_type "A" "fixed"
    cmdBody "B" "sphere" ⟨-2.0, 2.0, 0.0⟩
    cmdBody "C" "box" ⟨2.0, 2.0, 0.0⟩
    api fun e => e.create_gravity_force "earth-like" 10.0 V3.j
    api fun e => e.create_damping_force "windy-like" 0.001 0.001
    api fun e => e.connect_force "A" "earth-like"
    api fun e => e.connect_force "B" "earth-like"
    api fun e => e.connect_force "C" "earth-like"
    api fun e => e.connect_force "A" "windy-like"
    api fun e => e.connect_force "B" "windy-like"
    api fun e => e.connect_force "C" "windy-like"

end Verif.Rigid.SceneM

namespace Verif.Rigid

variable {N : ℕ}

/-- rigid_bodies_app_cmd.py:68-70: `for i in range(steps): API.simulate(engine, dt)`. -/
noncomputable def cmdLoop (P : Collision.CDParams) (dt : ℝ) : ℕ → Sim N → Except PyErr (Sim N)
  | 0, s => .ok s
  | n + 1, s => do
    let s ← fullSimulate P s dt
    cmdLoop P dt n s

open Classical in
/-- rigid_bodies_app_cmd.py:63-70 `simulate`; `1.0 / dt` raises for a zero time step. -/
noncomputable def cmdSimulate (P : Collision.CDParams) (s : Sim N) : Except PyErr (Sim N) :=
  let dt := s.1.params.time_step
  if dt = 0 then .error .zeroDivision
  else
    let T : ℝ := 0.5
    let fps := 1.0 / dt
    let steps := (SoftApp.npRound (T * fps)).toNat
    cmdLoop P dt steps s

end Verif.Rigid
