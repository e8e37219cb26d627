import Verif.Model.Scenes
import Verif.Model.SceneChain
import Verif.Model.SceneLattice
import Verif.Model.SceneMail
import Verif.Model.SceneGear
import Verif.Model.SceneTemple
import Verif.Model.Urdf

/-! Model of `rainbow/simulators/prox_rigid_bodies/scenes/create_scene.py`. -/

namespace Verif.Rigid.SceneM

open SMesh
open VMesh (Tri)

/-- What the scenes take from outside the engine: the eigenvalue and convex hull libraries, the meshes in the obj files of the package, the
robot description of the scene "ur5" (`.error` if the file cannot be read: the path is that of a home directory) with the functions its
reader uses, and the random draws (each scene draws for one lattice or for one gear train). -/
structure Outside where
  eig : Eig
  hull : List V3 → List V3 × List Tri
  jack : List V3 × List Tri
  funnel : List V3 × List Tri
  glass : List V3 × List Tri
  objs : List (List V3 × List Tri)
  grains : ℕ → List V3 × List Tri
  mountains : List V3 × List Tri
  buildings : List (List V3 × List Tri)
  rocks : ℕ → List V3 × List Tri
  sys : Urdf.Sys
  ur5 : Except PyErr Urdf.Element
  draw : ℕ → ℕ → ℕ → Quat
  teeth : ℕ → Fin 4
  omega : ℕ → ℝ

/-- create_scene.py:14-39 `get_scene_names`. -/
def get_scene_names : List String :=
  ["pillar", "arch", "dome", "tower", "colosseum", "pantheon", "funnel", "glasses", "poles", "temple", "chainmail", "gear_train", "rock_slide",
   "sandbox", "box_stack", "cube_hinge_chain", "ur5"]

/-- create_scene.py:55 etc.: `PROC.create_ground(engine, V3.zero(), Q.identity(), density=1.0, material_name='default')`. -/
noncomputable def defaultGround (O : Outside) : SceneM Unit := create_ground O.eig V3.zero Quat.identity 1.0 "default"

/-- create_scene.py:266-273: the branch of "ur5". -/
noncomputable def ur5Scene (O : Outside) : SceneM Unit :=
  match O.ur5 with
  | .error e => raise e
  | .ok root => Urdf.read_urdf O.sys O.eig "/Users/kennyerleben/Documents/GitHub/" root

/-- create_scene.py:54-273: the chain of `if`/`elif` on `scene_names[k]`; a name that is not in the list matches none of them. -/
noncomputable def stage (O : Outside) (scene_name : String) : SceneM Unit := do
  if scene_name = "pillar" then
    defaultGround O
    let _ ← create_pillar O.eig V3.zero Quat.identity 1.0 5.0 1.0 3 1.0 "default"
  else if scene_name = "arch" then
    defaultGround O
    let _ ← create_arch O.eig V3.zero Quat.identity 2.0 3.0 0.5 3 5 1.0 "default"
  else if scene_name = "dome" then
    defaultGround O
    let _ ← create_dome O.eig V3.zero Quat.identity 5.0 4.0 4 11 1.0 "default"
  else if scene_name = "tower" then
    defaultGround O
    let _ ← create_tower O.eig V3.zero Quat.identity 5.0 4.0 8.0 6 11 false 1.0 "default" 0.99
  else if scene_name = "colosseum" then
    defaultGround O
    let _ ← create_colosseum O.eig V3.zero Quat.identity 5.0 4.0 7.0 3 12 1.0 "default" 0.99
  else if scene_name = "pantheon" then
    defaultGround O
    let _ ← create_pantheon O.eig V3.zero Quat.identity 5.0 4.0 8.0 4 11 1.0 "default" 0.99
  else if scene_name = "funnel" then
    defaultGround O
    let _ ← create_funnel O.eig 4.0 4.0 4.0 8.0 4.0 10 20 10 1.0 "default" true O.jack O.funnel O.draw
  else if scene_name = "glasses" then
    defaultGround O
    let _ ← create_glasses O.eig 4.0 2.0 3.0 3.0 3.0 4 4 4 1.0 "default" true O.glass O.draw
  else if scene_name = "poles" then
    defaultGround O
    let _ ← create_poles O.eig 2.0 0.1 6 6 4.0 4.0 4.0 4 4 4 1.0 "default" true O.objs O.draw
  else if scene_name = "temple" then
    defaultGround O
    let _ ← create_temple O.eig O.hull 4 7 1.0 3.0 1.0 3 1.0 "default"
  else if scene_name = "chainmail" then
    let _ ← create_chainmail O.eig 2 0.5 10 10 0.75 1.0 "default" true
    let _ ← create_jack_lattice O.eig ⟨-20, 40, -20⟩ Quat.identity 40.0 40.0 40.0 5 5 5 1.0 "default" true O.jack O.draw
  else if scene_name = "gear_train" then
    let _ ← create_gear_train O.eig O.teeth O.omega 14 1.0 "default"
  else if scene_name = "rock_slide" then
    let _ ← create_rock_slide O.eig 8 4 2 20 10 5 1.0 "default" O.mountains O.buildings O.rocks O.draw
  else if scene_name = "sandbox" then
    let _ ← create_sandbox O.eig 10 10 10 20 20 20 1.0 "default" O.grains O.draw
  else if scene_name = "box_stack" then
    defaultGround O
    let _ ← create_box_stack O.eig 1.0 1.0 1.0 5 1.0 "default"
  else if scene_name = "cube_hinge_chain" then
    let _ ← create_cube_hinge_chain O.eig 10.0 5 1.0 "default"
  else if scene_name = "ur5" then
    ur5Scene O
  else
    return ()

/-- create_scene.py:277-279: the body of the loop over `engine.bodies.values()`. -/
def connectBoth (body_name : String) : SceneM Unit := do
  api fun e => e.connect_force body_name "earth"
  api fun e => e.connect_force body_name "air"

/-- create_scene.py:42-280 `create_scene` (without the log messages). -/
noncomputable def create_scene (O : Outside) (scene_name : String) : SceneM Unit := do
  stage O scene_name
  api fun e => e.create_gravity_force "earth" 9.81 V3.j
  api fun e => e.create_damping_force "air" 0.01 0.01
  fun s => (s.eng.bodies.values.map fun b => b.body.name).forM connectBoth s

end Verif.Rigid.SceneM
