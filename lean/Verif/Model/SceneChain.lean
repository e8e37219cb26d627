import Verif.Model.Scenes

/-! Model of `rainbow/simulators/prox_rigid_bodies/scenes/create_cube_hinge_chain.py`. -/

namespace Verif.Rigid.SceneM

open VMesh (Tri)

/-- A call of an API function that reads the engine. -/
def query {α : Type} (f : Engine → Except PyErr α) : SceneM α := fun s => do
  let a ← f s.eng
  return (a, s)

/-- `body_names[k]`, k ≥ 0. -/
def nameAt (body_names : List String) (k : ℕ) : SceneM String :=
  match body_names[k]? with
  | none => raise .indexError
  | some n => pure n

/-- create_cube_hinge_chain.py:64-82: the body of the loop that makes the hinges. -/
noncomputable def linkHinge (body_names : List String) (k : ℕ) : SceneM Unit := do
  let parent_name ← nameAt body_names k
  let child_name ← nameAt body_names (k + 1)
  let hinge_name := parent_name ++ "_" ++ child_name
  api fun e => e.create_hinge hinge_name
  let s_world := V3.k
  let r_parent ← query fun e => e.get_position parent_name
  let r_child ← query fun e => e.get_position child_name
  let o_world := V3.divs (r_parent + r_child) 2
  api fun e => e.set_hinge hinge_name parent_name child_name o_world s_world .world

/-- create_cube_hinge_chain.py:41-58: the body of the loop that makes the links. -/
noncomputable def chainLink (shape_name : String) (diameter radius margin chain_length density : ℝ) (material_name : String)
    (k : ℕ) : SceneM String := do
  let displacement := (k : ℝ) * (diameter + margin) + radius - chain_length / 2.0
  let r : V3 := ⟨displacement, 0.0, 0.0⟩
  let radians := Real.pi / 4
  let q := Quat.Rz radians
  let body_name ← newBody "link" shape_name r q
  setup "free" material_name density body_name
  return body_name

/-- create_cube_hinge_chain.py:13-84 `create_cube_hinge_chain`. -/
noncomputable def create_cube_hinge_chain (eig : Eig) (cube_edge_length : ℝ) (K_cubes : ℕ) (density : ℝ)
    (material_name : String) : SceneM (List String) := do
  let diameter := Real.sqrt (2 * cube_edge_length ^ 2)
  let radius := diameter / 2.0
  let margin := 0.1 * radius
  let chain_length := (K_cubes : ℝ) * diameter + ((K_cubes : ℝ) - 1) * margin
  let shape_name ← newShape eig "cube" (SMesh.create_box cube_edge_length cube_edge_length cube_edge_length)
  let body_names ← (List.range K_cubes).mapM (chainLink shape_name diameter radius margin chain_length density material_name)
  let first ← nameAt body_names 0
  api fun e => e.set_body_type first "fixed"
  (List.range (K_cubes - 1)).forM (linkHinge body_names)
  return body_names

end Verif.Rigid.SceneM
