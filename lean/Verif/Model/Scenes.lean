import Verif.Model.Shapes

/-! Model of scene builders in `rainbow/simulators/prox_rigid_bodies/scenes/`.

Counts are natural numbers.  `body_names.append` inside a loop is modelled by collecting the values of the loop body. -/

namespace Verif.Rigid

open SMesh (Mesh)
open VMesh (Tri)

/-- Code that changes the scene and may raise. -/
abbrev SceneM := StateT Scene (Except PyErr)

namespace SceneM

/-- api.py:22-39 `generate_unique_name`. -/
def generate_unique_name (base : String) : SceneM String := fun s =>
  .ok (s.gen 0 base, { s with gen := fun i => s.gen (i + 1) })

/-- A call of an API function on the engine. -/
def api (f : Engine → Except PyErr Engine) : SceneM Unit := fun s => do
  let e ← f s.eng
  return ((), { s with eng := e })

/-- `raise`. -/
def raise {α : Type} (e : PyErr) : SceneM α := fun _ => .error e

/-- The lines `shape_name = API.generate_unique_name(...)`, `mesh = API.create_mesh(V, T)`,
`API.create_shape(engine, shape_name, mesh)` of every scene (e.g. create_tower.py:50, 60-62). -/
noncomputable def newShape (eig : Eig) (base : String) (VT : List V3 × List Tri) : SceneM String := do
  let shape_name ← generate_unique_name base
  fun s => do
    let mesh ← create_mesh eig VT.1 VT.2
    let s ← s.create_shape eig shape_name mesh
    return (shape_name, s)

/-- The lines `body_name = API.generate_unique_name(...)`, `API.create_rigid_body`, `API.connect_shape`,
`API.set_position(..., r, True)`, `API.set_orientation(..., q, True)` of every scene (e.g. create_tower.py:92-108). -/
noncomputable def newBody (base shape_name : String) (r : V3) (q : Quat) : SceneM String := do
  let body_name ← generate_unique_name base
  api fun e => e.create_rigid_body body_name
  api fun e => e.connect_shape body_name shape_name
  api fun e => e.set_position body_name r true
  api fun e => e.set_orientation body_name q true
  return body_name

/-- The lines `API.set_body_type`, `API.set_body_material`, `API.set_mass_properties` (e.g. create_tower.py:110-113). -/
noncomputable def setup (type material_name : String) (density : ℝ) (body_name : String) : SceneM Unit := do
  api fun e => e.set_body_type body_name type
  api fun e => e.set_body_material body_name material_name
  api fun e => e.set_mass_properties body_name density

/-- create_*.py: `r_g = Q.rotate(q, r_l) + r`. -/
def globalPos (r : V3) (q : Quat) (r_l : V3) : V3 := Quat.rotate q r_l + r

/-- create_box_stack.py:13-61 `create_box_stack`. -/
noncomputable def create_box_stack (eig : Eig) (box_width box_height box_depth : ℝ) (K_boxes : ℕ) (density : ℝ)
    (material_name : String) : SceneM (List String) := do
  let shape_name ← newShape eig "box" (SMesh.create_box box_width box_height box_depth)
  (List.range K_boxes).mapM fun (k : ℕ) => do
    let height := (k : ℝ) * box_height + box_height / 2.0
    let r : V3 := ⟨0.0, height, 0.0⟩
    let radians := (k : ℝ) * Real.pi / 4
    let q := Quat.Ry radians
    let body_name ← newBody "body" shape_name r q
    setup "free" material_name density body_name
    return body_name

/-- create_tower.py:52-57, 66-75: `np.sin(delta_phi / 2.0) / np.sin(np.pi / 2.0 - delta_phi / 2.0)`. -/
noncomputable def sinRatio (delta_phi : ℝ) : ℝ := Real.sin (delta_phi / 2.0) / Real.sin (Real.pi / 2.0 - delta_phi / 2.0)

/-- create_tower.py:51-88: the brick. -/
noncomputable def towerBrick (outer_radius inner_radius brick_height brick_depth delta_phi : ℝ) (use_cubes : Bool)
    (safety_factor : ℝ) : List V3 × List Tri :=
  if use_cubes then
    let brick_width := 2.0 * sinRatio delta_phi * inner_radius * safety_factor
    SMesh.create_box brick_width brick_height brick_depth
  else
    let bi := sinRatio delta_phi * inner_radius * safety_factor
    let bo := sinRatio delta_phi * outer_radius * safety_factor
    SMesh.create_cuboid
      ⟨-bi, -brick_height / 2.0, brick_depth / 2.0⟩ ⟨bi, -brick_height / 2.0, brick_depth / 2.0⟩
      ⟨bi, brick_height / 2.0, brick_depth / 2.0⟩ ⟨-bi, brick_height / 2.0, brick_depth / 2.0⟩
      ⟨-bo, -brick_height / 2.0, -brick_depth / 2.0⟩ ⟨bo, -brick_height / 2.0, -brick_depth / 2.0⟩
      ⟨bo, brick_height / 2.0, -brick_depth / 2.0⟩ ⟨-bo, brick_height / 2.0, -brick_depth / 2.0⟩

/-- create_tower.py:97-99: the angle of a brick. -/
noncomputable def towerPhi (delta_phi : ℝ) (layer segment : ℕ) : ℝ :=
  let phi := delta_phi * (segment : ℝ)
  if layer % 2 = 0 then phi + delta_phi / 2.0 else phi

/-- create_tower.py:13-116 `create_tower`. -/
noncomputable def create_tower (eig : Eig) (r : V3) (q : Quat) (outer_radius inner_radius height : ℝ) (layers segments : ℕ)
    (use_cubes : Bool) (density : ℝ) (material_name : String) (safety_factor : ℝ) : SceneM (List String) := do
  if layers = 0 then raise .zeroDivision
  else if segments = 0 then raise .zeroDivision
  else
    let center_radius := (outer_radius + inner_radius) / 2.0
    let brick_height := height / (layers : ℝ)
    let brick_depth := outer_radius - inner_radius
    let delta_phi := (2.0 * Real.pi) / (segments : ℝ)
    let shape_name ← newShape eig "brick_shape"
      (towerBrick outer_radius inner_radius brick_height brick_depth delta_phi use_cubes safety_factor)
    let rows ← (List.range layers).mapM fun (layer : ℕ) => do
      let height := brick_height / 2.0 + (layer : ℝ) * brick_height
      (List.range segments).mapM fun (segment : ℕ) => do
        let phi := towerPhi delta_phi layer segment
        let r_l : V3 := ⟨0.0, height, -center_radius⟩
        let q_l := Quat.Ry phi
        let r_l := Quat.rotate q_l r_l
        newBody "body" shape_name (globalPos r q r_l) (Quat.prod q q_l)
    let body_names := rows.flatten
    body_names.forM (setup "free" material_name density)
    return body_names

/-- create_arch.py:106-135: the arch stone. -/
noncomputable def archBrick (arch_depth inner_radius outer_radius center_radius delta_phi : ℝ) : List V3 × List Tri :=
  let r0 : V3 := ⟨center_radius, 0.0, arch_depth / 2.0⟩
  let p0 := Quat.rotate (Quat.Rz (-delta_phi / 2.0)) ⟨inner_radius, 0.0, arch_depth / 2.0⟩ - r0
  let p1 := Quat.rotate (Quat.Rz (-delta_phi / 2.0)) ⟨outer_radius, 0.0, arch_depth / 2.0⟩ - r0
  let p2 := Quat.rotate (Quat.Rz (delta_phi / 2.0)) ⟨outer_radius, 0.0, arch_depth / 2.0⟩ - r0
  let p3 := Quat.rotate (Quat.Rz (delta_phi / 2.0)) ⟨inner_radius, 0.0, arch_depth / 2.0⟩ - r0
  let d : V3 := ⟨0.0, 0.0, arch_depth⟩
  SMesh.create_cuboid p0 p1 p2 p3 (p0 - d) (p1 - d) (p2 - d) (p3 - d)

open Classical in
/-- create_arch.py:14-159 `create_arch`. -/
noncomputable def create_arch (eig : Eig) (r : V3) (q : Quat) (width height depth : ℝ) (pier_stones arch_stones : ℕ)
    (density : ℝ) (material_name : String) : SceneM (List String) := do
  let arch_width := width
  let arch_height := height
  let arch_depth := depth
  let pier_height := arch_height - arch_width / 2.0
  let pier_brick_width := arch_width / 5.0
  let pier_brick_depth := arch_depth
  if pier_stones = 0 then raise .zeroDivision
  else
  let pier_brick_height := pier_height / (pier_stones : ℝ)
  if arch_width ≤ 0.0 then raise .runtimeWarning
  else if arch_height ≤ 0.0 then raise .runtimeWarning
  else if arch_depth ≤ 0.0 then raise .runtimeWarning
  else if pier_stones ≤ 0 then raise .runtimeWarning
  else if arch_stones ≤ 2 then raise .runtimeWarning
  else if arch_stones % 2 = 0 then raise .runtimeWarning
  else if density ≤ 0.0 then raise .runtimeWarning
  else if pier_height ≤ 0.0 then raise .runtimeWarning
  else
    let shape_name ← newShape eig "pier_brick_shape" (SMesh.create_box pier_brick_width pier_brick_height pier_brick_depth)
    let piers ← (List.range pier_stones).mapM fun (stone : ℕ) => do
      let height := pier_brick_height / 2.0 + (stone : ℝ) * pier_brick_height
      let left ← newBody "left_pier_body" shape_name
        (globalPos r q ⟨(-arch_width / 2.0) + (pier_brick_width / 2.0), height, 0.0⟩) (Quat.prod q Quat.identity)
      let right ← newBody "right_pier_body" shape_name
        (globalPos r q ⟨arch_width / 2.0 - pier_brick_width / 2.0, height, 0.0⟩) (Quat.prod q Quat.identity)
      return [left, right]
    let delta_phi := Real.pi / (arch_stones : ℝ)
    let outer_radius := arch_width / 2.0
    let inner_radius := outer_radius - pier_brick_width
    let center_radius := outer_radius - (pier_brick_width / 2.0)
    let r0 : V3 := ⟨center_radius, 0.0, arch_depth / 2.0⟩
    let shape_name ← newShape eig "arch_brick_shape" (archBrick arch_depth inner_radius outer_radius center_radius delta_phi)
    let arch ← (List.range arch_stones).mapM fun (stone : ℕ) => do
      let q_l := Quat.Rz ((delta_phi / 2.0) + ((stone : ℝ) * delta_phi))
      let r_l := Quat.rotate q_l r0 + (⟨0.0, pier_height, 0.0⟩ : V3)
      newBody "arch_body" shape_name (globalPos r q r_l) (Quat.prod q q_l)
    let body_names := piers.flatten ++ arch
    body_names.forM (setup "free" material_name density)
    return body_names

/-- create_dome.py:46-64: the brick of one layer. -/
noncomputable def domeBrick (r_i r_o d_theta d_phi phi : ℝ) : List V3 × List Tri :=
  let theta : ℝ := 0.0
  let q0 := Quat.prod (Quat.Ry theta) (Quat.Rz phi)
  let q1 := Quat.prod (Quat.Ry (theta + d_theta)) (Quat.Rz phi)
  let q2 := Quat.prod (Quat.Ry (theta + d_theta)) (Quat.Rz (phi + d_phi))
  let q3 := Quat.prod (Quat.Ry theta) (Quat.Rz (phi + d_phi))
  let o : V3 := ⟨r_o, 0.0, 0.0⟩
  let i : V3 := ⟨r_i, 0.0, 0.0⟩
  SMesh.create_cuboid (Quat.rotate q0 o) (Quat.rotate q1 o) (Quat.rotate q2 o) (Quat.rotate q3 o)
    (Quat.rotate q0 i) (Quat.rotate q1 i) (Quat.rotate q2 i) (Quat.rotate q3 i)

/-- create_dome.py:14-88 `create_dome`. -/
noncomputable def create_dome (eig : Eig) (r : V3) (q : Quat) (outer_radius inner_radius : ℝ) (layers segments : ℕ)
    (density : ℝ) (material_name : String) : SceneM (List String) := do
  if segments = 0 then raise .zeroDivision
  else
    let r_i := inner_radius
    let r_o := outer_radius
    let d_theta := (2.0 * Real.pi) / (segments : ℝ)
    let d_phi := (Real.pi / 2.0) / ((layers : ℝ) + 1)
    let rows ← (List.range layers).mapM fun (layer : ℕ) => do
      let phi := d_phi * (layer : ℝ)
      let shape_name ← newShape eig "brick_shape" (domeBrick r_i r_o d_theta d_phi phi)
      (List.range segments).mapM fun (s : ℕ) => do
        let theta := d_theta * (s : ℝ)
        let q_l := Quat.Ry theta
        let r_l := Quat.rotate q_l ⟨0.0, 0.0, 0.0⟩
        newBody "body" shape_name (globalPos r q r_l) (Quat.prod q q_l)
    let body_names := rows.flatten
    body_names.forM (setup "free" material_name density)
    return body_names

/-- create_ground.py:12-48 `create_ground`. -/
noncomputable def create_ground (eig : Eig) (r : V3) (q : Quat) (density : ℝ) (material_name : String) : SceneM Unit := do
  let shape_name ← newShape eig "ground_shape" (SMesh.create_box 100.0 1.0 100.0)
  let body_name ← newBody "ground_body" shape_name (globalPos r q ⟨0.0, -0.5, 0.0⟩) (Quat.prod q Quat.identity)
  setup "fixed" material_name density body_name

/-- One stone of create_pillar.py: a shape and a body, at height y on the axis of the pillar. -/
noncomputable def pillarStone (eig : Eig) (r : V3) (q : Quat) (shape body : String) (VT : List V3 × List Tri) (y : ℝ) :
    SceneM String := do
  let shape_name ← newShape eig shape VT
  newBody body shape_name (globalPos r q ⟨0.0, y, 0.0⟩) (Quat.prod q Quat.identity)

/-- `MESH.create_conical(bottom_radius, top_radius, height)` with the default 12 slices. -/
noncomputable def conical (bottom_radius top_radius height : ℝ) : SceneM (List V3 × List Tri) := fun s => do
  let VT ← SMesh.create_conical bottom_radius top_radius height 12
  return (VT, s)

open Classical in
/-- create_pillar.py:14-161 `create_pillar` (`slope` raises for end_y = start_y, that is for height 0, and numpy scalars are
not involved). -/
noncomputable def create_pillar (eig : Eig) (r : V3) (q : Quat) (width height depth : ℝ) (stones : ℕ) (density : ℝ)
    (material_name : String) : SceneM (List String) := do
  let base_height := height / 15
  let top_height := height / 20
  let pillar_base_radius := 0.9 * (width / 2.0)
  let pillar_top_radius := 0.8 * (width / 2.0)
  let pillar_radius_start := 0.7 * pillar_base_radius
  let pillar_radius_stop := 0.5 * pillar_base_radius
  let cap_height := base_height * 0.9
  let cup_height := base_height * 0.7
  let n1 ← pillarStone eig r q "socle_shape" "socle_body" (SMesh.create_box width base_height depth) (base_height / 2.0)
  let n2 ← pillarStone eig r q "abacus_shape" "abacus_body" (SMesh.create_box width top_height depth) (height - top_height / 2.0)
  let VT ← conical pillar_base_radius pillar_radius_start cap_height
  let n3 ← pillarStone eig r q "base_shape" "base_body" VT base_height
  let VT ← conical pillar_radius_stop pillar_top_radius cup_height
  let n4 ← pillarStone eig r q "echinus_shape" "echinus_body" VT (height - top_height - cup_height)
  let start_y := base_height + cap_height
  let end_y := height - top_height - cup_height
  if stones = 0 then raise .zeroDivision
  else if end_y - start_y = 0 then raise .zeroDivision
  else
    let dy := (end_y - start_y) / (stones : ℝ)
    let slope := (pillar_radius_stop - pillar_radius_start) / (end_y - start_y)
    let shaft ← (List.range stones).mapM fun (stone : ℕ) => do
      let bottom_y := start_y + (stone : ℝ) * dy
      let top_y := bottom_y + dy
      let bottom_radius := pillar_radius_start + slope * (bottom_y - start_y)
      let top_radius := pillar_radius_start + slope * (top_y - start_y)
      let VT ← conical bottom_radius top_radius dy
      pillarStone eig r q "shaft_stone" "shaft_body" VT bottom_y
    let body_names := [n1, n2, n3, n4] ++ shaft
    body_names.forM (setup "free" material_name density)
    return body_names

/-- create_colosseum.py:14-101 `create_colosseum`. -/
noncomputable def create_colosseum (eig : Eig) (r : V3) (q : Quat) (outer_radius inner_radius height : ℝ)
    (levels arches : ℕ) (density : ℝ) (material_name : String) (safety_factor : ℝ) : SceneM (List String) := do
  if levels = 0 then raise .zeroDivision
  else if arches = 0 then raise .zeroDivision
  else
    let center_radius := (outer_radius + inner_radius) / 2.0
    let level_height := height / (levels : ℝ)
    let separation_height := level_height * 0.1
    let arch_height := level_height * 0.9
    let arch_depth := outer_radius - inner_radius
    let delta_phi := (2.0 * Real.pi) / (arches : ℝ)
    let arch_width := 2.0 * sinRatio delta_phi * inner_radius * safety_factor
    let rows ← (List.range levels).mapM fun (lvl : ℕ) => do
      let height := (lvl : ℝ) * level_height
      let names ← (List.range arches).mapM fun (a : ℕ) => do
        let phi := delta_phi * (a : ℝ)
        let q_l := Quat.Ry phi
        let r_l := Quat.rotate q_l ⟨0.0, height, -center_radius⟩
        create_arch eig (globalPos r q r_l) (Quat.prod q q_l) arch_width arch_height arch_depth 5 9 density material_name
      let ring ← create_tower eig (globalPos r q ⟨0.0, height + arch_height, 0.0⟩) (Quat.prod q Quat.identity) outer_radius
        inner_radius separation_height 1 arches false density material_name safety_factor
      return names.flatten ++ ring
    return rows.flatten

open Classical in
/-- create_pantheon.py:14-85 `create_pantheon`. -/
noncomputable def create_pantheon (eig : Eig) (r : V3) (q : Quat) (outer_radius inner_radius height : ℝ)
    (layers segments : ℕ) (density : ℝ) (material_name : String) (safety_factor : ℝ) : SceneM (List String) := do
  let wall_height := height - outer_radius
  if wall_height ≤ 0.0 then raise .runtimeWarning
  else
    let tower ← create_tower eig r q outer_radius inner_radius wall_height layers segments false density material_name
      safety_factor
    let dome ← create_dome eig (globalPos r q ⟨0.0, wall_height, 0.0⟩) (Quat.prod q Quat.identity) outer_radius inner_radius
      layers segments density material_name
    return tower ++ dome

end SceneM

end Verif.Rigid
