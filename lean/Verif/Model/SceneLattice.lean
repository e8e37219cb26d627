import Verif.Model.Scenes

/-! Model of `rainbow/simulators/prox_rigid_bodies/scenes/create_lattice.py` and the scenes made with it. -/

namespace Verif.Rigid.SceneM

open SMesh (Mesh)
open VMesh (Tri)

/-- quaternion.py:333-334 `rand`: `u` is what `np.random.uniform(-1.0, 1.0, 4)` returned. -/
noncomputable def randQuat (u : Quat) : Quat := Quat.unit u

/-- create_lattice.py:59-74: `generate_unique_name`, `create_rigid_body`, `connect_shape`, `set_position(..., False)`,
`set_orientation(..., False)`. -/
noncomputable def newBodyAt (base shape_name : String) (r : V3) (q : Quat) : SceneM String := do
  let body_name ← generate_unique_name base
  api fun e => e.create_rigid_body body_name
  api fun e => e.connect_shape body_name shape_name
  api fun e => e.set_position body_name r false
  api fun e => e.set_orientation body_name q false
  return body_name

/-- create_lattice.py:66-70: the local orientation; `u` is the next random draw. -/
noncomputable def latticeOrientation (use_random_orientation : Bool) (q_body : Option Quat) (u : Quat) : Quat :=
  if use_random_orientation then randQuat u
  else match q_body with
    | some q => q
    | none => Quat.identity

/-- create_lattice.py:55-74: the body of the innermost loop.  `(i + j + k) % N` raises for N = 0. -/
noncomputable def latticeBody (r : V3) (q : Quat) (shape_names : List String) (dW dH dD : ℝ) (use_random_orientation : Bool)
    (q_body : Option Quat) (draw : ℕ → ℕ → ℕ → Quat) (i j k : ℕ) : SceneM String :=
  match shape_names[(i + j + k) % shape_names.length]? with
  | none => raise .zeroDivision
  | some shape_name => do
    let r_l : V3 := ⟨(i : ℝ) * dW, (j : ℝ) * dH, (k : ℝ) * dD⟩ + V3.divs ⟨dW, dH, dD⟩ 2.0
    let q_l := latticeOrientation use_random_orientation q_body (draw i j k)
    let r_g := globalPos r q r_l
    let q_g := Quat.prod q q_l
    newBodyAt "body" shape_name r_g q_g

/-- create_lattice.py:14-84 `create_lattice`.  `draw i j k` is what numpy's random numbers are for the body at (i, j, k). -/
noncomputable def create_lattice (r : V3) (q : Quat) (shape_names : List String) (width height depth : ℝ) (I J K : ℕ)
    (density : ℝ) (material_name : String) (use_random_orientation : Bool) (q_body : Option Quat) (draw : ℕ → ℕ → ℕ → Quat) :
    SceneM (List String) := do
  if I = 0 then raise .zeroDivision
  else if J = 0 then raise .zeroDivision
  else if K = 0 then raise .zeroDivision
  else
    let dW := width / (I : ℝ)
    let dH := height / (J : ℝ)
    let dD := depth / (K : ℝ)
    let slabs ← (List.range I).mapM fun (i : ℕ) =>
      (List.range J).mapM fun (j : ℕ) =>
        (List.range K).mapM fun (k : ℕ) =>
          latticeBody r q shape_names dW dH dD use_random_orientation q_body draw i j k
    let body_names := (slabs.map List.flatten).flatten
    body_names.forM (setup "free" material_name density)
    return body_names

/-- The lines that make a shape for a lattice, from a mesh that fits in a unit box after `scale_to_unit`
(e.g. create_sandbox.py:42-54): `create_mesh`, `scale_to_unit`, `scale`, `create_shape`. -/
noncomputable def newScaledShape (eig : Eig) (base : String) (VT : List V3 × List Tri) (s : ℝ) : SceneM String := do
  let shape_name ← generate_unique_name base
  fun sc => do
    let mesh ← create_mesh eig VT.1 VT.2
    let mesh ← SMesh.scale_to_unit mesh
    let mesh := SMesh.scale mesh s s s
    let sc ← sc.create_shape eig shape_name mesh
    return (shape_name, sc)

/-- The lines that make a fixed body with a box as its shape (e.g. create_sandbox.py:77-94). -/
noncomputable def newWall (eig : Eig) (shape body : String) (w h d : ℝ) (r : V3) (material_name : String) (density : ℝ) :
    SceneM String := do
  let shape_name ← newShape eig shape (SMesh.create_box w h d)
  let body_name ← newBody body shape_name r Quat.identity
  setup "fixed" material_name density body_name
  return body_name

/-- create_sandbox.py:74-168: the five walls. -/
noncomputable def sandboxWalls (eig : Eig) (box_width box_height box_depth thickness density : ℝ) (material_name : String) :
    SceneM (List String) := do
  let left ← newWall eig "box_left" "body_left" thickness box_height box_depth
    ⟨-box_width / 2.0 - thickness / 2.0, box_height / 2.0 + thickness, 0.0⟩ material_name density
  let right ← newWall eig "box_right" "body_right" thickness box_height box_depth
    ⟨box_width / 2.0 + thickness / 2.0, box_height / 2.0 + thickness, 0.0⟩ material_name density
  let front ← newWall eig "box_front" "body_front" (thickness * 2.0 + box_width) box_height thickness
    ⟨0.0, box_height / 2.0 + thickness, box_depth / 2.0 + thickness / 2.0⟩ material_name density
  let back ← newWall eig "box_back" "body_back" (thickness * 2.0 + box_width) box_height thickness
    ⟨0.0, box_height / 2.0 + thickness, -box_depth / 2.0 - thickness / 2.0⟩ material_name density
  let base ← newWall eig "base" "base" (thickness * 2.0 + box_width) thickness (box_depth + 2.0 * thickness)
    ⟨0.0, thickness / 2.0, 0.0⟩ material_name density
  return [left, right, front, back, base]

/-- create_sandbox.py:13-170 `create_sandbox`.  (The divisions by the numbers of grains are in the first pass of the loop of lines 41-56, after
the first call of `create_mesh`; here they are tested first.)  `grains` is what `create_convex_hull` of the n-th random point set returns (n < 20). -/
noncomputable def create_sandbox (eig : Eig) (box_width box_height box_depth : ℝ) (I_grains J_grains K_grains : ℕ) (density : ℝ)
    (material_name : String) (grains : ℕ → List V3 × List Tri) (draw : ℕ → ℕ → ℕ → Quat) : SceneM (List String) := do
  let thickness := 0.1 * box_height
  if I_grains = 0 then raise .zeroDivision
  else if J_grains = 0 then raise .zeroDivision
  else if K_grains = 0 then raise .zeroDivision
  else
    let s := min (min (box_width / (I_grains : ℝ)) (box_height / (J_grains : ℝ))) (box_depth / (K_grains : ℝ)) * 0.9
    let shape_names ← (List.range 20).mapM fun (n : ℕ) => newScaledShape eig "grain" (grains n) s
    let r : V3 := ⟨-box_width / 2.0, 1.5 * box_height + thickness, -box_depth / 2.0⟩
    let q := Quat.identity
    let body_names ← create_lattice r q shape_names box_width box_height box_depth I_grains J_grains K_grains density material_name
      true none draw
    let walls ← sandboxWalls eig box_width box_height box_depth thickness density material_name
    return body_names ++ walls

/-- create_jack_lattice.py:14-75 `create_jack_lattice`; `jack` is the content of jack.obj. -/
noncomputable def create_jack_lattice (eig : Eig) (r : V3) (q : Quat) (width height depth : ℝ) (I J K : ℕ) (density : ℝ)
    (material_name : String) (use_random_orientation : Bool) (jack : List V3 × List Tri) (draw : ℕ → ℕ → ℕ → Quat) :
    SceneM (List String) := do
  if I = 0 then raise .zeroDivision
  else if J = 0 then raise .zeroDivision
  else if K = 0 then raise .zeroDivision
  else
    let s := min (min (width / (I : ℝ)) (height / (J : ℝ))) (depth / (K : ℝ)) * 0.9
    let shape_name ← newScaledShape eig "jack" jack s
    create_lattice r q [shape_name] width height depth I J K density material_name use_random_orientation none draw

/-- The lines that make a shape from a mesh stretched to a given box (create_funnel.py:79-93, create_glasses.py:81-95): `create_mesh`,
`scale_to_unit`, `aabb`, `scale`, `create_shape`. -/
noncomputable def newStretchedShape (eig : Eig) (base : String) (VT : List V3 × List Tri) (radius height : ℝ) : SceneM String := do
  let shape_name ← generate_unique_name base
  fun sc => do
    let mesh ← create_mesh eig VT.1 VT.2
    let mesh ← SMesh.scale_to_unit mesh
    let (l, u) ← SMesh.aabb mesh
    let extends_ := u - l
    let mesh := SMesh.scale mesh ((radius * 2.0) / extends_.x) (height / extends_.y) ((radius * 2.0) / extends_.z)
    let sc ← sc.create_shape eig shape_name mesh
    return (shape_name, sc)

/-- create_funnel.py:17-112 `create_funnel`; `jack` and `funnel` are the contents of the obj files. -/
noncomputable def create_funnel (eig : Eig) (funnel_height funnel_radius width height depth : ℝ) (I J K : ℕ) (density : ℝ)
    (material_name : String) (use_random_orientation : Bool) (jack funnel : List V3 × List Tri) (draw : ℕ → ℕ → ℕ → Quat) :
    SceneM (List String) := do
  if I = 0 then raise .zeroDivision
  else if J = 0 then raise .zeroDivision
  else if K = 0 then raise .zeroDivision
  else
    let s := min (min (width / (I : ℝ)) (height / (J : ℝ))) (depth / (K : ℝ)) * 0.9
    let shape_name ← newScaledShape eig "jack" jack s
    let r : V3 := ⟨-width / 2.0, 3.0 * funnel_height, -depth / 2.0⟩
    let body_names ← create_lattice r Quat.identity [shape_name] width height depth I J K density material_name use_random_orientation none draw
    let shape_name ← newStretchedShape eig "funnel" funnel funnel_radius funnel_height
    let body_name ← newBody "body" shape_name ⟨0.0, 1.5 * funnel_height, 0.0⟩ (Quat.Rx Real.pi)
    setup "fixed" material_name density body_name
    return body_names ++ [body_name]

/-- create_glasses.py:17-112 `create_glasses`; `glass` is the content of glass.obj. -/
noncomputable def create_glasses (eig : Eig) (glass_height glass_radius width height depth : ℝ) (I J K : ℕ) (density : ℝ)
    (material_name : String) (use_random_orientation : Bool) (glass : List V3 × List Tri) (draw : ℕ → ℕ → ℕ → Quat) :
    SceneM (List String) := do
  if I = 0 then raise .zeroDivision
  else if J = 0 then raise .zeroDivision
  else if K = 0 then raise .zeroDivision
  else
    let s := min (min (width / (I : ℝ)) (height / (J : ℝ))) (depth / (K : ℝ)) * 0.9
    let shape_name ← newScaledShape eig "small_glass" glass s
    let r : V3 := ⟨-width / 2.0, 1.25 * glass_height, -depth / 2.0⟩
    let body_names ← create_lattice r Quat.identity [shape_name] width height depth I J K density material_name use_random_orientation
      (some (Quat.Rx (-Real.pi / 2.0))) draw
    let shape_name ← newStretchedShape eig "glass" glass glass_radius glass_height
    let body_name ← newBody "body" shape_name ⟨0.0, glass_height / 2.0, 0.0⟩ Quat.identity
    setup "fixed" material_name density body_name
    return body_names ++ [body_name]

/-- create_poles.py:104-121: the body of the loop over the poles (r = 0, q = identity). -/
noncomputable def poleBody (shape_name : String) (width depth pole_height pole_radius : ℝ) (I_poles K_poles : ℕ) (density : ℝ)
    (material_name : String) (i k : ℕ) : SceneM String := do
  let dx := width / (I_poles : ℝ)
  let dz := depth / (K_poles : ℝ)
  let offset_x := -width / 2.0 + pole_radius
  let offset_z := -depth / 2.0 + pole_radius
  let body_name ← newBody "body" shape_name
    (globalPos ⟨0.0, 0.0, 0.0⟩ Quat.identity ⟨(i : ℝ) * dx + offset_x, pole_height / 2.0, (k : ℝ) * dz + offset_z⟩)
    (Quat.prod Quat.identity Quat.identity)
  setup "fixed" material_name density body_name
  return body_name

/-- `MESH.create_cylinder(radius, height)` with the default 12 slices and 1 segment. -/
noncomputable def cylinder (radius height : ℝ) : SceneM (List V3 × List Tri) := fun s => do
  let VT ← SMesh.create_cylinder radius height 12 1
  return (VT, s)

/-- create_poles.py:17-123 `create_poles`; `objs` are the contents of the six obj files. -/
noncomputable def create_poles (eig : Eig) (pole_height pole_radius : ℝ) (I_poles K_poles : ℕ) (width height depth : ℝ) (I J K : ℕ)
    (density : ℝ) (material_name : String) (use_random_orientation : Bool) (objs : List (List V3 × List Tri))
    (draw : ℕ → ℕ → ℕ → Quat) : SceneM (List String) := do
  if I = 0 then raise .zeroDivision
  else if J = 0 then raise .zeroDivision
  else if K = 0 then raise .zeroDivision
  else
    let s := min (min (width / (I : ℝ)) (height / (J : ℝ))) (depth / (K : ℝ))
    let shape_names ← objs.mapM fun VT => newScaledShape eig "small_obj_shape" VT s
    let r : V3 := ⟨-width / 2.0, 2.0 * pole_height, -depth / 2.0⟩
    let body_names ← create_lattice r Quat.identity shape_names width height depth I J K density material_name use_random_orientation none draw
    let VT ← cylinder pole_radius pole_height
    let shape_name ← newShape eig "pole" VT
    if I_poles = 0 then raise .zeroDivision
    else if K_poles = 0 then raise .zeroDivision
    else
      let rows ← (List.range I_poles).mapM fun (i : ℕ) => (List.range K_poles).mapM fun (k : ℕ) =>
        poleBody shape_name width depth pole_height pole_radius I_poles K_poles density material_name i k
      return body_names ++ rows.flatten

/-- create_rock_slide.py:43-53, 79-91: a body with the mesh of a file, left where it is. -/
noncomputable def placeFile (eig : Eig) (shape body type : String) (VT : List V3 × List Tri) (density : ℝ) (material_name : String) :
    SceneM String := do
  let shape_name ← newShape eig shape VT
  let body_name ← newBody body shape_name V3.zero Quat.identity
  setup type material_name density body_name
  return body_name

/-- create_rock_slide.py:15-129 `create_rock_slide`.  The returned list contains the names of the first bodies and then, as one more element,
the list of the names of the rocks. -/
noncomputable def create_rock_slide (eig : Eig) (pile_width pile_height pile_depth : ℝ) (I J K : ℕ) (density : ℝ) (material_name : String)
    (mountains : List V3 × List Tri) (buildings : List (List V3 × List Tri)) (rocks : ℕ → List V3 × List Tri)
    (draw : ℕ → ℕ → ℕ → Quat) : SceneM (List (String ⊕ List String)) := do
  let mountain ← placeFile eig "landscape" "mountains" "fixed" mountains density material_name
  let houses ← buildings.mapM fun VT => placeFile eig "shape" "building" "free" VT density material_name
  if I = 0 then raise .zeroDivision
  else if J = 0 then raise .zeroDivision
  else if K = 0 then raise .zeroDivision
  else
    let s := min (min (pile_width / (I : ℝ)) (pile_height / (J : ℝ))) (pile_depth / (K : ℝ)) * 0.9
    let shape_names ← (List.range 20).mapM fun (n : ℕ) => newScaledShape eig "rock" (rocks n) s
    let pile ← create_lattice ⟨-10, 16, 5⟩ (Quat.Ry (3 * Real.pi / 4)) shape_names pile_width pile_height pile_depth I J K density
      material_name true none draw
    return (mountain :: houses).map Sum.inl ++ [Sum.inr pile]

end Verif.Rigid.SceneM
