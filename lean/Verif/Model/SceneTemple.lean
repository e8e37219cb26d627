import Verif.Model.Scenes

/-! Model of `rainbow/simulators/prox_rigid_bodies/scenes/create_temple.py`. -/

namespace Verif.Rigid.SceneM

open VMesh (Tri)

/-- Python's `range(a, b, 3)`. -/
def range3 (a b : ℕ) : List ℕ := (List.range ((b - a + 2) / 3)).map fun (n : ℕ) => a + 3 * n

/-- A run of the lines that make one body each (`generate_unique_name`, `create_rigid_body`, `connect_shape`, `set_position(..., True)`,
`set_orientation(..., True)`; e.g. create_temple.py:217-229): which shape, where, how turned.  The loops of create_temple.py are modelled by the
list of the bodies they make. -/
noncomputable def makeBodies {κ : Type} (base : String) (shape_name : κ → String) (P : List (κ × V3 × Quat)) : SceneM (List String) :=
  P.mapM fun p => newBody base (shape_name p.1) p.2.1 p.2.2

/-- create_temple.py:52-65 (and 67-80, 82-95, 97-112): a step. -/
noncomputable def templeStep (eig : Eig) (shape body : String) (width height depth y : ℝ) : SceneM String := do
  let shape_name ← newShape eig shape (SMesh.create_box width height depth)
  newBody body shape_name ⟨0.0, y, 0.0⟩ Quat.identity

/-- create_temple.py:114-184: the positions of the pillars around the temple. -/
noncomputable def outerPillars (I_pillars K_pillars : ℕ) (pillar_width pillar_depth temple_width temple_depth y : ℝ) : List V3 :=
  ((List.range I_pillars).flatMap fun (i : ℕ) =>
    let x := 2 * (i : ℝ) * pillar_width - temple_width / 2.0 + pillar_width / 2.0
    [⟨x, y, temple_depth / 2.0 - pillar_depth / 2.0⟩, ⟨x, y, -temple_depth / 2.0 + pillar_depth / 2.0⟩]) ++
  (((List.range (K_pillars - 2)).map (· + 1)).flatMap fun (k : ℕ) =>
    let z := 2 * (k : ℝ) * pillar_depth - temple_depth / 2.0 + pillar_depth / 2.0
    [⟨temple_width / 2.0 - pillar_width / 2.0, y, z⟩, ⟨-temple_width / 2.0 + pillar_width / 2.0, y, z⟩])

/-- create_temple.py:186-205: the positions of the pillars inside. -/
noncomputable def innerPillars (I_pillars K_pillars : ℕ) (pillar_width pillar_depth temple_width temple_depth y : ℝ) : List V3 :=
  (range3 3 (K_pillars - 3)).flatMap fun (k : ℕ) =>
    let z := 2 * (k : ℝ) * pillar_depth - temple_depth / 2.0 + pillar_depth / 2.0
    ((List.range (I_pillars - 2)).map (· + 1)).map fun (i : ℕ) =>
      ⟨2 * (i : ℝ) * pillar_width - temple_width / 2.0 + pillar_width / 2.0, y, z⟩

/-- create_temple.py:215-256: the regular bricks of the epistyle. -/
noncomputable def epistyleBricks (I_pillars K_pillars : ℕ) (pillar_width pillar_depth temple_width temple_depth y : ℝ) : List (Unit × V3 × Quat) :=
  ((range3 0 K_pillars).flatMap fun (k : ℕ) =>
    let z := 2 * (k : ℝ) * pillar_depth - temple_depth / 2.0 + pillar_depth / 2.0
    ((List.range (I_pillars - 3)).map (· + 1)).map fun (i : ℕ) =>
      ((), ⟨2 * (i : ℝ) * pillar_width - temple_width / 2.0 + 1.5 * pillar_width, y, z⟩, Quat.identity)) ++
  ((range3 1 K_pillars).flatMap fun (k : ℕ) =>
    let z := 2 * (k : ℝ) * pillar_depth - temple_depth / 2.0 + pillar_depth * 1.5
    [((), ⟨temple_width / 2.0 - pillar_width / 2.0, y, z⟩, Quat.Ry (Real.pi / 2.0)),
     ((), ⟨-temple_width / 2.0 + pillar_width / 2.0, y, z⟩, Quat.Ry (Real.pi / 2.0))])

/-- create_temple.py:258-271: the mesh of a corner brick. -/
noncomputable def cornerMesh (pillar_width pillar_depth epistyle_height : ℝ) : List V3 × List Tri :=
  let p0 : V3 := ⟨-1.5 * pillar_width, epistyle_height / 2.0, pillar_depth / 2.0⟩
  let p1 : V3 := ⟨1.0 * pillar_width, epistyle_height / 2.0, pillar_depth / 2.0⟩
  let p2 : V3 := ⟨1.0 * pillar_width, epistyle_height / 2.0, -pillar_depth / 2.0⟩
  let p3 : V3 := ⟨-0.5 * pillar_width, epistyle_height / 2.0, -pillar_depth / 2.0⟩
  let down : V3 := ⟨0.0, epistyle_height, 0.0⟩
  SMesh.create_cuboid p0 p1 p2 p3 (p0 - down) (p1 - down) (p2 - down) (p3 - down)

/-- create_temple.py:273-374: the eight corner bricks. -/
noncomputable def cornerBricks (pillar_width pillar_depth temple_width temple_depth y : ℝ) : List (Unit × V3 × Quat) :=
  [((), ⟨-temple_width / 2.0 + pillar_width * 1.5, y, temple_depth / 2.0 - pillar_depth * 0.5⟩, Quat.identity),
   ((), ⟨temple_width / 2.0 - pillar_width * 1.5, y, temple_depth / 2.0 - pillar_depth * 0.5⟩, Quat.Rz Real.pi),
   ((), ⟨-temple_width / 2.0 + pillar_width * 1.5, y, -temple_depth / 2.0 + pillar_depth * 0.5⟩, Quat.Rx Real.pi),
   ((), ⟨temple_width / 2.0 - pillar_width * 1.5, y, -temple_depth / 2.0 + pillar_depth * 0.5⟩, Quat.Ry (-Real.pi)),
   ((), ⟨temple_width / 2.0 - pillar_width * 0.5, y, temple_depth / 2.0 - pillar_depth * 1.5⟩, Quat.Ry (Real.pi / 2.0)),
   ((), ⟨-temple_width / 2.0 + pillar_width * 0.5, y, temple_depth / 2.0 - pillar_depth * 1.5⟩,
     Quat.prod (Quat.Ry (Real.pi / 2.0)) (Quat.Rx Real.pi)),
   ((), ⟨-temple_width / 2.0 + pillar_width * 0.5, y, -temple_depth / 2.0 + pillar_depth * 1.5⟩, Quat.Ry (-Real.pi / 2.0)),
   ((), ⟨temple_width / 2.0 - pillar_width * 0.5, y, -temple_depth / 2.0 + pillar_depth * 1.5⟩,
     Quat.prod (Quat.Ry (-Real.pi / 2.0)) (Quat.Rx Real.pi))]

/-- create_temple.py:376-388: the points whose convex hull is a wedge of the epistyle. -/
noncomputable def wedgePoints (pillar_width pillar_depth epistyle_height : ℝ) : List V3 :=
  let p0 : V3 := ⟨-0.5 * pillar_width, epistyle_height / 2.0, pillar_depth / 2.0⟩
  let p1 : V3 := ⟨1.0 * pillar_width, epistyle_height / 2.0, pillar_depth / 2.0⟩
  let p2 : V3 := ⟨1.0 * pillar_width, epistyle_height / 2.0, -pillar_depth / 2.0⟩
  let p3 : V3 := ⟨-0.5 * pillar_width, epistyle_height / 2.0, -pillar_depth / 2.0⟩
  let p4 : V3 := ⟨-1.5 * pillar_width, epistyle_height / 2.0, 0.0⟩
  let down : V3 := ⟨0.0, epistyle_height, 0.0⟩
  [p0, p1, p2, p3, p4, p0 - down, p1 - down, p2 - down, p3 - down, p4 - down]

/-- create_temple.py:392-417: the wedges. -/
noncomputable def wedgeBricks (K_pillars : ℕ) (pillar_width pillar_depth temple_width temple_depth y : ℝ) : List (Unit × V3 × Quat) :=
  (range3 3 (K_pillars - 3)).flatMap fun (k : ℕ) =>
    let z := 2 * (k : ℝ) * pillar_depth - temple_depth / 2.0 + pillar_depth / 2.0
    [((), ⟨-temple_width / 2.0 + pillar_width * 1.5, y, z⟩, Quat.identity),
     ((), ⟨temple_width / 2.0 - pillar_width * 1.5, y, z⟩, Quat.Ry Real.pi)]

/-- create_temple.py:419-431: the mesh of a junction brick. -/
noncomputable def junctionMesh (pillar_width pillar_depth epistyle_height : ℝ) : List V3 × List Tri :=
  let p0 : V3 := ⟨-0.5 * pillar_width, epistyle_height / 2.0, pillar_depth⟩
  let p1 : V3 := ⟨0.5 * pillar_width, epistyle_height / 2.0, pillar_depth⟩
  let p2 : V3 := ⟨0.5 * pillar_width, epistyle_height / 2.0, -pillar_depth / 2.0⟩
  let p3 : V3 := ⟨-0.5 * pillar_width, epistyle_height / 2.0, -pillar_depth⟩
  let down : V3 := ⟨0.0, epistyle_height, 0.0⟩
  SMesh.create_cuboid p0 p1 p2 p3 (p0 - down) (p1 - down) (p2 - down) (p3 - down)

/-- create_temple.py:433-482: the junction bricks. -/
noncomputable def junctionBricks (K_pillars : ℕ) (pillar_width pillar_depth temple_width temple_depth y : ℝ) : List (Unit × V3 × Quat) :=
  (range3 3 (K_pillars - 3)).flatMap fun (k : ℕ) =>
    let z_junction := 2 * (k : ℝ) * pillar_depth - temple_depth / 2.0 + pillar_depth / 2.0
    let z_back := z_junction - pillar_depth
    let z_front := z_junction + pillar_depth
    let x_left := -temple_width / 2.0 + pillar_width * 0.5
    let x_right := temple_width / 2.0 - pillar_width * 0.5
    [((), ⟨x_left, y, z_front⟩, Quat.identity), ((), ⟨x_left, y, z_back⟩, Quat.Rx Real.pi),
     ((), ⟨x_right, y, z_front⟩, Quat.Rz Real.pi), ((), ⟨x_right, y, z_back⟩, Quat.Ry Real.pi)]

/-- The eight corners of a cuboid with the cross section (a, b, c, e) in planes of constant z, as create_temple.py lists them
(e.g. lines 501-508). -/
noncomputable def prism (xa ya xb yb xc yc xe ye z_front z_back : ℝ) : List V3 × List Tri :=
  SMesh.create_cuboid ⟨xa, ya, z_front⟩ ⟨xb, yb, z_front⟩ ⟨xc, yc, z_front⟩ ⟨xe, ye, z_front⟩
    ⟨xa, ya, z_back⟩ ⟨xb, yb, z_back⟩ ⟨xc, yc, z_back⟩ ⟨xe, ye, z_back⟩

/-- create_temple.py:490-512: the mesh of a gable brick. -/
noncomputable def gableMesh (gable_brick_width gable_brick_height gable_brick_depth : ℝ) : List V3 × List Tri :=
  let x_left := -gable_brick_width / 2.0
  let x_right := gable_brick_width / 2.0
  let y_bottom := -gable_brick_height / 2.0
  let y_top := gable_brick_height / 2.0
  prism x_left y_bottom x_right y_bottom x_right y_top x_left y_top (gable_brick_depth / 2.0) (-gable_brick_depth / 2.0)

/-- create_temple.py:514-524: the points whose convex hull is an edge brick of a gable. -/
noncomputable def edgePoints (gable_brick_width gable_brick_height gable_brick_depth : ℝ) : List V3 :=
  let x_right := gable_brick_width / 2.0
  let y_bottom := -gable_brick_height / 2.0
  let y_top := gable_brick_height / 2.0
  let z_front := gable_brick_depth / 2.0
  let z_back := -gable_brick_depth / 2.0
  [⟨0.0, y_bottom, z_front⟩, ⟨x_right, y_bottom, z_front⟩, ⟨x_right, y_top, z_front⟩,
   ⟨0.0, y_bottom, z_back⟩, ⟨x_right, y_bottom, z_back⟩, ⟨x_right, y_top, z_back⟩]

/-- create_temple.py:526-562: the bricks of the gables (true for the edge brick). -/
noncomputable def gableBricks (I_pillars K_pillars : ℕ) (pillar_width pillar_height pillar_depth temple_width temple_depth stairs_height epistyle_height
    gable_brick_width gable_brick_height : ℝ) : List (Bool × V3 × Quat) :=
  (range3 0 K_pillars).flatMap fun (k : ℕ) =>
    let z_gable := 2 * (k : ℝ) * pillar_depth - temple_depth / 2.0 + pillar_depth / 2.0
    (List.range (I_pillars - 1)).flatMap fun (j : ℕ) => (List.range (I_pillars - j)).map fun (i : ℕ) =>
      let x_brick := -temple_width / 2.0 + pillar_width / 2.0 + (i : ℝ) * gable_brick_width + (j : ℝ) * gable_brick_width * 0.5
      let y_brick := 3.0 * stairs_height + pillar_height + epistyle_height + gable_brick_height / 2.0 + (j : ℝ) * gable_brick_height
      let r_g : V3 := ⟨x_brick, y_brick, z_gable⟩
      if i = 0 ∧ j < I_pillars - 1 then (true, r_g, Quat.identity)
      else if i = I_pillars - j - 1 ∧ j < I_pillars - 1 then (true, r_g, Quat.Ry Real.pi)
      else (false, r_g, Quat.identity)

/-- create_temple.py:564-585 (and 587-605): the mesh of a plank on the left, of the given length. -/
noncomputable def leftPlank (pillar_width gable_brick_height length : ℝ) : List V3 × List Tri :=
  prism 0.0 0.0 (pillar_width / 2.0) 0.0 (pillar_width * 1.5) gable_brick_height pillar_width gable_brick_height 0.0 (-length)

/-- create_temple.py:607-625 (and 627-645): the mesh of a plank on the right. -/
noncomputable def rightPlank (pillar_width gable_brick_height length : ℝ) : List V3 × List Tri :=
  prism (-pillar_width / 2.0) 0.0 0.0 0.0 (-pillar_width) gable_brick_height (-pillar_width * 1.5) gable_brick_height 0.0 (-length)

/-- create_temple.py:647-693: the planks; the shape is (right, long). -/
noncomputable def plankBodies (I_pillars K_pillars : ℕ) (pillar_height pillar_depth temple_width temple_depth stairs_height epistyle_height
    gable_brick_width gable_brick_height : ℝ) : List ((Bool × Bool) × V3 × Quat) :=
  (range3 0 (K_pillars - 1)).flatMap fun (k : ℕ) =>
    let long := if k = 0 then true else if k = K_pillars - 4 then true else false
    let z_plank := if k = 0 then -(k : ℝ) * 2.0 * pillar_depth + temple_depth / 2.0
      else -(k : ℝ) * 2.0 * pillar_depth - pillar_depth / 2.0 + temple_depth / 2.0
    (List.range (I_pillars - 1)).flatMap fun (i : ℕ) =>
      let y_plank := 3.0 * stairs_height + pillar_height + epistyle_height + (i : ℝ) * gable_brick_height
      [((false, long), ⟨-temple_width / 2.0 + (i : ℝ) * gable_brick_width * 0.5, y_plank, z_plank⟩, Quat.identity),
       ((true, long), ⟨temple_width / 2.0 - (i : ℝ) * gable_brick_width * 0.5, y_plank, z_plank⟩, Quat.identity)]

/-- create_temple.py:695-705: the points whose convex hull is a ridge brick. -/
noncomputable def ridgePoints (pillar_width pillar_depth gable_brick_height : ℝ) : List V3 :=
  [⟨-pillar_width / 2.0, 0.0, 0.0⟩, ⟨pillar_width / 2.0, 0.0, 0.0⟩, ⟨0.0, gable_brick_height / 2.0, 0.0⟩,
   ⟨-pillar_width / 2.0, 0.0, pillar_depth⟩, ⟨pillar_width / 2.0, 0.0, pillar_depth⟩, ⟨0.0, gable_brick_height / 2.0, pillar_depth⟩]

/-- create_temple.py:707-725: the ridge. -/
noncomputable def ridgeBricks (I_pillars K_pillars : ℕ) (pillar_height pillar_depth temple_depth stairs_height epistyle_height gable_brick_height : ℝ) :
    List (Unit × V3 × Quat) :=
  (List.range (K_pillars * 2 - 1)).map fun (k : ℕ) =>
    ((), ⟨0, 3.0 * stairs_height + pillar_height + epistyle_height + ((I_pillars : ℝ) - 1) * gable_brick_height,
      temple_depth / 2.0 - ((k : ℝ) + 1) * pillar_depth⟩, Quat.identity)

/-- create_temple.py:14-732 `create_temple`.  `hull` is `MESH.create_convex_hull`. -/
noncomputable def create_temple (eig : Eig) (hull : List V3 → List V3 × List Tri) (I_pillars K_pillars : ℕ)
    (pillar_width pillar_height pillar_depth : ℝ) (pillar_stones : ℕ) (density : ℝ) (material_name : String) : SceneM (List String) := do
  if ((K_pillars : ℤ) - 1) % 3 ≠ 0 then raise .runtimeError
  else
    let temple_width := (2 * (I_pillars : ℝ) - 1) * pillar_width
    let temple_depth := (2 * (K_pillars : ℝ) - 1) * pillar_depth
    let stairs_height := 0.1 * pillar_height
    let step1 ← templeStep eig "regular_epistyle_brick_shape" "bottom_step_body" (temple_width + 6 * pillar_width) stairs_height
      (temple_depth + 6 * pillar_depth) (stairs_height * 0.5)
    let step2 ← templeStep eig "middle_step_shape" "middle_step_body" (temple_width + 4 * pillar_width) stairs_height
      (temple_depth + 4 * pillar_depth) (stairs_height * 1.5)
    let step3 ← templeStep eig "top_step_shape" "top_step_body" (temple_width + 2 * pillar_width) stairs_height
      (temple_depth + 2 * pillar_depth) (stairs_height * 2.5)
    let step4 ← templeStep eig "interior_step_shape" "interior_step_body" (temple_width - 2.5 * pillar_width) stairs_height
      (temple_depth - 2.5 * pillar_depth) (stairs_height * 3.5)
    let outer ← (outerPillars I_pillars K_pillars pillar_width pillar_depth temple_width temple_depth (stairs_height * 3.0)).mapM fun r =>
      create_pillar eig r Quat.identity pillar_width pillar_height pillar_depth pillar_stones density material_name
    let inner ← (innerPillars I_pillars K_pillars pillar_width pillar_depth temple_width temple_depth (stairs_height * 4.0)).mapM fun r =>
      create_pillar eig r Quat.identity pillar_width (pillar_height - stairs_height) pillar_depth pillar_stones density material_name
    let epistyle_height := 2.0 * stairs_height
    let shape_name ← newShape eig "regular_epistyle_brick_shape" (SMesh.create_box (2.0 * pillar_width) epistyle_height pillar_depth)
    let y := stairs_height * 3.0 + pillar_height + epistyle_height / 2.0
    let bricks ← makeBodies "epistyle_brick_body" (fun _ => shape_name)
      (epistyleBricks I_pillars K_pillars pillar_width pillar_depth temple_width temple_depth y)
    let shape_name ← newShape eig "corner_epistyle_brick_shape" (cornerMesh pillar_width pillar_depth epistyle_height)
    let corners ← makeBodies "epistyle_brick_body" (fun _ => shape_name) (cornerBricks pillar_width pillar_depth temple_width temple_depth y)
    let shape_name ← newShape eig "wedge_epistyle_brick_shape" (hull (wedgePoints pillar_width pillar_depth epistyle_height))
    let wedges ← makeBodies "epistyle_brick_body" (fun _ => shape_name) (wedgeBricks K_pillars pillar_width pillar_depth temple_width temple_depth y)
    let shape_name ← newShape eig "junction_epistyle_brick_shape" (junctionMesh pillar_width pillar_depth epistyle_height)
    let junctions ← makeBodies "epistyle_brick_body" (fun _ => shape_name)
      (junctionBricks K_pillars pillar_width pillar_depth temple_width temple_depth y)
    let gable_brick_height := stairs_height
    let gable_brick_width := 2.0 * pillar_width
    let gable_brick_depth := 0.5 * pillar_depth
    let shape_name_regular ← newShape eig "gable_brick_shape" (gableMesh gable_brick_width gable_brick_height gable_brick_depth)
    let shape_name_edge ← newShape eig "gable_edge_brick_shape" (hull (edgePoints gable_brick_width gable_brick_height gable_brick_depth))
    let gables ← makeBodies "gable_brick_body" (fun edge => if edge then shape_name_edge else shape_name_regular)
      (gableBricks I_pillars K_pillars pillar_width pillar_height pillar_depth temple_width temple_depth stairs_height epistyle_height
        gable_brick_width gable_brick_height)
    let left_long ← newShape eig "long_left_plank_shape" (leftPlank pillar_width gable_brick_height (6.5 * pillar_depth))
    let left_short ← newShape eig "short_left_plank_shape" (leftPlank pillar_width gable_brick_height (6.0 * pillar_depth))
    let right_long ← newShape eig "long_right_plank_shape" (rightPlank pillar_width gable_brick_height (6.5 * pillar_depth))
    let right_short ← newShape eig "short_right_plank_shape" (rightPlank pillar_width gable_brick_height (6.0 * pillar_depth))
    let planks ← makeBodies "plank_body"
      (fun c => if c.1 then (if c.2 then right_long else right_short) else (if c.2 then left_long else left_short))
      (plankBodies I_pillars K_pillars pillar_height pillar_depth temple_width temple_depth stairs_height epistyle_height
        gable_brick_width gable_brick_height)
    let shape_name ← newShape eig "ridge_brick_shape" (hull (ridgePoints pillar_width pillar_depth gable_brick_height))
    let ridge ← makeBodies "ridge_body" (fun _ => shape_name)
      (ridgeBricks I_pillars K_pillars pillar_height pillar_depth temple_depth stairs_height epistyle_height gable_brick_height)
    let body_names := [step1, step2, step3, step4] ++ outer.flatten ++ inner.flatten ++ bricks ++ corners ++ wedges ++ junctions ++ gables ++ planks ++ ridge
    body_names.forM (setup "free" material_name density)
    return body_names

end Verif.Rigid.SceneM
