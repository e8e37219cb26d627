import Verif.Model.Shapes
import Verif.Model.Collision
import Verif.Model.RigidStep

/-! Model of `GRID.create_signed_distance` (grid3.py) and of what `create_shape`, `connect_shape`, `SemiImplicitStepper.step` and
`simulate` do with distance fields and bounding volume hierarchies: the whole simulator of `prox_rigid_bodies` put together. -/

namespace Verif.Rigid

open SMesh (Mesh)
open VMesh (Tri)
open Collision

/-- `igl.signed_distance(nodes, V, F)[0]`: one number per node; nothing else is assumed of it. -/
abbrev SignedDistance := List V3 → List V3 → List Tri → List ℝ

/-- `V.min(axis=0)`; ValueError for an empty array. -/
noncomputable def vmin : List V3 → Except PyErr V3
  | [] => .error .valueError
  | v :: V => .ok (V.foldl (fun m p => ⟨min m.x p.x, min m.y p.y, min m.z p.z⟩) v)

/-- `V.max(axis=0)`; ValueError for an empty array. -/
noncomputable def vmax : List V3 → Except PyErr V3
  | [] => .error .valueError
  | v :: V => .ok (V.foldl (fun m p => ⟨max m.x p.x, max m.y p.y, max m.z p.z⟩) v)

open Classical in
/-- grid3.py:320-339 `create_signed_distance`. -/
noncomputable def create_signed_distance (sd : SignedDistance) (V : List V3) (F : List Tri) (I J K : ℤ) (boundary : ℝ) :
    Except PyErr Grid :=
  if boundary < 0 then .error .valueError
  else do
    let lo ← vmin V
    let hi ← vmax V
    let min_coord : V3 := lo - ⟨boundary, boundary, boundary⟩
    let max_coord : V3 := hi + ⟨boundary, boundary, boundary⟩
    let grid ← Grid.init min_coord max_coord I J K
    let nodes ← grid.get_nodes_array
    return { grid with values := some (sd nodes V F) }

/-- The fields of `Parameters` (types.py:405-418) read when shapes are made and connected and contacts are searched. -/
structure GeoParams extends CDParams where
  bvh_chunk_size : ℕ
  resolution : ℤ

/-- types.py:405-418: the values set by `Parameters.__init__`. -/
noncomputable def GeoParams.init : GeoParams :=
  { contact_optimization_max_iterations := 8, contact_optimization_tolerance := 0, K := 3, envelope := 0.1,
    bvh_chunk_size := 255, resolution := 64 }

/-- api.py:232-241: the distance field of a shape. -/
noncomputable def shapeGrid (sd : SignedDistance) (P : GeoParams) (mesh : Mesh) : Except PyErr Grid := do
  let hi ← vmax mesh.V
  let lo ← vmin mesh.V
  let d := hi - lo
  let max_length := max (max d.x d.y) d.z
  let boundary := max (max_length * 0.1) (P.envelope * 2)
  create_signed_distance sd mesh.V mesh.T P.resolution P.resolution P.resolution boundary

/-- What collision detection reads of a body: `body.shape` (AttributeError if None), made by `create_shape` (api.py:232-241), and
`body.bvh`, made by `connect_shape` (api.py:268-281).  Simplified: the geometry parameters are the same at both calls. -/
noncomputable def Scene.collider (sd : SignedDistance) (P : GeoParams) (s : Scene) (b : RigidBody) : Except PyErr Collider :=
  match b.shape with
  | none => .error .attributeError
  | some sh => match s.meshes.get? sh.name with
    | none => .error .attributeError
    | some mesh => do
      let grid ← shapeGrid sd P mesh
      let bvh ← BVH.make_bvh mesh.V (rows mesh.T) P.K P.bvh_chunk_size P.envelope
      return ⟨mesh.V, mesh.T, grid, bvh⟩

variable {N : ℕ}

/-- The engine during a simulation: what the stepper works on, and the geometry of the bodies. -/
abbrev Sim (N : ℕ) := World N × (Fin N → Collider)

/-- steppers.py:47-89 `SemiImplicitStepper.step` with the package's own collision detection: the contact points go to the stepper,
the refitted hierarchies stay with the bodies. -/
noncomputable def fullStep (P : CDParams) (dt : ℝ) (s : Sim N) : Except PyErr (Sim N) := do
  let w ← step (fun w => (run_collision_detection P w.bodies s.2).map Prod.snd) dt s.1
  let r ← run_collision_detection P s.1.bodies s.2
  return (w, r.1)

open Classical in
/-- api.py:689-693: one trip of the loop of `simulate`. -/
noncomputable def fullTrip (P : CDParams) : LoopStep (Sim N × ℝ) := fun s =>
  if s.2 = 0 then .ok none
  else
    let dt := min s.2 s.1.1.params.time_step
    match fullStep P dt s.1 with
    | .error e => .error e
    | .ok w => .ok (some (w, s.2 - dt))

open Classical in
/-- api.py:676-693 `simulate` with a stepper installed. -/
noncomputable def fullSimulate (P : CDParams) (s : Sim N) (T : ℝ) : Except PyErr (Sim N) :=
  if T ≤ 0 then .error .valueError else (whileLoop (fullTrip P) (s, T)).map Prod.fst

end Verif.Rigid
