import Verif.Model.RigidApi
import Verif.Model.SurfaceMesh
import Verif.Model.Mass

/-! Model of `rainbow/math/functions.py` and of the mesh and shape functions of
`rainbow/simulators/prox_rigid_bodies/api.py`, with the meshes the engine stores. -/

namespace Verif.Rigid

open SMesh (Mesh)
open VMesh (Tri)

/-- `np.linalg.eig` on 3×3 matrices: eigenvalues and the matrix whose columns are the eigenvectors. -/
abbrev Eig := M3 → (Fin 3 → ℝ) × M3

/-- Entry (i, j) of `np.cov`: Σ (a - mean a)(b - mean b) / (M - 1) (M = 1 gives nan in numpy and 0 here). -/
noncomputable def covEntry (a b : List ℝ) : ℝ :=
  let ma := a.sum / a.length
  let mb := b.sum / b.length
  (List.zipWith (fun x y => (x - ma) * (y - mb)) a b).sum / ((a.length : ℝ) - 1)

/-- functions.py:34-35: `np.cov(C.T)`. -/
noncomputable def cov (C : List V3) : M3 :=
  let x := C.map (·.x)
  let y := C.map (·.y)
  let z := C.map (·.z)
  ⟨covEntry x x, covEntry x y, covEntry x z, covEntry y x, covEntry y y, covEntry y z, covEntry z x, covEntry z y, covEntry z z⟩

/-- functions.py:27-37 `PCA`. -/
noncomputable def PCA (eig : Eig) (P : List V3) : V3 × (Fin 3 → ℝ) × M3 :=
  let mean := SMesh.vmean P
  let C := P.map (· - mean)
  let V := cov C
  let (values, vectors) := eig V
  (mean, values, vectors)

open Classical in
/-- `np.argmax` of three values: the first largest one. -/
noncomputable def argmax3 (d : Fin 3 → ℝ) : Fin 3 :=
  if d 1 ≤ d 0 ∧ d 2 ≤ d 0 then 0 else if d 2 ≤ d 1 then 1 else 2

/-- `vectors[i]`: a row of the matrix. -/
def matRow (R : M3) (i : Fin 3) : V3 := match i with
  | 0 => R.row0
  | 1 => R.row1
  | 2 => R.row2

/-- functions.py:40-48 `direction_of_most_variance`. -/
noncomputable def direction_of_most_variance (eig : Eig) (P : List V3) : V3 :=
  let (_, values, vectors) := PCA eig P
  let largest_eigenv_idx := argmax3 values
  matRow vectors largest_eigenv_idx

/-- A row of `mesh.T`. -/
def triRow (t : Tri) : List ℕ := [t.a, t.b, t.c]
/-- The same row as a triangle. -/
def rowTri (r : List ℕ) : Tri := ⟨r.getD 0 0, r.getD 1 0, r.getD 2 0⟩

/-- api.py:158-173 `create_mesh`. -/
noncomputable def create_mesh (eig : Eig) (V : List V3) (T : List Tri) : Except PyErr Mesh := do
  let axis := direction_of_most_variance eig V
  let mesh : Mesh := ⟨V, T⟩
  let (V', T') ← SMesh.axis_sort mesh.V (mesh.T.map triRow) axis
  return ⟨V', T'.map rowTri⟩

/-- The engine with the meshes of its shapes (`engine.shapes[name].mesh`) and the results of the coming calls of
`generate_unique_name`.  Nothing is assumed of these names: they stem from a random number and the clock. -/
structure Scene where
  eng : Engine
  meshes : Dict String Mesh
  gen : ℕ → String → String

/-- api.py:176-242 `create_shape` with its mesh.  Left out: the signed distance grid (`GRID.create_signed_distance`, igl).
The mesh object is owned by the shape: in Python the argument is changed in place, so passing one mesh object to two calls
would change the first shape. -/
noncomputable def Scene.create_shape (eig : Eig) (s : Scene) (shape_name : String) (mesh : Mesh)
    (transform_to_body_frame : Bool := true) : Except PyErr Scene :=
  if s.eng.shapes.mem shape_name then .error .runtimeError
  else do
    let prop ← Mass.compute_mass_properties mesh.V mesh.T 1.0
    let x := Mass.xform_model_2_body_space eig prop
    let mesh ← if transform_to_body_frame then SMesh.rotate (SMesh.translate mesh (-x.1)) (Quat.conjugate x.2.1)
      else (.ok mesh : Except PyErr Mesh)
    let eng ← s.eng.create_shape shape_name x.1 x.2.1 x.2.2.1 x.2.2.2
    return { s with eng := eng, meshes := s.meshes.setItem shape_name mesh }

/-! ### What is in the world -/

/-- World positions of the mesh vertices of body `name`: `Q.rotate(body.q, v) + body.r` (collision_detection.py:112-116 and
the state dumps); empty if there is no such body or it has no shape. -/
def Scene.worldMesh (s : Scene) (name : String) : Option Mesh := do
  let b ← s.eng.bodies.get? name
  let sh ← b.body.shape
  let m ← s.meshes.get? sh.name
  return ⟨m.V.map fun v => Quat.rotate b.body.q v + b.body.r, m.T⟩

end Verif.Rigid
