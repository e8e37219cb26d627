import Verif.Model.ProxSolver
import Verif.Model.CoordSys
import Verif.Model.Vector3
import Verif.Model.Dict
import Mathlib.Algebra.BigOperators.Fin

/-! Model of `rainbow/simulators/prox_rigid_bodies/types.py` and of `state_storage.py`.

`engine.bodies` is an insertion ordered dict whose i-th value has `idx = i` (`create_rigid_body`, property C43), so the
simulation code sees a family `Fin N → RigidBody`.  References to bodies held by contact points and hinges are indices.
The stacked vectors of length 7N and 6N are functions on `Fin N × Fin 7` and `Fin N × Fin 6`: numpy's index 7k + i is
(k, i). -/

namespace Verif.Rigid

open Matrix

/-- types.py:189-256: the two force types, with the fields their `compute` reads. -/
inductive ForceKind
  | gravity (g : ℝ) (up : V3)
  | damping (alpha beta : ℝ)

/-- types.py:155-168 `ForceCalculator`: a named force.  Forces are compared by identity in Python; names are unique keys
of `engine.forces`. -/
structure Force where
  name : String
  kind : ForceKind

/-- types.py:82-108 `Shape`; the mesh, the grid and the BVH are left out. -/
structure Shape where
  name : String
  mass : ℝ
  inertia : V3
  r : V3
  q : Quat

/-- types.py:111-152 `RigidBody`; `bvh` is left out, `idx` is the index of the family. -/
structure RigidBody where
  name : String
  q : Quat
  r : V3
  v : V3
  w : V3
  mass : ℝ
  inertia : V3
  shape : Option Shape
  is_fixed : Bool
  forces : List Force
  material : String

/-- types.py:130-152 `RigidBody.__init__`. -/
def RigidBody.init (name : String) : RigidBody :=
  { name := name, q := Quat.identity, r := V3.zero, v := V3.zero, w := V3.zero, mass := 0.0, inertia := V3.zero,
    shape := none, is_fixed := false, forces := [], material := "default" }

/-- types.py:259-301 `ContactPoint`. -/
structure ContactPoint (N : ℕ) where
  bodyA : Fin N
  bodyB : Fin N
  p : V3
  n : V3
  g : ℝ

open Classical in
/-- types.py:271-301 `ContactPoint.__init__`. -/
noncomputable def ContactPoint.init {N : ℕ} (bodyA bodyB : Fin N) (position normal : V3) (gap : ℝ) :
    Except PyErr (ContactPoint N) :=
  if |1.0 - V3.norm normal| > 0.1 then .error .runtimeError
  else .ok ⟨bodyA, bodyB, position, normal, gap⟩

/-- types.py:304-353 `Hinge` with both sockets set. -/
structure Hinge (N : ℕ) where
  parent : Fin N
  child : Fin N
  arm_p : V3
  arm_c : V3
  axis_p : V3
  axis_c : V3

/-- types.py:20-30 `SurfacesInteraction`. -/
structure SurfacesInteraction where
  mu : V3
  epsilon : ℝ

/-- types.py:28-30 `SurfacesInteraction.__init__`. -/
def SurfacesInteraction.init : SurfacesInteraction := ⟨V3.ones, 0.0⟩

/-- types.py:33-40 `SurfacesInteractionLibrary`. -/
structure SurfacesInteractionLibrary where
  storage : Dict (String × String) SurfacesInteraction

namespace SurfacesInteractionLibrary

/-- types.py:38-40 `__init__`. -/
def init : SurfacesInteractionLibrary := ⟨Dict.empty.setItem ("default", "default") SurfacesInteraction.init⟩

/-- types.py:50, 63: `key = (A, B) if A < B else (B, A)` (string order). -/
def key (A B : String) : String × String := if A < B then (A, B) else (B, A)

/-- types.py:42-53 `get_interaction`. -/
def get_interaction (L : SurfacesInteractionLibrary) (A B : String) : Except PyErr SurfacesInteraction :=
  if L.storage.mem (key A B) then L.storage.getItem (key A B)
  else L.storage.getItem ("default", "default")

/-- types.py:55-66 `exist_interaction`. -/
def exist_interaction (L : SurfacesInteractionLibrary) (A B : String) : Bool :=
  if L.storage.mem (key A B) then true else false

/-- types.py:68-79 `exist_material`. -/
def exist_material (L : SurfacesInteractionLibrary) (name : String) : Bool :=
  L.storage.keys.any fun k => k.1 == name || k.2 == name

end SurfacesInteractionLibrary

/-- types.py:356-418 `Parameters` (the fields read by the code modelled here). -/
structure Params extends ProxSolver.Params where
  time_step : ℝ
  use_bounce : Bool
  use_pre_stabilization : Bool
  use_post_stabilization : Bool
  gap_reduction : ℝ
  min_gap_value : ℝ
  max_gap_value : ℝ

/-- types.py:361-418: the values set by `Parameters.__init__`. -/
noncomputable def Params.init : Params :=
  { time_step := 0.01, max_iterations := 200, use_bounce := false, use_pre_stabilization := false,
    use_post_stabilization := false, gap_reduction := 0.5, min_gap_value := 0.001, max_gap_value := 0.01,
    absolute_tolerance := 0.001, relative_tolerance := 0.0001, nu_reduce := 0.7, nu_increase := 1.3,
    too_small_merit_change := 0.01 }

/-- types.py:421-445 `Engine`, as the simulation code sees it. -/
structure World (N : ℕ) where
  bodies : Fin N → RigidBody
  /-- `engine.forces.values()` -/
  forces : List Force
  /-- `engine.hinges.values()`; the k-th has `idx = k` (C43) -/
  hinges : List (Hinge N)
  contact_points : List (ContactPoint N)
  surfaces_interactions : SurfacesInteractionLibrary
  params : Params

/-- types.py:204-221, 239-256 `compute`: force and torque on the body. -/
def ForceKind.compute (f : ForceKind) (body : RigidBody) (v w : V3) : V3 × V3 :=
  match f with
  | .gravity g up => ((-body.mass * g) • up, V3.zero)
  | .damping alpha beta => (alpha • (-v), beta • (-w))

/-- mass.py:395-452 `update_inertia_tensor`. -/
def update_inertia_tensor (R : M3) (Bv : V3) : M3 :=
  { m00 := R.m00 * R.m00 * Bv.x + R.m01 * R.m01 * Bv.y + R.m02 * R.m02 * Bv.z
    m11 := R.m10 * R.m10 * Bv.x + R.m11 * R.m11 * Bv.y + R.m12 * R.m12 * Bv.z
    m22 := R.m20 * R.m20 * Bv.x + R.m21 * R.m21 * Bv.y + R.m22 * R.m22 * Bv.z
    m10 := R.m10 * R.m00 * Bv.x + R.m11 * R.m01 * Bv.y + R.m12 * R.m02 * Bv.z
    m01 := R.m10 * R.m00 * Bv.x + R.m11 * R.m01 * Bv.y + R.m12 * R.m02 * Bv.z
    m20 := R.m20 * R.m00 * Bv.x + R.m21 * R.m01 * Bv.y + R.m22 * R.m02 * Bv.z
    m02 := R.m20 * R.m00 * Bv.x + R.m21 * R.m01 * Bv.y + R.m22 * R.m02 * Bv.z
    m21 := R.m10 * R.m20 * Bv.x + R.m11 * R.m21 * Bv.y + R.m12 * R.m22 * Bv.z
    m12 := R.m10 * R.m20 * Bv.x + R.m11 * R.m21 * Bv.y + R.m12 * R.m22 * Bv.z }

/-! ### state_storage.py -/

variable {N : ℕ}

/-- Components of the stacked velocity vector. -/
abbrev Vel (N : ℕ) := Fin N × Fin 6
/-- Components of the stacked position vector. -/
abbrev Pos (N : ℕ) := Fin N × Fin 7

/-- `u[6k : 6k+3]`. -/
def lin (u : Vel N → ℝ) (k : Fin N) : V3 := ⟨u (k, 0), u (k, 1), u (k, 2)⟩
/-- `u[6k+3 : 6k+6]`. -/
def ang (u : Vel N → ℝ) (k : Fin N) : V3 := ⟨u (k, 3), u (k, 4), u (k, 5)⟩
/-- `x[7k : 7k+3]`. -/
def xr (x : Pos N → ℝ) (k : Fin N) : V3 := ⟨x (k, 0), x (k, 1), x (k, 2)⟩
/-- `x[7k+3 : 7k+7]`. -/
def xq (x : Pos N → ℝ) (k : Fin N) : Quat := ⟨x (k, 3), x (k, 4), x (k, 5), x (k, 6)⟩
/-- Six consecutive entries written from two 3-vectors. -/
def six (a b : V3) : Fin 6 → ℝ := ![a.x, a.y, a.z, b.x, b.y, b.z]
/-- Seven consecutive entries written from a position and a quaternion. -/
def seven (r : V3) (q : Quat) : Fin 7 → ℝ := ![r.x, r.y, r.z, q.s, q.x, q.y, q.z]

/-- state_storage.py:70-85 `_get_position_vector`. -/
def get_position_vector (bodies : Fin N → RigidBody) : Pos N → ℝ :=
  fun i => seven (bodies i.1).r (bodies i.1).q i.2

/-- state_storage.py:87-105 `_get_velocity_vector`. -/
def get_velocity_vector (bodies : Fin N → RigidBody) : Vel N → ℝ :=
  fun i => six (bodies i.1).v (bodies i.1).w i.2

/-- state_storage.py:130-155: total force and torque on one body. -/
noncomputable def bodyForce (body : RigidBody) (q : Quat) (v w : V3) : V3 × V3 :=
  let R := Quat.to_matrix q
  let I_wcs := update_inertia_tensor R body.inertia
  body.forces.foldl (fun FT f => (FT.1 + (f.kind.compute body v w).1, FT.2 + (f.kind.compute body v w).2))
    (V3.zero, -V3.cross w (I_wcs.mulVec w))

/-- state_storage.py:108-156 `_compute_total_external_forces`. -/
noncomputable def compute_total_external_forces (bodies : Fin N → RigidBody) (x : Pos N → ℝ) (u : Vel N → ℝ) :
    Vel N → ℝ := fun i =>
  if (bodies i.1).is_fixed then 0
  else
    let FT := bodyForce (bodies i.1) (xq x i.1) (lin u i.1) (ang u i.1)
    six FT.1 FT.2 i.2

/-- state_storage.py:165-180: the two 3x3 blocks of one body. -/
noncomputable def massBlocks (body : RigidBody) (q : Quat) : M3 × M3 :=
  if body.is_fixed then (M3.zero, M3.zero)
  else
    let R := Quat.to_matrix q
    let I_wcs := update_inertia_tensor R ⟨1.0 / body.inertia.x, 1.0 / body.inertia.y, 1.0 / body.inertia.z⟩
    let m := 1.0 / body.mass
    (M3.diag m m m, I_wcs)

/-- state_storage.py:185-186 `sparse.block_diag(blocks)` for the 2N blocks: blocks 2k and 2k+1 make the 6x6 diagonal
block of body k. -/
def sixBlock (A B : M3) : Matrix (Fin 6) (Fin 6) ℝ :=
  !![A.m00, A.m01, A.m02, 0, 0, 0;
     A.m10, A.m11, A.m12, 0, 0, 0;
     A.m20, A.m21, A.m22, 0, 0, 0;
     0, 0, 0, B.m00, B.m01, B.m02;
     0, 0, 0, B.m10, B.m11, B.m12;
     0, 0, 0, B.m20, B.m21, B.m22]

open Classical in
/-- state_storage.py:158-186 `_compute_inverse_mass_matrix`. -/
noncomputable def compute_inverse_mass_matrix (bodies : Fin N → RigidBody) (x : Pos N → ℝ) :
    Except PyErr (Matrix (Vel N) (Vel N) ℝ) :=
  if ∃ k, (bodies k).is_fixed = false ∧ (bodies k).mass = 0 then .error .valueError
  else .ok fun i j =>
    if i.1 = j.1 then
      let AB := massBlocks (bodies i.1) (xq x i.1)
      sixBlock AB.1 AB.2 i.2 j.2
    else 0

/-- state_storage.py:15-41 `StateStorage` after `copy_from_engine`. -/
structure StateStorage (N : ℕ) where
  x : Pos N → ℝ
  u : Vel N → ℝ
  f_ext : Vel N → ℝ
  W : Matrix (Vel N) (Vel N) ℝ
  delta_u_ext : Vel N → ℝ

/-- state_storage.py:43-53 `copy_from_engine`. -/
noncomputable def copy_from_engine (bodies : Fin N → RigidBody) : Except PyErr (StateStorage N) := do
  let x := get_position_vector bodies
  let u := get_velocity_vector bodies
  let f_ext := compute_total_external_forces bodies x u
  let W ← compute_inverse_mass_matrix bodies x
  return ⟨x, u, f_ext, W, W *ᵥ f_ext⟩

/-- state_storage.py:55-68 `copy_to_engine`. -/
def copy_to_engine (s : StateStorage N) (bodies : Fin N → RigidBody) : Fin N → RigidBody := fun k =>
  { bodies k with v := lin s.u k, w := ang s.u k, r := xr s.x k, q := xq s.x k }

/-- state_storage.py:239-248 `velocity_update`. -/
def velocity_update (s : StateStorage N) (delta_u : Vel N → ℝ) : StateStorage N := { s with u := s.u + delta_u }

/-- state_storage.py:251-302 `position_update` with the velocities u (`state.u` when the argument is None). -/
noncomputable def position_update (s : StateStorage N) (dt : ℝ) (bodies : Fin N → RigidBody) (u : Vel N → ℝ) :
    StateStorage N :=
  { s with x := fun i =>
      if (bodies i.1).is_fixed then s.x i
      else
        let r := xr s.x i.1
        let q := xq s.x i.1
        let v := lin u i.1
        let w := ang u i.1
        let r := r + dt • v
        let q := q + (0.5 : ℝ) • (dt • Quat.prod (Quat.from_vector3 w) q)
        seven r (Quat.unit q) i.2 }

open Classical in
/-- state_storage.py:214-228: the sum G of all gravity forces of the engine; none when there is no gravity force. -/
noncomputable def totalGravity (forces : List Force) : Option V3 :=
  forces.foldl (fun G f => match f.kind with
    | .gravity g up => some ((G.getD V3.zero) + g • up)
    | .damping _ _ => G) none

/-- state_storage.py:188-237 `compute_total_energy`. -/
noncomputable def compute_total_energy (s : StateStorage N) (w : World N) : ℝ × ℝ :=
  (List.finRange N).foldl (fun kp k =>
    if (w.bodies k).is_fixed then kp
    else
      let r := xr s.x k
      let R := Quat.to_matrix (xq s.x k)
      let v := lin s.u k
      let om := ang s.u k
      let m := (w.bodies k).mass
      let I_wcs := update_inertia_tensor R (w.bodies k).inertia
      let potential := match totalGravity w.forces with
        | some G => kp.2 + m * V3.norm G * V3.dot (V3.unit G) r
        | none => kp.2
      let wIw := V3.dot om (I_wcs.mulVec om)
      (kp.1 + 0.5 * (m * V3.dot v v + wIw), potential)) (0.0, 0.0)

end Verif.Rigid
