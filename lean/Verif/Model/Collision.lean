import Verif.Model.RigidBody
import Verif.Model.BVH
import Verif.Model.Grid3
import Verif.Model.SurfaceMesh
import Mathlib.Data.Finset.Insert
import Mathlib.Data.Finset.Sort

/-! Model of `rainbow/simulators/prox_rigid_bodies/collision_detection.py` (timers and profiling left out). -/

namespace Verif.Collision

open VMesh (Tri)
open Rigid

variable {N : ℕ}

/-- What collision detection reads of a body besides its pose: `body.shape.mesh`, `body.shape.grid` and `body.bvh`. -/
structure Collider where
  V : List V3
  T : List Tri
  grid : Grid
  bvh : BVH.Tree

/-- The fields of `Parameters` (types.py:405-415) read by collision detection. -/
structure CDParams where
  contact_optimization_max_iterations : ℕ
  contact_optimization_tolerance : ℝ
  K : ℕ
  envelope : ℝ

/-- `mesh.T` as rows. -/
def rows (T : List Tri) : List (List ℕ) := T.map fun t => [t.a, t.b, t.c]

/-- collision_detection.py:32, 120: `Q.rotate_array(body.q, body.shape.mesh.V) + body.r`. -/
def worldVertices (b : RigidBody) (V : List V3) : Except PyErr (List V3) := do
  let R ← Quat.rotate_array b.q V
  return R.map (· + b.r)

/-- collision_detection.py:26-41: one trip of `_update_bvh`. -/
noncomputable def refitBody (P : CDParams) (b : RigidBody) (c : Collider) : Except PyErr Collider := do
  let V_world ← worldVertices b c.V
  let t ← BVH.refit_bvh V_world (rows c.T) c.bvh P.K P.envelope
  return { c with bvh := t }

/-- collision_detection.py:10-44 `_update_bvh`. -/
noncomputable def update_bvh (P : CDParams) (bodies : Fin N → RigidBody) (C : Fin N → Collider) : Except PyErr (Fin N → Collider) :=
  (List.finRange N).foldlM (fun C k => do
    let c ← refitBody P (bodies k) (C k)
    return Function.update C k c) C

/-- `itertools.combinations(engine.bodies.values(), r=2)`. -/
def combinations (N : ℕ) : List (Fin N × Fin N) :=
  (List.finRange N).flatMap fun i => ((List.finRange N).filter fun j => decide (i < j)).map fun j => (i, j)

/-- collision_detection.py:70-77: one trip. -/
noncomputable def narrowPair (C : Fin N → Collider) (ij : Fin N × Fin N) :
    Except PyErr (Option ((Fin N × Fin N) × List (ℤ × ℤ))) := do
  let results ← BVH.traversal (C ij.1).bvh (C ij.2).bvh
  return if results.length > 0 then some (ij, results) else none

/-- collision_detection.py:47-84 `_narrow_phase`; the dict as its list of items (the keys are distinct). -/
noncomputable def narrow_phase (C : Fin N → Collider) : Except PyErr (List ((Fin N × Fin N) × List (ℤ × ℤ))) := do
  let r ← (combinations N).mapM (narrowPair C)
  return r.filterMap id

open Classical in
/-- `np.argmin` of three values: the first smallest. -/
noncomputable def argmin3 (a b c : ℝ) : Fin 3 := if a ≤ b ∧ a ≤ c then 0 else if b ≤ c then 1 else 2

/-- collision_detection.py:134-140: the corner with the smallest gradient norm. -/
noncomputable def fwStart (g : Grid) (p : Fin 3 → V3) : Except PyErr V3 := do
  let g0 ← g.get_gradient (p 0)
  let g1 ← g.get_gradient (p 1)
  let g2 ← g.get_gradient (p 2)
  return p (argmin3 (V3.norm g0) (V3.norm g1) (V3.norm g2))

/-- collision_detection.py:150-159: one Frank-Wolfe update; also the objective of the chosen corner. -/
noncomputable def fwStep (g : Grid) (p : Fin 3 → V3) (i : ℕ) (x : V3) : Except PyErr (V3 × ℝ) := do
  let d ← g.get_gradient x
  let vertex := argmin3 (V3.dot (p 0) d) (V3.dot (p 1) d) (V3.dot (p 2) d)
  let s := p vertex
  let alpha : ℝ := 2 / (i + 2)
  return (x + alpha • (s - x), V3.dot s d)

open Classical in
/-- collision_detection.py:144-165: the loop, `fuel` trips left, counter i. -/
noncomputable def fwLoop (g : Grid) (p : Fin 3 → V3) (tol : ℝ) : ℕ → ℕ → V3 → Except PyErr V3
  | 0, _, x => .ok x
  | fuel + 1, i, x => do
    let r ← fwStep g p i x
    if r.2 > tol then return r.1
    else fwLoop g p tol fuel (i + 1) r.1

/-- collision_detection.py:134-165: the point of the triangle used for the contact test. -/
noncomputable def frankWolfe (P : CDParams) (g : Grid) (p : Fin 3 → V3) : Except PyErr V3 := do
  let x ← fwStart g p
  fwLoop g p P.contact_optimization_tolerance P.contact_optimization_max_iterations 0 x

open Classical in
/-- collision_detection.py:172-188: the contact at x (in the frame of body kB), if any. -/
noncomputable def contactAt (P : CDParams) (kA kB : Fin N) (bodyB : RigidBody) (g : Grid) (x : V3) :
    Except PyErr (Option (ContactPoint N)) := do
  let inside ← g.is_inside x
  if inside then
    let phi ← g.get_value x
    if phi ≤ P.envelope then
      let n_b ← g.get_gradient x
      let n_w := Quat.rotate bodyB.q n_b
      if V3.norm n_w > 0 then
        let p_w := Quat.rotate bodyB.q x + bodyB.r
        let cp ← ContactPoint.init kB kA p_w (V3.unit n_w) phi
        return some cp
      else return none
    else return none
  else return none

/-- `V_b[bodyA.shape.mesh.T[t_a], :]`. -/
def corners (V : List V3) (T : List Tri) (t_a : ℤ) : Except PyErr (Fin 3 → V3) :=
  match (if 0 ≤ t_a then T[t_a.toNat]? else none) with
  | none => .error .indexError
  | some t => do
    let a ← BVH.lookup V t.a
    let b ← BVH.lookup V t.b
    let c ← BVH.lookup V t.c
    return ![a, b, c]

/-- collision_detection.py:125-190: the body of the loop over the triangles. -/
noncomputable def triangleContact (P : CDParams) (kA kB : Fin N) (bodyB : RigidBody) (g : Grid) (V_b : List V3) (T : List Tri) (t_a : ℤ) :
    Except PyErr (Option (ContactPoint N)) := do
  let p ← corners V_b T t_a
  let x ← frankWolfe P g p
  contactAt P kA kB bodyB g x

/-- collision_detection.py:120-121: A's vertices in B's body frame. -/
def verticesInFrame (bodyA bodyB : RigidBody) (V : List V3) : Except PyErr (List V3) := do
  let V_w ← worldVertices bodyA V
  Quat.rotate_array (Quat.conjugate bodyB.q) (V_w.map (· - bodyB.r))

/-- collision_detection.py:87-201 `_compute_contacts`: the contacts it appends. -/
noncomputable def compute_contacts (P : CDParams) (bodies : Fin N → RigidBody) (C : Fin N → Collider) (kA kB : Fin N) (trianglesA : List ℤ) :
    Except PyErr (List (ContactPoint N)) := do
  let V_b ← verticesInFrame (bodies kA) (bodies kB) (C kA).V
  let r ← trianglesA.mapM (triangleContact P kA kB (bodies kB) (C kB).grid V_b (C kA).T)
  return r.filterMap id

/-- `np.unique`: sorted, without repetitions. -/
def unique (L : List ℤ) : List ℤ := L.toFinset.sort

/-- collision_detection.py:221-247: one trip. -/
noncomputable def pairContacts (P : CDParams) (bodies : Fin N → RigidBody) (C : Fin N → Collider)
    (o : (Fin N × Fin N) × List (ℤ × ℤ)) : Except PyErr (List (ContactPoint N)) := do
  let a ← compute_contacts P bodies C o.1.1 o.1.2 (unique (o.2.map (·.1)))
  let b ← compute_contacts P bodies C o.1.2 o.1.1 (unique (o.2.map (·.2)))
  return a ++ b

/-- collision_detection.py:204-252 `_contact_determination`. -/
noncomputable def contact_determination (P : CDParams) (bodies : Fin N → RigidBody) (C : Fin N → Collider)
    (overlaps : List ((Fin N × Fin N) × List (ℤ × ℤ))) : Except PyErr (List (ContactPoint N)) := do
  let r ← overlaps.mapM (pairContacts P bodies C)
  return r.flatten

open Classical in
/-- collision_detection.py:280-283: same set of bodies and same position. -/
noncomputable def redundant (cp1 cp2 : ContactPoint N) : Bool :=
  decide (({cp1.bodyA, cp1.bodyB} : Finset (Fin N)) = {cp2.bodyA, cp2.bodyB} ∧ cp1.p = cp2.p)

/-- collision_detection.py:276-287: the loops of `_contact_reduction`. -/
def reduceBy {α : Type*} (same : α → α → Bool) (L : List α) : List α :=
  L.foldl (fun reduced cp1 => if reduced.any (fun cp2 => same cp1 cp2) then reduced else reduced ++ [cp1]) []

/-- collision_detection.py:255-290 `_contact_reduction`. -/
noncomputable def contact_reduction (L : List (ContactPoint N)) : List (ContactPoint N) := reduceBy redundant L

/-- collision_detection.py:293-318 `run_collision_detection`: the new hierarchies and `engine.contact_points`. -/
noncomputable def run_collision_detection (P : CDParams) (bodies : Fin N → RigidBody) (C : Fin N → Collider) :
    Except PyErr ((Fin N → Collider) × List (ContactPoint N)) := do
  let C ← update_bvh P bodies C
  let overlaps ← narrow_phase C
  let cps ← contact_determination P bodies C overlaps
  return (C, contact_reduction cps)

end Verif.Collision
