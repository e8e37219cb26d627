import Verif.Model.Collision
import Verif.Model.Barycentric
import Verif.Model.SpatialHash

/-! Model of `rainbow/simulators/prox_soft_bodies/collision_detection.py` (timers and profiling left out; the spatial hashing narrow
phase, lines 122-184, is in Model/SpatialHash.lean). -/

namespace Verif.SoftCollision

open VMesh (Tri Tet)
open Collision (CDParams frankWolfe reduceBy)

variable {N : ℕ}

/-- What collision detection reads of a `SoftBody` (types.py:154-196): positions x, material positions x0, tetrahedra T, surface
triangles with their owners (tetrahedron, opposing vertex), distance field and hierarchy. -/
structure Body where
  x : List V3
  x0 : List V3
  T : List Tet
  surface : List Tri
  owners : List (ℕ × ℕ)
  grid : Grid
  bvh : BVH.Tree

/-- types.py:61-98 `ContactPoint`; the two bodies by their number. -/
structure Contact (N : ℕ) where
  bodyA : Fin N
  bodyB : Fin N
  idx_tetA : ℕ
  idx_tetB : ℕ
  omegaA : Fin 4 → ℝ
  omegaB : Fin 4 → ℝ
  p : V3
  n : V3
  g : ℝ

open Classical in
/-- types.py:66-98 `ContactPoint.__init__`: the check of the normal, then the copy of all arguments. -/
noncomputable def Contact.init (c : Contact N) : Except PyErr (Contact N) :=
  if 0.1 < |1.0 - V3.norm c.n| then .error .runtimeError else .ok c

/-- collision_detection.py:28-36: one trip of `_update_bvh`. -/
noncomputable def refitBody (P : CDParams) (b : Body) : Except PyErr Body := do
  let t ← BVH.refit_bvh b.x (Collision.rows b.surface) b.bvh P.K P.envelope
  return { b with bvh := t }

/-- collision_detection.py:12-40 `_update_bvh`. -/
noncomputable def update_bvh (P : CDParams) (B : Fin N → Body) : Except PyErr (Fin N → Body) :=
  (List.finRange N).foldlM (fun B k => do
    let b ← refitBody P (B k)
    return Function.update B k b) B

/-- Triangle pairs per pair of bodies: the items of the dict `overlaps`. -/
abbrev Overlaps (N : ℕ) := List ((Fin N × Fin N) × List (ℤ × ℤ))

/-- collision_detection.py:208-215: one trip. -/
noncomputable def narrowPair (B : Fin N → Body) (ij : Fin N × Fin N) : Except PyErr (Option ((Fin N × Fin N) × List (ℤ × ℤ))) := do
  let results ← BVH.traversal (B ij.1).bvh (B ij.2).bvh
  return if results.length > 0 then some (ij, results) else none

/-- collision_detection.py:187-222 `_narrow_phase`. -/
noncomputable def narrow_phase (B : Fin N → Body) : Except PyErr (Overlaps N) := do
  let r ← (Collision.combinations N).mapM (narrowPair B)
  return r.filterMap id

/-- `x[T[e], :]`: the four corners. -/
def tetCorners (V : List V3) (T : List Tet) (e : ℕ) : Except PyErr (Fin 4 → V3) :=
  match T[e]? with
  | none => .error .indexError
  | some t => do
    let a ← BVH.lookup V t.i
    let b ← BVH.lookup V t.j
    let c ← BVH.lookup V t.k
    let d ← BVH.lookup V t.m
    return ![a, b, c, d]

/-- `BC.compute_barycentric_tetrahedron(X[0], X[1], X[2], X[3], p)` as a vector. -/
noncomputable def bary (X : Fin 4 → V3) (p : V3) : Except PyErr (Fin 4 → ℝ) := do
  let w ← Bary.tetrahedron (X 0) (X 1) (X 2) (X 3) p
  return ![w.1, w.2.1, w.2.2.1, w.2.2.2]

/-- `np.dot(X.T, w)` for four corners. -/
def interpolate (X : Fin 4 → V3) (w : Fin 4 → ℝ) : V3 := w 0 • X 0 + w 1 • X 1 + w 2 • X 2 + w 3 • X 3

/-- collision_detection.py:225-244 `_xform_triangle_to_model_space`. -/
noncomputable def xform_triangle_to_model_space (P : Fin 3 → V3) (X X0 : Fin 4 → V3) : Except PyErr (Fin 3 → V3) := do
  let w0 ← bary X (P 0)
  let w1 ← bary X (P 1)
  let w2 ← bary X (P 2)
  return ![interpolate X0 w0, interpolate X0 w1, interpolate X0 w2]

/-- `X[0:3] - X[3]`: the edges from the last corner as rows. -/
def edgeRows (X : Fin 4 → V3) : M3 := M3.make_from_rows (X 0 - X 3) (X 1 - X 3) (X 2 - X 3)

/-- collision_detection.py:247-267 `_xform_contact_to_world`: (p, n, omegaA, omegaB). -/
noncomputable def xform_contact_to_world (p n : V3) (XA XB X0B : Fin 4 → V3) :
    Except PyErr (V3 × V3 × (Fin 4 → ℝ) × (Fin 4 → ℝ)) := do
  let omegaB ← bary X0B p
  let p := interpolate XB omegaB
  let omegaA ← bary XA p
  let D := edgeRows XB
  let D0 := edgeRows X0B
  let y ← M3.solve D0 n
  return (p, D.mulVec y, omegaA, omegaB)

/-- collision_detection.py:292-293: `owners[t][0]`. -/
def owner (b : Body) (t : ℤ) : Except PyErr ℕ :=
  match (if 0 ≤ t then b.owners[t.toNat]? else none) with
  | none => .error .indexError
  | some o => .ok o.1

open Classical in
/-- collision_detection.py:351-372: the contact at x (in the material frame of body kB), if any. -/
noncomputable def contactAt (P : CDParams) (kA kB : Fin N) (bA bB : Body) (eA eB : ℕ) (XB X0B : Fin 4 → V3) (x : V3) :
    Except PyErr (Option (Contact N)) := do
  let inside ← bB.grid.is_inside x
  if inside then
    let phi ← bB.grid.get_value x
    if phi ≤ P.envelope then
      let n ← bB.grid.get_gradient x
      if V3.norm n > 0 then
        let XA ← tetCorners bA.x bA.T eA
        let r ← xform_contact_to_world x n XA XB X0B
        let cp ← Contact.init ⟨kB, kA, eB, eA, r.2.2.2, r.2.2.1, r.1, V3.unit r.2.1, phi⟩
        return some cp
      else return none
    else return none
  else return none

/-- collision_detection.py:290-374: one trip of the loop in `_compute_contacts`; the search (lines 318-345) is the same code as for
rigid bodies and reuses its model. -/
noncomputable def rowContact (P : CDParams) (kA kB : Fin N) (bA bB : Body) (row : ℤ × ℤ) : Except PyErr (Option (Contact N)) := do
  let eA ← owner bA row.1
  let eB ← owner bB row.2
  let tri ← Collision.corners bA.x bA.surface row.1
  let XB ← tetCorners bB.x bB.T eB
  let X0B ← tetCorners bB.x0 bB.T eB
  let P0 ← xform_triangle_to_model_space tri XB X0B
  let x ← frankWolfe P bB.grid P0
  contactAt P kA kB bA bB eA eB XB X0B x

/-- collision_detection.py:270-386 `_compute_contacts`: the contacts it appends. -/
noncomputable def compute_contacts (P : CDParams) (B : Fin N → Body) (kA kB : Fin N) (results : List (ℤ × ℤ)) :
    Except PyErr (List (Contact N)) := do
  let r ← results.mapM (rowContact P kA kB (B kA) (B kB))
  return r.filterMap id

/-- collision_detection.py:403-426: one trip; the second call swaps the columns. -/
noncomputable def pairContacts (P : CDParams) (B : Fin N → Body) (o : (Fin N × Fin N) × List (ℤ × ℤ)) : Except PyErr (List (Contact N)) := do
  let a ← compute_contacts P B o.1.1 o.1.2 o.2
  let b ← compute_contacts P B o.1.2 o.1.1 (o.2.map Prod.swap)
  return a ++ b

/-- collision_detection.py:389-430 `_contact_determination`. -/
noncomputable def contact_determination (P : CDParams) (B : Fin N → Body) (overlaps : Overlaps N) : Except PyErr (List (Contact N)) := do
  let r ← overlaps.mapM (pairContacts P B)
  return r.flatten

open Classical in
/-- collision_detection.py:460-463: `uid = (cp.bodyA, cp.bodyB, tuple(cp.p))`. -/
noncomputable def sameUid (c d : Contact N) : Bool := decide ((c.bodyA, c.bodyB, c.p) = (d.bodyA, d.bodyB, d.p))

/-- collision_detection.py:433-471 `_contact_reduction`; the set `seen_ids` holds the ids of the contacts kept so far. -/
noncomputable def contact_reduction (L : List (Contact N)) : List (Contact N) := reduceBy sameUid L

/-- What the hashing narrow phase sees of the bodies: `body.x[body.surface]`, and `body.idx` counts the bodies (api.py:39). -/
def hashBodies (B : Fin N → Body) : List SpatialHash.SBody :=
  List.ofFn fun k => ⟨k, (B k).surface.map fun t => ⟨(B k).x.getD t.a 0, (B k).x.getD t.b 0, (B k).x.getD t.c 0⟩⟩

/-- collision_detection.py:144, 166-176, 182: the dict `results` of sets, made into arrays of rows.  `listOf` is the (unspecified) order in
which Python lists a set. -/
def groupPairs (N : ℕ) (listOf : Finset (ℤ × ℤ) → List (ℤ × ℤ)) (res : List SpatialHash.Pair) : Overlaps N :=
  let rows := res.filterMap fun p => if h : p.1 < N ∧ p.2.1 < N then
    some (((⟨p.1, h.1⟩, ⟨p.2.1, h.2⟩) : Fin N × Fin N), ((p.2.2.1 : ℤ), (p.2.2.2 : ℤ))) else none
  (reduceBy (fun a b => decide (a = b)) (rows.map (·.1))).map fun k =>
    (k, listOf ((rows.filter fun r => decide (r.1 = k)).map (·.2)).toFinset)

/-- collision_detection.py:474-506 `run_collision_detection` without spatial hashing: the bodies with refitted hierarchies and
`engine.contact_points`. -/
noncomputable def run_bvh (P : CDParams) (B : Fin N → Body) : Except PyErr ((Fin N → Body) × List (Contact N)) := do
  let B ← update_bvh P B
  let overlaps ← narrow_phase B
  let cps ← contact_determination P B overlaps
  return (B, contact_reduction cps)

/-- collision_detection.py:474-506 `run_collision_detection` with spatial hashing: the new hash grid and `engine.contact_points`. -/
noncomputable def run_hash (eps : ℝ) (listOf : Finset (ℤ × ℤ) → List (ℤ × ℤ)) (P : CDParams) (B : Fin N → Body)
    (grid : SpatialHash.HashGrid SpatialHash.Obj) (time_stamp : ℤ) : Except PyErr (SpatialHash.HashGrid SpatialHash.Obj × List (Contact N)) := do
  let r ← SpatialHash.narrow_phase eps grid (hashBodies B) time_stamp
  let cps ← contact_determination P B (groupPairs N listOf r.2)
  return (r.1, contact_reduction cps)

end Verif.SoftCollision
