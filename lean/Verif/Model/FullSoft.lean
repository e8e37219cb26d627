import Verif.Model.FullSim
import Verif.Model.SoftCollision
import Verif.Model.SoftStep
import Verif.Model.MeshTopology
import Verif.Model.Blocking
import Verif.Model.ProxSolver

/-! Model of the whole `prox_soft_bodies` simulator: `create_soft_body` with its mesh, distance field, hash grid and hierarchy, and
`simulate` with the package's own collision detection and contact solvers in place of the parameters `Plugins` of Model/SoftStep.lean. -/

namespace Verif.Soft

open VMesh (Tri Tet)
open Rigid (Eig SignedDistance GeoParams)
open SpatialHash (HashGrid Obj)

/-- The fields of `SoftBody` (types.py:154-196) that only collision detection reads; `bvh` is None when the body was made with
spatial hashing. -/
structure Geo where
  owners : List (ℕ × ℕ)
  grid : Grid
  bvh : Option BVH.Tree

/-- The fields of `Parameters` (types.py:199-264) read by collision detection and by the contact solvers.  Simplified: they are the same
at all calls. -/
structure FullParams extends GeoParams where
  solver : ProxSolver.Params
  use_spatial_hashing : Bool
  proximal_solver : String

/-- types.py:199-264: the values set by `Parameters.__init__`. -/
noncomputable def FullParams.init : FullParams :=
  { contact_optimization_max_iterations := 8, contact_optimization_tolerance := 0, K := 3, envelope := 0.1, bvh_chunk_size := 255,
    resolution := 64, solver := ⟨0.001, 0.0001, 0.7, 1.3, 0.01, 200⟩, use_spatial_hashing := true, proximal_solver := "gauss_seidel" }

/-- The engine with the geometry of its bodies and `engine.hash_grid` (types.py:266-292). -/
structure World where
  eng : Engine
  geo : Dict String Geo
  hash_grid : HashGrid Obj

/-- api.py:15-21 `create_engine` with spatial_hashing.py:110-121 `HashGird.__init__`; `Phi` is random. -/
noncomputable def World.create_engine (eigh : M3 → V3 × M3) (Phi : ℤ → ℤ → ℤ → ℤ) : World :=
  ⟨Engine.create_engine eigh, Dict.empty, ⟨1000, Dict.empty, 0, 1000, Phi⟩⟩

/-! ### create_soft_body -/

/-- A row of `mesh.T`. -/
def tetRow (t : Tet) : List ℕ := [t.i, t.j, t.k, t.m]
/-- The same row as a tetrahedron. -/
def rowTet (r : List ℕ) : Tet := ⟨r.getD 0 0, r.getD 1 0, r.getD 2 0, r.getD 3 0⟩

/-- api.py:45-47: the mesh after `axis_sort`. -/
noncomputable def sortedMesh (eig : Eig) (V : List V3) (T : List Tet) : Except PyErr (List V3 × List Tet) := do
  let axis := Rigid.direction_of_most_variance eig V
  let (V', T') ← SMesh.axis_sort V (T.map tetRow) axis
  return (V', T'.map rowTet)

/-- `t[a]`. -/
def tetNode (t : Tet) (a : Fin 4) : ℕ := match a with
  | 0 => t.i
  | 1 => t.j
  | 2 => t.k
  | 3 => t.m

/-- The array `body.T`, once all its entries are known to be row numbers of `body.x0` (`axis_sort` has looked all of them up). -/
def tetArray (n : ℕ) (T : List Tet) : Except PyErr (Fin T.length → Fin 4 → Fin n) :=
  if h : ∀ e : Fin T.length, ∀ a, tetNode T[e] a < n then .ok fun e a => ⟨tetNode T[e] a, h e a⟩ else .error .indexError

/-- The rows of `body.surface` (corners of tetrahedra, so all of them are row numbers of `body.x0`). -/
def surfaceArray (n : ℕ) (S : List Tri) : List (Fin n × Fin n × Fin n) :=
  S.filterMap fun t => if h : t.a < n ∧ t.b < n ∧ t.c < n then some (⟨t.a, h.1⟩, ⟨t.b, h.2.1⟩, ⟨t.c, h.2.2⟩) else none

/-- spatial_hashing.py:207-213: the lengths of the edges of one triangle. -/
noncomputable def edgeLengths (V : List V3) (t : Tri) : List ℝ :=
  [V3.norm (V.getD t.b 0 - V.getD t.a 0), V3.norm (V.getD t.c 0 - V.getD t.b 0), V3.norm (V.getD t.a 0 - V.getD t.c 0)]

/-- spatial_hashing.py:196-216 `compute_optial_cell_size`; without triangles `np.linalg.norm(edges, axis=1)` raises AxisError, a
ValueError. -/
noncomputable def compute_optial_cell_size (V : List V3) (T : List Tri) : Except PyErr ℝ :=
  if T = [] then .error .valueError
  else
    let edge_lengths := T.flatMap (edgeLengths V)
    .ok (edge_lengths.sum / edge_lengths.length * 2.2)

open Classical in
/-- api.py:77-84: the hash grid after the creation of a body. -/
noncomputable def tuneHash (g : HashGrid Obj) (V : List V3) (S : List Tri) : Except PyErr (HashGrid Obj) := do
  let c ← compute_optial_cell_size V S
  return { g with hash_table_size := g.hash_table_size + S.length, cell_size := if g.cell_size = 0 then c else (c + g.cell_size) / 2 }

/-- api.py:77-95: the new hash grid and the hierarchy of the body. -/
noncomputable def broadPhase (P : FullParams) (g : HashGrid Obj) (V : List V3) (S : List Tri) :
    Except PyErr (HashGrid Obj × Option BVH.Tree) :=
  if P.use_spatial_hashing then (tuneHash g V S).map fun g => (g, none)
  else (BVH.make_bvh V (Collision.rows S) P.K P.bvh_chunk_size P.envelope).map fun t => (g, some t)

/-- api.py:45-100 `create_soft_body` after the name test: the body, its geometry and the hash grid.  The inverses
of line 54 are computed twice here, the second time in `makeBody`, which needs the surface.  Rows that `compute_surface` leaves unwritten
(none, C31) are dropped. -/
noncomputable def prepare (eig : Eig) (sd : SignedDistance) (P : FullParams) (w : World) (body_name : String) (V : List V3) (T : List Tet) :
    Except PyErr (SoftBody × Geo × HashGrid Obj) := do
  let (V, T) ← sortedMesh eig V T
  let TT ← tetArray V.length T
  let _ ← compute_inverse_D0 (fun i : Fin V.length => V[i]) TT
  let (S, O) ← VMesh.compute_surface T (VMesh.compute_neighbors T)
  let S := S.filterMap id
  let b ← w.eng.makeBody body_name (fun i : Fin V.length => V[i]) TT (surfaceArray V.length S)
  let grid ← Rigid.shapeGrid sd P.toGeoParams ⟨V, S⟩
  let r ← broadPhase P w.hash_grid V S
  return (b, ⟨O.filterMap id, grid, r.2⟩, r.1)

/-- api.py:24-100 `create_soft_body`: the world after the call and the exception, if any. -/
noncomputable def World.create_soft_body (eig : Eig) (sd : SignedDistance) (P : FullParams) (w : World) (body_name : String) (V : List V3)
    (T : List Tet) : World × Option PyErr :=
  if w.eng.bodies.mem body_name then (w, some .runtimeError)
  else
    match prepare eig sd P w body_name V T with
    | .error err => ({ w with eng := { w.eng with bodies := w.eng.bodies.setItem body_name .broken } }, some err)
    | .ok (b, g, h) =>
      (⟨{ w.eng with bodies := w.eng.bodies.setItem body_name (.ready b), number_of_nodes := w.eng.number_of_nodes + b.n },
        w.geo.setItem body_name g, h⟩, none)

/-! ### Collision detection -/

/-- The body as collision detection sees it; `t` stands in for its hierarchy. -/
def viewBody (b : SoftBody) (g : Geo) (t : BVH.Tree) : SoftCollision.Body where
  x := List.ofFn b.x
  x0 := List.ofFn b.x0
  T := List.ofFn fun e => ⟨b.T e 0, b.T e 1, b.T e 2, b.T e 3⟩
  surface := b.surface.map fun t => ⟨t.1, t.2.1, t.2.2⟩
  owners := g.owners
  grid := g.grid
  bvh := t

/-- The bodies in the order of `engine.bodies.values()` with their names and geometries; a body without arrays raises TypeError, one
without distance field AttributeError. -/
def bodyViews (e : Engine) (geo : Dict String Geo) : Except PyErr (List (String × SoftBody × Geo)) :=
  e.bodies.entries.mapM fun kv => match kv.2 with
    | .broken => .error .typeError
    | .ready b => match geo.get? kv.1 with
      | none => .error .attributeError
      | some g => .ok (kv.1, b, g)

/-- The contact of two numbered bodies as a contact of named ones (Python keeps references to the body objects). -/
def nameContact {N : ℕ} (name : Fin N → String) (c : SoftCollision.Contact N) : ContactPoint :=
  ⟨name c.bodyA, name c.bodyB, c.idx_tetA, c.idx_tetB, c.omegaA, c.omegaB, c.p, c.n, c.g⟩

/-- collision_detection.py:474-506 `run_collision_detection` with spatial hashing. -/
noncomputable def detectHash (eps : ℝ) (listOf : Finset (ℤ × ℤ) → List (ℤ × ℤ)) (P : FullParams) (L : List (String × SoftBody × Geo))
    (geo : Dict String Geo) (h : HashGrid Obj) (time_stamp : ℤ) : Except PyErr (Dict String Geo × HashGrid Obj × List ContactPoint) := do
  let B : Fin L.length → SoftCollision.Body := fun k => viewBody L[k].2.1 L[k].2.2 ⟨none, []⟩
  let r ← SoftCollision.run_hash eps listOf P.toCDParams B h time_stamp
  return (geo, r.1, r.2.map (nameContact fun k => L[k].1))

/-- collision_detection.py:474-506 `run_collision_detection` with hierarchies; a body made for spatial hashing has none (AttributeError
in `refit_bvh`). -/
noncomputable def detectBVH (P : FullParams) (L : List (String × SoftBody × Geo)) (geo : Dict String Geo) (h : HashGrid Obj) :
    Except PyErr (Dict String Geo × HashGrid Obj × List ContactPoint) :=
  if ∃ v ∈ L, v.2.2.bvh = none then .error .attributeError
  else do
    let B : Fin L.length → SoftCollision.Body := fun k => viewBody L[k].2.1 L[k].2.2 (L[k].2.2.bvh.getD ⟨none, []⟩)
    let r ← SoftCollision.run_bvh P.toCDParams B
    let geo := (List.finRange L.length).foldl (fun d k => d.setItem L[k].1 { L[k].2.2 with bvh := some (r.1 k).bvh }) geo
    return (geo, h, r.2.map (nameContact fun k => L[k].1))

/-- collision_detection.py:474-506 `run_collision_detection`: the geometries, the hash grid and `engine.contact_points`. -/
noncomputable def detect (eps : ℝ) (listOf : Finset (ℤ × ℤ) → List (ℤ × ℤ)) (P : FullParams) (geo : Dict String Geo) (h : HashGrid Obj)
    (e : Engine) : Except PyErr (Dict String Geo × HashGrid Obj × List ContactPoint) := do
  let L ← bodyViews e geo
  if P.use_spatial_hashing then detectHash eps listOf P L geo h e.params.time_stamp else detectBVH P L geo h

/-! ### The contact solvers -/

/-- blocking.py:28-36: what the contact graph reads of a contact point: `body.T[idx]` and `body.offset` of both bodies. -/
def graphContact (e : Engine) (cp : ContactPoint) : Except PyErr Blocking.SoftContact := do
  let A ← e.findBody cp.bodyA
  let B ← e.findBody cp.bodyB
  if hA : cp.idx_tetA < A.K then
    if hB : cp.idx_tetB < B.K then
      return ⟨(List.finRange 4).map fun a => (A.T ⟨cp.idx_tetA, hA⟩ a : ℕ), A.offset,
        (List.finRange 4).map fun a => (B.T ⟨cp.idx_tetB, hB⟩ a : ℕ), B.offset⟩
    else .error .indexError
  else .error .indexError

/-- gauss_seidel_solver.py:98-107: the colour groups as lists of contact numbers, the first one of each passed separately
(`color_group[0]`; no group is empty). -/
def colorGroups (K : ℕ) (G : Blocking.Graph) : List (Fin K × List (Fin K)) :=
  (Blocking.greedy_graph_coloring G).values.filterMap fun g =>
    match g.filterMap fun se => if h : se.1 / 4 < K then some (⟨se.1 / 4, h⟩ : Fin K) else none with
    | [] => none
    | k :: ks => some (k, k :: ks)

/-- prox_solvers.py:26-36: the sweep of the chosen scheme. -/
noncomputable def schemeSweep (scheme : String) (e : Engine) {K m : ℕ} (D : ProxSolver.Data K 4 (Fin m)) (mu : Fin K → ℝ) :
    Except PyErr ((Fin K × Fin 4 → ℝ) → (Fin K × Fin 4 → ℝ) → (Fin K × Fin 4 → ℝ)) :=
  if scheme = "gauss_seidel" then .ok (ProxSolver.gsSweep D (ProxSolver.contactProx Prox.prox_sphere mu))
  else if scheme = "parallel_gauss_seidel" then do
    let cs ← e.contact_points.mapM (graphContact e)
    return ProxSolver.parallelSweep D Prox.prox_sphere mu (colorGroups K (Blocking.build_contact_graph_soft cs))
  else if scheme = "parallel_jacobi" then .ok (ProxSolver.jacobiSweep D Prox.prox_sphere mu false)
  else if scheme = "parallel_jacboi_hybrid" then .ok (ProxSolver.jacobiSweep D Prox.prox_sphere mu true)
  else .error .notImplemented

/-- prox_solvers.py:6-38 `solve` for the soft body engine: flat vectors of length 4K and 3N; entry (k, c) is entry 4k + c. -/
noncomputable def contactSolve (P : FullParams) (e : Engine) (K : ℕ) (J WJT : ℕ → ℕ → ℝ) (b : ℕ → ℝ) (mu : List ℝ) :
    Except PyErr (ℕ → ℝ) := do
  let D : ProxSolver.Data K 4 (Fin (e.number_of_nodes * 3)) :=
    { J := Matrix.of fun q i => J (q.1 * 4 + q.2) i, WJT := Matrix.of fun i q => WJT i (q.1 * 4 + q.2), b := fun q => b (q.1 * 4 + q.2) }
  let sweep ← schemeSweep P.proximal_solver e D (fun k => mu.getD k 0)
  let r ← ProxSolver.solve P.solver sweep (ProxSolver.compute_initial_r_factor D)
  return fun i => if h : i / 4 < K then r.sol (⟨i / 4, h⟩, ⟨i % 4, Nat.mod_lt _ (by norm_num)⟩) else 0

/-! ### simulate -/

/-- `engine.contact_points` after collision detection in the world w. -/
noncomputable def World.contacts (eps : ℝ) (listOf : Finset (ℤ × ℤ) → List (ℤ × ℤ)) (P : FullParams) (w : World) : List ContactPoint :=
  match detect eps listOf P w.geo w.hash_grid w.eng with
  | .error _ => []
  | .ok r => r.2.2

/-- The package's collision detection and contact solver, as the stepper calls them in the world w. -/
noncomputable def World.plugins (eps : ℝ) (listOf : Finset (ℤ × ℤ) → List (ℤ × ℤ)) (P : FullParams) (w : World) : Plugins where
  detect e := (detect eps listOf P w.geo w.hash_grid e).map (·.2.2)
  solve := contactSolve P { w.eng with contact_points := w.contacts eps listOf P }

/-- solver.py:1042-1162 `SemiImplicitStepper.step` of the whole simulator: the hierarchies and the hash grid stay as collision detection
leaves them. -/
noncomputable def World.step (eps : ℝ) (listOf : Finset (ℤ × ℤ) → List (ℤ × ℤ)) (P : FullParams) (W : ℕ × (ℕ → ℕ → ℝ)) (dt : ℝ)
    (w : World) : Except PyErr World := do
  let e ← Soft.step (w.plugins eps listOf P) W dt w.eng
  let r ← detect eps listOf P w.geo w.hash_grid w.eng
  return ⟨e, r.1, r.2.1⟩

open Classical in
/-- api.py:401-404: one trip of the loop of `simulate`. -/
noncomputable def World.trip (eps : ℝ) (listOf : Finset (ℤ × ℤ) → List (ℤ × ℤ)) (P : FullParams) (W : ℕ × (ℕ → ℕ → ℝ)) :
    LoopStep (World × ℝ) := fun s =>
  if s.2 = 0 then .ok none
  else
    let dt := min s.2 s.1.eng.params.time_step
    match s.1.step eps listOf P W dt with
    | .error e => .error e
    | .ok w => .ok (some (w, s.2 - dt))

open Classical in
/-- api.py:389-404 `simulate`. -/
noncomputable def World.simulate (eps : ℝ) (listOf : Finset (ℤ × ℤ) → List (ℤ × ℤ)) (P : FullParams) (w : World) (T : ℝ) :
    Except PyErr World :=
  if T ≤ 0 then .error .valueError
  else do
    let W ← getStepper w.eng
    let s ← whileLoop (World.trip eps listOf P W) ({ w with eng := { w.eng with stepper := some W } }, T)
    return s.1

end Verif.Soft
