import Verif.Model.AABB
import Verif.Model.Dict

/-! Model of `rainbow/geometry/spatial_hashing.py` and of the spatial hashing narrow phase of
`rainbow/simulators/prox_soft_bodies/collision_detection.py`. -/

namespace Verif.SpatialHash

/-- spatial_hashing.py:38-41 `HashCell.__init__`. `size` is always len(object_list). -/
structure HashCell (α : Type*) where
  time_stamp : ℤ
  size : ℕ
  object_list : List α

/-- spatial_hashing.py:38-41 `HashCell()`. -/
def HashCell.init {α : Type*} : HashCell α := ⟨0, 0, []⟩

/-- spatial_hashing.py:43-57 `HashCell.add`. -/
def HashCell.add {α : Type*} (cell : HashCell α) (object : α) (time_stamp : ℤ) : HashCell α :=
  let cell := if cell.time_stamp < time_stamp then ⟨time_stamp, 0, []⟩ else cell
  { cell with object_list := cell.object_list ++ [object], size := cell.size + 1 }

/-- spatial_hashing.py:110-121 `HashGird`: `Phi` is filled with random numbers, so it is an arbitrary
function of the three offset-table indices. M0, M1 are the identity. -/
structure HashGrid (α : Type*) where
  hash_table_size : ℤ
  hash_table : Dict ℤ (HashCell α)
  cell_size : ℝ
  offset_table_size : ℤ
  Phi : ℤ → ℤ → ℤ → ℤ

/-- spatial_hashing.py:147-174 `get_prefect_hash_value`. numpy's `%` for a positive modulus is the
Euclidean remainder. -/
def HashGrid.get_hash_value {α : Type*} (g : HashGrid α) (i j k : ℤ) : ℤ :=
  let phi := g.Phi (i % g.offset_table_size) (j % g.offset_table_size) (k % g.offset_table_size)
  let h (p : ℤ) := (p % g.hash_table_size + phi) % g.hash_table_size
  (h i + h j + h k) % 1000000007

/-- spatial_hashing.py:176-199 `insert`; returns the grid and the returned list as the caller sees it.
The code hands out the cell's list object *before* calling `add`: when `add` clears the cell it binds
a new list, so the caller holds the old one; otherwise `add` appends to the very list handed out. -/
def HashGrid.insert {α : Type*} (g : HashGrid α) (i j k : ℤ) (object : α) (time_stamp : ℤ) :
    HashGrid α × List α :=
  let hv := g.get_hash_value i j k
  match g.hash_table.get? hv with
  | none => ({ g with hash_table := g.hash_table.setItem hv (HashCell.init.add object time_stamp) }, [])
  | some cell =>
    let cell' := cell.add object time_stamp
    let overlaps := if cell.time_stamp < time_stamp then cell.object_list else cell'.object_list
    ({ g with hash_table := g.hash_table.setItem hv cell' }, overlaps)

/-! ### the narrow phase -/

/-- the corner coordinates of a triangle -/
structure Tri where
  a : V3
  b : V3
  c : V3

/-- What the narrow phase reads of a soft body: its index and its surface triangles
(`body.x[body.surface, :]`; that surface indices are valid is assumed here). -/
structure SBody where
  idx : ℕ
  tris : List Tri

/-- the tuple (tri_idx, body_idx, tri_aabb) stored in a cell -/
structure Obj where
  tri : ℕ
  body : ℕ
  aabb : AABB

/-- collision_detection.py:43-53 `_is_share_vertex`: np.intersect1d flattens both arrays, so the test
is whether any coordinate *value* of one occurs in the other. -/
def is_share_vertex (s t : Tri) : Prop :=
  ∃ v ∈ [s.a.x, s.a.y, s.a.z, s.b.x, s.b.y, s.b.z, s.c.x, s.c.y, s.c.z],
    v ∈ [t.a.x, t.a.y, t.a.z, t.b.x, t.b.y, t.b.z, t.c.x, t.c.y, t.c.z]

open Classical in
/-- collision_detection.py:56-102 `_triangle_intersection`; `eps` is np.finfo(float).eps. -/
noncomputable def triangle_intersection (eps : ℝ) (tri1 tri2 : Tri) : Bool :=
  let e1 := tri1.b - tri1.a
  let e2 := tri1.c - tri1.a
  let normal_tri2 := V3.cross (tri2.b - tri2.a) (tri2.c - tri2.a)
  let a := V3.dot e1 normal_tri2
  if -eps < a ∧ a < eps then false
  else
    let f := 1 / a
    let s := tri2.a - tri1.a
    let u := f * V3.dot s normal_tri2
    if u < 0 ∨ 1 < u then false
    else
      let q := V3.cross s e1
      let v := f * V3.dot (tri2.b - tri2.a) q
      if v < 0 ∨ 1 < u + v then false
      else
        let t := f * V3.dot e2 q
        if eps < t then true else false

/-- collision_detection.py:105-119 `_is_self_collision`. -/
def is_self_collision (eps : ℝ) (tri1 tri2 : Tri) (aabb1 aabb2 : AABB) : Prop :=
  ¬ is_share_vertex tri1 tri2 ∧ AABB.is_overlap aabb1 aabb2 ∧ triangle_intersection eps tri1 tri2 = true

/-- collision_detection.py:149-150: AABB of one triangle. -/
noncomputable def triAABB (t : Tri) : AABB :=
  ⟨AABB.vmin (AABB.vmin t.a t.b) t.c, AABB.vmax (AABB.vmax t.a t.b) t.c⟩

/-- numpy `astype(int)`: rounds towards zero. -/
noncomputable def trunc (x : ℝ) : ℤ := if 0 ≤ x then ⌊x⌋ else ⌈x⌉

/-- `range(lo, hi)` on Python ints. -/
def intRange (lo hi : ℤ) : List ℤ := (List.range (hi - lo).toNat).map fun (n : ℕ) => lo + n

/-- collision_detection.py:151-157: the cells `product(*cell_ranges)` of a bounding box. -/
noncomputable def cellsOf (cell_size : ℝ) (A : AABB) : List (ℤ × ℤ × ℤ) :=
  (intRange (trunc (A.min_point.x / cell_size)) (trunc (A.max_point.x / cell_size) + 1)).flatMap fun i =>
  (intRange (trunc (A.min_point.y / cell_size)) (trunc (A.max_point.y / cell_size) + 1)).flatMap fun j =>
  (intRange (trunc (A.min_point.z / cell_size)) (trunc (A.max_point.z / cell_size) + 1)).map fun k =>
    (i, j, k)

/-- A reported pair: (body.idx, overlap_body_idx, tri_idx, overlap_tri_idx). `results` is a dict of
sets in the code; only membership matters, so it is a list here. -/
abbrev Pair := ℕ × ℕ × ℕ × ℕ

open Classical in
/-- collision_detection.py:165-173: one object found in the cell. -/
noncomputable def checkOverlap (eps : ℝ) (bodies : List SBody) (bidx tidx : ℕ) (tri : Tri)
    (aabb : AABB) (results : List Pair) (o : Obj) : Except PyErr (List Pair) :=
  match bodies[o.body]? with
  | none => .error .indexError
  | some ob =>
    if o.body = bidx then
      match ob.tris[o.tri]? with
      | none => .error .indexError
      | some tri2 =>
        if is_self_collision eps tri tri2 aabb o.aabb then .ok (results ++ [(bidx, o.body, tidx, o.tri)])
        else .ok results
    else if AABB.is_overlap aabb o.aabb then .ok (results ++ [(bidx, o.body, tidx, o.tri)])
    else .ok results

/-- collision_detection.py:158-173: one cell of one triangle. -/
noncomputable def visitCell (eps : ℝ) (bodies : List SBody) (time_stamp : ℤ) (bidx tidx : ℕ) (tri : Tri)
    (s : HashGrid Obj × List Pair) (c : ℤ × ℤ × ℤ) : Except PyErr (HashGrid Obj × List Pair) := do
  let r := s.1.insert c.1 c.2.1 c.2.2 ⟨tidx, bidx, triAABB tri⟩ time_stamp
  let results ← r.2.foldlM (checkOverlap eps bodies bidx tidx tri (triAABB tri)) s.2
  .ok (r.1, results)

/-- collision_detection.py:155-173: one triangle. -/
noncomputable def visitTri (eps cell_size : ℝ) (bodies : List SBody) (time_stamp : ℤ) (bidx : ℕ)
    (s : HashGrid Obj × List Pair) (t : Tri × ℕ) : Except PyErr (HashGrid Obj × List Pair) :=
  (cellsOf cell_size (triAABB t.1)).foldlM (visitCell eps bodies time_stamp bidx t.2 t.1) s

/-- collision_detection.py:146-173: one body. -/
noncomputable def visitBody (eps cell_size : ℝ) (bodies : List SBody) (time_stamp : ℤ)
    (s : HashGrid Obj × List Pair) (b : SBody) : Except PyErr (HashGrid Obj × List Pair) :=
  b.tris.zipIdx.foldlM (visitTri eps cell_size bodies time_stamp b.idx) s

open Classical in
/-- collision_detection.py:122-184 `_spatial_hashing_narrow_phase` (without profiling); returns the
updated grid and the reported pairs. -/
noncomputable def narrow_phase (eps : ℝ) (grid : HashGrid Obj) (bodies : List SBody) (time_stamp : ℤ) :
    Except PyErr (HashGrid Obj × List Pair) :=
  if grid.cell_size ≤ 0 then .error .valueError
  else bodies.foldlM (visitBody eps grid.cell_size bodies time_stamp) (grid, [])

end Verif.SpatialHash
