import Verif.Model.Grid3
import Verif.Model.Dict
import Verif.Model.Tetrahedron

/-! Model of `rainbow/geometry/volume_mesh.py`. Vertex indices are natural numbers (negative numpy
indices are not modelled). -/

namespace Verif.VMesh

open V3

/-- One row of a T-array. -/
structure Tet where
  i : ℕ
  j : ℕ
  k : ℕ
  m : ℕ
  deriving DecidableEq, Repr

/-- volume_mesh.py:28-70: the five rows written for cell (i,j,k) of a block with I x J nodes per
layer. -/
def cellTets (I J : ℕ) (i j k : ℕ) : List Tet :=
  let i000 := (k * J + j) * I + i
  let i001 := (k * J + j) * I + (i + 1)
  let i010 := (k * J + (j + 1)) * I + i
  let i011 := (k * J + (j + 1)) * I + (i + 1)
  let i100 := ((k + 1) * J + j) * I + i
  let i101 := ((k + 1) * J + j) * I + (i + 1)
  let i110 := ((k + 1) * J + (j + 1)) * I + i
  let i111 := ((k + 1) * J + (j + 1)) * I + (i + 1)
  if (i + j + k) % 2 = 1 then
    [⟨i000, i001, i010, i100⟩, ⟨i010, i001, i011, i111⟩, ⟨i100, i110, i111, i010⟩,
     ⟨i100, i111, i101, i001⟩, ⟨i010, i111, i100, i001⟩]
  else
    [⟨i000, i001, i011, i101⟩, ⟨i000, i011, i010, i110⟩, ⟨i100, i110, i101, i000⟩,
     ⟨i101, i110, i111, i011⟩, ⟨i000, i011, i110, i101⟩]

/-- volume_mesh.py:15-71 `create_tetrahedron_array_from_cube_mesh`. The row counter n runs 0,5,10,...
in loop order, so the array is the concatenation of the cells' rows (that it has exactly the
preallocated number of rows is part of C29). -/
def create_tetrahedron_array_from_cube_mesh (I J K : ℕ) : List Tet :=
  (List.range (K - 1)).flatMap fun k => (List.range (J - 1)).flatMap fun j =>
    (List.range (I - 1)).flatMap fun i => cellTets I J i j k

/-- volume_mesh.py:94-101: the loop nest over the nodes. -/
def nodeLoop (I J K : ℕ) : List (ℕ × ℕ × ℕ) :=
  (List.range K).flatMap fun k => (List.range J).flatMap fun j => (List.range I).map fun i => (i, j, k)

/-- volume_mesh.py:74-105 `create_beam` (a single node along an axis divides by float(0)). -/
noncomputable def create_beam (I J K : ℕ) (width height depth : ℝ) : Except PyErr (List V3 × List Tet) := do
  if I = 1 ∨ J = 1 ∨ K = 1 then .error .zeroDivision
  let x0 := -width / 2
  let y0 := -height / 2
  let z0 := -depth / 2
  let dx := width / ((I : ℝ) - 1)
  let dy := height / ((J : ℝ) - 1)
  let dz := depth / ((K : ℝ) - 1)
  let V ← (nodeLoop I J K).foldlM (fun (V : List V3) n =>
    let m := n.1 + n.2.1 * I + n.2.2 * I * J
    if m < V.length then .ok (V.set m ⟨x0 + n.1 * dx, y0 + n.2.1 * dy, z0 + n.2.2 * dz⟩)
    else (.error .indexError : Except PyErr (List V3))) (List.replicate (I * J * K) 0)
  .ok (V, create_tetrahedron_array_from_cube_mesh I J K)

/-- volume_mesh.py:108-120 `from_grid3d` (np.copy of a None value array is not modelled further). -/
def from_grid3d (g : Grid) : Except PyErr (List V3 × List Tet × Option (List ℝ)) := do
  let V ← g.get_nodes_array
  .ok (V, create_tetrahedron_array_from_cube_mesh g.I g.J g.K, g.values)

/-- One row of a face array. -/
structure Tri where
  a : ℕ
  b : ℕ
  c : ℕ
  deriving DecidableEq, Repr

/-- volume_mesh.py:123-139 `to_triangles`: rows 4i, ..., 4i+3 for tetrahedron i. -/
def to_triangles (T : List Tet) : List Tri :=
  T.flatMap fun t => [⟨t.j, t.i, t.k⟩, ⟨t.i, t.j, t.m⟩, ⟨t.j, t.k, t.m⟩, ⟨t.k, t.i, t.m⟩]

/-- `V[i]` for a vertex array. -/
def vget (V : List V3) (i : ℕ) : Except PyErr V3 :=
  match V[i]? with
  | some p => .ok p
  | none => .error .indexError

/-- volume_mesh.py:154-171: the body of the loop of `to_tetrahedrons` for tetrahedron number idx. -/
noncomputable def toTetBody (Vin : List V3) (scale : ℝ) (idx : ℕ) (t : Tet) :
    Except PyErr (List V3 × List Tri) := do
  let pi ← vget Vin t.i
  let pj ← vget Vin t.j
  let pk ← vget Vin t.k
  let pm ← vget Vin t.m
  let c := divs (pi + pj + pk + pm) 4
  let i := idx * 4 + 0
  let j := idx * 4 + 1
  let k := idx * 4 + 2
  let m := idx * 4 + 3
  .ok ([c + scale • (pi - c), c + scale • (pj - c), c + scale • (pk - c), c + scale • (pm - c)],
    [⟨j, i, k⟩, ⟨i, j, m⟩, ⟨j, k, m⟩, ⟨k, i, m⟩])

/-- volume_mesh.py:142-172 `to_tetrahedrons`. -/
noncomputable def to_tetrahedrons (Vin : List V3) (T : List Tet) (scale : ℝ := 9 / 10) :
    Except PyErr (List V3 × List Tri) :=
  T.zipIdx.foldlM (fun acc te => do
    let r ← toTetBody Vin scale te.2 te.1
    .ok (acc.1 ++ r.1, acc.2 ++ r.2)) ([], [])

/-- The lookup table of `create_loop_subdivision`: edge key to (index, midpoint). -/
abbrev Lut := Dict (ℕ × ℕ) (ℕ × V3)

/-- volume_mesh.py:185-193 `create_midpoint`; returns the index idx + offset and the updated table (the
returned point p is not used by the caller). -/
noncomputable def create_midpoint (i j : ℕ) (pi pj : V3) (lut : Lut) (offset : ℕ) : ℕ × Lut :=
  let key := if i < j then (i, j) else (j, i)
  match lut.get? key with
  | some (idx, _) => (idx + offset, lut)
  | none => (lut.len + offset, lut.setItem key (lut.len, divs (pi + pj) 2))

/-- volume_mesh.py:200-220: one pass of the loop; returns the row written at e, the seven rows
written at `last`, ..., `last+6` and the table. -/
noncomputable def subdivideBody (V : List V3) (lut : Lut) (t : Tet) :
    Except PyErr (Tet × List Tet × Lut) := do
  let pi ← vget V t.i
  let pj ← vget V t.j
  let pk ← vget V t.k
  let pm ← vget V t.m
  let ij := create_midpoint t.i t.j pi pj lut V.length
  let ik := create_midpoint t.i t.k pi pk ij.2 V.length
  let im := create_midpoint t.i t.m pi pm ik.2 V.length
  let jk := create_midpoint t.j t.k pj pk im.2 V.length
  let jm := create_midpoint t.j t.m pj pm jk.2 V.length
  let km := create_midpoint t.k t.m pk pm jm.2 V.length
  .ok (⟨im.1, jm.1, km.1, t.m⟩,
    [⟨ij.1, ik.1, im.1, t.i⟩, ⟨ij.1, jk.1, jm.1, t.j⟩, ⟨ik.1, km.1, jk.1, t.k⟩,
     ⟨ik.1, im.1, ij.1, jm.1⟩, ⟨ik.1, ij.1, jk.1, jm.1⟩, ⟨ik.1, jk.1, km.1, jm.1⟩,
     ⟨ik.1, km.1, im.1, jm.1⟩], km.2)

/-- volume_mesh.py:175-226 `create_loop_subdivision`. Rows 0..K-1 are overwritten in place, the others
appended in order, so T is the first-rows followed by the groups of seven. The midpoints are written
into P by their index. -/
noncomputable def create_loop_subdivision (V : List V3) (T : List Tet) : Except PyErr (List V3 × List Tet) := do
  let r ← T.foldlM (fun (acc : List Tet × List Tet × Lut) t => do
    let b ← subdivideBody V acc.2.2 t
    (.ok (acc.1 ++ [b.1], acc.2.1 ++ b.2.1, b.2.2) : Except PyErr (List Tet × List Tet × Lut)))
    ([], [], Dict.empty)
  let P ← r.2.2.values.foldlM (fun (P : List V3) v =>
    if v.1 < P.length then .ok (P.set v.1 v.2) else (.error .indexError : Except PyErr (List V3)))
    (List.replicate r.2.2.len 0)
  .ok (V ++ P, r.1 ++ r.2.1)

/-- volume_mesh.py:239-243: the body of `compute_volumes`. -/
noncomputable def tetVolume (V : List V3) (t : Tet) : Except PyErr ℝ := do
  let r0 ← vget V t.i
  let r1 ← vget V t.j
  let r2 ← vget V t.k
  let r3 ← vget V t.m
  let u_ji := r1 - r0
  let u_mi := r3 - r0
  let u_ki := r2 - r0
  .ok (dot u_mi (cross u_ji u_ki) / 6)

/-- volume_mesh.py:229-244 `compute_volumes`. -/
noncomputable def compute_volumes (V : List V3) (T : List Tet) : Except PyErr (List ℝ) :=
  T.mapM (tetVolume V)

end Verif.VMesh
