import Verif.Model.VolumeMesh

/-! Model of the topology queries of `rainbow/geometry/volume_mesh.py`: `compute_neighbors`,
`compute_surface` and `VertexTetrahedronCirculator`. -/

namespace Verif.VMesh

/-- One row of `face_info`: three sorted vertex indices, the tetrahedron and the local number of the
opposite node. -/
structure FaceRow where
  key : List ℕ
  e : ℕ
  v : ℕ
  deriving DecidableEq, Repr

/-- volume_mesh.py:266-270: the four rows of tetrahedron number e. -/
def faceRows (te : Tet × ℕ) : List FaceRow :=
  let t := te.1
  let e := te.2
  [⟨[t.j, t.k, t.m].insertionSort (· ≤ ·), e, 0⟩, ⟨[t.i, t.k, t.m].insertionSort (· ≤ ·), e, 1⟩,
   ⟨[t.i, t.j, t.m].insertionSort (· ≤ ·), e, 2⟩, ⟨[t.i, t.j, t.k].insertionSort (· ≤ ·), e, 3⟩]

/-- volume_mesh.py:271-273: the order of `np.lexsort((col 0, col 1, col 2))`; the last key is the
primary one. -/
def faceLe (r s : FaceRow) : Bool :=
  let a := r.key.getD 0 0
  let b := r.key.getD 1 0
  let c := r.key.getD 2 0
  let a' := s.key.getD 0 0
  let b' := s.key.getD 1 0
  let c' := s.key.getD 2 0
  decide (c < c') || (decide (c = c') && (decide (b < b') || (decide (b = b') && decide (a ≤ a'))))

/-- volume_mesh.py:265-273: `face_info` after sorting (np.lexsort is a stable sort). -/
def sortedFaces (T : List Tet) : List FaceRow := (T.zipIdx.flatMap faceRows).mergeSort faceLe

/-- An integer array with rows of length 4, as a function on (row, column). -/
abbrev NArray := ℕ × ℕ → ℤ

/-- volume_mesh.py:274-280: one pass of the loop over adjacent rows. -/
def neighborStep (N : NArray) (p : FaceRow × FaceRow) : NArray :=
  if p.1.key = p.2.key then
    Function.update (Function.update N (p.1.e, p.1.v) (p.2.e : ℤ)) (p.2.e, p.2.v) (p.1.e : ℤ)
  else N

/-- volume_mesh.py:247-281 `compute_neighbors`; the loop runs over the consecutive rows. -/
def compute_neighbors (T : List Tet) : NArray :=
  ((sortedFaces T).zip (sortedFaces T).tail).foldl neighborStep (fun _ => -1)

/-- volume_mesh.py:310-334: the rows written for tetrahedron number e; (face, (e, v)). -/
def surfaceRows (N : NArray) (te : Tet × ℕ) : List (Tri × ℕ × ℕ) :=
  let t := te.1
  let e := te.2
  (if N (e, 0) = -1 then [(⟨t.j, t.k, t.m⟩, e, 0)] else []) ++
  (if N (e, 1) = -1 then [(⟨t.i, t.m, t.k⟩, e, 1)] else []) ++
  (if N (e, 2) = -1 then [(⟨t.j, t.m, t.i⟩, e, 2)] else []) ++
  (if N (e, 3) = -1 then [(⟨t.j, t.i, t.k⟩, e, 3)] else [])

/-- volume_mesh.py:303: K = np.count_nonzero(N < 0). -/
def surfaceCount (T : List Tet) (N : NArray) : ℕ :=
  ((List.range T.length).map fun e =>
    (if N (e, 0) < 0 then 1 else 0) + (if N (e, 1) < 0 then 1 else 0) +
    (if N (e, 2) < 0 then 1 else 0) + (if N (e, 3) < 0 then 1 else 0)).sum

/-- volume_mesh.py:284-335 `compute_surface`: S and O have K rows, filled from the front; writing row
number K is an IndexError, rows never written keep their -1. -/
def compute_surface (T : List Tet) (N : NArray) :
    Except PyErr (List (Option Tri) × List (Option (ℕ × ℕ))) :=
  let K := surfaceCount T N
  let rows := T.zipIdx.flatMap (surfaceRows N)
  if rows.length ≤ K then
    .ok (rows.map (fun r => some r.1) ++ List.replicate (K - rows.length) none,
      rows.map (fun r => some r.2) ++ List.replicate (K - rows.length) none)
  else .error .indexError

/-- The arrays of a `VertexTetrahedronCirculator`. -/
structure Circulator where
  V2T : List (ℕ × ℕ)
  vertex_start : List ℤ
  vertex_end : List ℤ

/-- volume_mesh.py:349-353: the four rows (vertex, e) of tetrahedron e. -/
def vertexRows (te : Tet × ℕ) : List (ℕ × ℕ) :=
  [(te.1.i, te.2), (te.1.j, te.2), (te.1.k, te.2), (te.1.m, te.2)]

/-- volume_mesh.py:354: the order of `np.lexsort((col 1, col 0))`. -/
def vertexLe (r s : ℕ × ℕ) : Bool := decide (r.1 < s.1) || (decide (r.1 = s.1) && decide (r.2 ≤ s.2))

/-- `a[i] = x` on an array: IndexError beyond the end. -/
def setAt (a : List ℤ) (i : ℕ) (x : ℤ) : Except PyErr (List ℤ) :=
  if i < a.length then .ok (a.set i x) else .error .indexError

/-- volume_mesh.py:357-364: one pass of the loop for row idx (the sentinel -1 is `none`). -/
def circStep (V2T : List (ℕ × ℕ)) (a : List ℤ × List ℤ) (idx : ℕ) : Except PyErr (List ℤ × List ℤ) :=
  match V2T[idx]? with
  | none => .error .indexError
  | some (j, _) => do
    let i : Option ℕ := if idx > 0 then (V2T[idx - 1]?).map Prod.fst else none
    let k : Option ℕ := if idx + 1 < V2T.length then (V2T[idx + 1]?).map Prod.fst else none
    let s ← if i ≠ some j then setAt a.1 j idx else .ok a.1
    let t ← if some j ≠ k then setAt a.2 j (idx + 1) else .ok a.2
    .ok (s, t)

/-- volume_mesh.py:340-364 `VertexTetrahedronCirculator.__init__`; V is only used for its length. -/
def Circulator.init (nV : ℕ) (T : List Tet) : Except PyErr Circulator := do
  let V2T := (T.zipIdx.flatMap vertexRows).mergeSort vertexLe
  let a ← (List.range V2T.length).foldlM (circStep V2T) (List.replicate nV (-1), List.replicate nV (-1))
  .ok ⟨V2T, a.1, a.2⟩

/-- A slice bound: negative bounds count from the end, and bounds are clipped to the array. -/
def sliceBound (n : ℕ) (i : ℤ) : ℕ := if i < 0 then (max 0 (i + n)).toNat else min i.toNat n

/-- Python slicing `l[lo:hi]`. -/
def slice {α : Type*} (l : List α) (lo hi : ℤ) : List α :=
  (l.take (sliceBound l.length hi)).drop (sliceBound l.length lo)

/-- volume_mesh.py:366-376 `tetrahedra` (for a natural number index). -/
def Circulator.tetrahedra (c : Circulator) (vertex_idx : ℕ) : Except PyErr (List ℕ) :=
  match c.vertex_start[vertex_idx]?, c.vertex_end[vertex_idx]? with
  | some offset, some e => .ok ((slice c.V2T offset e).map Prod.snd)
  | _, _ => .error .indexError

end Verif.VMesh
