import Verif.Model.Quaternion
import Verif.Model.VolumeMesh
import Verif.Model.AABB

/-! Model of `rainbow/geometry/surface_mesh.py`. -/

namespace Verif.SMesh

open VMesh (Tri)

/-- surface_mesh.py:6-14 `Mesh`, with triangle rows. -/
structure Mesh where
  V : List V3
  T : List Tri

/-- surface_mesh.py:17-19 `translate`. -/
def translate (m : Mesh) (r : V3) : Mesh := ⟨m.V.map (· + r), m.T⟩

/-- surface_mesh.py:22-24 `rotate`. -/
def rotate (m : Mesh) (q : Quat) : Except PyErr Mesh := do
  let V ← Quat.rotate_array q m.V
  .ok ⟨V, m.T⟩

/-- np.multiply on shape (3,). -/
def vmul (a b : V3) : V3 := ⟨a.x * b.x, a.y * b.y, a.z * b.z⟩

/-- surface_mesh.py:27-31 `scale`. -/
def scale (m : Mesh) (a b c : ℝ) : Mesh := ⟨m.V.map (fun v => vmul v ⟨a, b, c⟩), m.T⟩

/-- surface_mesh.py:34-37 `aabb`; np.amin over an empty axis raises ValueError. -/
noncomputable def aabb (m : Mesh) : Except PyErr (V3 × V3) :=
  match m.V with
  | [] => .error .valueError
  | v :: vs => .ok (vs.foldl AABB.vmin v, vs.foldl AABB.vmax v)

/-- surface_mesh.py:40-53 `scale_to_unit`; division by zero when all vertices coincide is not modelled
(numpy would give inf and then nan). -/
noncomputable def scale_to_unit (m : Mesh) : Except PyErr Mesh := do
  let (l, u) ← aabb m
  let center := V3.divs (l + u) 2
  let m := translate m (-center)
  let d := u - l
  let s := 1 / max (max d.x d.y) d.z
  let m := scale m s s s
  .ok (translate m center)

/-- Python `sorted(range(n), key=...)`, a stable sort. -/
noncomputable def argsort (n : ℕ) (key : ℕ → ℝ) : List ℕ :=
  (List.range n).mergeSort (fun a b => decide (key a ≤ key b))

/-- surface_mesh.py:71-77: d, `new2old`. -/
noncomputable def axisOrder (V : List V3) (axis : V3) : List ℕ :=
  let n := V3.unit axis
  let d := fun i => V3.dot (V.getD i 0) n
  argsort V.length d

/-- np.mean(row). -/
noncomputable def rowMean (r : List ℕ) : ℝ := ((r.map fun (i : ℕ) => (i : ℝ)).sum) / r.length

/-- surface_mesh.py:56-82 `axis_sort`, on rows of any length (the function is also meant for
tetrahedra).  An element that refers to a missing vertex raises IndexError. -/
noncomputable def axis_sort (V : List V3) (T : List (List ℕ)) (axis : V3) :
    Except PyErr (List V3 × List (List ℕ)) :=
  let new2old := axisOrder V axis
  let V' := new2old.map fun i => V.getD i 0
  let old2new := argsort V.length (fun k => (new2old.getD k 0 : ℝ))
  if T.all (fun r => r.all (fun i => i < old2new.length)) then
    let T' := T.map fun r => r.map fun i => old2new.getD i 0
    let order := argsort T'.length (fun k => rowMean (T'.getD k []))
    .ok (V', order.map fun k => T'.getD k [])
  else .error .indexError

/-- surface_mesh.py:106-120: the vertex array of `profile_sweep`. -/
noncomputable def sweepV (profile : List V3) (J : ℕ) : List V3 :=
  let N := profile.length
  let H := N - 2
  let dtheta := 2 * Real.pi / J
  ((List.range J).flatMap fun (j : ℕ) =>
    let theta := (j : ℝ) * dtheta
    let R := Quat.Ru theta V3.j
    (List.range H).map fun i => Quat.rotate R (profile.getD (i + 1) 0)) ++
  [profile.getD (N - 1) 0, profile.getD 0 0]

/-- surface_mesh.py:123-136: the bottom ring. -/
def botTri (H J bottom j : ℕ) : Tri :=
  let left := j
  let right := (j + 1) % J
  ⟨bottom, H * right, H * left⟩

/-- surface_mesh.py:139-154: the two triangles of ring i, slice j. -/
def midTris (H J i j : ℕ) : List Tri :=
  let left := j
  let right := (j + 1) % J
  let up := i + 1
  let down := i
  let vi := left * H + down
  let vj := right * H + down
  let vk := right * H + up
  let vm := left * H + up
  [⟨vi, vj, vk⟩, ⟨vi, vk, vm⟩]

/-- surface_mesh.py:157-168: the top ring; `offset` = N - 3. -/
def topTri (H J top offset j : ℕ) : Tri :=
  let left := j
  let right := (j + 1) % J
  ⟨top, left * H + offset, right * H + offset⟩

/-- surface_mesh.py:122-169: the face array of `profile_sweep` for a profile of N points. -/
def sweepT (N J : ℕ) : List Tri :=
  let K := (N - 2) * J + 2
  let bottom := K - 1
  let top := K - 2
  let H := N - 2
  (List.range J).map (botTri H J bottom) ++
  (List.range (H - 1)).flatMap (fun i => (List.range J).flatMap (midTris H J i)) ++
  (List.range J).map (topTri H J top (N - 3))

/-- surface_mesh.py:85-171 `profile_sweep`. -/
noncomputable def profile_sweep (profile : List V3) (slices : ℕ) : Except PyErr (List V3 × List Tri) :=
  let N := profile.length
  let J := slices
  if N ≤ 2 then .error .runtimeError
  else if J ≤ 2 then .error .runtimeError
  else .ok (sweepV profile J, sweepT N J)

/-- surface_mesh.py:174-189 `create_cylinder` (`height / segments` raises for segments = 0). -/
noncomputable def create_cylinder (radius height : ℝ) (slices segments : ℕ) :
    Except PyErr (List V3 × List Tri) :=
  if segments = 0 then .error .zeroDivision else
  let dh := height / segments
  let profile : List V3 :=
    [⟨0, -height / 2, 0⟩, ⟨radius, -height / 2, 0⟩] ++
    (List.range segments).map (fun (i : ℕ) =>
      let h := dh * ((i : ℝ) + 1) - height / 2
      (⟨radius, h, 0⟩ : V3)) ++ [⟨0, height / 2, 0⟩]
  profile_sweep profile slices

/-- surface_mesh.py:192-198 `create_cone`. -/
noncomputable def create_cone (radius height : ℝ) (slices : ℕ) : Except PyErr (List V3 × List Tri) :=
  profile_sweep [⟨0, 0, 0⟩, ⟨radius, 0, 0⟩, ⟨0, height, 0⟩] slices

/-- surface_mesh.py:201-208 `create_conical`. -/
noncomputable def create_conical (bottom_radius top_radius height : ℝ) (slices : ℕ) :
    Except PyErr (List V3 × List Tri) :=
  profile_sweep [⟨0, 0, 0⟩, ⟨bottom_radius, 0, 0⟩, ⟨top_radius, height, 0⟩, ⟨0, height, 0⟩] slices

/-- surface_mesh.py:211-217: the profile of `create_sphere`. -/
noncomputable def sphereProfile (radius : ℝ) (segments : ℕ) : List V3 :=
  let dtheta := Real.pi / ((segments : ℝ) - 1)
  (List.range segments).map fun (i : ℕ) =>
    let theta := dtheta * (i : ℝ)
    let R := Quat.Ru theta V3.k
    Quat.rotate R ⟨0, -radius, 0⟩

/-- surface_mesh.py:211-218 `create_sphere` (`np.pi / (segments - 1)` raises for segments = 1). -/
noncomputable def create_sphere (radius : ℝ) (slices segments : ℕ) : Except PyErr (List V3 × List Tri) :=
  if segments = 1 then .error .zeroDivision else
  profile_sweep (sphereProfile radius segments) slices

/-- surface_mesh.py:221-226 `create_ellipsoid`. -/
noncomputable def create_ellipsoid (a b c : ℝ) (slices segments : ℕ) :
    Except PyErr (List V3 × List Tri) := do
  let (V, T) ← create_sphere 1 slices segments
  .ok (V.map (fun v => vmul v ⟨a, b, c⟩), T)

/-- surface_mesh.py:229-237 `create_capsule`. -/
noncomputable def create_capsule (radius height : ℝ) (slices segments : ℕ) :
    Except PyErr (List V3 × List Tri) :=
  if segments = 1 then .error .zeroDivision else
  let dtheta := Real.pi / ((segments : ℝ) - 1)
  let profile := (List.range segments).map fun (i : ℕ) =>
    let theta := dtheta * (i : ℝ)
    let R := Quat.Ru theta V3.k
    let dh := if 2 * i < segments then -height / 2 else height / 2
    Quat.rotate R ⟨0, -radius, 0⟩ + ⟨0, dh, 0⟩
  profile_sweep profile slices

/-- surface_mesh.py:267-274: `quads`. -/
def quads : List (ℕ × ℕ × ℕ × ℕ) :=
  [(0, 1, 2, 3), (4, 7, 6, 5), (4, 0, 3, 7), (1, 5, 6, 2), (7, 3, 2, 6), (5, 1, 0, 4)]

/-- surface_mesh.py:240-283 `create_cuboid`. -/
def create_cuboid (p0 p1 p2 p3 p4 p5 p6 p7 : V3) : List V3 × List Tri :=
  ([p0, p1, p2, p3, p4, p5, p6, p7],
   quads.flatMap fun q => [⟨q.1, q.2.1, q.2.2.1⟩, ⟨q.1, q.2.2.1, q.2.2.2⟩])

/-- surface_mesh.py:305-328: the faces of `create_box`. -/
def boxT : List Tri :=
  [⟨0, 2, 3⟩, ⟨0, 3, 1⟩, ⟨4, 5, 7⟩, ⟨4, 7, 6⟩, ⟨1, 3, 7⟩, ⟨1, 7, 5⟩,
   ⟨0, 4, 6⟩, ⟨0, 6, 2⟩, ⟨0, 1, 5⟩, ⟨0, 5, 4⟩, ⟨3, 2, 6⟩, ⟨3, 6, 7⟩]

/-- surface_mesh.py:286-329 `create_box` (rows 2 and 3, 6 and 7 are written in swapped order). -/
noncomputable def create_box (width height depth : ℝ) : List V3 × List Tri :=
  ([(0.5 : ℝ) • (⟨-width, -height, -depth⟩ : V3), (0.5 : ℝ) • (⟨width, -height, -depth⟩ : V3),
    (0.5 : ℝ) • (⟨-width, height, -depth⟩ : V3), (0.5 : ℝ) • (⟨width, height, -depth⟩ : V3),
    (0.5 : ℝ) • (⟨-width, -height, depth⟩ : V3), (0.5 : ℝ) • (⟨width, -height, depth⟩ : V3),
    (0.5 : ℝ) • (⟨-width, height, depth⟩ : V3), (0.5 : ℝ) • (⟨width, height, depth⟩ : V3)], boxT)

/-- surface_mesh.py:353-364: the vertices of `create_torus`; np.linspace(0, 2π, n+1)[i] = i·(2π/n). -/
noncomputable def torusV (R r : ℝ) (I K : ℕ) : List V3 :=
  (List.range K).flatMap fun (k : ℕ) => (List.range I).map fun (i : ℕ) =>
    let theta := (i : ℝ) * (2 * Real.pi / I)
    let phi := (k : ℝ) * (2 * Real.pi / K)
    let l := r * Real.cos theta + R
    ⟨l * Real.cos phi, l * Real.sin phi, r * Real.sin theta⟩

/-- surface_mesh.py:369-381: the two triangles of quad (i, k). -/
def torusTris (I K k i : ℕ) : List Tri :=
  let a := k * I + i
  let b := ((k + 1) % K) * I + i
  let c := ((k + 1) % K) * I + (i + 1) % I
  let d := k * I + (i + 1) % I
  [⟨a, b, c⟩, ⟨a, c, d⟩]

/-- surface_mesh.py:366-382: the faces of `create_torus`. -/
def torusT (I K : ℕ) : List Tri := (List.range K).flatMap fun k => (List.range I).flatMap (torusTris I K k)

/-- surface_mesh.py:332-383 `create_torus`. -/
noncomputable def create_torus (major_radius minor_radius : ℝ) (segments slices : ℕ) :
    List V3 × List Tri :=
  (torusV major_radius minor_radius segments slices, torusT segments slices)

/-- np.mean(vertices, axis=0). -/
noncomputable def vmean (V : List V3) : V3 := V3.divs V.sum V.length

open Classical in
/-- surface_mesh.py:406-413: one pass of the orientation loop of `create_convex_hull`. -/
noncomputable def orientTri (V : List V3) (t : Tri) : Tri :=
  let pm := vmean V
  let pi := V.getD t.a 0
  let pj := V.getD t.b 0
  let pk := V.getD t.c 0
  if V3.dot (pm - pi) (V3.cross (pj - pi) (pk - pi)) > 0 then ⟨t.b, t.a, t.c⟩ else t

/-- surface_mesh.py:397-402: `index_map` applied to the corners of one simplex; `none` is a KeyError. -/
def hullTri (hullVertices : List ℕ) (s : Tri) : Option Tri :=
  let index_map := fun x => hullVertices.findIdx? (· == x)
  match index_map s.a, index_map s.b, index_map s.c with
  | some a, some b, some c => some (⟨a, b, c⟩ : Tri)
  | _, _, _ => none

/-- surface_mesh.py:386-415 `create_convex_hull` after the call of scipy: `points`, `hullVertices` (indices
of the extreme points) and `simplices` are what scipy.spatial.ConvexHull hands back.  A simplex corner
that is not a hull vertex raises KeyError. -/
noncomputable def create_convex_hull (points : List V3) (hullVertices : List ℕ) (simplices : List Tri) :
    Except PyErr (List V3 × List Tri) :=
  let vertices := hullVertices.map fun i => points.getD i 0
  let triangles := simplices.mapM (hullTri hullVertices)
  match triangles with
  | none => .error .keyError
  | some ts => .ok (vertices, ts.map (orientTri vertices))

end Verif.SMesh
