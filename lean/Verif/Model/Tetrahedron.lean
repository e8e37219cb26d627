import Verif.Model.Vec

/-! Model of `rainbow/geometry/tetrahedron.py`. -/

namespace Verif.Tetra

open V3

/-- tetrahedron.py:6-17 `compute_signed_volume`. -/
noncomputable def compute_signed_volume (pi pj pk pm : V3) : ℝ :=
  dot (pm - pi) (cross (pj - pi) (pk - pi)) / 6

open Classical in
/-- tetrahedron.py:20-30 `is_left_orientation`. -/
noncomputable def is_left_orientation (pi pj pk pm : V3) : Bool :=
  decide (compute_signed_volume pi pj pk pm < 0)

/-- `np.linalg.lstsq(M, q, rcond=None)[0]` for a 3x3 matrix: u is a least squares solution, that is a
minimizer of the residual. (numpy picks the one of least norm; the model allows any.) -/
def Lstsq3 (M : M3) (q u : V3) : Prop :=
  ∀ v, dot (M.mulVec u - q) (M.mulVec u - q) ≤ dot (M.mulVec v - q) (M.mulVec v - q)

/-- tetrahedron.py:83-101: the matrix M and right hand side q. -/
noncomputable def circumSystem (p0 p1 p2 p3 : V3) : M3 × V3 :=
  let A := p0 - p3
  let B := p1 - p3
  let C := p2 - p3
  let M00 := dot A A
  let M01 := dot A B
  let M02 := dot A C
  let M10 := dot B A
  let M11 := dot B B
  let M12 := dot B C
  let M20 := dot C A
  let M21 := dot C B
  let M22 := dot C C
  (⟨M00, M01, M02, M10, M11, M12, M20, M21, M22⟩, (1 / 2 : ℝ) • ⟨M00, M11, M22⟩)

/-- tetrahedron.py:33-109 `compute_circumscribed_sphere`: (center, radius) is a possible result. -/
def circumscribed_sphere (p0 p1 p2 p3 : V3) (center : V3) (radius : ℝ) : Prop :=
  ∃ u : V3, Lstsq3 (circumSystem p0 p1 p2 p3).1 (circumSystem p0 p1 p2 p3).2 u ∧
    let A := p0 - p3
    let B := p1 - p3
    let C := p2 - p3
    let u3 := 1 - u.x - u.y - u.z
    radius = norm (u.x • A + u.y • B + u.z • C) ∧
    center = u.x • p0 + u.y • p1 + u.z • p2 + u3 • p3

/-- One row of the residual A x - b of the 4x4 system of `compute_inscribed_sphere`, with
x = (c, r): n·c - r - w, where w = n·o (tetrahedron.py:158-196). -/
def planeResidual (n o c : V3) (r : ℝ) : ℝ := dot n c + (-1) * r - dot n o

/-- tetrahedron.py:152-156: the four face normals nm, ni, nj, nk. -/
noncomputable def faceNormals (pi pj pk pm : V3) : V3 × V3 × V3 × V3 :=
  (unit (cross (pj - pi) (pk - pi)), unit (cross (pm - pj) (pk - pj)),
   unit (cross (pm - pk) (pi - pk)), unit (cross (pm - pi) (pj - pi)))

/-- tetrahedron.py:152-196: the sum of squared residuals of the 4x4 system. -/
noncomputable def inscribedResidual (pi pj pk pm : V3) (c : V3) (r : ℝ) : ℝ :=
  let n := faceNormals pi pj pk pm
  planeResidual n.1 pi c r ^ 2 + planeResidual n.2.1 pj c r ^ 2 + planeResidual n.2.2.1 pk c r ^ 2 +
    planeResidual n.2.2.2 pi c r ^ 2

/-- tetrahedron.py:112-200 `compute_inscribed_sphere`: (center, radius) is a possible result, i.e. a
least squares solution. -/
def inscribed_sphere (pi pj pk pm : V3) (center : V3) (radius : ℝ) : Prop :=
  ∀ c r, inscribedResidual pi pj pk pm center radius ≤ inscribedResidual pi pj pk pm c r

/-- A row of the sample array: the weights wi, wj, wk, wm. -/
structure Sample where
  wi : ℝ
  wj : ℝ
  wk : ℝ
  wm : ℝ

/-- tetrahedron.py:216-227: the loop nest; i is the remainder. -/
noncomputable def sampleLoop (N : ℕ) : List Sample :=
  (List.range N).flatMap fun m => (List.range (N - m)).flatMap fun k =>
    (List.range (N - k - m)).map fun j =>
      let i := N - j - k - m - 1
      ⟨(i : ℝ) / ((N : ℝ) - 1), (j : ℝ) / ((N : ℝ) - 1), (k : ℝ) / ((N : ℝ) - 1),
        (m : ℝ) / ((N : ℝ) - 1)⟩

/-- tetrahedron.py:203-228 `generate_sample_points`. -/
noncomputable def generate_sample_points (N : ℤ) : Except PyErr (List Sample) :=
  if N < 2 then .error .valueError else .ok (sampleLoop N.toNat)

open Classical in
/-- np.count_nonzero of one row. -/
noncomputable def count_nonzero (s : Sample) : ℕ :=
  (if s.wi ≠ 0 then 1 else 0) + (if s.wj ≠ 0 then 1 else 0) + (if s.wk ≠ 0 then 1 else 0) +
    (if s.wm ≠ 0 then 1 else 0)

/-- tetrahedron.py:231-243 `generate_interior_sample_points`: keeps the rows with exactly THREE nonzero
weights. -/
noncomputable def generate_interior_sample_points (N : ℤ) : Except PyErr (List Sample) := do
  let S ← generate_sample_points N
  .ok (S.filter fun s => decide (count_nonzero s = 3))

end Verif.Tetra
