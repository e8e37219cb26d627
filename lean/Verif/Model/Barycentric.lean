import Verif.Model.LinSolve

/-! Model of `rainbow/geometry/barycentric.py`. The `assert np.isfinite` checks hold trivially over ℝ
wherever no division by zero happened; where one does the code's nan is reported by the model as the
failing assertion. -/

namespace Verif.Bary

open V3

open Classical in
/-- barycentric.py:5-37 `compute_barycentric_edge`. -/
noncomputable def edge (x1 x2 p : V3) : Except PyErr (ℝ × ℝ) :=
  let u := x2 - x1
  let uu := dot u u
  if ¬ uu > 0 then .error .assertionError
  else
    let q := (dot u (p - x1) / uu) • u + x1
    let a := q - x2
    let b := q - x1
    let aa := dot a a
    let bb := dot b b
    let w1 := if dot u a ≤ 0 then Real.sqrt (aa / uu) else -Real.sqrt (aa / uu)
    let w2 := if dot u b ≥ 0 then Real.sqrt (bb / uu) else -Real.sqrt (bb / uu)
    .ok (w1, w2)

open Classical in
/-- barycentric.py:40-71 `compute_barycentric_triangle`. -/
noncomputable def triangle (x1 x2 x3 p : V3) : Except PyErr (ℝ × ℝ × ℝ) :=
  let b1 := x2 - x1
  let b2 := x3 - x1
  if norm b1 = 0 ∨ norm b2 = 0 then .error .assertionError
  else do
    let b3 := cross (divs b1 (norm b1)) (divs b2 (norm b2))
    let basis := M3.make_from_cols b1 b2 b3
    let q ← M3.solve basis (p - x1)
    .ok (1 - q.x - q.y, q.x, q.y)

open Classical in
/-- barycentric.py:74-113 `compute_barycentric_tetrahedron`. -/
noncomputable def tetrahedron (x1 x2 x3 x4 p : V3) : Except PyErr (ℝ × ℝ × ℝ × ℝ) :=
  let b1 := x2 - x1
  let b2 := x3 - x1
  let b3 := x4 - x1
  if dot b3 (cross b1 b2) > 0 then do
    let q ← M3.solve (M3.make_from_cols b1 b2 b3) (p - x1)
    .ok (1 - q.x - q.y - q.z, q.x, q.y, q.z)
  else do
    let q ← M3.solve (M3.make_from_cols b1 b3 b2) (p - x1)
    .ok (1 - q.x - q.y - q.z, q.x, q.z, q.y)

open Classical in
/-- barycentric.py:116-131 `compute_barycentric_derivatives_tetrahedron`. -/
noncomputable def derivatives (x1 x2 x3 x4 : V3) : Except PyErr (V3 × V3 × V3 × V3) :=
  let vol6 := dot (x4 - x1) (cross (x2 - x1) (x3 - x1))
  if ¬ vol6 > 0 then .error .assertionError
  else .ok (divs (cross (x4 - x2) (x3 - x2)) vol6, divs (cross (x3 - x1) (x4 - x1)) vol6,
    divs (cross (x4 - x1) (x2 - x1)) vol6, divs (cross (x2 - x1) (x3 - x1)) vol6)

open Classical in
/-- barycentric.py:134-156 `is_inside_edge`. -/
noncomputable def is_inside_edge (w1 w2 : ℝ) : Bool :=
  if w1 < 0 then false else if w2 < 0 then false
  else if w1 > 1 then false else if w2 > 1 then false
  else if w1 + w2 > 1 then false else if w1 + w2 < 0 then false else true

open Classical in
/-- barycentric.py:159-187 `is_inside_triangle`. -/
noncomputable def is_inside_triangle (w1 w2 w3 : ℝ) : Bool :=
  if w1 < 0 then false else if w2 < 0 then false else if w3 < 0 then false
  else if w1 > 1 then false else if w2 > 1 then false else if w3 > 1 then false
  else if w1 + w2 + w3 > 1 then false else if w1 + w2 + w3 < 0 then false else true

open Classical in
/-- barycentric.py:190-224 `is_inside_tetrahedron`. -/
noncomputable def is_inside_tetrahedron (w1 w2 w3 w4 : ℝ) : Bool :=
  if w1 < 0 then false else if w2 < 0 then false else if w3 < 0 then false else if w4 < 0 then false
  else if w1 > 1 then false else if w2 > 1 then false else if w3 > 1 then false else if w4 > 1 then false
  else if w1 + w2 + w3 + w4 > 1 then false else if w1 + w2 + w3 + w4 < 0 then false else true

end Verif.Bary
