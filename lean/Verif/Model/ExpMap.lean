import Verif.Model.CoordSys
import Mathlib.Algebra.Order.ToIntervalMod

/-! Model of `rainbow/math/euler.py` and `rainbow/math/expmap.py`. -/

namespace Verif

/-- euler.py:5-9 `EulerXYZ`. -/
structure EulerXYZ where
  alpha : ℝ
  beta : ℝ
  gamma : ℝ

open Classical in
/-- euler.py:12-34 `make_euler_xyz_from_matrix`. -/
noncomputable def make_euler_xyz_from_matrix (R : M3) : EulerXYZ :=
  if R.m20 ≥ 1 then
    let rz := atan2 (-R.m01) (-R.m02)
    let ry := -Real.pi / 2
    let rx := 0
    ⟨rx, ry, rz⟩
  else if R.m20 ≤ -1 then
    let rz := atan2 (-R.m01) R.m02
    let ry := Real.pi / 2
    let rx := 0
    ⟨rx, ry, rz⟩
  else
    let rz := atan2 R.m10 R.m00
    let ry := Real.arcsin (-R.m20)
    let rx := atan2 R.m21 R.m22
    ⟨rx, ry, rz⟩

/-- euler.py:37-38 `make_euler_xyz_from_quaternion`. -/
noncomputable def make_euler_xyz_from_quaternion (Q : Quat) : EulerXYZ :=
  make_euler_xyz_from_matrix (Quat.to_matrix Q)

namespace ExpMap

/-- `math.fmod(x, y)` for x ≥ 0, y > 0: x - y * floor(x / y). -/
noncomputable def fmod (x y : ℝ) : ℝ := x - y * ⌊x / y⌋

open Classical in
/-- expmap.py:29-49 `reparameterization`. -/
noncomputable def reparameterization (v : V3) : V3 :=
  let theta := V3.norm v
  let v := if theta > 2 * Real.pi then
      let psi := fmod theta (2 * Real.pi)
      (psi / theta) • v
    else v
  let theta := V3.norm v
  if theta > Real.pi then (1 - 2 * Real.pi / theta) • v else v

open Classical in
/-- expmap.py:52-72 `exp`; `Constants.min_angle()` is 1e-6 (expmap.py:19). -/
noncomputable def exp (v : V3) (reparm : Bool := true) : Quat :=
  let v := if reparm then reparameterization v else v
  let theta := V3.norm v
  let c := Real.cos (theta / 2)
  let s := Real.sin (theta / 2)
  let w : V3 := if theta < 1e-6 then (0.5 - theta ^ 2 / 48) • v else V3.divs (s • v) theta
  ⟨c, w.x, w.y, w.z⟩

open Classical in
/-- expmap.py:75-103 `log`. `acos` and `sin` come from `math` and give Python floats, so a zero
`s` in line 101 raises ZeroDivisionError; `math.acos` raises ValueError outside [-1,1]. -/
noncomputable def log (q : Quat) : Except PyErr V3 :=
  if |q.s| > 0 then
    if q.s < -1 ∨ 1 < q.s then .error .valueError
    else
      let t := Real.arccos q.s
      let s := Real.sin t
      if s = 0 then .error .zeroDivision
      else
        let f := 2 * t / s
        .ok ⟨f * q.x, f * q.y, f * q.z⟩
  else .ok V3.zero

/-- expmap.py:114-115 `to_matrix`. -/
noncomputable def to_matrix (v : V3) : M3 := Quat.to_matrix (exp v)

end ExpMap
end Verif
