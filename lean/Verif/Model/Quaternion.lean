import Verif.Model.Vec
import Mathlib.Analysis.SpecialFunctions.Trigonometric.Inverse
import Mathlib.Analysis.SpecialFunctions.Complex.Arg

/-! Model of `rainbow/math/quaternion.py`. -/

namespace Verif

/-- numpy array of shape (4,) holding (s, x, y, z); quaternion.py:8-9 `make`. -/
@[ext] structure Quat where
  s : ℝ
  x : ℝ
  y : ℝ
  z : ℝ

/-- Python `math.atan2(y, x)`: the argument of the complex number x + iy, in (-π, π].
(Signed zeros are not modelled.) -/
noncomputable def atan2 (y x : ℝ) : ℝ := Complex.arg ⟨x, y⟩

open Classical in
/-- np.clip(t, 0.0, 1.0) and np.clip(d, -1.0, 1.0): minimum(maximum(t, lo), hi). -/
noncomputable def clip (t lo hi : ℝ) : ℝ := min (max t lo) hi

namespace Quat

/-- Q[1:]. -/
def vec (q : Quat) : V3 := ⟨q.x, q.y, q.z⟩

/-- quaternion.py:68-69 `from_vector3`. -/
def from_vector3 (w : V3) : Quat := ⟨0, w.x, w.y, w.z⟩

/-- quaternion.py:72-73 `identity`. -/
def identity : Quat := ⟨1, 0, 0, 0⟩

/-- np.dot(a, b) on shape (4,). -/
def dot (a b : Quat) : ℝ := a.s * b.s + a.x * b.x + a.y * b.y + a.z * b.z

/-- np.linalg.norm on shape (4,). -/
noncomputable def norm (q : Quat) : ℝ := Real.sqrt (dot q q)

/-- numpy `a + b` on shape (4,). -/
instance : Add Quat := ⟨fun a b => ⟨a.s + b.s, a.x + b.x, a.y + b.y, a.z + b.z⟩⟩
/-- numpy `a - b` on shape (4,). -/
instance : Sub Quat := ⟨fun a b => ⟨a.s - b.s, a.x - b.x, a.y - b.y, a.z - b.z⟩⟩
/-- numpy `-a` on shape (4,). -/
instance : Neg Quat := ⟨fun a => ⟨-a.s, -a.x, -a.y, -a.z⟩⟩
/-- numpy `t * a` on shape (4,). -/
instance : SMul ℝ Quat := ⟨fun t a => ⟨t * a.s, t * a.x, t * a.y, t * a.z⟩⟩

@[simp] theorem add_def (a b : Quat) : a + b = ⟨a.s + b.s, a.x + b.x, a.y + b.y, a.z + b.z⟩ := rfl
@[simp] theorem sub_def (a b : Quat) : a - b = ⟨a.s - b.s, a.x - b.x, a.y - b.y, a.z - b.z⟩ := rfl
@[simp] theorem neg_def (a : Quat) : -a = ⟨-a.s, -a.x, -a.y, -a.z⟩ := rfl
@[simp] theorem smul_def (t : ℝ) (a : Quat) : t • a = ⟨t * a.s, t * a.x, t * a.y, t * a.z⟩ := rfl

open Classical in
/-- quaternion.py:76-80 `unit`. -/
noncomputable def unit (q : Quat) : Quat :=
  let l := norm q
  if l > 0 then ⟨q.s / l, q.x / l, q.y / l, q.z / l⟩ else identity

/-- quaternion.py:83-87 `Ru`. -/
noncomputable def Ru (radians : ℝ) (axis : V3) : Quat :=
  let c := Real.cos (radians / 2)
  let s := Real.sin (radians / 2)
  let n := V3.divs axis (V3.norm axis)
  ⟨c, s * n.x, s * n.y, s * n.z⟩

/-- quaternion.py:90-93 `Rx`. -/
noncomputable def Rx (radians : ℝ) : Quat := ⟨Real.cos (radians / 2), Real.sin (radians / 2), 0, 0⟩
/-- quaternion.py:96-99 `Ry`. -/
noncomputable def Ry (radians : ℝ) : Quat := ⟨Real.cos (radians / 2), 0, Real.sin (radians / 2), 0⟩
/-- quaternion.py:102-105 `Rz`. -/
noncomputable def Rz (radians : ℝ) : Quat := ⟨Real.cos (radians / 2), 0, 0, Real.sin (radians / 2)⟩

/-- quaternion.py:108-129 `to_matrix`. -/
noncomputable def to_matrix (Q : Quat) : M3 :=
  let q := unit Q
  { m00 := 1 - 2 * (q.y * q.y + q.z * q.z)
    m11 := 1 - 2 * (q.x * q.x + q.z * q.z)
    m22 := 1 - 2 * (q.y * q.y + q.x * q.x)
    m10 := 2 * (q.x * q.y + q.s * q.z)
    m01 := 2 * (q.x * q.y - q.s * q.z)
    m20 := 2 * (-q.s * q.y + q.x * q.z)
    m02 := 2 * (q.s * q.y + q.x * q.z)
    m21 := 2 * (q.z * q.y + q.s * q.x)
    m12 := 2 * (q.z * q.y - q.s * q.x) }

open Classical in
/-- quaternion.py:132-179 `from_matrix`.  The index `i` of lines 144-148 is computed as in the
code (start at 0, move to 1, then compare M22 with M[i,i]). -/
noncomputable def from_matrix (M : M3) : Quat :=
  let tr := M.m00 + M.m11 + M.m22
  if tr < 0 then
    let i : ℕ := if M.m11 > M.m00 then 1 else 0
    let Mii := if i = 0 then M.m00 else M.m11
    let i : ℕ := if M.m22 > Mii then 2 else i
    if i = 0 then
      let r := Real.sqrt ((M.m00 - (M.m11 + M.m22)) + 1)
      let qx := 0.5 * r
      let r := 0.5 / r
      ⟨(M.m21 - M.m12) * r, qx, (M.m01 + M.m10) * r, (M.m20 + M.m02) * r⟩
    else if i = 1 then
      let r := Real.sqrt ((M.m11 - (M.m22 + M.m00)) + 1)
      let qy := 0.5 * r
      let r := 0.5 / r
      ⟨(M.m02 - M.m20) * r, (M.m01 + M.m10) * r, qy, (M.m12 + M.m21) * r⟩
    else
      let r := Real.sqrt ((M.m22 - (M.m00 + M.m11)) + 1)
      let qz := 0.5 * r
      let r := 0.5 / r
      ⟨(M.m10 - M.m01) * r, (M.m20 + M.m02) * r, (M.m12 + M.m21) * r, qz⟩
  else
    let r := Real.sqrt (tr + 1)
    let qs := 0.5 * r
    let r := 0.5 / r
    ⟨qs, (M.m21 - M.m12) * r, (M.m02 - M.m20) * r, (M.m10 - M.m01) * r⟩

/-- quaternion.py:182-183 `conjugate`. -/
def conjugate (q : Quat) : Quat := ⟨q.s, -q.x, -q.y, -q.z⟩

/-- quaternion.py:186-193 `prod`, written with the vector operations the code uses. -/
def prod (Qa Qb : Quat) : Quat :=
  let a := Qa.s
  let A := Qa.vec
  let b := Qb.s
  let B := Qb.vec
  let qs := a * b - V3.dot A B
  let qv := a • B + b • A + V3.cross A B
  ⟨qs, qv.x, qv.y, qv.z⟩

/-- quaternion.py:196-198 `rotate`. -/
def rotate (q : Quat) (r : V3) : V3 :=
  (prod (prod q ⟨0, r.x, r.y, r.z⟩) (conjugate q)).vec

/-- An argument of `prod_array`: a numpy array of ndim 1 (one quaternion) or 2 (rows). -/
inductive QArg
  | one (q : Quat)
  | many (qs : List Quat)

/-- quaternion.py:201-241 `prod_array`: the four column formulas, in both argument shapes. -/
def prod_array : QArg → QArg → Except PyErr (List Quat)
  | .one Qa, .many Qb => .ok (Qb.map fun b =>
      ⟨Qa.s * b.s - Qa.x * b.x - Qa.y * b.y - Qa.z * b.z,
       Qa.s * b.x + Qa.x * b.s + Qa.y * b.z - Qa.z * b.y,
       Qa.s * b.y - Qa.x * b.z + Qa.y * b.s + Qa.z * b.x,
       Qa.s * b.z + Qa.x * b.y - Qa.y * b.x + Qa.z * b.s⟩)
  | .many Qa, .one Qb => .ok (Qa.map fun a =>
      ⟨a.s * Qb.s - a.x * Qb.x - a.y * Qb.y - a.z * Qb.z,
       a.s * Qb.x + a.x * Qb.s + a.y * Qb.z - a.z * Qb.y,
       a.s * Qb.y - a.x * Qb.z + a.y * Qb.s + a.z * Qb.x,
       a.s * Qb.z + a.x * Qb.y - a.y * Qb.x + a.z * Qb.s⟩)
  | .many _, .many _ => .error .notImplemented
  | .one _, .one _ => .error .valueError

/-- quaternion.py:244-250 `rotate_array`. -/
def rotate_array (q : Quat) (rs : List V3) : Except PyErr (List V3) := do
  let conjugated := conjugate q
  let qrs := rs.map fun r => (⟨0, r.x, r.y, r.z⟩ : Quat)
  let inner ← prod_array (.one q) (.many qrs)
  let outer ← prod_array (.many inner) (.one conjugated)
  return outer.map vec

open Classical in
/-- quaternion.py:253-264 `to_angle_axis`. -/
noncomputable def to_angle_axis (Q : Quat) : ℝ × V3 :=
  let ct2 := Q.s
  let st2 := V3.norm Q.vec
  let theta := 2 * atan2 st2 ct2
  if st2 > 0 then (theta, V3.divs Q.vec st2) else (theta, V3.zero)

open Classical in
/-- quaternion.py:267-285 `to_angle`. -/
noncomputable def to_angle (Q : Quat) (axis : V3) : ℝ :=
  let ct2 := Q.s
  let st2 := V3.norm Q.vec
  let theta := if V3.dot Q.vec axis ≥ 0 then 2 * atan2 st2 ct2 else 2 * atan2 st2 (-ct2)
  if theta > Real.pi then theta - 2 * Real.pi else theta

/-- quaternion.py:288-298 `lerp`. -/
noncomputable def lerp (a b : Quat) (t : ℝ) : Quat :=
  let t := clip t 0 1
  a + t • (b - a)

open Classical in
/-- quaternion.py:301-330 `slerp`. -/
noncomputable def slerp (a b : Quat) (t : ℝ) : Quat :=
  let t := clip t 0 1
  let dt := clip (dot a b) (-1) 1
  let flip : Bool := if dt < 0 then true else false
  let dt := if dt < 0 then -dt else dt
  if dt > 0.9999999 then unit (lerp a b t)
  else
    let omega := Real.arccos dt
    let sin_omega := Real.sin omega
    let t_omega := t * omega
    let x := Real.sin (omega - t_omega) / sin_omega
    let z := Real.sin t_omega / sin_omega
    let y := if flip then -z else z
    x • a + y • b

/-- quaternion.py:337-348 `hat`. -/
def hat (q : Quat) : Quat := ⟨q.z, -q.y, q.x, -q.s⟩

end Quat
end Verif
