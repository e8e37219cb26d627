import Verif.Model.Quaternion

/-! Model of `rainbow/math/coordsys.py` and `rainbow/math/matrix3.py`, `rainbow/math/angle.py`. -/

namespace Verif

/-- coordsys.py:6-10 `CoordSys`. -/
@[ext] structure CoordSys where
  q : Quat
  r : V3

namespace CoordSys

/-- coordsys.py:8-10 `__init__`. -/
def init : CoordSys := ⟨Quat.identity, V3.zero⟩

/-- coordsys.py:13-17 `make`. -/
def make (r : V3) (q : Quat) : CoordSys := ⟨q, r⟩

/-- coordsys.py:20-21 `xform_point`. -/
def xform_point (X : CoordSys) (p : V3) : V3 := Quat.rotate X.q p + X.r

/-- coordsys.py:24-25 `xform_vector`. -/
def xform_vector (X : CoordSys) (v : V3) : V3 := Quat.rotate X.q v

/-- coordsys.py:28-30 `xform_matrix`. -/
noncomputable def xform_matrix (X : CoordSys) (M : M3) : M3 := (Quat.to_matrix X.q).mul M

/-- coordsys.py:33-43 `concat`. -/
noncomputable def concat (B A : CoordSys) : CoordSys :=
  ⟨Quat.unit (Quat.prod B.q A.q), Quat.rotate B.q A.r + B.r⟩

/-- coordsys.py:46-53 `inverse`. -/
def inverse (X : CoordSys) : CoordSys :=
  let q := Quat.conjugate X.q
  ⟨q, Quat.rotate q (-X.r)⟩

/-- coordsys.py:56-67 `make_coordsys_from_to`. -/
noncomputable def make_coordsys_from_to (A B : CoordSys) : CoordSys :=
  ⟨Quat.unit (Quat.prod (Quat.conjugate B.q) A.q),
   Quat.rotate (Quat.conjugate B.q) (A.r - B.r)⟩

end CoordSys

namespace M3

/-- matrix3.py:43-52 `star`. -/
def star (v : V3) : M3 := ⟨0, -v.z, v.y, v.z, 0, -v.x, -v.y, v.x, 0⟩

/-- row accessors `A[0, :]` etc. -/
def row0 (A : M3) : V3 := ⟨A.m00, A.m01, A.m02⟩
def row1 (A : M3) : V3 := ⟨A.m10, A.m11, A.m12⟩
def row2 (A : M3) : V3 := ⟨A.m20, A.m21, A.m22⟩

open Classical in
/-- matrix3.py:55-66 `ortonormalize`: returns (result, the argument after the call).  `row0` and
`row1` are numpy views of `A`, and `/=`, `-=` work in place, so the caller's matrix is changed. -/
noncomputable def ortonormalize (A : M3) : M3 × M3 :=
  let r0 := A.row0
  let r1 := A.row1
  let l0 := V3.norm r0
  let r0 := if l0 > 0 then V3.divs r0 l0 else r0
  let r1 := r1 - (V3.dot r0 r1) • r0
  let l1 := V3.norm r1
  let r1 := if l1 > 0 then V3.divs r1 l1 else r1
  let r2 := V3.cross r0 r1
  (make_from_rows r0 r1 r2, make_from_rows r0 r1 A.row2)

/-- matrix3.py:69-84 `Ru`. -/
noncomputable def Ru (radians : ℝ) (axis : V3) : M3 :=
  let c := Real.cos radians
  let s := Real.sin radians
  let u := V3.divs axis (V3.norm axis)
  { m00 := u.x * u.x + c * (1 - u.x * u.x)
    m01 := u.x * u.y * (1 - c) - s * u.z
    m02 := u.x * u.z * (1 - c) + s * u.y
    m10 := u.x * u.y * (1 - c) + s * u.z
    m11 := u.y * u.y + c * (1 - u.y * u.y)
    m12 := u.y * u.z * (1 - c) - s * u.x
    m20 := u.x * u.z * (1 - c) - s * u.y
    m21 := u.y * u.z * (1 - c) + s * u.x
    m22 := u.z * u.z + c * (1 - u.z * u.z) }

/-- matrix3.py:87-90 `Rx`. -/
noncomputable def Rx (radians : ℝ) : M3 :=
  ⟨1, 0, 0, 0, Real.cos radians, -Real.sin radians, 0, Real.sin radians, Real.cos radians⟩
/-- matrix3.py:93-96 `Ry`. -/
noncomputable def Ry (radians : ℝ) : M3 :=
  ⟨Real.cos radians, 0, Real.sin radians, 0, 1, 0, -Real.sin radians, 0, Real.cos radians⟩
/-- matrix3.py:99-102 `Rz`. -/
noncomputable def Rz (radians : ℝ) : M3 :=
  ⟨Real.cos radians, -Real.sin radians, 0, Real.sin radians, Real.cos radians, 0, 0, 0, 1⟩

end M3

/-- angle.py:4-5 `radians_to_degrees`. -/
noncomputable def radians_to_degrees (r : ℝ) : ℝ := 180 * r / Real.pi
/-- angle.py:8-9 `degrees_to_radians`. -/
noncomputable def degrees_to_radians (d : ℝ) : ℝ := d * Real.pi / 180

end Verif
