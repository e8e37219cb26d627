import Verif.Model.Vector3
import Verif.Model.BVH
import Verif.Model.SurfaceMesh
import Verif.Model.CoordSys

/-! Model of `rainbow/simulators/prox_rigid_bodies/mass.py` (`update_inertia_tensor` is in Model/RigidBody.lean). -/

namespace Verif.Mass

open VMesh (Tri)

/-- mass.py:12-30 `MassProperties`. -/
@[ext] structure MassProperties where
  mass : ℝ
  x : ℝ
  y : ℝ
  z : ℝ
  Ixx : ℝ
  Iyy : ℝ
  Izz : ℝ
  Ixy : ℝ
  Ixz : ℝ
  Iyz : ℝ

/-- `v[i]`. -/
def comp (v : V3) : Fin 3 → ℝ := ![v.x, v.y, v.z]

/-- mass.py:58-135: P1, Pa, Paa, Paaa, Pb, Pbb, Pbbb, Pab, Paab, Pabb. -/
structure PInt where
  P1 : ℝ
  Pa : ℝ
  Paa : ℝ
  Paaa : ℝ
  Pb : ℝ
  Pbb : ℝ
  Pbbb : ℝ
  Pab : ℝ
  Paab : ℝ
  Pabb : ℝ

/-- mass.py:80-124: the body of the loop over the edges: (a0, b0), (a1, b1) are the projected end points. -/
noncomputable def PInt.addEdge (P : PInt) (a0 b0 a1 b1 : ℝ) : PInt :=
  let da := a1 - a0
  let db := b1 - b0
  let a0_2 := a0 * a0
  let a0_3 := a0_2 * a0
  let a0_4 := a0_3 * a0
  let b0_2 := b0 * b0
  let b0_3 := b0_2 * b0
  let b0_4 := b0_3 * b0
  let a1_2 := a1 * a1
  let a1_3 := a1_2 * a1
  let b1_2 := b1 * b1
  let b1_3 := b1_2 * b1
  let C1 := a1 + a0
  let Ca := a1 * C1 + a0_2
  let Caa := a1 * Ca + a0_3
  let Caaa := a1 * Caa + a0_4
  let Cb := b1 * (b1 + b0) + b0_2
  let Cbb := b1 * Cb + b0_3
  let Cbbb := b1 * Cbb + b0_4
  let Cab := 3.0 * a1_2 + 2.0 * a1 * a0 + a0_2
  let Kab := a1_2 + 2.0 * a1 * a0 + 3.0 * a0_2
  let Caab := a0 * Cab + 4.0 * a1_3
  let Kaab := a1 * Kab + 4.0 * a0_3
  let Cabb := 4.0 * b1_3 + 3.0 * b1_2 * b0 + 2.0 * b1 * b0_2 + b0_3
  let Kabb := b1_3 + 2.0 * b1_2 * b0 + 3.0 * b1 * b0_2 + 4.0 * b0_3
  { P1 := P.P1 + db * C1
    Pa := P.Pa + db * Ca
    Paa := P.Paa + db * Caa
    Paaa := P.Paaa + db * Caaa
    Pb := P.Pb + da * Cb
    Pbb := P.Pbb + da * Cbb
    Pbbb := P.Pbbb + da * Cbbb
    Pab := P.Pab + db * (b1 * Cab + b0 * Kab)
    Paab := P.Paab + db * (b1 * Caab + b0 * Kaab)
    Pabb := P.Pabb + da * (a1 * Cabb + a0 * Kabb) }

/-- mass.py:58-135 `__compute_projected_face_integral`; v holds the three corners of triangle idx. -/
noncomputable def projectedFaceIntegral (v : Fin 3 → V3) (X Y : Fin 3) : PInt :=
  let P := (List.finRange 3).foldl (fun P e => P.addEdge (comp (v e) X) (comp (v e) Y) (comp (v (e + 1)) X) (comp (v (e + 1)) Y))
    (⟨0.0, 0.0, 0.0, 0.0, 0.0, 0.0, 0.0, 0.0, 0.0, 0.0⟩ : PInt)
  { P1 := P.P1 / 2.0
    Pa := P.Pa / 6.0
    Paa := P.Paa / 12.0
    Paaa := P.Paaa / 20.0
    Pb := P.Pb / -6.0
    Pbb := P.Pbb / -12.0
    Pbbb := P.Pbbb / -20.0
    Pab := P.Pab / 24.0
    Paab := P.Paab / 60.0
    Pabb := P.Pabb / -60.0 }

/-- mass.py:152-155: the accumulators T0, T1, T2, TP.  `nan` records whether a triangle without area has been met: `V3.unit`
then divides by zero, its result is NaN, and T0 is NaN from there on. -/
@[ext] structure Acc where
  nan : Bool
  T0 : ℝ
  T1 : Fin 3 → ℝ
  T2 : Fin 3 → ℝ
  TP : Fin 3 → ℝ

/-- `T[X] += a; T[Y] += b; T[Z] += c`. -/
noncomputable def addAt (T : Fin 3 → ℝ) (X Y Z : Fin 3) (a b c : ℝ) : Fin 3 → ℝ :=
  let T := Function.update T X (T X + a)
  let T := Function.update T Y (T Y + b)
  Function.update T Z (T Z + c)

open Classical in
/-- mass.py:157-244: the body of the loop over the triangles. -/
noncomputable def Acc.addFace (A : Acc) (pi pj pk : V3) : Acc :=
  let n := V3.unit (V3.cross (pj - pi) (pk - pi))
  let p_avg := V3.divs (pi + pj + pk) 3.0
  let w := -V3.dot n p_avg
  let Z := V3.max_abs_component n
  let X := Z + 1
  let Y := X + 1
  let nA := comp n X
  let nB := comp n Y
  let nC := comp n Z
  let k1 := 1.0 / nC
  let k2 := k1 * k1
  let k3 := k2 * k1
  let k4 := k3 * k1
  let P := projectedFaceIntegral ![pi, pj, pk] X Y
  let Fa := k1 * P.Pa
  let Fb := k1 * P.Pb
  let Fc := -k2 * (nA * P.Pa + nB * P.Pb + w * P.P1)
  let Faa := k1 * P.Paa
  let Fbb := k1 * P.Pbb
  let Fcc := k3 * (nA * nA * P.Paa + 2.0 * nA * nB * P.Pab + nB * nB * P.Pbb +
    w * (2.0 * (nA * P.Pa + nB * P.Pb) + w * P.P1))
  let Faaa := k1 * P.Paaa
  let Fbbb := k1 * P.Pbbb
  let Fccc := -k4 * (nA * nA * nA * P.Paaa + 3.0 * nA * nA * nB * P.Paab + 3.0 * nA * nB * nB * P.Pabb +
    nB * nB * nB * P.Pbbb + 3.0 * w * (nA * nA * P.Paa + 2.0 * nA * nB * P.Pab + nB * nB * P.Pbb) +
    w * w * (3.0 * (nA * P.Pa + nB * P.Pb) + w * P.P1))
  let Faab := k1 * P.Paab
  let Fbbc := -k2 * (nA * P.Pabb + nB * P.Pbbb + w * P.Pbb)
  let Fcca := k3 * (nA * nA * P.Paaa + 2.0 * nA * nB * P.Paab + nB * nB * P.Pabb +
    w * (2.0 * (nA * P.Paa + nB * P.Pab) + w * P.Pa))
  { nan := A.nan || decide (V3.cross (pj - pi) (pk - pi) = 0)
    T0 := A.T0 + comp n 0 * (if X = 0 then Fa else if Y = 0 then Fb else Fc)
    T1 := addAt A.T1 X Y Z (nA * Faa) (nB * Fbb) (nC * Fcc)
    T2 := addAt A.T2 X Y Z (nA * Faaa) (nB * Fbbb) (nC * Fccc)
    TP := addAt A.TP X Y Z (nA * Faab) (nB * Fbbc) (nC * Fcca) }

/-- mass.py:157-244: the loop; indices out of range raise IndexError. -/
noncomputable def faceLoop (V : List V3) (T : List Tri) : Except PyErr Acc :=
  T.foldlM (fun A t => do
    let pi ← BVH.lookup V t.a
    let pj ← BVH.lookup V t.b
    let pk ← BVH.lookup V t.c
    return A.addFace pi pj pk) ⟨false, 0.0, fun _ => 0, fun _ => 0, fun _ => 0⟩

/-- 1.0e-10 -/
noncomputable def too_small : ℝ := 1.0e-10

open Classical in
/-- `a if a > too_small else 0.0`. -/
noncomputable def clampPos (a : ℝ) : ℝ := if a > too_small then a else 0.0

open Classical in
/-- `a if abs(a) > too_small else 0.0`. -/
noncomputable def clampAbs (a : ℝ) : ℝ := if |a| > too_small then a else 0.0

open Classical in
/-- mass.py:138-283 `compute_mass_properties` (a NaN T0 fails the test `T0 > 0.0`). -/
noncomputable def compute_mass_properties (V : List V3) (T : List Tri) (density : ℝ) : Except PyErr MassProperties := do
  let A ← faceLoop V T
  let T0 := A.T0
  let T1 := fun i => A.T1 i / 2.0
  let T2 := fun i => A.T2 i / 3.0
  let TP := fun i => A.TP i / 2.0
  if A.nan = false ∧ T0 > 0.0 then
    return {
      mass := clampPos (density * T0)
      x := clampAbs (T1 0 / T0)
      y := clampAbs (T1 1 / T0)
      z := clampAbs (T1 2 / T0)
      Ixx := clampPos (density * (T2 1 + T2 2))
      Iyy := clampPos (density * (T2 2 + T2 0))
      Izz := clampPos (density * (T2 0 + T2 1))
      Ixy := clampAbs (-density * TP 0)
      Iyz := clampAbs (-density * TP 1)
      Ixz := clampAbs (-density * TP 2) }
  else .error .runtimeError

/-- mass.py:328-363 `__translate_to_body_space_origin`. -/
noncomputable def translate_to_body_space_origin (p : MassProperties) : V3 × MassProperties :=
  let m := p.mass
  let x := -p.x
  let y := -p.y
  let z := -p.z
  (⟨x, y, z⟩,
   { mass := m, x := 0.0, y := 0.0, z := 0.0
     Ixx := p.Ixx - m * (y * y + z * z)
     Iyy := p.Iyy - m * (x * x + z * z)
     Izz := p.Izz - m * (x * x + y * y)
     Ixy := clampAbs (p.Ixy + m * (x * y))
     Ixz := clampAbs (p.Ixz + m * (x * z))
     Iyz := clampAbs (p.Iyz + m * (y * z)) })

/-- mass.py:292-302: the matrix A. -/
def inertiaMatrix (p : MassProperties) : M3 := ⟨p.Ixx, p.Ixy, p.Ixz, p.Ixy, p.Iyy, p.Iyz, p.Ixz, p.Iyz, p.Izz⟩

/-- mass.py:306 `permutations`. -/
def permutations : List (Fin 3 → Fin 3) := [![0, 1, 2], ![0, 2, 1], ![1, 0, 2], ![2, 0, 1], ![1, 2, 0], ![2, 1, 0]]

open Classical in
/-- mass.py:308-312: the first permutation that sorts d in descending order; [0, 0, 0] if there is none. -/
noncomputable def sortOrder (d : Fin 3 → ℝ) : Fin 3 → Fin 3 :=
  (permutations.find? fun p => decide (d (p 0) ≥ d (p 1) ∧ d (p 1) ≥ d (p 2))).getD ![0, 0, 0]

/-- `R[:, order]`. -/
def columns (R : M3) (o : Fin 3 → Fin 3) : M3 :=
  let c0 := comp R.row0
  let c1 := comp R.row1
  let c2 := comp R.row2
  ⟨c0 (o 0), c0 (o 1), c0 (o 2), c1 (o 0), c1 (o 1), c1 (o 2), c2 (o 0), c2 (o 1), c2 (o 2)⟩

/-- `R[:, 0] = -R[:, 0]`. -/
def flipFirst (R : M3) : M3 := ⟨-R.m00, R.m01, R.m02, -R.m10, R.m11, R.m12, -R.m20, R.m21, R.m22⟩

open Classical in
/-- mass.py:286-325 `__rotate_to_model_space_orientation`; `eig` stands for `np.linalg.eig`. -/
noncomputable def rotate_to_model_space_orientation (eig : M3 → (Fin 3 → ℝ) × M3) (p : MassProperties) : Quat × V3 :=
  let A := inertiaMatrix p
  let (d, R) := eig A
  let order := sortOrder d
  let R := columns R order
  let R := if R.det < 0.0 then flipFirst R else R
  (Quat.from_matrix R, ⟨d (order 0), d (order 1), d (order 2)⟩)

/-- mass.py:366-392 `xform_model_2_body_space`: r_bf2mf, q_bf2mf, m, I_body. -/
noncomputable def xform_model_2_body_space (eig : M3 → (Fin 3 → ℝ) × M3) (p : MassProperties) : V3 × Quat × ℝ × V3 :=
  let m := p.mass
  let (r, p) := translate_to_body_space_origin p
  let (q, I_body) := rotate_to_model_space_orientation eig p
  (-r, q, m, I_body)

end Verif.Mass
