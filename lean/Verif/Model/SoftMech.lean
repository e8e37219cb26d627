import Verif.Model.LinSolve
import Mathlib.Analysis.SpecialFunctions.Log.Base

/-! Model of `rainbow/simulators/prox_soft_bodies/mechanics.py` and of the polar decompositions in `rainbow/math/matrix3.py`.
`np.linalg.eigh` is a parameter (its contract is a hypothesis of the theorems that need it). -/

namespace Verif

namespace M3

open Classical in
/-- `np.linalg.inv(A)`: the columns solve A x = e_k; LinAlgError for a singular matrix. -/
noncomputable def inv (A : M3) : Except PyErr M3 :=
  if det A = 0 then .error .linAlgError
  else .ok (make_from_cols (cramer A ⟨1, 0, 0⟩) (cramer A ⟨0, 1, 0⟩) (cramer A ⟨0, 0, 1⟩))

/-- Columns of a matrix, `A[:, k]`. -/
def col0 (A : M3) : V3 := ⟨A.m00, A.m10, A.m20⟩
def col1 (A : M3) : V3 := ⟨A.m01, A.m11, A.m21⟩
def col2 (A : M3) : V3 := ⟨A.m02, A.m12, A.m22⟩

/-- `np.outer(v, v)`. -/
def outer (v w : V3) : M3 :=
  ⟨v.x * w.x, v.x * w.y, v.x * w.z, v.y * w.x, v.y * w.y, v.y * w.z, v.z * w.x, v.z * w.y, v.z * w.z⟩

/-- matrix3.py:128-132 (163-166): S from the eigenvalues d and the eigenvectors (columns of R). -/
noncomputable def polarS (d : V3) (R : M3) : M3 :=
  Real.sqrt d.x • outer (col0 R) (col0 R) + Real.sqrt d.y • outer (col1 R) (col1 R) + Real.sqrt d.z • outer (col2 R) (col2 R)

open Classical in
/-- matrix3.py:105-135 `polar_decomposition`; `eigh` stands for `np.linalg.eigh`. -/
noncomputable def polar_decomposition (eigh : M3 → V3 × M3) (A : M3) : Except PyErr (M3 × M3) :=
  let e := eigh (A.transpose.mul A)
  if ¬ (0 < e.1.x ∧ 0 < e.1.y ∧ 0 < e.1.z) then .error .valueError
  else do
    let S := polarS e.1 e.2
    let Si ← inv S
    return (A.mul Si, S)

/-- A numpy array that is one 3x3 matrix or a stack (n-by-3-by-3) of them. -/
inductive Arr
  | mat (A : M3)
  | stack (As : List M3)

/-- matrix3.py:138-168 `polar_decomposition_array`. The first line `As.transpose(0, 2, 1)` raises ValueError ("axes don't match
array") for an array that is not three-dimensional. On a stack every matrix is treated as in `polar_decomposition`, and one bad
eigenvalue anywhere raises. -/
noncomputable def polar_decomposition_array (eigh : M3 → V3 × M3) : Arr → Except PyErr (Arr × Arr)
  | .mat _ => .error .valueError
  | .stack As => do
    let r ← As.mapM (polar_decomposition eigh)
    return (.stack (r.map (·.1)), .stack (r.map (·.2)))

end M3

namespace Mech

open M3

/-- mechanics.py:5-12 `right_cauchy_strain_tensor`, one matrix. -/
def right_cauchy_strain_tensor (F : M3) : M3 := F.transpose.mul F

/-- mechanics.py:15-24 `green_strain_tensor`, one matrix. -/
noncomputable def green_strain_tensor (F : M3) : M3 := (1 / 2 : ℝ) • (right_cauchy_strain_tensor F - M3.identity)

open Classical in
/-- mechanics.py:93-101 `first_lame`. -/
noncomputable def first_lame (E nu : ℝ) : Except PyErr ℝ :=
  if (1 + nu) * (1 - 2 * nu) = 0 then .error .zeroDivision else .ok ((nu * E) / ((1 + nu) * (1 - 2 * nu)))

open Classical in
/-- mechanics.py:104-112 `second_lame`. -/
noncomputable def second_lame (E nu : ℝ) : Except PyErr ℝ :=
  if 2 * (1 + nu) = 0 then .error .zeroDivision else .ok (E / (2 * (1 + nu)))

/-- mechanics.py:132, 153: the modified second parameter of SNH. -/
noncomputable def snhMu (mu_in : ℝ) : ℝ := (4.0 / 3.0) * mu_in
/-- mechanics.py:133, 154: the modified first parameter of SNH. -/
noncomputable def snhLambda (lambda_in mu_in : ℝ) : ℝ := lambda_in + (5.0 / 6.0) * mu_in
/-- mechanics.py:134, 155. -/
noncomputable def snhAlpha (lambda_in mu_in : ℝ) : ℝ :=
  1 + (snhMu mu_in / snhLambda lambda_in mu_in) - (snhMu mu_in / (4 * snhLambda lambda_in mu_in))

/-- mechanics.py:139-142: dJdF. -/
def dJdF (F : M3) : M3 :=
  make_from_cols (V3.cross (col1 F) (col2 F)) (V3.cross (col2 F) (col0 F)) (V3.cross (col0 F) (col1 F))

open Classical in
/-- mechanics.py:122-143 `SNH.pk1_stress` (division of Python floats). -/
noncomputable def SNH.pk1_stress (F : M3) (lambda_in mu_in : ℝ) : Except PyErr M3 :=
  if snhLambda lambda_in mu_in = 0 then .error .zeroDivision
  else
    let J := det F
    let I_C := trace (F.transpose.mul F)
    .ok ((snhMu mu_in * (1 - (1 / (I_C + 1)))) • F + (snhLambda lambda_in mu_in * (J - snhAlpha lambda_in mu_in)) • dJdF F)

open Classical in
/-- mechanics.py:145-163 `SNH.energy_density`; `np.log2` is the logarithm to base 2. -/
noncomputable def SNH.energy_density (F : M3) (lambda_in mu_in : ℝ) : Except PyErr ℝ :=
  if snhLambda lambda_in mu_in = 0 then .error .zeroDivision
  else
    let J := det F
    let I_C := trace (F.transpose.mul F)
    .ok (0.5 * snhMu mu_in * (I_C - 3) + 0.5 * snhLambda lambda_in mu_in * (J - snhAlpha lambda_in mu_in) ^ 2
      - 0.5 * snhMu mu_in * Real.logb 2 (I_C + 1))

/-- mechanics.py:171-184 `SVK.pk1_stress`. -/
noncomputable def SVK.pk1_stress (F : M3) (lambda_in mu_in : ℝ) : Except PyErr M3 :=
  let E := green_strain_tensor F
  let S := (lambda_in * trace E) • M3.identity + (2 * mu_in) • E
  .ok (F.mul S)

/-- `np.tensordot(A, B)`: the sum of the products of corresponding entries. -/
def tensordot (A B : M3) : ℝ :=
  A.m00 * B.m00 + A.m01 * B.m01 + A.m02 * B.m02 + A.m10 * B.m10 + A.m11 * B.m11 + A.m12 * B.m12 +
    A.m20 * B.m20 + A.m21 * B.m21 + A.m22 * B.m22

/-- mechanics.py:186-196 `SVK.energy_density`. -/
noncomputable def SVK.energy_density (F : M3) (lambda_in mu_in : ℝ) : Except PyErr ℝ :=
  let E := green_strain_tensor F
  .ok (0.5 * lambda_in * trace E ^ 2 + mu_in * tensordot E E)

/-- mechanics.py:204-215 `COR.pk1_stress` on one 3x3 deformation gradient, the way `compute_elastic_forces` calls it. -/
noncomputable def COR.pk1_stress (eigh : M3 → V3 × M3) (F : M3) (lambda_in mu_in : ℝ) : Except PyErr M3 := do
  let RS ← polar_decomposition_array eigh (.mat F)
  match RS with
  | (.mat R, .mat S) => return (lambda_in * trace (S - M3.identity)) • R + (2 * mu_in) • (F - R)
  | _ => .error .typeError

/-- mechanics.py:217-229 `COR.energy_density` on one 3x3 deformation gradient. -/
noncomputable def COR.energy_density (eigh : M3 → V3 × M3) (F : M3) (lambda_in mu_in : ℝ) : Except PyErr ℝ := do
  let RS ← polar_decomposition_array eigh (.mat F)
  match RS with
  | (.mat R, .mat S) => return mu_in * tensordot (F - R) (F - R) + (lambda_in / 2) * trace (S - M3.identity) ^ 2
  | _ => .error .typeError

end Mech

end Verif
