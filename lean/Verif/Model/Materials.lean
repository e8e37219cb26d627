import Verif.Model.SoftMech

/-! Model of the rest of `rainbow/simulators/prox_soft_bodies/mechanics.py`: named materials and the Cauchy stress. -/

namespace Verif.Mech

/-- mechanics.py:42-90 `create_material_parameters`: Young modulus, Poisson ratio and mass density. `str.lower()` is `String.toLower`, which
changes ASCII letters only; the one non-ASCII character that Python lowers to an ASCII letter is the Kelvin sign (k), which occurs in none
of the names. The tests of the code are a chain of `if`s, of which at most one applies. -/
noncomputable def create_material_parameters (name : Option String) : ℝ × ℝ × ℝ :=
  match name with
  | none => (10e5, 0.3, 1000)
  | some name =>
    let P : ℝ × ℝ × ℝ := (10e5, 0.3, 1000)
    let P := if name.toLower = "cartilage" then (0.69e6, 0.018, 1000) else P
    let P := if name.toLower = "cortical bone" then (16.16e9, 0.33, 1600) else P
    let P := if name.toLower = "cancellous bone" then (452e6, 0.3, 1600) else P
    let P := if name.toLower = "rubber" then (0.01e9, 0.48, 1050) else P
    let P := if name.toLower = "concrete" then (30e9, 0.20, 2320) else P
    let P := if name.toLower = "copper" then (125e9, 0.35, 8900) else P
    let P := if name.toLower = "steel" then (210e9, 0.31, 7800) else P
    let P := if name.toLower = "aluminium" then (72e9, 0.34, 2700) else P
    let P := if name.toLower = "glass" then (50e9, 0.18, 2190) else P
    P

open Classical in
/-- mechanics.py:35-38 for one matrix of the stack. numpy divides by a zero determinant with a warning and goes on with infinities; here
that is an error. -/
noncomputable def cauchyOne (F S : M3) : Except PyErr M3 :=
  let j := F.det
  if j = 0 then .error .runtimeWarning else .ok ((1 / j) • F.mul (S.mul F.transpose))

/-- numpy broadcasting of two stacks (n-by-3-by-3): equal lengths, or one of them has length one; ValueError otherwise. -/
def broadcast (F S : List M3) : Except PyErr (List (M3 × M3)) :=
  if F.length = S.length then .ok (F.zip S)
  else match F, S with
    | F, [s] => .ok (F.map fun f => (f, s))
    | [f], S => .ok (S.map fun s => (f, s))
    | _, _ => .error .valueError

/-- mechanics.py:27-39 `cauchy_stress_tensor` on stacks of matrices. -/
noncomputable def cauchy_stress_tensor (F S : List M3) : Except PyErr (List M3) := do
  let L ← broadcast F S
  L.mapM fun p => cauchyOne p.1 p.2

end Verif.Mech
