import Verif.Model.Vec
import Verif.Model.While

/-! Model of `rainbow/simulators/proximal_contact/proximal_operators.py` and
`rainbow/simulators/prox_rigid_bodies/prox_operators.py`.  The triple (z_s, z_t, z_tau) is a `V3`. -/

namespace Verif.Prox

open Classical in
/-- proximal_operators.py:6-24 `prox_sphere` (the same code as prox_rigid_bodies/prox_operators.py:14-34). -/
noncomputable def prox_sphere (z : V3) (mu x_n : ℝ) : V3 :=
  if x_n ≤ 0 then ⟨0, 0, 0⟩ else
  let radius := mu * x_n
  let sqr_z_norm := z.x * z.x + z.y * z.y + z.z * z.z
  if sqr_z_norm ≤ radius * radius then z else
  let scale := radius / Real.sqrt sqr_z_norm
  ⟨z.x * scale, z.y * scale, z.z * scale⟩

/-- proximal_operators.py:28-39 `prox_origin`. -/
def prox_origin (_z : V3) (_mu _x_n : ℝ) : V3 := ⟨0, 0, 0⟩

/-- The fields of `engine.params` that `prox_ellipsoid` reads. -/
structure EllipsoidParams where
  tolerance : ℝ
  expansion : ℝ
  max_iterations : ℕ

/-- proximal_operators.py:93-98 and the three copies below: the function g(t) of the squared, scaled values. -/
noncomputable def ellG (aa bb cc xx yy zz t : ℝ) : ℝ :=
  (aa * xx) / (aa + t) ^ 2 + (bb * yy) / (bb + t) ^ 2 + (cc * zz) / (cc + t) ^ 2 - 1

open Classical in
/-- proximal_operators.py:105-112: `while g1 > 0` (state t1; g1 is the value at t1). -/
noncomputable def expandStep (p : EllipsoidParams) (g : ℝ → ℝ) : LoopStep ℝ := fun t1 =>
  if g t1 > 0 then .ok (some (t1 * p.expansion)) else .ok none

open Classical in
/-- proximal_operators.py:115-132: the bisection loop, at most n trips, on (t0, t1, tk). -/
noncomputable def bisect (tol : ℝ) (g : ℝ → ℝ) : ℕ → ℝ × ℝ × ℝ → ℝ × ℝ × ℝ
  | 0, s => s
  | n + 1, (t0, t1, tk) =>
    if |t1 - t0| < tol then (t0, t1, tk)
    else if |g tk| < tol then (t0, t1, tk)
    else
      let t0' := if g tk > 0 then tk else t0
      let t1' := if g tk > 0 then t1 else tk
      bisect tol g n (t0', t1', (t0' + t1') * 0.5)

open Classical in
/-- proximal_operators.py:43-140 `prox_ellipsoid` (mu = (mu_s, mu_t, mu_tau)).  In compiled numba code the division
by a zero half axis at line 87 raises ZeroDivisionError. -/
noncomputable def prox_ellipsoid (p : EllipsoidParams) (z mu : V3) (x_n : ℝ) : Except PyErr V3 :=
  if x_n ≤ 0 then .ok ⟨0, 0, 0⟩ else
  if mu.x = 0 ∧ mu.y = 0 ∧ mu.z = 0 then .ok (prox_origin z mu.x x_n) else
  if mu.x = mu.y ∧ mu.x = mu.z then .ok (prox_sphere z mu.x x_n) else
  let a := mu.x * x_n
  let b := mu.y * x_n
  let c := mu.z * x_n
  let scale := 1 / max 1 (max a (max b (max c (max |z.x| (max |z.y| |z.z|)))))
  let sa := scale * a
  let sb := scale * b
  let sc := scale * c
  let sx := scale * z.x
  let sy := scale * z.y
  let sz := scale * z.z
  let saa := sa * sa
  let sbb := sb * sb
  let scc := sc * sc
  let sxx := sx * sx
  let syy := sy * sy
  let szz := sz * sz
  if saa = 0 ∨ sbb = 0 ∨ scc = 0 then .error .zeroDivision else
  let f0 := sxx / saa + syy / sbb + szz / scc - 1
  if f0 < p.tolerance then .ok z else
  let t1 := max sa (max sb sc) * Real.sqrt (sx * sx + sy * sy + sz * sz)
  let g := ellG saa sbb scc sxx syy szz
  match whileLoop (expandStep p g) t1 with
  | .error e => .error e
  | .ok t1 =>
    let tk := (0 + t1) * 0.5
    let tk := (bisect p.tolerance g p.max_iterations (0, t1, tk)).2.2
    let tk := tk / (scale * scale)
    .ok ⟨(a * a * z.x) / (a * a + tk), (b * b * z.y) / (b * b + tk), (c * c * z.z) / (c * c + tk)⟩

end Verif.Prox
