import Verif.Model.ExpMap

/-! Model of the derivatives in `rainbow/math/expmap.py`. -/

namespace Verif
namespace ExpMap

open Classical in
/-- expmap.py:118-140 `dvdt`.  Outside the series branch `cotp = cosp / sinp` divides Python floats: ZeroDivisionError if
sinp is zero. -/
noncomputable def dvdt (omega v : V3) : Except PyErr V3 :=
  let theta := V3.norm v
  let cosp := Real.cos (0.5 * theta)
  let sinp := Real.sin (0.5 * theta)
  if theta < 1e-6 then
    let gamma := (12.0 - theta ^ 2) / 6.0
    let eta := V3.dot v omega * (60.0 + theta ^ 2) / 360.0
    .ok ((0.5 : ℝ) • (gamma • omega + V3.cross omega v - eta • v))
  else if sinp = 0 then .error .zeroDivision
  else
    let cotp := cosp / sinp
    let gamma := theta * cotp
    let eta := V3.dot v omega / theta * (cotp - 2.0 / theta)
    .ok ((0.5 : ℝ) • (gamma • omega + V3.cross omega v - eta • v))

/-- `v[i]`. -/
def entry (v : V3) : Fin 3 → ℝ := ![v.x, v.y, v.z]

open Classical in
/-- expmap.py:153-173: `dQdv_i` after the assertion.  The entries i+1, i1+1, i2+1 written are the three vector entries. -/
noncomputable def dQdv (v : V3) (i : Fin 3) : Quat :=
  let theta := V3.norm v
  if theta < 1e-6 then
    let Tsinc := 0.5 - theta ^ 2 / 48.0
    let vTerm := entry v i * (theta ^ 2 / 40.0 - 1.0) / 24.0
    let e : Fin 3 → ℝ := fun j => if j = i then entry v i * vTerm + Tsinc else entry v j * vTerm
    ⟨-0.5 * entry v i * Tsinc, e 0, e 1, e 2⟩
  else
    let cosp := Real.cos (0.5 * theta)
    let sinp := Real.sin (0.5 * theta)
    let ang := 1.0 / theta
    let sang := sinp * ang
    let cterm := entry v i * ang ^ 2 * (0.5 * cosp - sang)
    let e : Fin 3 → ℝ := fun j => if j = i then cterm * entry v i + sang else cterm * entry v j
    ⟨-0.5 * entry v i * sang, e 0, e 1, e 2⟩

/-- expmap.py:143-174 `dQdv_i`. -/
noncomputable def dQdv_i (v : V3) (i : ℤ) : Except PyErr Quat :=
  if h : 0 ≤ i ∧ i < 3 then .ok (dQdv v ⟨i.toNat, by omega⟩) else .error .assertionError

/-- expmap.py:177-214 `__dRdv_i`. -/
def dR (q d : Quat) : M3 :=
  let prod0 := -4 * q.x * d.x
  let prod1 := -4 * q.y * d.y
  let prod2 := -4 * q.z * d.z
  let prod3 := 2 * (q.y * d.x + q.x * d.y)
  let prod4 := 2 * (q.s * d.z + q.z * d.s)
  let prod5 := 2 * (q.z * d.x + q.x * d.z)
  let prod6 := 2 * (q.s * d.y + q.y * d.s)
  let prod7 := 2 * (q.z * d.y + q.y * d.z)
  let prod8 := 2 * (q.s * d.x + q.x * d.s)
  ⟨prod1 + prod2, prod3 - prod4, prod5 + prod6, prod3 + prod4, prod0 + prod2, prod7 - prod8, prod5 - prod6, prod7 + prod8,
    prod0 + prod1⟩

/-- expmap.py:217-231 `dRdv_i`. -/
noncomputable def dRdv_i (v : V3) (i : ℤ) : Except PyErr M3 := do
  let q := exp v
  let dQdvi ← dQdv_i v i
  return dR q dQdvi

end ExpMap
end Verif
