import Verif.Spec.Linear
import Mathlib.Analysis.SpecialFunctions.Trigonometric.Sinc

/-! The exact exponential map R³ → unit quaternions, written with Mathlib's `cos` and `sinc`. -/

namespace Verif

/-- The unit quaternion of the rotation by the angle |v| about v:
cos(|v|/2) + sin(|v|/2) v/|v|, with the continuous value 1 at v = 0. -/
noncomputable def exactExp (v : V3) : Quat :=
  let θ := Real.sqrt (v.x ^ 2 + v.y ^ 2 + v.z ^ 2)
  let k := Real.sinc (θ / 2) / 2
  ⟨Real.cos (θ / 2), k * v.x, k * v.y, k * v.z⟩

/-- Two quaternions represent the same rotation: they agree up to sign. -/
def SameRotation (p q : Quat) : Prop := p = q ∨ p = ⟨-q.s, -q.x, -q.y, -q.z⟩

end Verif
