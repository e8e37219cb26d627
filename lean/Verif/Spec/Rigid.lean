import Verif.Spec.Linear

/-! Mechanics vocabulary used in the statements about the rigid body simulator. -/

namespace Verif

/-- The velocity of the material point at p of a body with centre of mass r, velocity v and angular velocity w. -/
def pointVelocity (r v w p : V3) : V3 := v + V3.cross w (p - r)

/-- The moment about o of a force F applied at r together with a torque T. -/
def moment (o r F T : V3) : V3 := V3.cross (r - o) F + T

/-- A right-handed orthonormal frame. -/
def IsFrame (s t n : V3) : Prop :=
  V3.dot s s = 1 ∧ V3.dot t t = 1 ∧ V3.dot n n = 1 ∧ V3.dot s t = 0 ∧ V3.dot t n = 0 ∧ V3.dot s n = 0 ∧
    V3.cross s t = n

end Verif
