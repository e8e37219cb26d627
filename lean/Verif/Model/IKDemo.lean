import Verif.Model.InverseKin
import Verif.Model.CoordSys

/-! Model of the remaining methods of `rainbow/simulators/inverse_kinematics/types.py` and of `sandbox/demo_inverse_kinematics.py`.  The text
representations are left out. -/

namespace Verif.IK

namespace Bone

/-- types.py:36-39 `is_root` (the model writes `none` for the parent -1). -/
def is_root (b : Bone) : Bool := if b.parent = none then true else false

/-- types.py:46-47 `has_parent`. -/
def has_parent (b : Bone) : Bool := !b.is_root

/-- types.py:65-66 `get_axis_alpha`. -/
def get_axis_alpha (b : Bone) : V3 := b.get_axis 0
/-- types.py:68-69 `get_axis_beta`. -/
def get_axis_beta (b : Bone) : V3 := b.get_axis 1
/-- types.py:71-72 `get_axis_gamma`. -/
def get_axis_gamma (b : Bone) : V3 := b.get_axis 2

end Bone

/-- types.py:99-102 `has_root`. -/
def has_root (S : Skeleton) : Bool := if S.length > 0 then true else false

/-- types.py:104-107 `has_bone`. -/
def has_bone (S : Skeleton) (idx : ℤ) : Bool := if (S.length : ℤ) > idx ∧ idx ≥ 0 then true else false

/-- `B.idx` of the bone B that `create_root` and `add_bone` return, which is the last of the skeleton (api.py:52-61, 84-97). -/
def newIdx (S : Skeleton) : ℤ :=
  match S.getLast? with
  | some b => b.idx
  | none => -1

/-- demo_inverse_kinematics.py:11-18 `show_simple_setup` up to the printing. -/
noncomputable def show_simple_setup (limit : ℕ) : Except PyErr (Skeleton × List Chain) := do
  let S := create_skeleton
  let S ← create_root S (degrees_to_radians 0) 0.0 0.0 1.0 0.0 0.0 "ZYZ"
  let S ← add_bone S (newIdx S) (degrees_to_radians 0) 0.0 0.0 1.0 0.0 0.0 "ZYZ"
  let S ← add_bone S (newIdx S) (degrees_to_radians 0) 0.0 0.0 1.0 0.0 0.0 "ZYZ"
  let S ← add_bone S (newIdx S) (degrees_to_radians 0) 0.0 0.0 1.0 0.0 0.0 "ZYZ"
  let S ← update_skeleton limit S
  let chains ← make_chains S
  return (S, chains)

end Verif.IK
