import Verif.Model.Quaternion
import Verif.Model.While

/-! Model of `rainbow/simulators/inverse_kinematics/types.py` and `api.py`.

A skeleton is the list of its bones.  Python bones are objects that are changed in place; here a call returns the new list.  Arrays with two
indices are functions of row and column.  Left out: the text representations and `Chain.skeleton`, which nothing reads. -/

namespace Verif.IK

/-- The letters of an Euler code. -/
inductive Axis
  | X
  | Y
  | Z
  deriving DecidableEq

/-- types.py:5-17 `Bone`.  The Euler code is stored as its three letters; `parent` is None for -1. -/
structure Bone where
  idx : ℕ
  euler_code : Fin 3 → Axis
  alpha : ℝ
  beta : ℝ
  gamma : ℝ
  q_wcs : Quat
  t_wcs : V3
  t : V3
  parent : Option ℕ
  children : List ℕ

/-- types.py:83-87 `Skeleton`. -/
abbrev Skeleton := List Bone

/-- types.py:110-116 `Chain`. -/
structure Chain where
  bones : List ℕ
  goal : V3
  tool : V3

/-- types.py:50-55: the axis of a letter. -/
def Axis.vec : Axis → V3
  | .X => V3.i
  | .Y => V3.j
  | .Z => V3.k

/-- types.py:58-63: the rotation about the axis of a letter. -/
noncomputable def Axis.rot (a : Axis) (radians : ℝ) : Quat :=
  match a with
  | .X => Quat.Rx radians
  | .Y => Quat.Ry radians
  | .Z => Quat.Rz radians

namespace Bone

/-- types.py:49-55 `get_axis`. -/
def get_axis (b : Bone) (idx : Fin 3) : V3 := (b.euler_code idx).vec

/-- types.py:57-63 `get_rotation`. -/
noncomputable def get_rotation (b : Bone) (idx : Fin 3) (radians : ℝ) : Quat := (b.euler_code idx).rot radians

/-- types.py:74-75 `get_rotation_alpha`. -/
noncomputable def get_rotation_alpha (b : Bone) : Quat := b.get_rotation 0 b.alpha
/-- types.py:77-78 `get_rotation_beta`. -/
noncomputable def get_rotation_beta (b : Bone) : Quat := b.get_rotation 1 b.beta
/-- types.py:80-81 `get_rotation_gamma`. -/
noncomputable def get_rotation_gamma (b : Bone) : Quat := b.get_rotation 2 b.gamma

/-- types.py:41-44 `is_end_effector`. -/
def is_end_effector (b : Bone) : Bool := b.children.isEmpty

end Bone

/-- api.py:15-16: the supported Euler codes. -/
def validCodes : List String :=
  ["XZX", "XYX", "YXY", "YZY", "ZYZ", "ZXZ"] ++ ["XZY", "XYZ", "YXZ", "YZX", "ZYX", "ZXY"]

/-- api.py:8-21 `__is_valid_euler_code`. -/
def is_valid_euler_code (euler_code : String) : Bool := validCodes.contains euler_code

/-- The letters of a code, as types.py:50-63 read them. -/
def codeAxes (s : String) : Fin 3 → Axis := fun i =>
  match s.toList[(i : ℕ)]? with
  | some 'X' => .X
  | some 'Y' => .Y
  | _ => .Z

/-- api.py:24-31 `create_skeleton`. -/
def create_skeleton : Skeleton := []

/-- api.py:34-61 `create_root`. -/
def create_root (S : Skeleton) (alpha beta gamma tx ty tz : ℝ) (euler_code : String) : Except PyErr Skeleton :=
  if 0 < S.length then .error .runtimeError
  else if ¬ is_valid_euler_code euler_code then .error .runtimeError
  else .ok (S ++ [{ idx := 0, euler_code := codeAxes euler_code, alpha := alpha, beta := beta, gamma := gamma, q_wcs := Quat.identity,
                    t_wcs := V3.zero, t := ⟨tx, ty, tz⟩, parent := none, children := [] }])

/-- api.py:64-97 `add_bone`. -/
def add_bone (S : Skeleton) (parent_idx : ℤ) (alpha beta gamma tx ty tz : ℝ) (euler_code : String) : Except PyErr Skeleton :=
  if ¬ (0 ≤ parent_idx ∧ parent_idx < S.length) then .error .runtimeError
  else if ¬ is_valid_euler_code euler_code then .error .runtimeError
  else
    .ok (S.modify parent_idx.toNat (fun p => { p with children := p.children ++ [S.length] }) ++
      [{ idx := S.length, euler_code := codeAxes euler_code, alpha := alpha, beta := beta, gamma := gamma, q_wcs := Quat.identity,
         t_wcs := V3.zero, t := ⟨tx, ty, tz⟩, parent := some parent_idx.toNat, children := [] }])

/-- `skeleton.bones[idx]`. -/
def getBone (S : Skeleton) (idx : ℕ) : Except PyErr Bone :=
  match S[idx]? with
  | none => .error .indexError
  | some b => .ok b

/-- api.py:115-118: the rotation of the joint. -/
noncomputable def Bone.q_bone (b : Bone) : Quat :=
  Quat.prod b.get_rotation_alpha (Quat.prod b.get_rotation_beta b.get_rotation_gamma)

/-- api.py:120-124, 258-260, 310-312: the world pose of the parent of a bone. -/
def parentPose (S : Skeleton) (b : Bone) : Except PyErr (V3 × Quat) :=
  match b.parent with
  | none => .ok (V3.zero, Quat.identity)
  | some p => (getBone S p).map fun p => (p.t_wcs, p.q_wcs)

/-- api.py:125-126: the new world pose of a bone. -/
noncomputable def Bone.moved (b : Bone) (P : V3 × Quat) : Bone :=
  { b with t_wcs := P.1 + Quat.rotate P.2 b.t, q_wcs := Quat.prod P.2 b.q_bone }

/-- api.py:100-129 `__update_bone` of the bone with the given index; `limit` is the recursion depth Python still allows, RecursionError
(a RuntimeError) beyond it. -/
noncomputable def update_bone : (limit : ℕ) → Skeleton → ℕ → Except PyErr Skeleton
  | 0, _, _ => .error .runtimeError
  | limit + 1, S, i => do
    let bone ← getBone S i
    let P ← parentPose S bone
    bone.children.foldlM (fun S idx => update_bone limit S idx) (S.set i (bone.moved P))

/-- api.py:132-143 `update_skeleton`. -/
noncomputable def update_skeleton (limit : ℕ) (S : Skeleton) : Except PyErr Skeleton := update_bone limit S 0

/-- api.py:159-161: one trip of the loop; the state is the current bone and the list so far. -/
def chainTrip (S : Skeleton) : LoopStep (Bone × List ℕ) := fun s =>
  match s.1.parent with
  | none => .ok none
  | some p => (getBone S p).map fun b => some (b, s.2 ++ [s.1.idx])

/-- api.py:146-164 `__make_chain`; default goal (10, 0, 0) and tool (types.py:115-116). -/
noncomputable def make_chain (end_effector : Bone) (S : Skeleton) : Except PyErr Chain := do
  let s ← whileLoop (chainTrip S) (end_effector, [])
  return ⟨(s.2 ++ [s.1.idx]).reverse, ⟨10, 0, 0⟩, V3.zero⟩

/-- api.py:167-191 `make_chains`. -/
noncomputable def make_chains (S : Skeleton) : Except PyErr (List Chain) :=
  (S.filter Bone.is_end_effector).mapM fun bone => make_chain bone S

/-- `a[i] = v` on a numpy array of shape (n,). -/
def putItem (a : List ℝ) (i : ℕ) (v : ℝ) : Except PyErr (List ℝ) := if i < a.length then .ok (a.set i v) else .error .indexError

/-- `a[i]` on a numpy array of shape (n,). -/
def getItem (a : List ℝ) (i : ℕ) : Except PyErr ℝ :=
  match a[i]? with
  | none => .error .indexError
  | some v => .ok v

/-- api.py:194-208 `get_joint_angles`. -/
def get_joint_angles (S : Skeleton) : Except PyErr (List ℝ) :=
  S.foldlM (fun angles bone => do
    let angles ← putItem angles (bone.idx * 3 + 0) bone.alpha
    let angles ← putItem angles (bone.idx * 3 + 1) bone.beta
    putItem angles (bone.idx * 3 + 2) bone.gamma) (List.replicate (S.length * 3) 0)

/-- api.py:211-224 `set_joint_angles`. -/
def set_joint_angles (S : Skeleton) (angles : List ℝ) : Except PyErr Skeleton :=
  S.mapM fun bone => do
    let alpha ← getItem angles (bone.idx * 3 + 0)
    let beta ← getItem angles (bone.idx * 3 + 1)
    let gamma ← getItem angles (bone.idx * 3 + 2)
    return { bone with alpha := alpha, beta := beta, gamma := gamma }

/-- api.py:227-239 `get_end_effector`. -/
noncomputable def get_end_effector (chain : Chain) (S : Skeleton) : Except PyErr V3 :=
  match chain.bones.getLast? with
  | none => .error .indexError
  | some i => (getBone S i).map fun b => b.t_wcs + Quat.rotate b.q_wcs chain.tool

/-- A numpy array with two indices. -/
abbrev Array2 := ℕ → ℕ → ℝ

/-- `J[row:row + 3, col] = v`. -/
def setCol (J : Array2) (row col : ℕ) (v : V3) : Array2 := fun r c =>
  if c = col then
    if r = row then v.x else if r = row + 1 then v.y else if r = row + 2 then v.z else J r c
  else J r c

/-- `J[row:row + 3, col]`. -/
def getCol (J : Array2) (row col : ℕ) : V3 := ⟨J row col, J (row + 1) col, J (row + 2) col⟩

/-- api.py:263-269 and 313-322: the three world axes of a joint, q_parent the orientation of the parent. -/
noncomputable def worldAxes (bone : Bone) (q_parent : Quat) : V3 × V3 × V3 :=
  let q_alpha := bone.get_rotation_alpha
  let q_alpha_beta := Quat.prod q_alpha bone.get_rotation_beta
  let u := Quat.rotate q_parent (bone.get_axis 0)
  let v := Quat.rotate q_parent (Quat.rotate q_alpha (bone.get_axis 1))
  let w := Quat.rotate q_parent (Quat.rotate q_alpha_beta (bone.get_axis 2))
  (u, v, w)

/-- api.py:257-279: the columns of one bone of a chain with end effector e. -/
noncomputable def jacobianBone (S : Skeleton) (e : V3) (row : ℕ) (J : Array2) (idx : ℕ) : Except PyErr Array2 := do
  let bone ← getBone S idx
  let P ← parentPose S bone
  let A := worldAxes bone P.2
  let delta_p := e - bone.t_wcs
  return setCol (setCol (setCol J row (idx * 3 + 0) (V3.cross A.1 delta_p)) row (idx * 3 + 1) (V3.cross A.2.1 delta_p)) row (idx * 3 + 2)
    (V3.cross A.2.2 delta_p)

/-- api.py:254-280: the rows of one chain; the state is J and row_offset. -/
noncomputable def jacobianChain (S : Skeleton) (s : Array2 × ℕ) (chain : Chain) : Except PyErr (Array2 × ℕ) := do
  let e ← get_end_effector chain S
  let J ← chain.bones.foldlM (jacobianBone S e s.2) s.1
  return (J, s.2 + 3)

/-- api.py:242-281 `compute_jacobian`. -/
noncomputable def compute_jacobian (chains : List Chain) (S : Skeleton) : Except PyErr Array2 := do
  let s ← chains.foldlM (jacobianChain S) ((fun _ _ => 0), 0)
  return s.1

/-- api.py:343-345: the 3x3 array, with rows J_a, J_b, J_c and columns u, v, w. -/
noncomputable def dH (A Jk : V3 × V3 × V3) (r : V3) (i j : ℕ) : ℝ :=
  let a := if j = 0 then A.1 else if j = 1 then A.2.1 else A.2.2
  let c := if i = 0 then Jk.1 else if i = 1 then Jk.2.1 else Jk.2.2
  V3.dot (V3.cross a c) r

/-- `H[i0:i0 + 3, j0:j0 + 3] -= D`. -/
def subBlock (H : Array2) (i0 j0 : ℕ) (D : Array2) : Array2 := fun i j =>
  if i0 ≤ i ∧ i < i0 + 3 ∧ j0 ≤ j ∧ j < j0 + 3 then H i j - D (i - i0) (j - j0) else H i j

/-- api.py:304-350: one pass of the inner loop, for the bones k and h. -/
noncomputable def hessianPair (S : Skeleton) (J : Array2) (r : V3) (row k : ℕ) (H : Array2) (h : ℕ) : Except PyErr Array2 :=
  if h > k then .ok H
  else do
    let Bh ← getBone S h
    let P ← parentPose S Bh
    let A := worldAxes Bh P.2
    let D := dH A (getCol J row (k * 3), getCol J row (k * 3 + 1), getCol J row (k * 3 + 2)) r
    let H := subBlock H (h * 3) (k * 3) D
    return if h ≠ k then subBlock H (k * 3) (h * 3) (fun i j => D j i) else H

/-- api.py:300-352: one chain; the state is H and row_offset. -/
noncomputable def hessianChain (S : Skeleton) (J : Array2) (s : Array2 × ℕ) (chain : Chain) : Except PyErr (Array2 × ℕ) := do
  let e ← get_end_effector chain S
  let r := chain.goal - e
  let H ← chain.bones.foldlM (fun H k => chain.bones.foldlM (hessianPair S J r s.2 k) H) s.1
  return (H, s.2 + 3)

/-- api.py:284-353 `compute_hessian`. -/
noncomputable def compute_hessian (chains : List Chain) (S : Skeleton) (J : Array2) : Except PyErr Array2 := do
  let H : Array2 := fun i j => ∑ r ∈ Finset.range (chains.length * 3), J r i * J r j
  let s ← chains.foldlM (hessianChain S J) (H, 0)
  return s.1

/-- `r[row:row + 3] = v`. -/
def setRows (r : ℕ → ℝ) (row : ℕ) (v : V3) : ℕ → ℝ := fun i =>
  if i = row then v.x else if i = row + 1 then v.y else if i = row + 2 then v.z else r i

/-- api.py:371-374: one chain; the state is r and row_offset. -/
noncomputable def residualChain (S : Skeleton) (s : (ℕ → ℝ) × ℕ) (chain : Chain) : Except PyErr ((ℕ → ℝ) × ℕ) := do
  let e ← get_end_effector chain S
  return (setRows s.1 s.2 (chain.goal - e), s.2 + 3)

/-- api.py:356-376 `compute_gradient`. -/
noncomputable def compute_gradient (chains : List Chain) (S : Skeleton) (J : Array2) : Except PyErr (ℕ → ℝ) := do
  let s ← chains.foldlM (residualChain S) ((fun _ => 0), 0)
  return fun i => -∑ r ∈ Finset.range (chains.length * 3), J r i * s.1 r

/-- api.py:379-396 `compute_objective`. -/
noncomputable def compute_objective (chains : List Chain) (S : Skeleton) : Except PyErr ℝ := do
  let f ← chains.foldlM (fun f chain => do
    let e ← get_end_effector chain S
    let r := chain.goal - e
    return f + V3.dot r r) 0
  return f * 0.5

/-- The assignment of one angle of a bone. -/
def Bone.setAngle (b : Bone) (offset : ℕ) (value : ℝ) : Bone :=
  if offset = 0 then { b with alpha := value } else if offset = 1 then { b with beta := value } else { b with gamma := value }

/-- One angle of a bone. -/
def Bone.angle (b : Bone) (offset : ℕ) : ℝ := if offset = 0 then b.alpha else if offset = 1 then b.beta else b.gamma

/-- api.py:399-418 `set_angle` (idx not negative). -/
def set_angle (idx : ℕ) (value : ℝ) (S : Skeleton) : Except PyErr Skeleton := do
  let k := idx / 3
  let offset := idx % 3
  let b ← getBone S k
  return S.set k (b.setAngle offset value)

/-- api.py:421-439 `get_angle` (idx not negative). -/
def get_angle (idx : ℕ) (S : Skeleton) : Except PyErr ℝ := do
  let b ← getBone S (idx / 3)
  return b.angle (idx % 3)

/-- `update_skeleton` followed by `compute_objective`. -/
noncomputable def updateObjective (limit : ℕ) (chains : List Chain) (S : Skeleton) : Except PyErr (ℝ × Skeleton) := do
  let S ← update_skeleton limit S
  let f ← compute_objective chains S
  return (f, S)

/-- api.py:491-511 `__numerical_differentiation_first_derivative` (the divisor is taken to be non-zero). -/
noncomputable def first_derivative (limit : ℕ) (chains : List Chain) (S : Skeleton) (i : ℕ) (h : ℝ) : Except PyErr (ℝ × Skeleton) := do
  let theta_i ← get_angle i S
  let S ← set_angle i (theta_i + h) S
  let (f_iph, S) ← updateObjective limit chains S
  let S ← set_angle i (theta_i - h) S
  let (f_imh, S) ← updateObjective limit chains S
  let S ← set_angle i theta_i S
  return ((f_iph - f_imh) / (2 * h), S)

/-- api.py:455-466: the second derivative for i = j. -/
noncomputable def second_derivative_diag (limit : ℕ) (chains : List Chain) (S : Skeleton) (i : ℕ) (h : ℝ) : Except PyErr (ℝ × Skeleton) := do
  let (f_i, S) ← updateObjective limit chains S
  let theta_i ← get_angle i S
  let S ← set_angle i (theta_i + h) S
  let (f_iph, S) ← updateObjective limit chains S
  let S ← set_angle i (theta_i - h) S
  let (f_imh, S) ← updateObjective limit chains S
  let S ← set_angle i theta_i S
  return ((f_iph - 2 * f_i + f_imh) / (h * h), S)

/-- `set_angle(i, …); set_angle(j, …); update_skeleton; compute_objective`. -/
noncomputable def objectiveAt (limit : ℕ) (chains : List Chain) (i j : ℕ) (a b : ℝ) (S : Skeleton) : Except PyErr (ℝ × Skeleton) := do
  let S ← set_angle i a S
  let S ← set_angle j b S
  updateObjective limit chains S

/-- api.py:467-488: the second derivative for i ≠ j. -/
noncomputable def second_derivative_mixed (limit : ℕ) (chains : List Chain) (S : Skeleton) (i j : ℕ) (h : ℝ) : Except PyErr (ℝ × Skeleton) := do
  let theta_i ← get_angle i S
  let theta_j ← get_angle j S
  let (f_iph_jph, S) ← objectiveAt limit chains i j (theta_i + h) (theta_j + h) S
  let (f_imh_jph, S) ← objectiveAt limit chains i j (theta_i - h) (theta_j + h) S
  let (f_iph_jmh, S) ← objectiveAt limit chains i j (theta_i + h) (theta_j - h) S
  let (f_imh_jmh, S) ← objectiveAt limit chains i j (theta_i - h) (theta_j - h) S
  let S ← set_angle i theta_i S
  let S ← set_angle j theta_j S
  return ((f_iph_jph - f_iph_jmh - f_imh_jph + f_imh_jmh) / (4 * h * h), S)

/-- api.py:442-488 `__numerical_differentiation_second_derivative` (the divisors are taken to be non-zero). -/
noncomputable def second_derivative (limit : ℕ) (chains : List Chain) (S : Skeleton) (i j : ℕ) (h : ℝ) : Except PyErr (ℝ × Skeleton) :=
  if i = j then second_derivative_diag limit chains S i h else second_derivative_mixed limit chains S i j h

/-- api.py:514-532 `compute_finite_difference_gradient`. -/
noncomputable def compute_finite_difference_gradient (limit : ℕ) (chains : List Chain) (S : Skeleton) (h : ℝ) :
    Except PyErr (List ℝ × Skeleton) :=
  (List.range (S.length * 3)).foldlM (fun s i => do
    let (d, S) ← first_derivative limit chains s.2 i h
    return (s.1 ++ [d], S)) ([], S)

/-- api.py:535-554 `compute_finite_difference_hessian`: one row. -/
noncomputable def finiteRow (limit : ℕ) (chains : List Chain) (N : ℕ) (S : Skeleton) (i : ℕ) (h : ℝ) : Except PyErr (List ℝ × Skeleton) :=
  (List.range N).foldlM (fun s j => do
    let (d, S) ← second_derivative limit chains s.2 i j h
    return (s.1 ++ [d], S)) ([], S)

/-- api.py:535-554 `compute_finite_difference_hessian`, as the list of its rows. -/
noncomputable def compute_finite_difference_hessian (limit : ℕ) (chains : List Chain) (S : Skeleton) (h : ℝ) :
    Except PyErr (List (List ℝ) × Skeleton) :=
  (List.range (S.length * 3)).foldlM (fun s i => do
    let (row, S) ← finiteRow limit chains (S.length * 3) s.2 i h
    return (s.1 ++ [row], S)) ([], S)

end Verif.IK
