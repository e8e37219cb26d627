import Verif.Model.RigidBody

/-! Model of `rainbow/simulators/prox_rigid_bodies/api.py`.

Objects held by the engine are values: a shape is shared by reference in Python but no API function changes a shape after
`create_shape`; forces likewise.  A hinge refers to its links by name (`engine.bodies[name]` is never replaced).
In every function all `raise` statements come before the first write, so an exception leaves the engine as it was. -/

namespace Verif.Rigid

/-- types.py:111-152 `RigidBody` with its index. -/
structure BodyObj where
  idx : ℕ
  body : RigidBody

/-- types.py:304-353 `Hinge`; `none` is Python's None. -/
structure HingeObj where
  name : String
  idx : ℕ
  parent : Option String
  child : Option String
  socket_p : Option CoordSys
  socket_c : Option CoordSys
  arm_p : Option V3
  arm_c : Option V3
  axis_p : Option V3
  axis_c : Option V3

/-- types.py:311-327 `Hinge.__init__`. -/
def HingeObj.init (name : String) (idx : ℕ) : HingeObj := ⟨name, idx, none, none, none, none, none, none, none, none⟩

/-- types.py:329-340 `set_parent_socket`. -/
def HingeObj.set_parent_socket (h : HingeObj) (body : String) (socket : CoordSys) : HingeObj :=
  { h with parent := some body, socket_p := some socket, arm_p := some socket.r,
           axis_p := some (Quat.rotate socket.q V3.k) }

/-- types.py:342-353 `set_child_socket`. -/
def HingeObj.set_child_socket (h : HingeObj) (body : String) (socket : CoordSys) : HingeObj :=
  { h with child := some body, socket_c := some socket, arm_c := some socket.r,
           axis_c := some (Quat.rotate socket.q V3.k) }

/-- types.py:433-445 `Engine`. -/
structure Engine where
  bodies : Dict String BodyObj
  forces : Dict String Force
  shapes : Dict String Shape
  hinges : Dict String HingeObj
  surfaces_interactions : SurfacesInteractionLibrary
  params : Params
  has_stepper : Bool

namespace Engine

/-- api.py:42-53 `create_engine`. -/
noncomputable def create_engine : Engine :=
  ⟨Dict.empty, Dict.empty, Dict.empty, Dict.empty, SurfacesInteractionLibrary.init, Params.init, true⟩

/-- `if body_name in engine.bodies: body = engine.bodies[body_name] else: raise RuntimeError`. -/
def findBody (e : Engine) (name : String) : Except PyErr BodyObj :=
  if e.bodies.mem name then e.bodies.getItem name else .error .runtimeError

/-- Assignment to fields of the body object called name. -/
def updateBody (e : Engine) (name : String) (f : RigidBody → RigidBody) : Except PyErr Engine := do
  let b ← e.findBody name
  return { e with bodies := e.bodies.setItem name { b with body := f b.body } }

/-- api.py:56-68 `create_rigid_body`. -/
def create_rigid_body (e : Engine) (body_name : String) : Except PyErr Engine :=
  if e.bodies.mem body_name then .error .runtimeError
  else .ok { e with bodies := e.bodies.setItem body_name ⟨e.bodies.len, RigidBody.init body_name⟩ }

/-- api.py:71-83 `create_hinge`. -/
def create_hinge (e : Engine) (hinge_name : String) : Except PyErr Engine :=
  if e.hinges.mem hinge_name then .error .runtimeError
  else .ok { e with hinges := e.hinges.setItem hinge_name (HingeObj.init hinge_name e.hinges.len) }

/-- The `mode` argument of `set_hinge`; any other string is `other`. -/
inductive Mode | world | body | model | other
  deriving DecidableEq

/-- api.py:116-134: the origin and the axis of the joint in world coordinates; a parent without shape raises
AttributeError in mode "model". -/
def hingeFrame (parent : RigidBody) (origin axis : V3) (mode : Mode) : Except PyErr (V3 × V3) :=
  match mode with
  | .world => .ok (origin, axis)
  | .body => .ok (Quat.rotate parent.q origin + parent.r, Quat.rotate parent.q axis)
  | .model => match parent.shape with
    | none => .error .attributeError
    | some sh =>
      let o_body := Quat.rotate (Quat.conjugate sh.q) (origin - sh.r)
      let s_body := Quat.rotate (Quat.conjugate sh.q) axis
      .ok (Quat.rotate parent.q o_body + parent.r, Quat.rotate parent.q s_body)
  | .other => .error .valueError

/-- api.py:136-155: both sockets from the world frame of the joint. -/
noncomputable def setSockets (hinge : HingeObj) (parent_name child_name : String) (parent child : RigidBody)
    (o_world s_world : V3) : HingeObj :=
  let tbn := V3.make_orthonormal_vectors s_world
  let R_world := M3.make_from_cols tbn.1 tbn.2.1 tbn.2.2
  let q_world := Quat.from_matrix R_world
  let q_parent_socket := Quat.prod (Quat.conjugate parent.q) q_world
  let q_child_socket := Quat.prod (Quat.conjugate child.q) q_world
  let r_parent_socket := Quat.rotate (Quat.conjugate parent.q) (o_world - parent.r)
  let r_child_socket := Quat.rotate (Quat.conjugate child.q) (o_world - child.r)
  let parent_socket := CoordSys.make r_parent_socket q_parent_socket
  let child_socket := CoordSys.make r_child_socket q_child_socket
  (hinge.set_parent_socket parent_name parent_socket).set_child_socket child_name child_socket

/-- `if hinge_name in engine.hinges: hinge = engine.hinges[hinge_name] else: raise RuntimeError`. -/
def findHinge (e : Engine) (name : String) : Except PyErr HingeObj :=
  if e.hinges.mem name then e.hinges.getItem name else .error .runtimeError
/-- `if shape_name in engine.shapes: ...`. -/
def findShape (e : Engine) (name : String) : Except PyErr Shape :=
  if e.shapes.mem name then e.shapes.getItem name else .error .runtimeError
/-- `if force_name in engine.forces: ...`. -/
def findForce (e : Engine) (name : String) : Except PyErr Force :=
  if e.forces.mem name then e.forces.getItem name else .error .runtimeError

/-- api.py:86-155 `set_hinge`. -/
noncomputable def set_hinge (e : Engine) (hinge_name parent_name child_name : String) (origin axis : V3) (mode : Mode) :
    Except PyErr Engine := do
  let hinge ← e.findHinge hinge_name
  let parent ← e.findBody parent_name
  let child ← e.findBody child_name
  let os ← hingeFrame parent.body origin axis mode
  let hinge := setSockets hinge parent_name child_name parent.body child.body os.1 os.2
  return { e with hinges := e.hinges.setItem hinge_name hinge }

/-- api.py:176-242 `create_shape`.  The mass properties and the body frame (`xform_model_2_body_space`, property C49) and
the signed distance grid are computed from the mesh; the model takes the result `(r, q, mass, inertia)` as an argument. -/
def create_shape (e : Engine) (shape_name : String) (r : V3) (q : Quat) (mass : ℝ) (inertia : V3) : Except PyErr Engine :=
  if e.shapes.mem shape_name then .error .runtimeError
  else .ok { e with shapes := e.shapes.setItem shape_name ⟨shape_name, mass, inertia, r, q⟩ }

/-- api.py:245-281 `connect_shape`; the bounding volume hierarchy is left out. -/
def connect_shape (e : Engine) (body_name shape_name : String) : Except PyErr Engine := do
  let _ ← e.findBody body_name
  let shape ← e.findShape shape_name
  e.updateBody body_name fun b => { b with shape := some shape }

open Classical in
/-- api.py:284-307 `create_gravity_force`. -/
noncomputable def create_gravity_force (e : Engine) (force_name : String) (g : ℝ) (up : V3) : Except PyErr Engine :=
  if e.forces.mem force_name then .error .runtimeError
  else if g ≤ 0.0 then .error .runtimeError
  else .ok { e with forces := e.forces.setItem force_name ⟨force_name, .gravity g (V3.unit up)⟩ }

open Classical in
/-- api.py:310-333 `create_damping_force`. -/
noncomputable def create_damping_force (e : Engine) (force_name : String) (alpha beta : ℝ) : Except PyErr Engine :=
  if e.forces.mem force_name then .error .runtimeError
  else if alpha ≤ 0 then .error .runtimeError
  else if beta ≤ 0 then .error .runtimeError
  else .ok { e with forces := e.forces.setItem force_name ⟨force_name, .damping alpha beta⟩ }

/-- api.py:336-355 `connect_force`.  `force in body.forces` compares objects; forces are created once under their unique
name, so objects are equal iff their names are. -/
def connect_force (e : Engine) (body_name force_name : String) : Except PyErr Engine := do
  let b ← e.findBody body_name
  let force ← e.findForce force_name
  if b.body.forces.any (fun f => f.name == force.name) then .error .runtimeError
  else e.updateBody body_name fun b => { b with forces := b.forces ++ [force] }

/-- api.py:373-413: the body position that puts the model frame's origin at r. -/
def modelPosition (b : RigidBody) (sh : Shape) (r : V3) : V3 :=
  let q_mf2wcs := Quat.prod b.q (Quat.conjugate sh.q)
  Quat.rotate q_mf2wcs sh.r + r

/-- api.py:358-415 `set_position`. -/
def set_position (e : Engine) (body_name : String) (r : V3) (use_model_frame : Bool) : Except PyErr Engine := do
  let b ← e.findBody body_name
  if use_model_frame then
    match b.body.shape with
    | none => .error .attributeError
    | some sh => e.updateBody body_name fun b => { b with r := modelPosition b sh r }
  else e.updateBody body_name fun b => { b with r := r }

/-- api.py:418-430 `get_position`. -/
def get_position (e : Engine) (body_name : String) : Except PyErr V3 := return (← e.findBody body_name).body.r

/-- api.py:449-487: the body placement after giving the model frame the orientation q. -/
noncomputable def modelOrientation (b : RigidBody) (sh : Shape) (q : Quat) : Quat × V3 :=
  let q_mf2wcs := Quat.prod b.q (Quat.conjugate sh.q)
  let r_mf2wcs := b.r - Quat.rotate q_mf2wcs sh.r
  let q_mf2wcs := Quat.unit q
  (Quat.prod q_mf2wcs sh.q, Quat.rotate q_mf2wcs sh.r + r_mf2wcs)

/-- api.py:433-489 `set_orientation`. -/
noncomputable def set_orientation (e : Engine) (body_name : String) (q : Quat) (use_model_frame : Bool) :
    Except PyErr Engine := do
  let b ← e.findBody body_name
  if use_model_frame then
    match b.body.shape with
    | none => .error .attributeError
    | some sh => e.updateBody body_name fun b =>
        { b with q := (modelOrientation b sh q).1, r := (modelOrientation b sh q).2 }
  else e.updateBody body_name fun b => { b with q := Quat.unit q }

/-- api.py:492-504 `get_orientation`. -/
def get_orientation (e : Engine) (body_name : String) : Except PyErr Quat := return (← e.findBody body_name).body.q
/-- api.py:507-520 `set_velocity`. -/
def set_velocity (e : Engine) (body_name : String) (v : V3) : Except PyErr Engine :=
  e.updateBody body_name fun b => { b with v := v }
/-- api.py:523-535 `get_velocity`. -/
def get_velocity (e : Engine) (body_name : String) : Except PyErr V3 := return (← e.findBody body_name).body.v
/-- api.py:538-551 `set_spin`. -/
def set_spin (e : Engine) (body_name : String) (w : V3) : Except PyErr Engine :=
  e.updateBody body_name fun b => { b with w := w }
/-- api.py:554-566 `get_spin`. -/
def get_spin (e : Engine) (body_name : String) : Except PyErr V3 := return (← e.findBody body_name).body.w

/-- api.py:569-587 `set_mass_properties`. -/
def set_mass_properties (e : Engine) (body_name : String) (density : ℝ) : Except PyErr Engine := do
  let b ← e.findBody body_name
  match b.body.shape with
  | none => .error .runtimeError
  | some sh => e.updateBody body_name fun b =>
      { b with mass := sh.mass * density, inertia := density • sh.inertia }

/-- api.py:590-607 `set_body_type`. -/
def set_body_type (e : Engine) (body_name body_type : String) : Except PyErr Engine := do
  let _ ← e.findBody body_name
  if body_type ∈ ["fixed", "Fixed", "FIXED"] then e.updateBody body_name fun b => { b with is_fixed := true }
  else if body_type ∈ ["free", "Free", "FREE"] then e.updateBody body_name fun b => { b with is_fixed := false }
  else .error .runtimeError

/-- api.py:610-621 `is_fixed_body`. -/
def is_fixed_body (e : Engine) (body_name : String) : Except PyErr Bool := return (← e.findBody body_name).body.is_fixed

/-- api.py:624-643 `set_body_material`. -/
def set_body_material (e : Engine) (body_name material_name : String) : Except PyErr Engine := do
  let _ ← e.findBody body_name
  if !e.surfaces_interactions.exist_material material_name then .error .runtimeError
  else e.updateBody body_name fun b => { b with material := material_name }

open Classical in
/-- api.py:646-673 `create_surfaces_interaction`; `tmp.sort()` of a two-element list swaps iff the second is smaller. -/
noncomputable def create_surfaces_interaction (e : Engine) (A B : String) (epsilon : ℝ) (mu : V3) : Except PyErr Engine :=
  if e.surfaces_interactions.exist_interaction A B then .error .runtimeError
  else if epsilon < 0.0 then .error .runtimeError
  else if mu.x < 0.0 then .error .runtimeError
  else if mu.y < 0.0 then .error .runtimeError
  else if mu.z < 0.0 then .error .runtimeError
  else
    let key := if B < A then (B, A) else (A, B)
    .ok { e with surfaces_interactions := ⟨e.surfaces_interactions.storage.setItem key ⟨mu, epsilon⟩⟩ }

/-- One call of an API function that changes the engine. -/
inductive Op
  | createBody (n : String)
  | createHinge (n : String)
  | setHinge (h p c : String) (origin axis : V3) (mode : Mode)
  | createShape (n : String) (r : V3) (q : Quat) (mass : ℝ) (inertia : V3)
  | connectShape (b s : String)
  | createGravity (n : String) (g : ℝ) (up : V3)
  | createDamping (n : String) (alpha beta : ℝ)
  | connectForce (b f : String)
  | setPosition (b : String) (r : V3) (m : Bool)
  | setOrientation (b : String) (q : Quat) (m : Bool)
  | setVelocity (b : String) (v : V3)
  | setSpin (b : String) (w : V3)
  | setMass (b : String) (density : ℝ)
  | setType (b t : String)
  | setMaterial (b m : String)
  | createInteraction (A B : String) (epsilon : ℝ) (mu : V3)

/-- The call. -/
noncomputable def call (e : Engine) : Op → Except PyErr Engine
  | .createBody n => e.create_rigid_body n
  | .createHinge n => e.create_hinge n
  | .setHinge h p c o a m => e.set_hinge h p c o a m
  | .createShape n r q m i => e.create_shape n r q m i
  | .connectShape b s => e.connect_shape b s
  | .createGravity n g up => e.create_gravity_force n g up
  | .createDamping n a b => e.create_damping_force n a b
  | .connectForce b f => e.connect_force b f
  | .setPosition b r m => e.set_position b r m
  | .setOrientation b q m => e.set_orientation b q m
  | .setVelocity b v => e.set_velocity b v
  | .setSpin b w => e.set_spin b w
  | .setMass b d => e.set_mass_properties b d
  | .setType b t => e.set_body_type b t
  | .setMaterial b m => e.set_body_material b m
  | .createInteraction A B ep mu => e.create_surfaces_interaction A B ep mu

/-- The engine after a call: an exception leaves it unchanged. -/
noncomputable def after (e : Engine) (op : Op) : Engine := (e.call op).toOption.getD e

/-- The engine after a history of calls on a new engine. -/
noncomputable def history (ops : List Op) : Engine := ops.foldl after create_engine

/-! ### What the simulator sees -/

/-- The i-th value of `engine.bodies`. -/
def bodyAt (e : Engine) (i : Fin e.bodies.len) : BodyObj := (e.bodies.entries.get i).2

/-- The hinge as the simulation code reads it: `hinge.parent.idx`, `hinge.arm_p`, ...; none if a socket was never set
(Python would raise AttributeError). -/
def toHinge (e : Engine) (h : HingeObj) : Option (Hinge e.bodies.len) := do
  let p ← e.bodies.get? (← h.parent)
  let c ← e.bodies.get? (← h.child)
  let arm_p ← h.arm_p
  let arm_c ← h.arm_c
  let axis_p ← h.axis_p
  let axis_c ← h.axis_c
  if hp : p.idx < e.bodies.len then
    if hc : c.idx < e.bodies.len then some ⟨⟨p.idx, hp⟩, ⟨c.idx, hc⟩, arm_p, arm_c, axis_p, axis_c⟩ else none
  else none

/-- The world the stepper works on. -/
def toWorld (e : Engine) : Option (World e.bodies.len) := do
  let hs ← e.hinges.values.mapM e.toHinge
  return { bodies := fun i => (e.bodyAt i).body, forces := e.forces.values, hinges := hs, contact_points := [],
           surfaces_interactions := e.surfaces_interactions, params := e.params }

end Engine

end Verif.Rigid
