import Verif.Model.Dict
import Verif.Model.Quaternion

/-! util/USD.py: the recorder of animations.  Pixar's library is not modelled but described: a stage is a dictionary of prims by path; an attribute
has a default value and time samples; reading it at a time follows USD's value resolution (the default when there are no samples, a sample at its own
time, linear interpolation between two samples with as many points, the earlier sample if they have not, the nearest sample outside).  A path is
given by the name alone, `/scene/xform/<name>`; which names Pixar accepts is the parameter `legal`; rounding to single precision is the parameter
`f32` (points are stored as `Vec3f`; the rounding of an interpolated value is left out).  The calls return their outcome together with the state they leave, also when they raise. -/

namespace Verif.Usd

/-- An attribute of a prim: default value and time samples. -/
structure Attr where
  dflt : Option (List V3)
  samples : Dict ℝ (List V3)

/-- The sample at the latest time not after t. -/
noncomputable def lower (t : ℝ) : List (ℝ × List V3) → Option (ℝ × List V3)
  | [] => none
  | e :: L => match lower t L with
    | none => if e.1 ≤ t then some e else none
    | some b => if e.1 ≤ t ∧ b.1 < e.1 then some e else some b

/-- The sample at the earliest time not before t. -/
noncomputable def upper (t : ℝ) : List (ℝ × List V3) → Option (ℝ × List V3)
  | [] => none
  | e :: L => match upper t L with
    | none => if t ≤ e.1 then some e else none
    | some b => if t ≤ e.1 ∧ e.1 < b.1 then some e else some b

/-- A point on the way from p to q. -/
noncomputable def lerp (a : ℝ) (p q : V3) : V3 := ⟨p.x + a * (q.x - p.x), p.y + a * (q.y - p.y), p.z + a * (q.z - p.z)⟩

/-- `attr.Get(time)` -/
noncomputable def Attr.get (a : Attr) (t : ℝ) : Option (List V3) :=
  match lower t a.samples.entries, upper t a.samples.entries with
  | some l, some u =>
    if l.1 = u.1 then some l.2
    else if l.2.length = u.2.length then some (List.zipWith (lerp ((t - l.1) / (u.1 - l.1))) l.2 u.2)
    else some l.2
  | some l, none => some l.2
  | none, some u => some u.2
  | none, none => a.dflt

inductive OpType
  | translate
  | orient
  deriving DecidableEq

/-- An `XformOp`: its type and its time samples (three numbers, or four with the scalar part of the quaternion first). -/
structure XOp where
  type : OpType
  samples : Dict ℝ (List ℝ)

/-- A mesh prim, as far as USD.py writes to it. -/
structure Prim where
  points : Attr
  counts : Option (List ℕ)
  indices : Option (List ℕ)
  ops : List XOp

/-- A prim that was just defined. -/
def Prim.fresh : Prim := ⟨⟨none, .empty⟩, none, none, []⟩

structure Stage where
  prims : Dict String Prim
  startTime : Option ℝ
  endTime : Option ℝ
  fps : Option ℝ

/-- `UsdGeom.Mesh.Define(stage, path)`: a prim that exists is kept. -/
def Stage.define (s : Stage) (name : String) : Stage := if s.prims.mem name then s else { s with prims := s.prims.setItem name .fresh }

/-- A write to the prim at the path. -/
def Stage.edit (s : Stage) (name : String) (f : Prim → Prim) : Stage :=
  match s.prims.get? name with
  | some p => { s with prims := s.prims.setItem name (f p) }
  | none => s

/-- What the dictionary `meshes` holds: a `_XFormableWrapper` or a `UsdGeom.Mesh`; both refer to the prim of that name. -/
inductive Handle
  | rigid
  | mesh
  deriving DecidableEq

/-- An instance of `USD`; `file` is what stands in the file (`none` before the first `save`). -/
structure USD where
  stage : Stage
  meshes : Dict String Handle
  file : Option Stage

/-- What is not modelled of Pixar's library: which names it accepts in a path, and single precision. -/
structure Pxr where
  legal : String → Bool
  f32 : ℝ → ℝ

/-- `Vt.Vec3fArray(V)` -/
def Pxr.vec3f (px : Pxr) (V : List V3) : List V3 := V.map fun p => ⟨px.f32 p.x, px.f32 p.y, px.f32 p.z⟩

/-- USD.py:33-37 `USD.__init__` -/
def new : USD := ⟨⟨.empty, none, none, none⟩, .empty, none⟩

/-- USD.py:39-50, 150-167 `add_rigid_body`, with `_XFormableWrapper.__init__`.  The array T of triangles is taken to be flattened by Pixar's library. -/
def add_rigid_body (px : Pxr) (u : USD) (name : String) (V : List V3) (T : List (ℕ × ℕ × ℕ)) : Except PyErr Unit × USD :=
  if u.meshes.mem name then (.error .valueError, u)
  else if px.legal name = false then (.error .runtimeError, u)
  else
    let stage := u.stage.define name
    let stage := stage.edit name fun p => { p with points := { p.points with dflt := some (px.vec3f V) } }
    let stage := stage.edit name fun p => { p with indices := some (T.flatMap fun t => [t.1, t.2.1, t.2.2]) }
    let stage := stage.edit name fun p => { p with counts := some (List.replicate T.length 3) }
    (.ok (), { u with stage := stage, meshes := u.meshes.setItem name .rigid })

/-- USD.py:195-206 `_get_xform_op`, followed by `Set`: the first op of the type, or a new one at the end. -/
noncomputable def setOp (ty : OpType) (v : List ℝ) (t : ℝ) : List XOp → List XOp
  | [] => [⟨ty, Dict.empty.setItem t v⟩]
  | o :: os => if o.type = ty then { o with samples := o.samples.setItem t v } :: os else o :: setOp ty v t os

/-- USD.py:169-180 `set_translation` -/
noncomputable def set_translation (s : Stage) (name : String) (translation : List ℝ) (time : ℝ) : Except PyErr Stage :=
  if translation.length ≠ 3 then .error .valueError
  else .ok (s.edit name fun p => { p with ops := setOp .translate translation time p.ops })

/-- USD.py:182-193 `set_orientation` -/
noncomputable def set_orientation (s : Stage) (name : String) (orientation : List ℝ) (time : ℝ) : Except PyErr Stage :=
  if orientation.length ≠ 4 then .error .valueError
  else .ok (s.edit name fun p => { p with ops := setOp .orient orientation time p.ops })

/-- USD.py:52-72 `update_rigid_body` -/
noncomputable def update_rigid_body (u : USD) (name : String) (translation orientation : List ℝ) (time : ℝ) : Except PyErr Unit × USD :=
  match u.meshes.get? name with
  | none => (.error .valueError, u)
  | some .mesh => (.error .typeError, u)
  | some .rigid =>
    match set_translation u.stage name translation time with
    | .error e => (.error e, u)
    | .ok s1 =>
      match set_orientation s1 name orientation time with
      | .error e => (.error e, { u with stage := s1 })
      | .ok s2 => (.ok (), { u with stage := s2 })

/-- USD.py:74-86 `add_mesh`; `np.concatenate` of no faces raises. -/
def add_mesh (px : Pxr) (u : USD) (name : String) (V : List V3) (T : List (List ℕ)) : Except PyErr Unit × USD :=
  if px.legal name = false then (.error .runtimeError, u)
  else
    let stage := u.stage.define name
    let stage := stage.edit name fun p => { p with points := { p.points with dflt := some (px.vec3f V) } }
    let stage := stage.edit name fun p => { p with counts := some (T.map List.length) }
    if T = [] then (.error .valueError, { u with stage := stage })
    else
      let stage := stage.edit name fun p => { p with indices := some T.flatten }
      (.ok (), { u with stage := stage, meshes := u.meshes.setItem name .mesh })

/-- USD.py:88-101 `set_mesh_positions`; a `_XFormableWrapper` has no `GetPointsAttr`. -/
noncomputable def set_mesh_positions (px : Pxr) (u : USD) (name : String) (V : List V3) (time : ℝ) : Except PyErr Unit × USD :=
  match u.meshes.get? name with
  | none => (.error .valueError, u)
  | some .rigid => (.error .attributeError, u)
  | some .mesh =>
    (.ok (), { u with stage := u.stage.edit name fun p => { p with points := { p.points with samples := p.points.samples.setItem time (px.vec3f V) } } })

/-- USD.py:103-123 `get_mesh_positions` -/
noncomputable def get_mesh_positions (u : USD) (name : String) (time : ℝ) : Except PyErr (List V3) :=
  match u.meshes.get? name with
  | none => .error .valueError
  | some .rigid => .error .attributeError
  | some .mesh =>
    match (u.stage.prims.get? name).bind fun p => p.points.get time with
    | none => .error .valueError
    | some [] => .error .valueError
    | some V => .ok V

/-- USD.py:125-133 `set_animation_time` -/
def set_animation_time (u : USD) (duration : ℝ) : USD := { u with stage := { u.stage with startTime := some 0, endTime := some duration } }

/-- USD.py:135-136 `set_frames_per_second` -/
def set_frames_per_second (u : USD) (fps : ℝ) : USD := { u with stage := { u.stage with fps := some fps } }

/-- USD.py:138-142 `save` -/
def save (u : USD) : USD := { u with file := some u.stage }

/-- The calls a program can make. -/
inductive Call
  | addRigid (name : String) (V : List V3) (T : List (ℕ × ℕ × ℕ))
  | updateRigid (name : String) (translation orientation : List ℝ) (time : ℝ)
  | addMesh (name : String) (V : List V3) (T : List (List ℕ))
  | setPositions (name : String) (V : List V3) (time : ℝ)
  | setTime (duration : ℝ)
  | setFps (fps : ℝ)
  | save

/-- The outcome of a call and the state it leaves. -/
noncomputable def call (px : Pxr) (u : USD) : Call → Except PyErr Unit × USD
  | .addRigid n V T => add_rigid_body px u n V T
  | .updateRigid n r q t => update_rigid_body u n r q t
  | .addMesh n V T => add_mesh px u n V T
  | .setPositions n V t => set_mesh_positions px u n V t
  | .setTime d => (.ok (), set_animation_time u d)
  | .setFps f => (.ok (), set_frames_per_second u f)
  | .save => (.ok (), Usd.save u)

/-- A program that makes these calls one after the other and catches what they raise. -/
noncomputable def run (px : Pxr) (u : USD) (h : List Call) : USD := h.foldl (fun u c => (call px u c).2) u

end Verif.Usd
