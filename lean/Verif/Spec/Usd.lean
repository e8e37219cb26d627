import Verif.Model.Usd

/-! What a program that records an animation can observe. -/

namespace Verif.Usd

/-- In the history h the positions V of the mesh were recorded for the time t: a call with V succeeded, and none was made later for the same mesh and time. -/
def Recorded (px : Pxr) (h : List Call) (name : String) (t : ℝ) (V : List V3) : Prop :=
  ∃ h1 h2, h = h1 ++ Call.setPositions name V t :: h2 ∧ (call px (run px new h1) (.setPositions name V t)).1 = .ok () ∧
    ∀ W, Call.setPositions name W t ∉ h2

/-- The mesh was added with the vertices V, and not added again. -/
def Added (px : Pxr) (h : List Call) (name : String) (V : List V3) : Prop :=
  ∃ h1 h2 T, h = h1 ++ Call.addMesh name V T :: h2 ∧ (call px (run px new h1) (.addMesh name V T)).1 = .ok () ∧
    ∀ W T', Call.addMesh name W T' ∉ h2

/-- The pose (r, q) of a rigid body was recorded for the time t, and no call was made later for the same body and time. -/
def PoseRecorded (px : Pxr) (h : List Call) (name : String) (t : ℝ) (r : V3) (q : Quat) : Prop :=
  ∃ h1 h2, h = h1 ++ Call.updateRigid name [r.x, r.y, r.z] [q.s, q.x, q.y, q.z] t :: h2 ∧
    (call px (run px new h1) (.updateRigid name [r.x, r.y, r.z] [q.s, q.x, q.y, q.z] t)).1 = .ok () ∧ ∀ r' q', Call.updateRigid name r' q' t ∉ h2

/-- Where a transform of a prim moves a point at the time of a sample. -/
noncomputable def XOp.place (o : XOp) (t : ℝ) (p : V3) : Option V3 :=
  match o.type, o.samples.get? t with
  | .translate, some [x, y, z] => some (p + ⟨x, y, z⟩)
  | .orient, some [s, x, y, z] => some (Quat.rotate ⟨s, x, y, z⟩ p)
  | _, _ => none

/-- Where a viewer shows the point p of a prim at the time of a sample: the last transform of the list acts first. -/
noncomputable def placed (s : Stage) (name : String) (t : ℝ) (p : V3) : Option V3 :=
  (s.prims.get? name).bind fun prim => prim.ops.foldr (fun o a => a.bind (o.place t)) (some p)

end Verif.Usd
