import Verif.Props.UrdfRuns

/-! C92, C93: where `read_urdf` departs from the URDF format. -/

namespace Verif

open Rigid Rigid.Urdf Rigid.SceneM SMesh
open VMesh (Tri)

/-- **C92, the part that holds.** If the inertial frame of the base link is the base link's frame, then every link connected to the
base, the base included, is where the file says, the base link's frame being the world frame, and so is every hinge. -/
theorem C92_placement_partial {links : List Link} {joints : List Joint} {s s' : Scene} {base : Link} {W : CoordSys}
    (hB : RobotBuilt links joints s s' base W) (hW : W = CoordSys.init) :
    (∀ l ∈ links, ∀ col ine, l.collision = some col → l.inertial = some ine →
      ∀ X, LinkFrame joints base.name CoordSys.init l.name X → LinkAt s' l col ine X) ∧
    ∀ j ∈ revolutes joints, ∀ X, LinkFrame joints base.name CoordSys.init j.parent X →
      HingeAt s'.eng j.name j.parent j.child (X.after j.origin).r (Quat.rotate (X.after j.origin).q j.axis) := by
  subst hW
  refine ⟨?_, hB.joint_at⟩
  intro l hl col ine hc hi X hX
  by_cases hn : l.name = base.name
  · obtain ⟨col', ine', hc', hi', -⟩ := hB.base_solid
    have : l = base := solid_unique hB.names.1 hl hB.base_mem hc hc' hn
    subst this
    have : X = CoordSys.init := by
      generalize hnn : l.name = nn at hX
      cases hX with
      | root => rfl
      | @child j X hj hr hF => exact absurd hnn.symm (hB.base_root j (mem_revolutes.2 ⟨hj, hr⟩))
    subst this
    exact hB.base_at col ine hc hi
  · exact hB.link_at l hl hn col ine hc hi X hX

/-- The body stands where the link frame X puts the file's inertial frame: same points. -/
def BodyAt (s : Scene) (l : Link) (ine : Inertial) (X : CoordSys) : Prop :=
  ∃ o, s.eng.bodies.get? l.name = some o ∧ ∀ v, bodyToWorld o.body v = CoordSys.xform_point (X.after ine.origin) v

theorem LinkAt.bodyAt {s : Scene} {l : Link} {col : Geometry} {ine : Inertial} {X : CoordSys} (h : LinkAt s l col ine X) :
    BodyAt s l ine X := by
  obtain ⟨o, m, h1, h2, -⟩ := h
  refine ⟨o, h1, fun v => ?_⟩
  unfold bodyToWorld CoordSys.xform_point
  rw [h2.1, h2.2]

theorem after_cancel {A B C : CoordSys} (hC : C.Rigid)
    (h : ∀ v, CoordSys.xform_point (A.after C) v = CoordSys.xform_point (B.after C) v) (v : V3) :
    CoordSys.xform_point A v = CoordSys.xform_point B v := by
  have := h (CoordSys.xform_point (CoordSys.inverse C) v)
  rwa [after_xform, after_xform, (C09_inverse C hC v).2.1] at this

/-- **C92, the finding.** Whenever the inertial frame of the base link differs from its link frame and a revolute joint leaves the
base link, no choice of world frame for the base link explains where the bodies are: the robot is assembled wrongly. -/
theorem C92_base_frame {links : List Link} {joints : List Joint} {s s' : Scene} {base : Link} {W : CoordSys}
    (hB : RobotBuilt links joints s s' base W) (hrig : RigidFrames links joints) {v0 : V3} (hW : CoordSys.xform_point W v0 ≠ v0)
    {j : Joint} (hj : j ∈ revolutes joints) (hjp : j.parent = base.name) :
    ¬ ∃ W0 : CoordSys, ∀ l ∈ links, ∀ ine, l.collision ≠ none → l.inertial = some ine →
      ∀ X, LinkFrame joints base.name W0 l.name X → BodyAt s' l ine X := by
  rintro ⟨W0, h⟩
  obtain ⟨col, ine, hc, hi, rfl⟩ := hB.base_solid
  have hWr : ine.origin.Rigid := (hrig.1 base hB.base_mem).2 ine hi
  obtain ⟨o, ho, h1⟩ := h base hB.base_mem ine (by simp [hc]) hi W0 .root
  obtain ⟨o', ho', h2⟩ := (hB.base_at col ine hc hi).bodyAt
  rw [ho] at ho'
  cases ho'
  have hW0 : ∀ v, CoordSys.xform_point W0 v = v := by
    intro v
    have := after_cancel (A := W0) (B := CoordSys.init) hWr (fun v => by rw [← h1, h2]) v
    rw [this]
    exact xform_init v
  obtain ⟨l, hl, hln, lcol, hlc⟩ := solid_get (hB.ends j hj).2
  cases hli : l.inertial with
  | none => exact hB.inertials l hl (by simp [hlc]) hli
  | some line =>
    have hlb : l.name ≠ base.name := by rw [hln]; exact hB.base_root j hj
    have hjm := mem_revolutes.1 hj
    have hf : ∀ Y, LinkFrame joints base.name Y l.name (Y.after j.origin) := by
      intro Y
      rw [hln]
      exact .child hjm.1 hjm.2 (by rw [hjp]; exact .root)
    obtain ⟨p, hp, g1⟩ := h l hl line (by simp [hlc]) hli _ (hf W0)
    obtain ⟨p', hp', g2⟩ := (hB.link_at l hl hlb lcol line hlc hli _ (hf _)).bodyAt
    rw [hp] at hp'
    cases hp'
    have e := after_cancel (A := W0.after j.origin) (B := ine.origin.after j.origin) ((hrig.1 l hl).2 line hli)
      (fun v => by rw [← g1, g2])
    have e' := after_cancel (hrig.2 j hjm.1) e v0
    rw [hW0] at e'
    exact hW e'.symm

/-! ### What is ignored -/

/-- The same link with another scale and other products of inertia in the file. -/
def withScale (l : Link) (sc : List ℝ) (ixy ixz iyz : ℝ) : Link :=
  { l with
    collision := l.collision.map fun c => { c with scale := sc }
    inertial := l.inertial.map fun i => { i with inertia := { i.inertia with ixy := ixy, ixz := ixz, iyz := iyz } } }

/-- **C93, the finding.** The scale of a mesh and the products of inertia have no effect: two files that differ in nothing else give
the same engine (or the same error). -/
theorem C93_scale_ignored (eig : Eig) (links : List Link) (joints : List Joint) (sc : Link → List ℝ) (ixy ixz iyz : Link → ℝ) :
    build eig (links.map fun l => withScale l (sc l) (ixy l) (ixz l) (iyz l)) joints = build eig links joints := by
  have h1 : ∀ robot l, addLink eig robot (withScale l (sc l) (ixy l) (ixz l) (iyz l)) = addLink eig robot l := by
    rintro robot ⟨n, v, _ | c, _ | i⟩ <;> rfl
  unfold build
  rw [List.foldlM_map]
  simp only [h1]

/-! ### Files that are rejected -/

theorem scene_bind {α β : Type} {m : SceneM α} {f : α → SceneM β} {s s' : Scene} {a : α} (h : m s = .ok (a, s')) :
    (m >>= f) s = f a s' := by
  show (m s >>= fun r => f r.1 r.2) = _
  rw [h]
  rfl

theorem scene_bind_error {α β : Type} {m : SceneM α} {f : α → SceneM β} {s : Scene} {e : PyErr} (h : m s = .error e) :
    (m >>= f) s = .error e := by
  show (m s >>= fun r => f r.1 r.2) = _
  rw [h]
  rfl

/-- **C93.** A link with a mesh but without inertial tag: TypeError (the first such link, the links before it being good). -/
theorem C93_no_inertial {eig : Eig} (he : EigSpec eig) {pre post : List Link} {l : Link} {joints : List Joint} {s : Scene} (hok : s.OK)
    (hl : ∀ l ∈ pre, GoodLink l) (hn : (solidNames pre).Nodup)
    (hb : ∀ n ∈ solidNames pre, s.eng.bodies.get? n = none ∧ s.eng.shapes.get? (n ++ "shape") = none)
    (hc : l.collision ≠ none) (hi : l.inertial = none) :
    build eig (pre ++ l :: post) joints s = .error .typeError := by
  obtain ⟨r1, s1, h1⟩ := addLinks_runs he hl hn Dict.empty hok hb
  unfold build
  refine scene_bind_error ?_
  rw [List.foldlM_append, scene_bind h1, List.foldlM_cons]
  refine scene_bind_error ?_
  unfold addLink
  cases hcol : l.collision with
  | none => exact absurd hcol hc
  | some col =>
    rw [hi]
    rfl

/-- **C93.** A revolute joint whose parent or child is unknown or has no mesh: KeyError (the joint's hinge is already created). -/
theorem C93_unknown_link {eig : Eig} (he : EigSpec eig) {links : List Link} {pre post : List Joint} {j : Joint} {s : Scene} (hok : s.OK)
    (h : GoodRobot links pre s) (hj : j.type = "revolute") (hn : j.name ∉ (revolutes pre).map (·.name))
    (hf : s.eng.hinges.get? j.name = none) (hu : j.parent ∉ solidNames links ∨ j.child ∉ solidNames links) :
    build eig links (pre ++ j :: post) s = .error .keyError := by
  obtain ⟨r1, s1, r2, s2, root, h1, h2, -⟩ := goodRobot_start he hok h
  obtain ⟨a1, -, a3, -⟩ := addLinks_ok he hok (fun l hl col hc => (h.good l hl col hc).1.1) h1
  obtain ⟨⟨H, rfl, b2, b3, b4⟩, b5, b6, b7, b8, b9⟩ := addJoints_ok h2
  unfold build
  rw [scene_bind h1]
  refine scene_bind_error ?_
  rw [List.foldlM_append, scene_bind h2, List.foldlM_cons]
  refine scene_bind_error ?_
  unfold addJoint
  rw [if_neg (by simp [hj])]
  have hno : ∀ n, n ∉ solidNames links → r2.get? n = none := fun n hn => b8 n (by rw [a3 n hn]; simp)
  have hfr : H.get? j.name = none := by rw [b3 _ hn, a1.hinges]; exact hf
  have hcr : ∃ e, ({ s1.eng with hinges := H } : Engine).create_hinge j.name = .ok e := by
    unfold Engine.create_hinge
    have := (Dict.get?_eq_none _ _).1 hfr
    rw [if_neg (by simpa using this)]
    exact ⟨_, rfl⟩
  obtain ⟨e, hcr⟩ := hcr
  rw [scene_bind (a := ()) (api_ok.2 ⟨_, hcr, rfl⟩)]
  have hkey : ∀ {r : Robot} {n : String} (f : LinkBody → LinkBody), r.get? n = none → changeLink r n f = .error .keyError := by
    intro r n f hr
    unfold changeLink Dict.getItem
    rw [hr]
    rfl
  simp only [bind, Except.bind]
  cases hp : r2.get? j.parent with
  | none => rw [hkey _ hp]
  | some l =>
    have hc : j.child ∉ solidNames links := by
      rcases hu with hu | hu
      · rw [hno _ hu] at hp; cases hp
      · exact hu
    have : ∀ f, changeLink r2 j.parent f = .ok (r2.setItem j.parent (f l)) := by
      intro f
      unfold changeLink
      rw [getItem_ok_iff.2 hp]
      rfl
    rw [this]
    simp only
    rw [hkey]
    rw [Dict.get?_setItem_ne]
    · exact hno _ hc
    · intro he
      rw [← he, hno _ hc] at hp
      cases hp

/-- **C93.** No link with a mesh is free of a parent: AttributeError. -/
theorem C93_no_root {eig : Eig} (he : EigSpec eig) {links : List Link} {joints : List Joint} {s : Scene} (hok : s.OK)
    (good : ∀ l ∈ links, GoodLink l) (names : (solidNames links).Nodup)
    (fresh : ∀ n ∈ solidNames links, s.eng.bodies.get? n = none ∧ s.eng.shapes.get? (n ++ "shape") = none)
    (jointNames : ((revolutes joints).map (·.name)).Nodup) (freshJoints : ∀ j ∈ revolutes joints, s.eng.hinges.get? j.name = none)
    (ends : ∀ j ∈ revolutes joints, j.parent ∈ solidNames links ∧ j.child ∈ solidNames links)
    (hno : ∀ n ∈ solidNames links, ∃ j ∈ revolutes joints, j.child = n) :
    build eig links joints s = .error .attributeError := by
  have hi : ∀ l ∈ links, ∀ col, l.collision = some col → IndicesBelow col.T col.V.length := fun l hl col hc => (good l hl col hc).1.1
  obtain ⟨r1, s1, h1⟩ := addLinks_runs he good names Dict.empty hok fresh
  obtain ⟨a1, a2, a3, a4⟩ := addLinks_ok he hok hi h1
  have hget : ∀ n ∈ solidNames links, ∃ l, r1.get? n = some l := by
    intro n hn
    obtain ⟨l, hl, rfl, col, hc⟩ := solid_get hn
    obtain ⟨ine, -, -, hg⟩ := a4 l hl col hc
    exact ⟨_, hg⟩
  obtain ⟨r2, s2, h2⟩ := addJoints_runs (joints := joints) (robot := r1) (s := s1) jointNames (by
    intro j hj
    refine ⟨?_, hget _ (ends j hj).1, hget _ (ends j hj).2⟩
    rw [a1.hinges]
    exact freshJoints j hj)
  obtain ⟨-, -, b6, -, b8, b9⟩ := addJoints_ok h2
  have hk2 : r2.keys.Nodup := by rw [b6]; exact a2 (by simp [Dict.empty, Dict.keys])
  unfold build
  rw [scene_bind h1, scene_bind h2]
  cases hf : findRoot r2 with
  | none => rfl
  | some root =>
    exfalso
    obtain ⟨hp, n, hn⟩ := findRoot_some hk2 hf
    cases hr1 : r1.get? n with
    | none => rw [b8 n hr1] at hn; cases hn
    | some l1 =>
      have hmem : n ∈ solidNames links := by
        by_contra hc
        rw [a3 n hc] at hr1
        simp at hr1
      obtain ⟨l', g1, -, -, -, g5⟩ := b9 _ _ hr1
      rw [hn] at g1
      cases g1
      obtain ⟨j, hj, hjc⟩ := hno n hmem
      exact (g5.1 hp).2 j hj hjc

/-! ### A robot with two links -/

/-- A box-shaped link whose inertial frame is at c. -/
noncomputable def boxLink (name : String) (c : V3) : Link :=
  ⟨name, none, some ⟨CoordSys.init, "box.obj", [1, 1, 1], (create_box 1 1 1).1, (create_box 1 1 1).2⟩,
    some ⟨⟨Quat.identity, c⟩, 1, ⟨1, 1, 1, 0, 0, 0⟩⟩⟩

/-- A revolute joint about the z axis. -/
noncomputable def zJoint (name parent child : String) (o : V3) : Joint := ⟨name, "revolute", parent, child, ⟨Quat.identity, o⟩, V3.k⟩

theorem boxLink_good (name : String) (c : V3) : GoodLink (boxLink name c) := by
  intro col hc
  simp only [boxLink, Option.some.injEq] at hc
  subst hc
  exact ⟨box_star one_pos one_pos one_pos, ident_unit, _, rfl, ident_unit⟩

theorem twoLinks_good (c o : V3) : GoodRobot [boxLink "base" c, boxLink "arm" 0] [zJoint "hinge" "base" "arm" o] freshScene := by
  have hs : solidNames [boxLink "base" c, boxLink "arm" 0] = ["base", "arm"] := rfl
  have hr : revolutes [zJoint "hinge" "base" "arm" o] = [zJoint "hinge" "base" "arm" o] := rfl
  constructor
  · intro l hl
    simp only [List.mem_cons, List.not_mem_nil, or_false] at hl
    rcases hl with rfl | rfl <;> exact boxLink_good _ _
  · rw [hs]; decide
  · intro n _; exact ⟨rfl, rfl⟩
  · rw [hr]; simp
  · intro j _; rfl
  · rw [hs, hr]
    intro j hj
    simp only [List.mem_singleton] at hj
    subst hj
    simp [zJoint]
  · rw [hs, hr]
    refine ⟨"base", by simp, ?_⟩
    intro j hj
    simp only [List.mem_singleton] at hj
    subst hj
    simp [zJoint]

theorem twoLinks_tree (o : V3) : TreeJoints [zJoint "hinge" "base" "arm" o] := by
  have hr : revolutes [zJoint "hinge" "base" "arm" o] = [zJoint "hinge" "base" "arm" o] := rfl
  constructor
  · rw [hr]; simp
  · rw [hr]
    intro j hj
    simp only [List.mem_singleton] at hj
    subst hj
    intro h
    have := congrArg V3.z h
    simp [zJoint, V3.k] at this

theorem twoLinks_rigid (c o : V3) : RigidFrames [boxLink "base" c, boxLink "arm" 0] [zJoint "hinge" "base" "arm" o] := by
  constructor
  · intro l hl
    simp only [List.mem_cons, List.not_mem_nil, or_false] at hl
    rcases hl with rfl | rfl <;> refine ⟨fun col hc => ?_, fun ine hi => ?_⟩
    all_goals first
      | (simp only [boxLink, Option.some.injEq] at hc; subst hc; exact ident_unit)
      | (simp only [boxLink, Option.some.injEq] at hi; subst hi; exact ident_unit)
  · intro j hj
    simp only [List.mem_singleton] at hj
    subst hj
    exact ident_unit

/-- **C92, the finding on a concrete robot.** Two boxes and a hinge; the base's centre of mass is off its link frame.  The file is
read without complaint, and no position of the base link explains where the bodies are. -/
theorem C92_placement_fails {eig : Eig} (he : EigSpec eig) : ∃ links joints s', GoodRobot links joints freshScene ∧ TreeJoints joints ∧
    build eig links joints freshScene = .ok ((), s') ∧
    ¬ ∃ W0 : CoordSys, ∀ l ∈ links, ∀ ine, l.collision ≠ none → l.inertial = some ine →
      ∀ X, LinkFrame joints "base" W0 l.name X → BodyAt s' l ine X := by
  have hg := twoLinks_good ⟨1, 0, 0⟩ ⟨0, 0, 1⟩
  have hr := twoLinks_rigid ⟨1, 0, 0⟩ ⟨0, 0, 1⟩
  have ht := twoLinks_tree ⟨0, 0, 1⟩
  obtain ⟨s', base, W, h1, h2⟩ := C92_succeeds he freshScene_ready.ok hg hr.2 ht (fun l hl => (hr.1 l hl).2)
  refine ⟨_, _, s', hg, ht, h1, ?_⟩
  have hb : base = boxLink "base" ⟨1, 0, 0⟩ := by
    have := h2.base_mem
    simp only [List.mem_cons, List.not_mem_nil, or_false] at this
    rcases this with h | h
    · exact h
    · exact absurd (by rw [h]; rfl) (h2.base_root (zJoint "hinge" "base" "arm" ⟨0, 0, 1⟩) (mem_revolutes.2 ⟨by simp, rfl⟩))
  subst hb
  obtain ⟨col, ine, -, hi, hW⟩ := h2.base_solid
  simp only [boxLink, Option.some.injEq] at hi
  subst hi
  simp only at hW
  subst hW
  refine C92_base_frame h2 hr (v0 := 0) ?_ (j := zJoint "hinge" "base" "arm" ⟨0, 0, 1⟩) (mem_revolutes.2 ⟨by simp, rfl⟩) rfl
  unfold CoordSys.xform_point
  rw [show Quat.rotate Quat.identity 0 = 0 from rotate_ident_V3 0, zero_add]
  intro h
  have := congrArg V3.x h
  simp at this

/-- The good case: with the centre of mass at the link frame, both boxes are where the file says. -/
example {eig : Eig} (he : EigSpec eig) : ∃ s' o, build eig [boxLink "base" 0, boxLink "arm" 0] [zJoint "hinge" "base" "arm" ⟨0, 0, 1⟩]
    freshScene = .ok ((), s') ∧ s'.eng.bodies.get? "arm" = some o ∧ o.body.r = ⟨0, 0, 1⟩ := by
  have hg := twoLinks_good 0 ⟨0, 0, 1⟩
  have hr := twoLinks_rigid 0 ⟨0, 0, 1⟩
  have ht := twoLinks_tree ⟨0, 0, 1⟩
  obtain ⟨s', base, W, h1, h2⟩ := C92_succeeds he freshScene_ready.ok hg hr.2 ht (fun l hl => (hr.1 l hl).2)
  have hb : base = boxLink "base" 0 := by
    have := h2.base_mem
    simp only [List.mem_cons, List.not_mem_nil, or_false] at this
    rcases this with h | h
    · exact h
    · exact absurd (by rw [h]; rfl) (h2.base_root (zJoint "hinge" "base" "arm" ⟨0, 0, 1⟩) (mem_revolutes.2 ⟨by simp, rfl⟩))
  subst hb
  obtain ⟨col, ine, -, hi, hW⟩ := h2.base_solid
  simp only [boxLink, Option.some.injEq] at hi
  subst hi
  simp only at hW
  subst hW
  have := (C92_placement_partial h2 rfl).1 (boxLink "arm" 0) (by simp) _ _ rfl rfl _
    (.child (j := zJoint "hinge" "base" "arm" ⟨0, 0, 1⟩) (by simp) rfl .root)
  obtain ⟨o, -, g1, g2, -⟩ := this
  refine ⟨s', o, h1, g1, ?_⟩
  rw [g2.1, init_after]
  simp only [CoordSys.after, zJoint]
  rw [show Quat.rotate Quat.identity (0 : V3) = 0 from rotate_ident_V3 0, zero_add]

/-- A cycle: base → a → b → a.  `read_urdf` does not return. -/
example {eig : Eig} (he : EigSpec eig) : build eig [boxLink "base" 0, boxLink "a" 0, boxLink "b" 0]
    [zJoint "1" "base" "a" ⟨0, 0, 1⟩, zJoint "2" "a" "b" ⟨0, 0, 1⟩, zJoint "3" "b" "a" ⟨0, 0, 1⟩] freshScene = .error .diverges := by
  have hs : solidNames [boxLink "base" 0, boxLink "a" 0, boxLink "b" 0] = ["base", "a", "b"] := rfl
  have hr : revolutes [zJoint "1" "base" "a" ⟨0, 0, 1⟩, zJoint "2" "a" "b" ⟨0, 0, 1⟩, zJoint "3" "b" "a" ⟨0, 0, 1⟩] =
    [zJoint "1" "base" "a" ⟨0, 0, 1⟩, zJoint "2" "a" "b" ⟨0, 0, 1⟩, zJoint "3" "b" "a" ⟨0, 0, 1⟩] := rfl
  refine C92_cycle_diverges he freshScene_ready.ok ?_ (D := {"base", "a", "b"}) ?_ ?_
  · constructor
    · intro l hl
      simp only [List.mem_cons, List.not_mem_nil, or_false] at hl
      rcases hl with rfl | rfl | rfl <;> exact boxLink_good _ _
    · rw [hs]; decide
    · intro n _; exact ⟨rfl, rfl⟩
    · rw [hr]; simp [zJoint]
    · intro j _; rfl
    · rw [hs, hr]
      intro j hj
      simp only [List.mem_cons, List.not_mem_nil, or_false] at hj
      rcases hj with rfl | rfl | rfl <;> simp [zJoint]
    · rw [hs, hr]
      refine ⟨"base", by simp, ?_⟩
      intro j hj
      simp only [List.mem_cons, List.not_mem_nil, or_false] at hj
      rcases hj with rfl | rfl | rfl <;> simp [zJoint]
  · intro n hn
    rw [hr]
    simp only [Set.mem_insert_iff, Set.mem_singleton_iff] at hn
    rcases hn with rfl | rfl | rfl
    · exact ⟨zJoint "1" "base" "a" ⟨0, 0, 1⟩, by simp, rfl, by simp [zJoint]⟩
    · exact ⟨zJoint "2" "a" "b" ⟨0, 0, 1⟩, by simp, rfl, by simp [zJoint]⟩
    · exact ⟨zJoint "3" "b" "a" ⟨0, 0, 1⟩, by simp, rfl, by simp [zJoint]⟩
  · intro n hn _
    rw [hs] at hn
    simpa using hn

end Verif
