import Verif.Props.UrdfLinks
import Verif.Props.Collision

/-! C92, C93: `read_urdf`. -/

namespace Verif

open Rigid Rigid.Urdf Rigid.SceneM SMesh
open VMesh (Tri)

/-! ### Reading numbers -/

theorem Rx_unit (t : ℝ) : IsUnitQ (Quat.Rx t) := by
  unfold IsUnitQ Quat.Rx
  have := Real.sin_sq_add_cos_sq (t / 2)
  simp only [show (2.0:ℝ) = 2 by norm_num]
  nlinarith

/-- **C93.** A frame that can be read is a rigid one. -/
theorem C93_frame_rigid {sys : Sys} {d : Dict String String} {X : CoordSys} (h : convert_frame sys d = .ok X) : X.Rigid := by
  unfold convert_frame at h
  simp only [bind, Except.bind, pure, Except.pure] at h
  repeat' split at h
  all_goals first | (cases h; done) | skip
  all_goals
    injection h with h
    rw [← h]
    exact prod_unit (Rz_unit _) (prod_unit (Ry_unit _) (Rx_unit _))

/-- Three numbers as an XML attribute gives them; a missing attribute means zeros. -/
def Reads (sys : Sys) (d : Dict String String) (key : String) (a b c : ℝ) : Prop :=
  (d.get? key = none ∧ a = 0 ∧ b = 0 ∧ c = 0) ∨
    ∃ str rest, d.get? key = some str ∧ (sys.split str).mapM sys.float = .ok (a :: b :: c :: rest)

theorem Reads.list {sys : Sys} {d : Dict String String} {key : String} {a b c : ℝ} (h : Reads sys d key a b c) :
    ∃ rest, triple sys d key = .ok (a :: b :: c :: rest) := by
  unfold triple
  rcases h with ⟨h, rfl, rfl, rfl⟩ | ⟨str, rest, h, h'⟩
  · rw [h]; exact ⟨[], by norm_num⟩
  · rw [h]; exact ⟨rest, h'⟩

/-- **C93.** A URDF frame is read as the URDF format defines it: roll about the fixed x axis, then pitch about the fixed y axis,
then yaw about the fixed z axis, then the translation; missing attributes are zero. -/
theorem C93_frame {sys : Sys} {d : Dict String String} {roll pitch yaw x y z : ℝ} (h1 : Reads sys d "rpy" roll pitch yaw)
    (h2 : Reads sys d "xyz" x y z) : ∃ X, convert_frame sys d = .ok X ∧
      ∀ v, CoordSys.xform_point X v = (M3.Rz yaw).mulVec ((M3.Ry pitch).mulVec ((M3.Rx roll).mulVec v)) + ⟨x, y, z⟩ := by
  obtain ⟨r1, g1⟩ := h1.list
  obtain ⟨r2, g2⟩ := h2.list
  refine ⟨⟨Quat.prod (Quat.Rz yaw) (Quat.prod (Quat.Ry pitch) (Quat.Rx roll)), ⟨x, y, z⟩⟩, ?_, ?_⟩
  · unfold convert_frame
    rw [g1]
    simp only [bind, Except.bind]
    rw [g2]
    rfl
  · intro v
    obtain ⟨-, -, -, e1, e2, e3⟩ := C10_axis_special roll
    obtain ⟨-, -, -, f1, f2, f3⟩ := C10_axis_special pitch
    obtain ⟨-, -, -, k1, k2, k3⟩ := C10_axis_special yaw
    unfold CoordSys.xform_point
    simp only
    rw [C02_rotate_prod, C02_rotate_prod, rotate_eq_mulVec (Rx_unit _), rotate_eq_mulVec (Ry_unit _), rotate_eq_mulVec (Rz_unit _),
      e1, f2, k3]

/-- too few numbers: IndexError -/
theorem C93_frame_short {sys : Sys} {d : Dict String String} {str : String} {l : List ℝ} {x y z : ℝ}
    (h : d.get? "rpy" = some str) (hl : (sys.split str).mapM sys.float = .ok l) (hs : l.length < 3)
    (h2 : Reads sys d "xyz" x y z) : convert_frame sys d = .error .indexError := by
  obtain ⟨r2, g2⟩ := h2.list
  have g1 : triple sys d "rpy" = .ok l := by unfold triple; rw [h]; exact hl
  unfold convert_frame
  rw [g1]
  simp only [bind, Except.bind]
  rw [g2]
  rcases l with _ | ⟨a, _ | ⟨b, _ | ⟨c, l⟩⟩⟩
  · rfl
  · rfl
  · rfl
  · simp at hs; omega

theorem geometry_rigid {sys : Sys} {pkg : String} {e : Option Element} {g : Geometry}
    (h : parse_geometry_tag sys pkg e = .ok (some g)) : g.origin.Rigid := by
  unfold parse_geometry_tag at h
  split at h
  · cases h
  split at h
  · cases h
  split at h
  · cases h
  rename_i shape_element _ _
  split_ifs at h
  · cases h
  simp only [bind, Except.bind, pure, Except.pure] at h
  split at h
  · cases h
  rename_i X hX
  split at h
  · cases h
  rename_i sc hsc
  by_cases hext : sys.ext (meshFile sys pkg ((shape_element.attrib.get? "filename").getD "")) ∉ [".stl", ".obj", ".ply"]
  · rw [if_pos hext] at h; cases h
  rw [if_neg hext] at h
  split at h
  · cases h
  injection h with h
  injection h with h
  rw [← h]
  exact C93_frame_rigid hX

theorem inertial_rigid {sys : Sys} {e : Option Element} {g : Inertial}
    (h : parse_inertial_tag sys e = .ok (some g)) : g.origin.Rigid := by
  unfold parse_inertial_tag at h
  split at h
  · cases h
  simp only [bind, Except.bind, pure, Except.pure] at h
  split at h
  · cases h
  rename_i X hX
  split at h
  · cases h
  split at h
  · cases h
  injection h with h
  injection h with h
  rw [← h]
  exact C93_frame_rigid hX

/-- The frames of a parsed file are rigid. -/
def RigidFrames (links : List Link) (joints : List Joint) : Prop :=
  (∀ l ∈ links, (∀ col, l.collision = some col → col.origin.Rigid) ∧ ∀ ine, l.inertial = some ine → ine.origin.Rigid) ∧
    ∀ j ∈ joints, j.origin.Rigid

/-- **C93.** Every frame of a file that can be read is rigid. -/
theorem C93_parse_rigid {sys : Sys} {pkg : String} {root : Element} {links : List Link} {joints : List Joint}
    (h : parse_urdf sys pkg root = .ok (links, joints)) : RigidFrames links joints := by
  unfold parse_urdf at h
  simp only [bind, Except.bind, pure, Except.pure] at h
  split at h
  · cases h
  rename_i L hL
  split at h
  · cases h
  rename_i J hJ
  simp only [Except.ok.injEq, Prod.mk.injEq] at h
  obtain ⟨rfl, rfl⟩ := h
  refine ⟨?_, ?_⟩
  · intro l hl
    obtain ⟨tag, -, ht⟩ := forall₂_mem_right (mapM_ok hL) l hl
    unfold parse_link at ht
    simp only [bind, Except.bind, pure, Except.pure] at ht
    split at ht
    · cases ht
    split at ht
    · cases ht
    split at ht
    · cases ht
    rename_i c hc
    split at ht
    · cases ht
    rename_i i hi
    injection ht with ht
    subst ht
    refine ⟨?_, ?_⟩
    · rintro col rfl
      exact geometry_rigid hc
    · rintro ine rfl
      exact inertial_rigid hi
  · intro j hj
    obtain ⟨tag, -, ht⟩ := forall₂_mem_right (mapM_ok hJ) j hj
    unfold parse_joint at ht
    simp only [bind, Except.bind, pure, Except.pure] at ht
    split at ht
    · cases ht
    split at ht
    · cases ht
    split at ht
    · cases ht
    split at ht
    · cases ht
    split at ht
    · cases ht
    rename_i X hX
    split at ht
    · cases ht
    injection ht with ht
    subst ht
    exact C93_frame_rigid hX

/-! ### Where the links end up -/

/-- The link's body, when the link's frame is X: the body frame is the file's inertial frame, the mesh of the file is where the
file's collision frame puts it, mass and principal moments are the file's, and the body is free and at rest. -/
def LinkAt (s : Scene) (l : Link) (col : Geometry) (ine : Inertial) (X : CoordSys) : Prop :=
  ∃ (o : BodyObj) (m : Mesh), s.eng.bodies.get? l.name = some o ∧ StandsAt o.body (X.after ine.origin) ∧
    o.body.mass = ine.mass ∧ o.body.inertia = ⟨ine.inertia.ixx, ine.inertia.iyy, ine.inertia.izz⟩ ∧
    o.body.v = 0 ∧ o.body.w = 0 ∧ o.body.is_fixed = false ∧
    s.worldMesh l.name = some m ∧ m.V.Perm (col.V.map (CoordSys.xform_point (X.after col.origin))) ∧
    (trianglesOf m.V m.T).Perm ((trianglesOf col.V col.T).map fun t =>
      (CoordSys.xform_point (X.after col.origin) t.1, CoordSys.xform_point (X.after col.origin) t.2.1,
        CoordSys.xform_point (X.after col.origin) t.2.2))

theorem after_xform {A B : CoordSys} (v : V3) : CoordSys.xform_point (A.after B) v = CoordSys.xform_point A (CoordSys.xform_point B v) := by
  unfold CoordSys.xform_point CoordSys.after
  simp only
  rw [C02_rotate_prod, rotate_add]
  abel

/-- A made body put at `X.after ine.origin` shows the mesh at `X.after col.origin`. -/
theorem linkAt_of_made {s s1 : Scene} {l : Link} {col : Geometry} {ine : Inertial} (hm : LinkMade s l col ine)
    (hi : IndicesBelow col.T col.V.length) (hc : col.origin.Rigid) (hb : ine.origin.Rigid) {X : CoordSys}
    {b0 b : BodyObj} (h0 : s.eng.bodies.get? l.name = some b0) (h1 : s1.eng.bodies.get? l.name = some b)
    (hbb : b = { b0 with body := { b0.body with r := b.body.r, q := b.body.q } }) (hmesh : s1.meshes = s.meshes)
    (hst : StandsAt b.body (X.after ine.origin)) : LinkAt s1 l col ine X := by
  obtain ⟨o, sh, m, g1, g2, g3, g6, g4, g5⟩ := hm
  rw [h0] at g1
  cases g1
  have hbody : b.body = { b0.body with r := b.body.r, q := b.body.q } := by
    conv_lhs => rw [hbb]
  rw [g2] at hbody
  have hsh : b.body.shape = some sh := by rw [hbody]
  have hwm : s1.worldMesh l.name = some ⟨m.V.map fun v => Quat.rotate b.body.q v + b.body.r, m.T⟩ := by
    unfold Scene.worldMesh
    rw [h1]
    simp only [Option.bind_eq_bind, Option.bind_some]
    rw [hsh]
    simp only [Option.bind_some]
    rw [hmesh, g3]
    rfl
  have hpt : ∀ v, Quat.rotate b.body.q (CoordSys.xform_point (CoordSys.make_coordsys_from_to col.origin ine.origin) v) + b.body.r =
      CoordSys.xform_point (X.after col.origin) v := by
    intro v
    rw [after_xform, ← (C09_from_to col.origin ine.origin hc hb v).1, ← after_xform]
    rw [hst.1, hst.2]
    rfl
  refine ⟨b, _, h1, hst, ?_, ?_, ?_, ?_, ?_, hwm, ?_, ?_⟩
  · rw [hbody]
  · rw [hbody]
  · rw [hbody]; rfl
  · rw [hbody]; rfl
  · rw [hbody]; rfl
  · refine (g4.map _).trans (List.Perm.of_eq ?_)
    rw [List.map_map]
    exact List.map_congr_left fun v _ => hpt v
  · simp only
    rw [trianglesOf_map _ _ _ g6]
    refine (g5.map _).trans (List.Perm.of_eq ?_)
    rw [trianglesOf_map _ _ _ hi, List.map_map]
    refine List.map_congr_left fun t _ => ?_
    simp only [Function.comp, hpt]

theorem linkFrame_revolutes {joints : List Joint} {root : String} {W : CoordSys} {n : String} {X : CoordSys} :
    LinkFrame (revolutes joints) root W n X ↔ LinkFrame joints root W n X := by
  constructor
  · intro h
    induction h with
    | root => exact .root
    | child hj hr _ ih => exact .child (mem_revolutes.1 hj).1 hr ih
  · intro h
    induction h with
    | root => exact .root
    | child hj hr _ ih => exact .child (mem_revolutes.2 ⟨hj, hr⟩) hr ih

/-- The joints form trees: no link is the child of two joints that become hinges, and the axes are not zero. -/
structure TreeJoints (joints : List Joint) : Prop where
  one_parent : ((revolutes joints).map (·.child)).Nodup
  axis : ∀ j ∈ revolutes joints, j.axis ≠ 0

/-- What `read_urdf` leaves behind: `base` is the link without parent that it starts from; its body stands at the file's inertial
frame, as if its link frame were the world frame, while all other link frames are computed as if its link frame were W. -/
structure RobotBuilt (links : List Link) (joints : List Joint) (s s' : Scene) (base : Link) (W : CoordSys) : Prop where
  base_mem : base ∈ links
  base_solid : ∃ col ine, base.collision = some col ∧ base.inertial = some ine ∧ ine.origin = W
  base_root : ∀ j ∈ revolutes joints, j.child ≠ base.name
  ends : ∀ j ∈ revolutes joints, j.parent ∈ solidNames links ∧ j.child ∈ solidNames links
  bodies : s'.eng.bodies.keys = s.eng.bodies.keys ++ solidNames links
  names : (solidNames links).Nodup ∧ ∀ n ∈ solidNames links, s.eng.bodies.get? n = none
  hinges : s'.eng.hinges.keys = s.eng.hinges.keys ++ (revolutes joints).map (·.name)
  old : ∀ n, n ∉ solidNames links → s'.eng.bodies.get? n = s.eng.bodies.get? n
  oldHinges : ∀ n, n ∉ (revolutes joints).map (·.name) → s'.eng.hinges.get? n = s.eng.hinges.get? n
  rest : s'.eng.forces = s.eng.forces ∧ s'.eng.surfaces_interactions = s.eng.surfaces_interactions ∧
    s'.eng.params = s.eng.params ∧ (∀ n sh, s.eng.shapes.get? n = some sh → s'.eng.shapes.get? n = some sh) ∧
    ∀ n m, s.meshes.get? n = some m → s'.meshes.get? n = some m
  base_at : ∀ col ine, base.collision = some col → base.inertial = some ine → LinkAt s' base col ine CoordSys.init
  inertials : ∀ l ∈ links, l.collision ≠ none → l.inertial ≠ none
  link_at : ∀ l ∈ links, l.name ≠ base.name → ∀ col ine, l.collision = some col → l.inertial = some ine →
    ∀ X, LinkFrame joints base.name W l.name X → LinkAt s' l col ine X
  joint_at : ∀ j ∈ revolutes joints, ∀ X, LinkFrame joints base.name W j.parent X →
    HingeAt s'.eng j.name j.parent j.child (X.after j.origin).r (Quat.rotate (X.after j.origin).q j.axis)
  rest_at : ∀ l ∈ links, ∀ col ine, l.collision = some col → l.inertial = some ine →
    (∀ X, ¬ LinkFrame joints base.name W l.name X) →
    ∃ o, s'.eng.bodies.get? l.name = some o ∧ StandsAt o.body CoordSys.init

theorem init_after (X : CoordSys) : CoordSys.init.after X = X := by
  unfold CoordSys.after CoordSys.init
  obtain ⟨q, r⟩ := X
  simp only [CoordSys.mk.injEq]
  refine ⟨(C01_identity_unit q).1, ?_⟩
  rw [show Quat.rotate Quat.identity r = r from rotate_ident_V3 r, show V3.zero = (0 : V3) from rfl, add_zero]

theorem setItem_setItem {κ υ : Type*} [DecidableEq κ] (d : Dict κ υ) (k : κ) (v w : υ) :
    (d.setItem k v).setItem k w = d.setItem k w := by
  have hm : (d.setItem k v).mem k = true := Dict.mem_of_get? (Dict.get?_setItem_self _ _ _)
  unfold Dict.setItem at hm ⊢
  rw [if_pos hm]
  by_cases h : d.mem k = true
  · rw [if_pos h, if_pos h]
    simp only [List.map_map]
    congr 1
    refine List.map_congr_left fun e _ => ?_
    simp only [Function.comp]
    split_ifs <;> simp_all
  · rw [if_neg h, if_neg h]
    simp only [List.map_append, List.map_cons, List.map_nil, if_true]
    congr 2
    conv_rhs => rw [← List.map_id d.entries]
    refine List.map_congr_left fun e he => ?_
    rw [if_neg]
    · rfl
    · rintro rfl
      exact h ((Dict.mem_iff_keys _ _).2 (List.mem_map_of_mem he))

/-- The situation before the traversal, from the two loops before it. -/
theorem build_start {eig : Eig} (he : EigSpec eig) {links : List Link} {joints : List Joint} {s s1 s2 : Scene} {robot1 robot2 : Robot}
    (hok : s.OK) (hi : ∀ l ∈ links, ∀ col, l.collision = some col → IndicesBelow col.T col.V.length)
    (hrig : RigidFrames links joints) (htree : TreeJoints joints)
    (h1 : links.foldlM (addLink eig) Dict.empty s = .ok (robot1, s1)) (h2 : joints.foldlM addJoint robot1 s1 = .ok (robot2, s2))
    {root : LinkBody} (hroot : findRoot robot2 = some root) :
    ∃ base ∈ links, ∃ col ine, base.collision = some col ∧ base.inertial = some ine ∧ root.name = base.name ∧
      root.X_b2r = ine.origin ∧ ∃ b e2 e3, s2.eng.bodies.get? base.name = some b ∧
        s2.eng.set_position root.name root.X_b2r.r false = .ok e2 ∧ e2.set_orientation root.name root.X_b2r.q false = .ok e3 ∧
        (∃ b', b' = { b with body := { b.body with r := ine.origin.r, q := ine.origin.q } } ∧
          e3 = { s2.eng with bodies := s2.eng.bodies.setItem base.name b' }) ∧
        UrdfLoop.Start (revolutes joints) base.name ine.origin robot2 { s2 with eng := e3 } := by
  obtain ⟨a1, a2, a3, a4⟩ := addLinks_ok he hok hi h1
  obtain ⟨⟨H, rfl, b2, b3, b4⟩, b5, b6, b7, b8, b9⟩ := addJoints_ok h2
  have hk2 : robot2.keys.Nodup := by rw [b6]; exact a2 (by simp [Dict.empty, Dict.keys])
  obtain ⟨hp, n, hn⟩ := findRoot_some hk2 hroot
  -- entries of the robot are links
  have hlink : ∀ n l', robot2.get? n = some l' → ∃ l ∈ links, l.name = n ∧ ∃ col ine, l.collision = some col ∧
      l.inertial = some ine ∧ LinkMade s1 l col ine ∧ l'.name = n ∧ l'.X_b2r = ine.origin ∧
      l'.children = ((revolutes joints).filter fun j => j.parent == n).map UrdfLoop.kid ∧
      (l'.parent = none ↔ ∀ j ∈ revolutes joints, j.child ≠ n) := by
    intro n l' hl'
    cases hr1 : robot1.get? n with
    | none => rw [b8 n hr1] at hl'; cases hl'
    | some l1 =>
      have hmem : n ∈ solidNames links := by
        by_contra hc
        rw [a3 n hc] at hr1
        simp at hr1
      unfold solidNames at hmem
      obtain ⟨l, hl, rfl⟩ := List.mem_map.1 hmem
      obtain ⟨hl, hs⟩ := List.mem_filter.1 hl
      obtain ⟨col, hcol⟩ := Option.isSome_iff_exists.1 hs
      obtain ⟨ine, hine, hmade, hrob⟩ := a4 l hl col hcol
      obtain ⟨l'', g1, g2, g3, g4, g5⟩ := b9 _ _ hrob
      rw [hl'] at g1
      cases g1
      exact ⟨l, hl, rfl, col, ine, hcol, hine, hmade, g2, g3, by simpa using g4, by simpa using g5⟩
  obtain ⟨base, hbl, rfl, col, ine, hcol, hine, hmade, k1, k2, k3, k4⟩ := hlink n root hn
  obtain ⟨o, sh, m, g1, g2, -⟩ := hmade
  have hbr : ine.origin.Rigid := (hrig.1 base hbl).2 ine hine
  refine ⟨base, hbl, col, ine, hcol, hine, k1, k2, o, ?_⟩
  have e1 := ((C44_set_position { s1.eng with hinges := H } base.name ine.origin.r).2 o g1).1
  have e2 := ((C44_set_orientation { s1.eng with hinges := H, bodies := s1.eng.bodies.setItem base.name { o with body := { o.body with r := ine.origin.r } } } base.name ine.origin.q).2 _ (Dict.get?_setItem_self _ _ _)).1
  rw [Quat.unit_of_isUnit hbr] at e2
  rw [k1, k2]
  simp only [setItem_setItem] at e2
  refine ⟨_, _, g1, e1, e2, ⟨_, rfl, rfl⟩, ?_⟩
  have hget : ∀ n b, s1.eng.bodies.get? n = some b → ∃ b', (s1.eng.bodies.setItem base.name
      { o with body := { o.body with r := ine.origin.r, q := ine.origin.q } }).get? n = some b' := by
    intro n b hb
    by_cases hnb : n = base.name
    · rw [hnb]; exact ⟨_, Dict.get?_setItem_self _ _ _⟩
    · rw [Dict.get?_setItem_ne _ _ hnb]; exact ⟨b, hb⟩
  constructor
  · exact htree.one_parent
  · exact b5
  · intro j hj
    exact k4.1 hp j hj
  · intro n l' hl'
    obtain ⟨l, hl, rfl, col', ine', hc', hi', ⟨o', sh', m', f1, -⟩, q1, q2, q3, -⟩ := hlink n l' hl'
    refine ⟨by rw [q2]; exact (hrig.1 l hl).2 ine' hi', q3, hget _ _ f1⟩
  · intro j hj
    obtain ⟨⟨l1, f1⟩, l2, f2⟩ := b7 j hj
    obtain ⟨l1', f1', -⟩ := b9 _ _ f1
    obtain ⟨l2', f2', -⟩ := b9 _ _ f2
    exact ⟨(mem_revolutes.1 hj).2, hrig.2 j (mem_revolutes.1 hj).1, htree.axis j hj, ⟨l1', f1'⟩, ⟨l2', f2'⟩,
      (b4 j.name (List.mem_map_of_mem hj)).2⟩
  · exact ⟨root, _, hn, k2, Dict.get?_setItem_self _ _ _, rfl, rfl⟩

theorem mem_solidNames {links : List Link} {l : Link} {col : Geometry} (hl : l ∈ links) (hc : l.collision = some col) :
    l.name ∈ solidNames links := by
  unfold solidNames
  exact List.mem_map_of_mem (List.mem_filter.2 ⟨hl, by simp [hc]⟩)

theorem solid_unique {links : List Link} (hn : (solidNames links).Nodup) {l l' : Link} {col col' : Geometry} (hl : l ∈ links)
    (hl' : l' ∈ links) (hc : l.collision = some col) (hc' : l'.collision = some col') (he : l.name = l'.name) : l = l' := by
  unfold solidNames at hn
  exact List.inj_on_of_nodup_map hn (List.mem_filter.2 ⟨hl, by simp [hc]⟩) (List.mem_filter.2 ⟨hl', by simp [hc']⟩) he

/-- After the two loops over links and joints nothing can go wrong any more. -/
theorem build_end {eig : Eig} (he : EigSpec eig) {links : List Link} {joints : List Joint} {s s1 s2 : Scene} {robot1 robot2 : Robot}
    (hok : s.OK) (hi : ∀ l ∈ links, ∀ col, l.collision = some col → IndicesBelow col.T col.V.length)
    (hrig : RigidFrames links joints) (htree : TreeJoints joints)
    (h1 : links.foldlM (addLink eig) Dict.empty s = .ok (robot1, s1)) (h2 : joints.foldlM addJoint robot1 s1 = .ok (robot2, s2))
    {root : LinkBody} (hroot : findRoot robot2 = some root) :
    ∃ s' base W, build eig links joints s = .ok ((), s') ∧ RobotBuilt links joints s s' base W := by
  obtain ⟨base, hbl, col, ine, hcol, hine, hname, hX, b, e2, e3, hb, he2, he3, ⟨b', hb', he3'⟩, hS⟩ :=
    build_start he hok hi hrig htree h1 h2 hroot
  have hW : ine.origin.Rigid := (hrig.1 base hbl).2 ine hine
  obtain ⟨st, D, hend, hI, hst⟩ := UrdfLoop.loop_ends hS (UrdfLoop.start_inv hS hW)
  obtain ⟨a1, a2, a3, a4⟩ := addLinks_ok he hok hi h1
  obtain ⟨⟨H, hs2, b2, b3, b4⟩, b5, b6, b7, b8, b9⟩ := addJoints_ok h2
  have hs2b : s2.eng.bodies = s1.eng.bodies := by rw [hs2]
  have hkS : s2.eng.bodies.setItem base.name b' = e3.bodies := by rw [he3']
  have hrun : build eig links joints s = .ok ((), st.2.2) := by
    unfold build
    rw [bind_ok]
    refine ⟨_, _, h1, ?_⟩
    rw [bind_ok]
    refine ⟨_, _, h2, ?_⟩
    simp only [hroot]
    rw [bind_ok]
    refine ⟨(), { s2 with eng := e2 }, api_ok.2 ⟨_, he2, rfl⟩, ?_⟩
    rw [bind_ok]
    refine ⟨(), { s2 with eng := e3 }, api_ok.2 ⟨_, he3, rfl⟩, ?_⟩
    rw [hname, whileLoop_eq hend]
    rfl
  have hsame := hI.same
  have hmeshes : st.2.2.meshes = s1.meshes := by rw [hsame, hs2]
  have hframe : ∀ n X, LinkFrame joints base.name ine.origin n X → n = base.name ∨ ∃ j ∈ D, j.child = n :=
    fun n X h => UrdfLoop.final_reach hI hst (linkFrame_revolutes.2 h)
  have hget0 : ∀ n, n ≠ base.name → e3.bodies.get? n = s1.eng.bodies.get? n := by
    intro n hn
    rw [he3']
    simp only
    rw [Dict.get?_setItem_ne _ _ hn, hs2b]
  have hgetb : e3.bodies.get? base.name = some b' := by
    rw [he3']
    exact Dict.get?_setItem_self _ _ _
  have hDsolid : ∀ j ∈ D, j.child ∈ solidNames links := by
    intro j hj
    obtain ⟨-, l, hl⟩ := b7 j (hI.sub j (by simp [hj]))
    by_contra hc
    rw [a3 _ hc] at hl
    simp at hl
  refine ⟨st.2.2, base, ine.origin, hrun, ?_⟩
  constructor
  · exact hbl
  · exact ⟨col, ine, hcol, hine, rfl⟩
  · exact hS.noroot
  · intro j hj
    obtain ⟨⟨l1, g1⟩, l2, g2⟩ := b7 j hj
    refine ⟨?_, ?_⟩
    · by_contra hc
      rw [a3 _ hc] at g1
      simp at g1
    · by_contra hc
      rw [a3 _ hc] at g2
      simp at g2
  · rw [hI.keys.1]
    simp only
    rw [← hkS, Dict.keys_setItem, if_pos (Dict.mem_of_get? hb), hs2b, a1.keys]
  · exact ⟨a1.nodup, a1.fresh⟩
  · rw [hI.keys.2]
    simp only
    rw [he3', hs2]
    simp only
    rw [b2, a1.hinges]
  · intro n hn
    have hnb : n ≠ base.name := fun h => hn (h ▸ mem_solidNames hbl hcol)
    have := (hI.other n hnb (fun j hj h => hn (h ▸ hDsolid j hj))).2
    rw [this]
    simp only
    rw [hget0 n hnb, a1.old n hn]
  · intro n hn
    rw [hI.otherHinges n (fun j hj h => hn (h ▸ List.mem_map_of_mem (hI.sub j (by simp [hj]))))]
    simp only
    rw [he3', hs2]
    simp only
    rw [b3 n hn, a1.hinges]
  · rw [hsame, he3', hs2]
    exact ⟨a1.forces, a1.inter, a1.params, a1.shapes, a1.meshes⟩
  · intro col' ine' hc' hi'
    rw [hcol] at hc'
    cases hc'
    rw [hine] at hi'
    cases hi'
    obtain ⟨ine', hine', hmade, -⟩ := a4 base hbl col hcol
    rw [hine] at hine'
    cases hine'
    obtain ⟨X, l, bb, b0, p1, p2, p3, p4, p5, p6, p7, p8, p9, p10⟩ := hI.placed base.name (Or.inl rfl)
    simp only at p5
    rw [hgetb] at p5
    cases p5
    have hb1 : s1.eng.bodies.get? base.name = some b := by rw [← hs2b]; exact hb
    refine linkAt_of_made hmade (hi base hbl col hcol) ((hrig.1 base hbl).1 col hcol) hW hb1 p6 ?_ hmeshes ?_
    · rw [hb'] at p7
      exact p7
    · rw [init_after]
      exact p10 rfl
  · intro l hl hc
    cases hcc : l.collision with
    | none => exact absurd hcc hc
    | some c =>
      obtain ⟨i, hi', -⟩ := a4 l hl c hcc
      rw [hi']
      simp
  · intro l hl hnb col' ine' hc' hi' X hF
    obtain ⟨ine'', hine'', hmade, hrob⟩ := a4 l hl col' hc'
    rw [hi'] at hine''
    cases hine''
    obtain ⟨Y, l', bb, b0, p1, p2, p3, p4, p5, p6, p7, p8, p9, p10⟩ := hI.placed l.name (hframe _ _ hF)
    have hXY : Y = X := UrdfLoop.linkFrame_unique hS p1 (linkFrame_revolutes.2 hF)
    subst hXY
    simp only at p5
    rw [hget0 _ hnb] at p5
    obtain ⟨l'', q1, -, q3, -⟩ := b9 _ _ hrob
    rw [p3] at q1
    cases q1
    have hst' := p9 hnb
    rw [q3] at hst'
    exact linkAt_of_made hmade (hi l hl col' hc') ((hrig.1 l hl).1 col' hc') ((hrig.1 l hl).2 ine' hi') p5 p6 p7 hmeshes hst'
  · intro j hj X hF
    have hjD : j ∈ D := by
      have := hI.handled j hj (hframe _ _ hF) (by rw [hst]; simp)
      simpa using this
    obtain ⟨Y, hY, hh⟩ := hI.hinges j hjD
    have : Y = X.after j.origin := UrdfLoop.linkFrame_unique hS hY (.child hj (mem_revolutes.1 hj).2 (linkFrame_revolutes.2 hF))
    subst this
    exact hh
  · intro l hl col' ine' hc' hi' hno
    have hnb : l.name ≠ base.name := fun h => hno ine.origin (h ▸ .root)
    have hnD : ∀ j ∈ D, j.child ≠ l.name := by
      intro j hj h
      obtain ⟨Y, hY, -⟩ := hI.hinges j hj
      rw [h] at hY
      exact hno Y (linkFrame_revolutes.1 hY)
    obtain ⟨ine2, hine2, ⟨o, sh, m, g1, g2, g3⟩, hrob2⟩ := a4 l hl col' hc'
    refine ⟨o, ?_, ?_⟩
    · rw [(hI.other _ hnb hnD).2]
      simp only
      rw [hget0 _ hnb]
      exact g1
    · rw [g2]; exact ⟨rfl, rfl⟩

/-- **C92.** What `read_urdf` does with every file whose joints form trees: one free body per link with a mesh, one hinge per
revolute joint; each link's body stands at its inertial frame relative to the link frame that the joints give it, its mesh is
where the collision frame puts it, and each hinge's two halves meet at the joint frame.  The link frames are computed from the
*inertial* frame of the base link (see `C92_base_frame`), whose own body stands as if its link frame were the world frame; links
not connected to the base stay at the world origin.  Nothing else in the engine changes. -/
theorem C92_built {sys : Sys} {eig : Eig} (he : EigSpec eig) {pkg : String} {root : Element} {links : List Link} {joints : List Joint}
    (hp : parse_urdf sys pkg root = .ok (links, joints)) {s s' : Scene} (hok : s.OK)
    (hi : ∀ l ∈ links, ∀ col, l.collision = some col → IndicesBelow col.T col.V.length) (htree : TreeJoints joints) {u : Unit}
    (h : read_urdf sys eig pkg root s = .ok (u, s')) : ∃ base W, RobotBuilt links joints s s' base W := by
  unfold read_urdf at h
  rw [hp] at h
  replace h : build eig links joints s = .ok (u, s') := h
  have h' := h
  unfold build at h'
  rw [bind_ok] at h'
  obtain ⟨robot1, s1, h1, h'⟩ := h'
  rw [bind_ok] at h'
  obtain ⟨robot2, s2, h2, h'⟩ := h'
  cases hroot : findRoot robot2 with
  | none => rw [hroot] at h'; exact absurd h' raise_ok
  | some rt =>
    obtain ⟨s'', base, W, g1, g2⟩ := build_end he hok hi (C93_parse_rigid hp) htree h1 h2 hroot
    rw [h] at g1
    cases g1
    exact ⟨base, W, g2⟩

end Verif
