import Verif.Props.UrdfLoop

/-! C92: the links and joints of a URDF file become bodies and hinges. -/

namespace Verif

open Rigid Rigid.Urdf Rigid.SceneM SMesh
open VMesh (Tri)

theorem xform_init (v : V3) : CoordSys.xform_point ⟨Quat.identity, V3.zero⟩ v = v := by
  unfold CoordSys.xform_point
  rw [show Quat.rotate Quat.identity v = v from rotate_ident_V3 v, show V3.zero = (0 : V3) from rfl, add_zero]

theorem bodyVertices_eq (X : CoordSys) (V : List V3) : bodyVertices X V = V.map (CoordSys.xform_point X) := by
  unfold bodyVertices
  split_ifs with h
  · rfl
  · push Not at h
    obtain ⟨q, r⟩ := X
    simp only at h
    obtain ⟨rfl, rfl⟩ := h
    conv_lhs => rw [← List.map_id V]
    exact List.map_congr_left fun v _ => (xform_init v).symm

/-- `create_shape(..., transform_to_body_frame=False)` keeps the mesh. -/
theorem create_shape_false_ok {eig : Eig} {s s' : Scene} {n : String} {m : Mesh}
    (h : s.create_shape eig n m false = .ok s') : s.eng.shapes.get? n = none ∧ ∃ sh : Shape, sh.name = n ∧
      s' = { s with eng := { s.eng with shapes := s.eng.shapes.setItem n sh }, meshes := s.meshes.setItem n m } := by
  unfold Scene.create_shape at h
  by_cases hm : s.eng.shapes.mem n = true
  · rw [if_pos hm] at h; cases h
  rw [if_neg hm] at h
  simp only [bind, Except.bind] at h
  cases hp : Mass.compute_mass_properties m.V m.T 1.0 with
  | error e => rw [hp] at h; cases h
  | ok p =>
    rw [hp] at h
    simp only [Bool.false_eq_true, if_false] at h
    unfold Engine.create_shape at h
    rw [if_neg hm] at h
    simp only [pure, Except.pure, Except.ok.injEq] at h
    exact ⟨(Dict.get?_eq_none _ _).2 (by simpa using hm), _, rfl, h.symm⟩

/-- The body made for a link, before it is placed: the mesh file's triangles in the body frame, the file's mass and inertia. -/
def LinkMade (s : Scene) (l : Link) (col : Geometry) (ine : Inertial) : Prop :=
  ∃ (o : BodyObj) (sh : Shape) (m : Mesh), s.eng.bodies.get? l.name = some o ∧
    o.body = { RigidBody.init l.name with
      shape := some sh, mass := ine.mass, inertia := ⟨ine.inertia.ixx, ine.inertia.iyy, ine.inertia.izz⟩ } ∧
    s.meshes.get? sh.name = some m ∧ IndicesBelow m.T m.V.length ∧
    m.V.Perm (col.V.map (CoordSys.xform_point (CoordSys.make_coordsys_from_to col.origin ine.origin))) ∧
    (trianglesOf m.V m.T).Perm
      (trianglesOf (col.V.map (CoordSys.xform_point (CoordSys.make_coordsys_from_to col.origin ine.origin))) col.T)

/-- The names of the links that have a mesh. -/
def solidNames (links : List Link) : List String := (links.filter fun l => l.collision.isSome).map (·.name)

theorem LinkMade.grows {s s' : Scene} {N : List String} (hg : Grows s s' N) {l : Link} {col : Geometry} {ine : Inertial}
    (h : LinkMade s l col ine) : LinkMade s' l col ine := by
  obtain ⟨o, sh, m, h1, h2, h3, h4⟩ := h
  refine ⟨o, sh, m, ?_, h2, hg.meshes _ _ h3, h4⟩
  rw [hg.old]
  · exact h1
  · intro hn
    rw [hg.fresh _ hn] at h1
    cases h1

theorem addLink_ok {eig : Eig} (he : EigSpec eig) {robot robot' : Robot} {l : Link} {s s' : Scene} (hok : s.OK)
    (hi : ∀ col, l.collision = some col → IndicesBelow col.T col.V.length)
    (h : addLink eig robot l s = .ok (robot', s')) :
    (l.collision = none ∧ robot' = robot ∧ s' = s) ∨
    ∃ col ine, l.collision = some col ∧ l.inertial = some ine ∧ Grows s s' [l.name] ∧ LinkMade s' l col ine ∧
      robot' = robot.setItem l.name ⟨l.name, ine.origin, [], none⟩ := by
  unfold addLink at h
  cases hcol : l.collision with
  | none =>
    rw [hcol] at h
    simp only at h
    rw [pure_ok] at h
    exact Or.inl ⟨rfl, h.1.symm, h.2.symm⟩
  | some col =>
    right
    rw [hcol] at h
    simp only at h
    cases hine : l.inertial with
    | none => rw [hine] at h; exact absurd h raise_ok
    | some ine =>
      rw [hine] at h
      simp only at h
      rw [bind_ok] at h
      obtain ⟨u1, s1, h1, h⟩ := h
      rw [bind_ok] at h
      obtain ⟨u2, s2, h2, h⟩ := h
      rw [bind_ok] at h
      obtain ⟨u3, s3, h3, h⟩ := h
      rw [bind_ok] at h
      obtain ⟨u4, s4, h4, h⟩ := h
      rw [pure_ok] at h
      obtain ⟨rfl, rfl⟩ := h
      rw [api_ok] at h2 h3 h4
      obtain ⟨e2, h2, rfl⟩ := h2
      obtain ⟨e3, h3, rfl⟩ := h3
      obtain ⟨e4, h4, rfl⟩ := h4
      have hX : CoordSys.make_coordsys_from_to (CoordSys.make col.origin.r col.origin.q) (CoordSys.make ine.origin.r ine.origin.q) =
        CoordSys.make_coordsys_from_to col.origin ine.origin := rfl
      rw [hX, bodyVertices_eq] at h1
      set VB := col.V.map (CoordSys.xform_point (CoordSys.make_coordsys_from_to col.origin ine.origin)) with hVB
      obtain ⟨m, hm1, hm2, hm3, hm4, hm5⟩ := C84_create_mesh he VB col.T (by rw [hVB, List.length_map]; exact hi col hcol)
      rw [hm1] at h1
      simp only [bind, Except.bind] at h1
      cases hcs : s.create_shape eig (l.name ++ "shape") m false with
      | error e => rw [hcs] at h1; cases h1
      | ok s1' =>
        rw [hcs] at h1
        simp only [pure, Except.pure, Except.ok.injEq, Prod.mk.injEq] at h1
        obtain ⟨-, rfl⟩ := h1
        obtain ⟨hf, sh, hshn, rfl⟩ := create_shape_false_ok hcs
        simp only at h2
        obtain ⟨hb, rfl⟩ := create_body_ok h2
        simp only at hb h3
        have hf' := (Dict.get?_eq_none _ _).1 hf
        have hmf' := (Dict.get?_eq_none _ _).1 (hok _ hf)
        rw [connect_shape_eq (Dict.get?_setItem_self _ _ _) (Dict.get?_setItem_self _ _ _)] at h3
        simp only [Except.ok.injEq] at h3
        subst h3
        rw [updateBody_some _ (Dict.get?_setItem_self _ _ _)] at h4
        simp only [Except.ok.injEq] at h4
        subst h4
        refine ⟨col, ine, rfl, rfl, ?_, ?_, rfl⟩
        · refine ⟨?_, ?_, by simp, ?_, fun k v hk => Dict.get?_insert_of_some hf' hk,
            fun k v hk => Dict.get?_insert_of_some hmf' hk, ?_, rfl, rfl, rfl, rfl⟩
          · simp only
            have hk : ∀ {d : Dict String BodyObj} {v w : BodyObj}, ((d.setItem l.name v).setItem l.name w).keys = (d.setItem l.name v).keys := by
              intro d v w
              rw [Dict.keys_setItem, if_pos (Dict.mem_of_get? (Dict.get?_setItem_self _ _ _))]
            rw [hk, hk, get?_keys_setItem_new hb]
          · intro n hn
            rw [List.mem_singleton] at hn
            subst hn
            exact hb
          · intro n hn
            have hn' : n ≠ l.name := by simpa using hn
            simp only
            rw [Dict.get?_setItem_ne _ _ hn', Dict.get?_setItem_ne _ _ hn', Dict.get?_setItem_ne _ _ hn']
          · intro _ k hk
            simp only [Dict.get?_setItem] at hk ⊢
            split_ifs at hk ⊢ with hkn
            exact hok k hk
        · refine ⟨_, sh, m, Dict.get?_setItem_self _ _ _, rfl, ?_, hm4, hm2, hm3⟩
          rw [hshn]
          exact Dict.get?_setItem_self _ _ _

theorem addLinks_ok {eig : Eig} (he : EigSpec eig) {links : List Link} {robot robot' : Robot} {s s' : Scene} (hok : s.OK)
    (hi : ∀ l ∈ links, ∀ col, l.collision = some col → IndicesBelow col.T col.V.length)
    (h : links.foldlM (addLink eig) robot s = .ok (robot', s')) :
    Grows s s' (solidNames links) ∧ (robot.keys.Nodup → robot'.keys.Nodup) ∧
    (∀ n, n ∉ solidNames links → robot'.get? n = robot.get? n) ∧
    ∀ l ∈ links, ∀ col, l.collision = some col → ∃ ine, l.inertial = some ine ∧ LinkMade s' l col ine ∧
      robot'.get? l.name = some ⟨l.name, ine.origin, [], none⟩ := by
  induction links generalizing robot s with
  | nil =>
    rw [List.foldlM_nil, pure_ok] at h
    obtain ⟨rfl, rfl⟩ := h
    exact ⟨Grows.refl _, id, fun _ _ => rfl, by simp⟩
  | cons l links ih =>
    rw [List.foldlM_cons, bind_ok] at h
    obtain ⟨r1, s1, h1, h2⟩ := h
    rcases addLink_ok he hok (hi l (by simp)) h1 with ⟨hc, rfl, rfl⟩ | ⟨col, ine, hc, hin, hg, hm, rfl⟩
    · obtain ⟨g1, g2, g3, g4⟩ := ih hok (fun l' hl' => hi l' (by simp [hl'])) h2
      have hsn : solidNames (l :: links) = solidNames links := by
        unfold solidNames
        rw [List.filter_cons_of_neg (by simp [hc])]
      rw [hsn]
      refine ⟨g1, g2, g3, ?_⟩
      intro l' hl' col' hc'
      rcases List.mem_cons.1 hl' with rfl | hl'
      · rw [hc] at hc'; cases hc'
      · exact g4 l' hl' col' hc'
    · obtain ⟨g1, g2, g3, g4⟩ := ih (hg.ok hok) (fun l' hl' => hi l' (by simp [hl'])) h2
      have hsn : solidNames (l :: links) = l.name :: solidNames links := by
        unfold solidNames
        rw [List.filter_cons_of_pos (by simp [hc]), List.map_cons]
      rw [hsn]
      have hG : Grows s s' (l.name :: solidNames links) := hg.trans g1
      have hnot := (List.nodup_cons.1 hG.nodup).1
      refine ⟨hG, fun hk => g2 (Dict.nodup_setItem _ _ _ hk), ?_, ?_⟩
      · intro n hn
        rw [List.mem_cons, not_or] at hn
        rw [g3 n hn.2, Dict.get?_setItem_ne _ _ hn.1]
      · intro l' hl' col' hc'
        rcases List.mem_cons.1 hl' with rfl | hl'
        · rw [hc] at hc'
          cases hc'
          refine ⟨ine, hin, hm.grows g1, ?_⟩
          rw [g3 _ hnot]
          exact Dict.get?_setItem_self _ _ _
        · exact g4 l' hl' col' hc'

/-- The joints that become hinges. -/
def revolutes (joints : List Joint) : List Joint := joints.filter fun j => j.type == "revolute"

theorem mem_revolutes {joints : List Joint} {j : Joint} : j ∈ revolutes joints ↔ j ∈ joints ∧ j.type = "revolute" := by
  simp [revolutes]

theorem getItem_ok_iff {κ υ : Type*} [DecidableEq κ] {d : Dict κ υ} {k : κ} {v : υ} : d.getItem k = .ok v ↔ d.get? k = some v := by
  constructor
  · exact Dict.getItem_ok
  · intro h; unfold Dict.getItem; rw [h]

/-- What the loop over the joints does with one entry of the robot. -/
def grownLink (R : List Joint) (l : LinkBody) (n : String) (l' : LinkBody) : Prop :=
  l'.name = l.name ∧ l'.X_b2r = l.X_b2r ∧ l'.children = l.children ++ (R.filter fun j => j.parent == n).map UrdfLoop.kid ∧
    (l'.parent = none ↔ l.parent = none ∧ ∀ j ∈ R, j.child ≠ n)

theorem changeLink_ok {robot robot' : Robot} {n : String} {f : LinkBody → LinkBody} (h : changeLink robot n f = .ok robot') :
    ∃ l, robot.get? n = some l ∧ robot' = robot.setItem n (f l) := by
  unfold changeLink at h
  cases hg : robot.getItem n with
  | error e => rw [hg] at h; cases h
  | ok l =>
    rw [hg] at h
    injection h with h
    exact ⟨l, getItem_ok_iff.1 hg, h.symm⟩

theorem addJoint_ok {robot robot' : Robot} {j : Joint} {s s' : Scene} (h : addJoint robot j s = .ok (robot', s')) :
    (j.type ≠ "revolute" ∧ robot' = robot ∧ s' = s) ∨
    (j.type = "revolute" ∧ s.eng.hinges.get? j.name = none ∧
      s' = { s with eng := { s.eng with hinges := s.eng.hinges.setItem j.name (HingeObj.init j.name s.eng.hinges.len) } } ∧
      robot'.keys = robot.keys ∧ (∃ l, robot.get? j.parent = some l) ∧ (∃ l, robot.get? j.child = some l) ∧
      (∀ n, robot.get? n = none → robot'.get? n = none) ∧
      ∀ n l, robot.get? n = some l → ∃ l', robot'.get? n = some l' ∧ grownLink [j] l n l') := by
  unfold addJoint at h
  by_cases hr : j.type ≠ "revolute"
  · rw [if_pos hr, pure_ok] at h
    exact Or.inl ⟨hr, h.1.symm, h.2.symm⟩
  right
  rw [if_neg hr, bind_ok] at h
  obtain ⟨u, s1, h1, h2⟩ := h
  rw [api_ok] at h1
  obtain ⟨e1, h1, rfl⟩ := h1
  unfold Engine.create_hinge at h1
  by_cases hm : s.eng.hinges.mem j.name = true
  · rw [if_pos hm] at h1; cases h1
  rw [if_neg hm] at h1
  cases h1
  simp only [bind, Except.bind] at h2
  split at h2
  · cases h2
  rename_i r1 hr1
  split at h2
  · cases h2
  rename_i r2 hr2
  simp only [pure, Except.pure, Except.ok.injEq, Prod.mk.injEq] at h2
  obtain ⟨rfl, rfl⟩ := h2
  obtain ⟨l1, hl1, rfl⟩ := changeLink_ok hr1
  obtain ⟨l2, hl2, rfl⟩ := changeLink_ok hr2
  have hkeys : ∀ {d : Robot} (k : String) (v w : LinkBody), d.get? k = some v → (d.setItem k w).keys = d.keys := by
    intro d k v w hg
    rw [Dict.keys_setItem, if_pos (Dict.mem_of_get? hg)]
  have hc : ∃ l, robot.get? j.child = some l := by
    rw [Dict.get?_setItem] at hl2
    split_ifs at hl2 with he
    · exact ⟨l1, by rw [he]; exact hl1⟩
    · exact ⟨l2, hl2⟩
  refine ⟨not_not.1 hr, (Dict.get?_eq_none _ _).2 (by simpa using hm), rfl, ?_, ⟨l1, hl1⟩, hc, ?_, ?_⟩
  · rw [hkeys _ _ _ hl2, hkeys _ _ _ hl1]
  · intro n hn
    rw [Dict.get?_setItem_ne, Dict.get?_setItem_ne]
    · exact hn
    · rintro rfl; rw [hl1] at hn; cases hn
    · rintro rfl
      obtain ⟨l, hl⟩ := hc
      rw [hl] at hn; cases hn
  · intro n l hn
    by_cases hp : n = j.parent
    · subst hp
      rw [hl1] at hn
      cases hn
      by_cases hcp : j.parent = j.child
      · rw [hcp]
        refine ⟨_, Dict.get?_setItem_self _ _ _, ?_⟩
        rw [← hcp, Dict.get?_setItem_self] at hl2
        cases hl2
        refine ⟨rfl, rfl, ?_, ?_⟩
        · simp [hcp, UrdfLoop.kid, CoordSys.make]
        · simp
      · rw [Dict.get?_setItem_ne _ _ hcp, Dict.get?_setItem_self]
        refine ⟨_, rfl, rfl, rfl, ?_, ?_⟩
        · simp [UrdfLoop.kid, CoordSys.make]
        · exact ⟨fun h => ⟨h, fun j' hj' he => by rw [List.mem_singleton] at hj'; subst hj'; exact hcp he.symm⟩, fun h => h.1⟩
    · by_cases hcn : n = j.child
      · subst hcn
        rw [Dict.get?_setItem_ne _ _ hp, hn] at hl2
        cases hl2
        rw [Dict.get?_setItem_self]
        refine ⟨_, rfl, rfl, rfl, ?_, ?_⟩
        · have : (j.parent == j.child) = false := by simpa using fun h => hp h.symm
          simp [this]
        · simp
      · rw [Dict.get?_setItem_ne _ _ hcn, Dict.get?_setItem_ne _ _ hp]
        refine ⟨l, hn, rfl, rfl, ?_, ?_⟩
        · have : (j.parent == n) = false := by simpa using fun h => hp h.symm
          simp [this]
        · exact ⟨fun h => ⟨h, fun j' hj' he => by rw [List.mem_singleton] at hj'; subst hj'; exact hcn he.symm⟩, fun h => h.1⟩

theorem addJoints_ok {joints : List Joint} {robot robot' : Robot} {s s' : Scene}
    (h : joints.foldlM addJoint robot s = .ok (robot', s')) :
    (∃ H, s' = { s with eng := { s.eng with hinges := H } } ∧ H.keys = s.eng.hinges.keys ++ (revolutes joints).map (·.name) ∧
      (∀ n, n ∉ (revolutes joints).map (·.name) → H.get? n = s.eng.hinges.get? n) ∧
      (∀ n ∈ (revolutes joints).map (·.name), s.eng.hinges.get? n = none ∧ ∃ ho, H.get? n = some ho)) ∧
    ((revolutes joints).map (·.name)).Nodup ∧
    robot'.keys = robot.keys ∧
    (∀ j ∈ revolutes joints, (∃ l, robot.get? j.parent = some l) ∧ ∃ l, robot.get? j.child = some l) ∧
    (∀ n, robot.get? n = none → robot'.get? n = none) ∧
    ∀ n l, robot.get? n = some l → ∃ l', robot'.get? n = some l' ∧ grownLink (revolutes joints) l n l' := by
  induction joints generalizing robot s with
  | nil =>
    rw [List.foldlM_nil, pure_ok] at h
    obtain ⟨rfl, rfl⟩ := h
    refine ⟨⟨s.eng.hinges, rfl, by simp [revolutes], fun _ _ => rfl, by simp [revolutes]⟩, by simp [revolutes], rfl,
      by simp [revolutes], fun _ h => h, ?_⟩
    intro n l hl
    exact ⟨l, hl, rfl, rfl, by simp [revolutes], by simp [revolutes]⟩
  | cons j joints ih =>
    rw [List.foldlM_cons, bind_ok] at h
    obtain ⟨r1, s1, h1, h2⟩ := h
    rcases addJoint_ok h1 with ⟨ht, rfl, rfl⟩ | ⟨ht, a1, rfl, a3, a4, a5, a6, a7⟩
    · have : revolutes (j :: joints) = revolutes joints := by
        unfold revolutes
        rw [List.filter_cons_of_neg (by simpa using ht)]
      rw [this]
      exact ih h2
    · have hR : revolutes (j :: joints) = j :: revolutes joints := by
        unfold revolutes
        rw [List.filter_cons_of_pos (by simpa using ht)]
      rw [hR]
      obtain ⟨⟨H, rfl, b2, b3, b4⟩, b5, b6, b7, b8, b9⟩ := ih h2
      simp only at b2 b3 b4
      have hjn : j.name ∉ (revolutes joints).map (·.name) := by
        intro hmem
        have := (b4 _ hmem).1
        rw [Dict.get?_setItem_self] at this
        cases this
      refine ⟨⟨H, rfl, ?_, ?_, ?_⟩, ?_, b6.trans a3, ?_, fun n hn => b8 n (a6 n hn), ?_⟩
      · rw [b2, get?_keys_setItem_new a1]; simp
      · intro n hn
        rw [List.map_cons, List.mem_cons, not_or] at hn
        rw [b3 n hn.2, Dict.get?_setItem_ne _ _ hn.1]
      · intro n hn
        rw [List.map_cons, List.mem_cons] at hn
        rcases hn with rfl | hn
        · refine ⟨a1, ?_⟩
          rw [b3 _ hjn, Dict.get?_setItem_self]
          exact ⟨_, rfl⟩
        · obtain ⟨g1, g2⟩ := b4 n hn
          refine ⟨?_, g2⟩
          rw [Dict.get?_setItem_ne] at g1
          · exact g1
          · rintro rfl; exact hjn hn
      · rw [List.map_cons, List.nodup_cons]
        exact ⟨hjn, b5⟩
      · intro j' hj'
        rcases List.mem_cons.1 hj' with rfl | hj'
        · exact ⟨a4, a5⟩
        · obtain ⟨⟨l1, g1⟩, l2, g2⟩ := b7 j' hj'
          have hback : ∀ n l, r1.get? n = some l → ∃ l, robot.get? n = some l := by
            intro n l hl
            cases hr : robot.get? n with
            | none => rw [a6 n hr] at hl; cases hl
            | some l => exact ⟨l, rfl⟩
          exact ⟨hback _ _ g1, hback _ _ g2⟩
      · intro n l hl
        obtain ⟨l1, g1, k1, k2, k3, k4⟩ := a7 n l hl
        obtain ⟨l2, g2, m1, m2, m3, m4⟩ := b9 n l1 g1
        refine ⟨l2, g2, m1.trans k1, m2.trans k2, ?_, ?_⟩
        · rw [m3, k3, List.append_assoc, ← List.map_append, ← List.filter_append]
          rfl
        · rw [m4, k4]
          simp only [List.mem_singleton, forall_eq, List.mem_cons, forall_eq_or_imp]
          tauto

theorem findRoot_some {robot : Robot} (hn : robot.keys.Nodup) {l : LinkBody} (h : findRoot robot = some l) :
    l.parent = none ∧ ∃ n, robot.get? n = some l := by
  have key : ∀ (L : List LinkBody) (a : Option LinkBody), (∀ l, a = some l → l.parent = none ∧ l ∈ robot.values) →
      (∀ l ∈ L, l ∈ robot.values) →
      ∀ l, L.foldl (fun root link => if link.parent.isNone then some link else root) a = some l →
        l.parent = none ∧ l ∈ robot.values := by
    intro L
    induction L with
    | nil => intro a ha _ l hl; exact ha l hl
    | cons x L ih =>
      intro a ha hL l hl
      rw [List.foldl_cons] at hl
      refine ih _ ?_ (fun y hy => hL y (by simp [hy])) l hl
      intro y hy
      split_ifs at hy with hx
      · cases hy
        exact ⟨by simpa using hx, hL _ (by simp)⟩
      · exact ha y hy
  obtain ⟨h1, h2⟩ := key robot.values none (by simp) (fun _ h => h) l h
  refine ⟨h1, ?_⟩
  unfold Dict.values at h2
  obtain ⟨⟨k, v⟩, hk, rfl⟩ := List.mem_map.1 h2
  obtain ⟨i, hi, he⟩ := List.getElem_of_mem hk
  have := Dict.get?_entry hn hi
  rw [he] at this
  exact ⟨k, this⟩

theorem findRoot_none {robot : Robot} (h : findRoot robot = none) : ∀ l ∈ robot.values, l.parent ≠ none := by
  have key : ∀ (L : List LinkBody) (a : Option LinkBody),
      L.foldl (fun root link => if link.parent.isNone then some link else root) a = none →
        a = none ∧ ∀ l ∈ L, l.parent ≠ none := by
    intro L
    induction L with
    | nil => intro a ha; exact ⟨ha, by simp⟩
    | cons x L ih =>
      intro a ha
      rw [List.foldl_cons] at ha
      obtain ⟨h1, h2⟩ := ih _ ha
      split_ifs at h1 with hx
      refine ⟨h1, ?_⟩
      intro l hl
      rcases List.mem_cons.1 hl with rfl | hl
      · simpa using hx
      · exact h2 l hl
  exact (key _ _ h).2

end Verif
