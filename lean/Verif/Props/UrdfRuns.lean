import Verif.Props.Urdf
import Verif.Props.SceneRuns

/-! C92, C93: files that `read_urdf` accepts, and files on which it never returns. -/

namespace Verif

open Rigid Rigid.Urdf Rigid.SceneM SMesh
open VMesh (Tri)

theorem create_shape_false_runs {eig : Eig} {s s' : Scene} {n : String} {m : Mesh} (h : s.create_shape eig n m true = .ok s') :
    ∃ s'', s.create_shape eig n m false = .ok s'' := by
  unfold Scene.create_shape at h ⊢
  by_cases hm : s.eng.shapes.mem n = true
  · rw [if_pos hm] at h; cases h
  rw [if_neg hm] at h ⊢
  simp only [bind, Except.bind] at h ⊢
  cases hp : Mass.compute_mass_properties m.V m.T 1.0 with
  | error e => rw [hp] at h; cases h
  | ok p =>
    simp only [Bool.false_eq_true, if_false]
    unfold Engine.create_shape
    rw [if_neg hm]
    exact ⟨_, rfl⟩

/-- What a link must bring so that its body can be made: if it has a mesh, then the mesh is a closed surface seen from inside
(`StarShaped`), its frames are rigid and it has an inertial tag. -/
def GoodLink (l : Link) : Prop :=
  ∀ col, l.collision = some col → StarShaped (col.V, col.T) ∧ col.origin.Rigid ∧ ∃ ine, l.inertial = some ine ∧ ine.origin.Rigid

theorem addLink_runs {eig : Eig} (he : EigSpec eig) {l : Link} (hl : GoodLink l) (robot : Robot) {s : Scene}
    (hb : l.collision ≠ none → s.eng.bodies.get? l.name = none ∧ s.eng.shapes.get? (l.name ++ "shape") = none) :
    ∃ robot' s', addLink eig robot l s = .ok (robot', s') ∧
      ∀ k, (l.collision ≠ none → k ≠ l.name ++ "shape") → s'.eng.shapes.get? k = s.eng.shapes.get? k := by
  unfold addLink
  cases hcol : l.collision with
  | none => exact ⟨robot, s, rfl, fun _ _ => rfl⟩
  | some col =>
    obtain ⟨hst, hr, ine, hine, hri⟩ := hl col hcol
    obtain ⟨hb, hsh⟩ := hb (by rw [hcol]; simp)
    simp only [hine]
    have hX : CoordSys.make_coordsys_from_to (CoordSys.make col.origin.r col.origin.q) (CoordSys.make ine.origin.r ine.origin.q) =
      CoordSys.make_coordsys_from_to col.origin ine.origin := rfl
    rw [hX, bodyVertices_eq]
    have hXr : (CoordSys.make_coordsys_from_to col.origin ine.origin).Rigid := (C09_from_to col.origin ine.origin hr hri 0).2
    obtain ⟨m, s1, hm, hs1⟩ := star_shape_succeeds he s (l.name ++ "shape") (starShaped_xform hst hXr) hsh
    obtain ⟨s2, hs2⟩ := create_shape_false_runs hs1
    obtain ⟨-, sh, hshn, rfl⟩ := create_shape_false_ok hs2
    simp only at hm
    have hf' := (Dict.get?_eq_none _ _).1 hb
    have hcr : ∃ o, ({ s.eng with shapes := s.eng.shapes.setItem (l.name ++ "shape") sh } : Engine).create_rigid_body l.name =
        .ok { s.eng with shapes := s.eng.shapes.setItem (l.name ++ "shape") sh, bodies := s.eng.bodies.setItem l.name o } := by
      unfold Engine.create_rigid_body
      rw [if_neg (by simpa using hf')]
      exact ⟨_, rfl⟩
    obtain ⟨o, hcr⟩ := hcr
    refine bind_runs (P := fun _ t => t = { s with eng := { s.eng with shapes := s.eng.shapes.setItem (l.name ++ "shape") sh }, meshes := s.meshes.setItem (l.name ++ "shape") m }) ⟨(), _, ?_, rfl⟩ ?_
    · simp only [bind, Except.bind]
      rw [hm]
      simp only
      rw [hs2]
      rfl
    rintro _ _ rfl
    refine bind_runs (P := fun _ t => t = { s with eng := { s.eng with shapes := s.eng.shapes.setItem (l.name ++ "shape") sh, bodies := s.eng.bodies.setItem l.name o }, meshes := s.meshes.setItem (l.name ++ "shape") m }) ⟨(), _, api_ok.2 ⟨_, hcr, rfl⟩, rfl⟩ ?_
    rintro _ _ rfl
    have hcs := connect_shape_eq (e := { s.eng with shapes := s.eng.shapes.setItem (l.name ++ "shape") sh, bodies := s.eng.bodies.setItem l.name o }) (Dict.get?_setItem_self _ l.name o) (Dict.get?_setItem_self _ (l.name ++ "shape") sh)
    refine bind_runs (P := fun _ t => (∃ o', t.eng.bodies.get? l.name = some o') ∧ t.eng.shapes = s.eng.shapes.setItem (l.name ++ "shape") sh) ⟨(), _, api_ok.2 ⟨_, hcs, rfl⟩, ⟨_, Dict.get?_setItem_self _ _ _⟩, rfl⟩ ?_
    rintro _ t ⟨⟨o', ho'⟩, hts⟩
    refine bind_runs (P := fun _ t => t.eng.shapes = s.eng.shapes.setItem (l.name ++ "shape") sh) ⟨(), _, api_ok.2 ⟨_, updateBody_some _ ho', rfl⟩, hts⟩ ?_
    rintro _ t hts
    refine pure_runs ?_
    intro k hk
    rw [hts]
    exact Dict.get?_setItem_ne _ _ (hk (by simp))

theorem append_shape_inj {a b : String} (h : a ++ "shape" = b ++ "shape") : a = b := by
  have := congrArg String.toList h
  rw [String.toList_append, String.toList_append] at this
  exact String.toList_inj.1 (List.append_cancel_right this)

theorem addLinks_runs {eig : Eig} (he : EigSpec eig) {links : List Link} (hl : ∀ l ∈ links, GoodLink l)
    (hn : (solidNames links).Nodup) (robot : Robot) {s : Scene} (hok : s.OK)
    (hb : ∀ n ∈ solidNames links, s.eng.bodies.get? n = none ∧ s.eng.shapes.get? (n ++ "shape") = none) :
    ∃ robot' s', links.foldlM (addLink eig) robot s = .ok (robot', s') := by
  induction links generalizing robot s with
  | nil => exact ⟨robot, s, rfl⟩
  | cons l links ih =>
    have hgood := hl l (by simp)
    by_cases hcol : l.collision = none
    · have hsn : solidNames (l :: links) = solidNames links := by
        unfold solidNames
        rw [List.filter_cons_of_neg (by simp [hcol])]
      rw [hsn] at hn hb
      obtain ⟨r2, s2, h2⟩ := ih (fun l' h' => hl l' (by simp [h'])) hn robot hok hb
      refine ⟨r2, s2, ?_⟩
      rw [List.foldlM_cons, bind_ok]
      refine ⟨robot, s, ?_, h2⟩
      unfold addLink
      rw [hcol]
      rfl
    · have hsn : solidNames (l :: links) = l.name :: solidNames links := by
        unfold solidNames
        rw [List.filter_cons_of_pos (by simpa [Option.isSome_iff_ne_none] using hcol), List.map_cons]
      rw [hsn] at hn hb
      obtain ⟨hn1, hn2⟩ := List.nodup_cons.1 hn
      obtain ⟨r1, s1, h1, h1'⟩ := addLink_runs he hgood robot (s := s) (fun _ => hb _ (by simp))
      rcases addLink_ok he hok (fun col hc => (hgood col hc).1.1) h1 with ⟨hc, -⟩ | ⟨col, ine, hc, hin, hg, hm, -⟩
      · exact absurd hc hcol
      obtain ⟨r2, s2, h2⟩ := ih (fun l' h' => hl l' (by simp [h'])) hn2 r1 (hg.ok hok) (by
        intro n hnm
        have hne : n ≠ l.name := fun h => hn1 (h ▸ hnm)
        obtain ⟨b1, b2⟩ := hb n (by simp [hnm])
        refine ⟨?_, ?_⟩
        · rw [hg.old n (by simpa using hne)]; exact b1
        · rw [h1' _ (fun _ h => hne (append_shape_inj h))]; exact b2)
      refine ⟨r2, s2, ?_⟩
      rw [List.foldlM_cons, bind_ok]
      exact ⟨r1, s1, h1, h2⟩

theorem addJoint_runs {robot : Robot} {j : Joint} {s : Scene} (h : j.type = "revolute" → s.eng.hinges.get? j.name = none ∧
    (∃ l, robot.get? j.parent = some l) ∧ ∃ l, robot.get? j.child = some l) :
    ∃ robot' s', addJoint robot j s = .ok (robot', s') := by
  unfold addJoint
  by_cases hr : j.type ≠ "revolute"
  · rw [if_pos hr]; exact ⟨robot, s, rfl⟩
  obtain ⟨h1, ⟨l1, h2⟩, l2, h3⟩ := h (not_not.1 hr)
  rw [if_neg hr]
  have h1' := (Dict.get?_eq_none _ _).1 h1
  have hcr : ∃ e, s.eng.create_hinge j.name = .ok e := by
    unfold Engine.create_hinge
    rw [if_neg (by simpa using h1')]
    exact ⟨_, rfl⟩
  obtain ⟨e, hcr⟩ := hcr
  have hch : ∀ {r : Robot} {n : String} {l : LinkBody} (f : LinkBody → LinkBody), r.get? n = some l →
      changeLink r n f = .ok (r.setItem n (f l)) := by
    intro r n l f hg
    unfold changeLink
    rw [getItem_ok_iff.2 hg]
    rfl
  have h3' : ∃ l, (robot.setItem j.parent { l1 with children := l1.children ++
      [(j.child, j.name, CoordSys.make j.origin.r j.origin.q, j.axis)] }).get? j.child = some l := by
    rw [Dict.get?_setItem]
    split_ifs
    · exact ⟨_, rfl⟩
    · exact ⟨l2, h3⟩
  obtain ⟨l3, h3'⟩ := h3'
  have : ∃ b t, ((SceneM.api fun e => e.create_hinge j.name) >>= fun _ => fun s => (do
      let robot ← changeLink robot j.parent fun l =>
        { l with children := l.children ++ [(j.child, j.name, CoordSys.make j.origin.r j.origin.q, j.axis)] }
      let robot ← changeLink robot j.child fun l => { l with parent := some j.parent }
      return (robot, s)) : SceneM Robot) s = .ok (b, t) ∧ True := by
    refine bind_runs (P := fun _ _ => True) ⟨(), _, api_ok.2 ⟨_, hcr, rfl⟩, trivial⟩ ?_
    rintro _ t -
    simp only [bind, Except.bind]
    rw [hch _ h2]
    simp only
    rw [hch _ h3']
    exact ⟨_, _, rfl, trivial⟩
  obtain ⟨b, t, h, -⟩ := this
  exact ⟨b, t, h⟩

theorem addJoints_runs {joints : List Joint} {robot : Robot} {s : Scene} (hn : ((revolutes joints).map (·.name)).Nodup)
    (h : ∀ j ∈ revolutes joints, s.eng.hinges.get? j.name = none ∧ (∃ l, robot.get? j.parent = some l) ∧
      ∃ l, robot.get? j.child = some l) : ∃ robot' s', joints.foldlM addJoint robot s = .ok (robot', s') := by
  induction joints generalizing robot s with
  | nil => exact ⟨robot, s, rfl⟩
  | cons j joints ih =>
    obtain ⟨r1, s1, h1⟩ := addJoint_runs (robot := robot) (j := j) (s := s) (fun hr => h j (mem_revolutes.2 ⟨by simp, hr⟩))
    have hsub : ∀ j', j' ∈ revolutes joints → j' ∈ revolutes (j :: joints) := fun j' h' =>
      mem_revolutes.2 ⟨List.mem_cons_of_mem _ (mem_revolutes.1 h').1, (mem_revolutes.1 h').2⟩
    have key : ∃ r2 s2, joints.foldlM addJoint r1 s1 = .ok (r2, s2) := by
      rcases addJoint_ok h1 with ⟨ht, rfl, rfl⟩ | ⟨ht, a1, rfl, a3, a4, a5, a6, a7⟩
      · refine ih ?_ fun j' h' => h j' (hsub j' h')
        have : revolutes (j :: joints) = revolutes joints := by
          unfold revolutes
          rw [List.filter_cons_of_neg (by simpa using ht)]
        rwa [this] at hn
      · have hR : revolutes (j :: joints) = j :: revolutes joints := by
          unfold revolutes
          rw [List.filter_cons_of_pos (by simpa using ht)]
        rw [hR, List.map_cons, List.nodup_cons] at hn
        refine ih hn.2 ?_
        intro j' h'
        obtain ⟨b1, ⟨l1, b2⟩, l2, b3⟩ := h j' (hsub j' h')
        obtain ⟨l1', c1, -⟩ := a7 _ _ b2
        obtain ⟨l2', c2, -⟩ := a7 _ _ b3
        refine ⟨?_, ⟨l1', c1⟩, l2', c2⟩
        simp only
        rw [Dict.get?_setItem_ne]
        · exact b1
        · intro he
          exact hn.1 (he ▸ List.mem_map_of_mem h')
    obtain ⟨r2, s2, h2⟩ := key
    refine ⟨r2, s2, ?_⟩
    rw [List.foldlM_cons, bind_ok]
    exact ⟨r1, s1, h1, h2⟩

/-- A robot that `read_urdf` can put into the engine: every link with a mesh is good, the names are new, every revolute joint
connects two links with meshes, and at least one link with a mesh is no joint's child. -/
structure GoodRobot (links : List Link) (joints : List Joint) (s : Scene) : Prop where
  good : ∀ l ∈ links, GoodLink l
  names : (solidNames links).Nodup
  fresh : ∀ n ∈ solidNames links, s.eng.bodies.get? n = none ∧ s.eng.shapes.get? (n ++ "shape") = none
  jointNames : ((revolutes joints).map (·.name)).Nodup
  freshJoints : ∀ j ∈ revolutes joints, s.eng.hinges.get? j.name = none
  ends : ∀ j ∈ revolutes joints, j.parent ∈ solidNames links ∧ j.child ∈ solidNames links
  root : ∃ n ∈ solidNames links, ∀ j ∈ revolutes joints, j.child ≠ n

theorem solid_get {links : List Link} {n : String} (h : n ∈ solidNames links) : ∃ l ∈ links, l.name = n ∧ ∃ col, l.collision = some col := by
  unfold solidNames at h
  obtain ⟨l, hl, rfl⟩ := List.mem_map.1 h
  obtain ⟨hl, hs⟩ := List.mem_filter.1 hl
  exact ⟨l, hl, rfl, Option.isSome_iff_exists.1 hs⟩

/-- Up to the traversal everything succeeds. -/
theorem goodRobot_start {eig : Eig} (he : EigSpec eig) {links : List Link} {joints : List Joint} {s : Scene} (hok : s.OK)
    (h : GoodRobot links joints s) : ∃ robot1 s1 robot2 s2 root, links.foldlM (addLink eig) Dict.empty s = .ok (robot1, s1) ∧
      joints.foldlM addJoint robot1 s1 = .ok (robot2, s2) ∧ findRoot robot2 = some root := by
  have hi : ∀ l ∈ links, ∀ col, l.collision = some col → IndicesBelow col.T col.V.length := fun l hl col hc => (h.good l hl col hc).1.1
  obtain ⟨r1, s1, h1⟩ := addLinks_runs he h.good h.names Dict.empty hok h.fresh
  obtain ⟨a1, a2, a3, a4⟩ := addLinks_ok he hok hi h1
  have hget : ∀ n ∈ solidNames links, ∃ l, r1.get? n = some l ∧ l.parent = none := by
    intro n hn
    obtain ⟨l, hl, rfl, col, hc⟩ := solid_get hn
    obtain ⟨ine, -, -, hg⟩ := a4 l hl col hc
    exact ⟨_, hg, rfl⟩
  obtain ⟨r2, s2, h2⟩ := addJoints_runs (joints := joints) (robot := r1) (s := s1) h.jointNames (by
    intro j hj
    obtain ⟨e1, e2⟩ := h.ends j hj
    obtain ⟨l1, g1, -⟩ := hget _ e1
    obtain ⟨l2, g2, -⟩ := hget _ e2
    refine ⟨?_, ⟨l1, g1⟩, l2, g2⟩
    rw [a1.hinges]
    exact h.freshJoints j hj)
  obtain ⟨-, -, b6, -, -, b9⟩ := addJoints_ok h2
  obtain ⟨n, hn, hroot⟩ := h.root
  obtain ⟨l, g, hp⟩ := hget n hn
  obtain ⟨l', g', -, -, -, k4⟩ := b9 _ _ g
  cases hf : findRoot r2 with
  | none =>
    have := findRoot_none hf l' ?_ (k4.2 ⟨hp, hroot⟩)
    · exact this.elim
    · unfold Dict.values
      have hm := Dict.get?_some g'
      obtain ⟨k, hk, he⟩ := hm
      exact List.mem_map.2 ⟨(n, l'), he ▸ List.getElem_mem hk, rfl⟩
  | some root => exact ⟨r1, s1, r2, s2, root, h1, h2, hf⟩

/-- **C92.** `read_urdf` (after parsing) succeeds on every good robot whose joints form trees. -/
theorem C92_succeeds {eig : Eig} (he : EigSpec eig) {links : List Link} {joints : List Joint} {s : Scene} (hok : s.OK)
    (h : GoodRobot links joints s) (hj : ∀ j ∈ joints, j.origin.Rigid) (htree : TreeJoints joints)
    (hin : ∀ l ∈ links, ∀ ine, l.inertial = some ine → ine.origin.Rigid) :
    ∃ s' base W, build eig links joints s = .ok ((), s') ∧ RobotBuilt links joints s s' base W := by
  obtain ⟨r1, s1, r2, s2, root, h1, h2, h3⟩ := goodRobot_start he hok h
  exact build_end he hok (fun l hl col hc => (h.good l hl col hc).1.1)
    ⟨fun l hl => ⟨fun col hc => (h.good l hl col hc).2.1, hin l hl⟩, hj⟩ htree h1 h2 h3

/-! ### Loops that never end -/

/-- The names in D lead to each other for ever: every link of D is the parent in a revolute joint whose child is in D. -/
def EndlessFrom (joints : List Joint) (D : Set String) : Prop :=
  ∀ n ∈ D, ∃ j ∈ revolutes joints, j.parent = n ∧ j.child ∈ D

/-- All names that the traversal uses exist. -/
structure Known (R : List Joint) (st : List String × Robot × Scene) : Prop where
  links : ∀ n l, st.2.1.get? n = some l → l.children = (R.filter fun j => j.parent == n).map UrdfLoop.kid ∧
    ∃ b, st.2.2.eng.bodies.get? n = some b
  joints : ∀ j ∈ R, (∃ l, st.2.1.get? j.parent = some l) ∧ (∃ l, st.2.1.get? j.child = some l) ∧
    ∃ h, st.2.2.eng.hinges.get? j.name = some h
  stack : ∀ n ∈ st.1, ∃ l, st.2.1.get? n = some l

theorem placeChild_known {R : List Joint} {st : List String × Robot × Scene} (hK : Known R st) {j : Joint} (hj : j ∈ R) (Xp : CoordSys) :
    ∃ st', placeChild j.parent Xp st (UrdfLoop.kid j) = .ok st' ∧ Known R st' ∧ st'.1 = j.child :: st.1 := by
  obtain ⟨stack, robot, s⟩ := st
  obtain ⟨⟨lp, hlp⟩, ⟨lc, hlc⟩, ho, hho⟩ := hK.joints j hj
  obtain ⟨-, bc, hbc⟩ := hK.links _ _ hlc
  obtain ⟨-, bp, hbp⟩ := hK.links _ _ hlp
  simp only at hlp hlc hho hbc hbp
  unfold placeChild UrdfLoop.kid
  simp only [bind, Except.bind]
  rw [getItem_ok_iff.2 hlc]
  simp only
  obtain ⟨X, hX⟩ : ∃ X, X = CoordSys.concat (CoordSys.concat Xp j.origin) lc.X_b2r := ⟨_, rfl⟩
  rw [← hX]
  rw [((C44_set_position s.eng j.child X.r).2 _ hbc).1]
  simp only
  rw [((C44_set_orientation { s.eng with bodies := s.eng.bodies.setItem j.child { bc with body := { bc.body with r := X.r } } } j.child X.q).2 _ (Dict.get?_setItem_self _ _ _)).1]
  simp only [setItem_setItem]
  obtain ⟨bc', hbc'⟩ : ∃ b', b' = { bc with body := { bc.body with r := X.r, q := Quat.unit X.q } } := ⟨_, rfl⟩
  rw [← hbc']
  have hb : ∀ n b, s.eng.bodies.get? n = some b → ∃ b', (s.eng.bodies.setItem j.child bc').get? n = some b' := by
    intro n b hb
    rw [Dict.get?_setItem]
    split_ifs
    · exact ⟨_, rfl⟩
    · exact ⟨b, hb⟩
  obtain ⟨bp', hbp'⟩ := hb _ _ hbp
  have hset : ∃ h', ({ s.eng with bodies := s.eng.bodies.setItem j.child bc' } : Engine).set_hinge j.name j.parent j.child
      (CoordSys.xform_point (CoordSys.concat Xp j.origin) V3.zero) (CoordSys.xform_vector (CoordSys.concat Xp j.origin) j.axis) .world =
      .ok { s.eng with bodies := s.eng.bodies.setItem j.child bc', hinges := s.eng.hinges.setItem j.name h' } := by
    obtain ⟨e1, he1⟩ : ∃ e : Engine, e = { s.eng with bodies := s.eng.bodies.setItem j.child bc' } := ⟨_, rfl⟩
    have c1 : e1.hinges.get? j.name = some ho := by rw [he1]; exact hho
    have c2 : e1.bodies.get? j.parent = some bp' := by rw [he1]; exact hbp'
    have c3 : e1.bodies.get? j.child = some bc' := by rw [he1]; exact Dict.get?_setItem_self _ _ _
    rw [← he1]
    unfold Engine.set_hinge Engine.hingeFrame
    rw [findHinge_ok.2 c1, findBody_ok.2 c2, findBody_ok.2 c3, he1]
    exact ⟨_, rfl⟩
  obtain ⟨h', hset⟩ := hset
  rw [hset]
  refine ⟨_, rfl, ?_, rfl⟩
  have hr : ∀ n l, robot.get? n = some l → ∃ l', (robot.setItem j.child { lc with X_b2r := CoordSys.concat Xp j.origin }).get? n = some l' := by
    intro n l hl
    rw [Dict.get?_setItem]
    split_ifs
    · exact ⟨_, rfl⟩
    · exact ⟨l, hl⟩
  constructor
  · intro n l hl
    simp only at hl ⊢
    rw [Dict.get?_setItem] at hl
    split_ifs at hl with hn
    · cases hl
      subst hn
      refine ⟨(hK.links _ _ hlc).1, hb _ _ hbc⟩
    · obtain ⟨a1, b, a2⟩ := hK.links _ _ hl
      exact ⟨a1, hb _ _ a2⟩
  · intro j' hj'
    obtain ⟨⟨l1, h1⟩, ⟨l2, h2⟩, h3, h4⟩ := hK.joints j' hj'
    refine ⟨hr _ _ h1, hr _ _ h2, ?_⟩
    simp only at h4 ⊢
    rw [Dict.get?_setItem]
    split_ifs
    · exact ⟨_, rfl⟩
    · exact ⟨h3, h4⟩
  · intro n hn
    simp only [List.mem_cons] at hn ⊢
    rcases hn with rfl | hn
    · exact ⟨_, Dict.get?_setItem_self _ _ _⟩
    · obtain ⟨l, hl⟩ := hK.stack n hn
      exact hr _ _ hl

theorem children_known {R : List Joint} {p : String} {Xp : CoordSys} {P : List Joint} {st : List String × Robot × Scene}
    (hK : Known R st) (hP : ∀ j ∈ P, j ∈ R ∧ j.parent = p) :
    ∃ st', (P.map UrdfLoop.kid).foldlM (placeChild p Xp) st = .ok st' ∧ Known R st' ∧
      (∀ n ∈ st.1, n ∈ st'.1) ∧ ∀ j ∈ P, j.child ∈ st'.1 := by
  induction P generalizing st with
  | nil => exact ⟨st, rfl, hK, fun _ h => h, by simp⟩
  | cons j P ih =>
    obtain ⟨hj, rfl⟩ := hP j (by simp)
    obtain ⟨st1, h1, h2, h3⟩ := placeChild_known hK hj Xp
    obtain ⟨st2, g1, g2, g3, g4⟩ := ih h2 (fun j' h' => hP j' (by simp [h']))
    refine ⟨st2, ?_, g2, fun n hn => g3 n (by rw [h3]; simp [hn]), ?_⟩
    · rw [List.map_cons, List.foldlM_cons, h1]
      exact g1
    · intro j' hj'
      rcases List.mem_cons.1 hj' with rfl | hj'
      · exact g3 _ (by rw [h3]; simp)
      · exact g4 j' hj'

theorem visit_endless {joints : List Joint} {D : Set String} (hD : EndlessFrom joints D) {st : List String × Robot × Scene}
    (hK : Known (revolutes joints) st) (hs : ∃ n ∈ st.1, n ∈ D) :
    ∃ st', visit st = .ok (some st') ∧ Known (revolutes joints) st' ∧ ∃ n ∈ st'.1, n ∈ D := by
  obtain ⟨stack, robot, s⟩ := st
  cases stack with
  | nil => obtain ⟨n, hn, -⟩ := hs; cases hn
  | cons p stack =>
    obtain ⟨l, hl⟩ := hK.stack p (by simp)
    have hch := (hK.links p l hl).1
    have hK' : Known (revolutes joints) (stack, robot, s) :=
      ⟨hK.links, hK.joints, fun n hn => hK.stack n (by simp only at hn ⊢; simp [hn])⟩
    obtain ⟨st', h1, h2, h3, h4⟩ := children_known (p := p) (Xp := l.X_b2r)
      (P := (revolutes joints).filter fun j => j.parent == p) hK' (fun j hj => by
        obtain ⟨a, b⟩ := List.mem_filter.1 hj
        exact ⟨a, by simpa using b⟩)
    refine ⟨st', ?_, h2, ?_⟩
    · unfold visit
      simp only [bind, Except.bind]
      simp only at hl
      rw [getItem_ok_iff.2 hl]
      simp only
      rw [hch, h1]
      rfl
    · obtain ⟨n, hn, hnD⟩ := hs
      rcases List.mem_cons.1 hn with rfl | hn
      · obtain ⟨j, hj, hjp, hjc⟩ := hD n hnD
        exact ⟨j.child, h4 j (List.mem_filter.2 ⟨hj, by simpa using hjp⟩), hjc⟩
      · exact ⟨n, h3 n hn, hnD⟩

/-- **C92.** `read_urdf` never returns when the joints lead from every possible base link (a link with a mesh that is no joint's
child) into a cycle. -/
theorem C92_cycle_diverges {eig : Eig} (he : EigSpec eig) {links : List Link} {joints : List Joint} {s : Scene} (hok : s.OK)
    (h : GoodRobot links joints s) {D : Set String} (hD : EndlessFrom joints D)
    (hroot : ∀ n ∈ solidNames links, (∀ j ∈ revolutes joints, j.child ≠ n) → n ∈ D) :
    build eig links joints s = .error .diverges := by
  obtain ⟨r1, s1, r2, s2, root, h1, h2, h3⟩ := goodRobot_start he hok h
  have hi : ∀ l ∈ links, ∀ col, l.collision = some col → IndicesBelow col.T col.V.length := fun l hl col hc => (h.good l hl col hc).1.1
  obtain ⟨a1, a2, a3, a4⟩ := addLinks_ok he hok hi h1
  obtain ⟨⟨H, hs2, b2, b3, b4⟩, b5, b6, b7, b8, b9⟩ := addJoints_ok h2
  have hk2 : r2.keys.Nodup := by rw [b6]; exact a2 (by simp [Dict.empty, Dict.keys])
  obtain ⟨hp, n, hn⟩ := findRoot_some hk2 h3
  have hlink : ∀ n l', r2.get? n = some l' → n ∈ solidNames links ∧ (∃ b, s2.eng.bodies.get? n = some b) ∧ l'.name = n ∧
      l'.children = ((revolutes joints).filter fun j => j.parent == n).map UrdfLoop.kid ∧
      (l'.parent = none → ∀ j ∈ revolutes joints, j.child ≠ n) := by
    intro n l' hl'
    cases hr1 : r1.get? n with
    | none => rw [b8 n hr1] at hl'; cases hl'
    | some l1 =>
      have hmem : n ∈ solidNames links := by
        by_contra hc
        rw [a3 n hc] at hr1
        simp at hr1
      obtain ⟨l, hl, rfl, col, hcol⟩ := solid_get hmem
      obtain ⟨ine, hine, ⟨o, sh, m, c1, -⟩, hrob⟩ := a4 l hl col hcol
      obtain ⟨l'', g1, g2, g3, g4, g5⟩ := b9 _ _ hrob
      rw [hl'] at g1
      cases g1
      refine ⟨hmem, ⟨o, by rw [hs2]; exact c1⟩, g2, by simpa using g4, fun hq => (g5.1 hq).2⟩
  obtain ⟨hns, ⟨b, hb⟩, hname, hch, hnp⟩ := hlink n root hn
  have hnD : n ∈ D := hroot n hns (hnp hp)
  have e1 := ((C44_set_position s2.eng n root.X_b2r.r).2 b hb).1
  have e2 := ((C44_set_orientation { s2.eng with bodies := s2.eng.bodies.setItem n { b with body := { b.body with r := root.X_b2r.r } } } n root.X_b2r.q).2 _ (Dict.get?_setItem_self _ _ _)).1
  obtain ⟨e3, he3⟩ : ∃ e, e = ({ s2.eng with bodies := (s2.eng.bodies.setItem n { b with body := { b.body with r := root.X_b2r.r } }).setItem n { b with body := { b.body with r := root.X_b2r.r, q := Quat.unit root.X_b2r.q } } } : Engine) := ⟨_, rfl⟩
  simp only at e2
  rw [← he3] at e2
  have hgetb : ∀ k b, s2.eng.bodies.get? k = some b → ∃ b', e3.bodies.get? k = some b' := by
    intro k c hc
    rw [he3]
    simp only [setItem_setItem]
    rw [Dict.get?_setItem]
    split_ifs
    · exact ⟨_, rfl⟩
    · exact ⟨c, hc⟩
  have hK : Known (revolutes joints) ([n], r2, { s2 with eng := e3 }) := by
    constructor
    · intro k l hl
      obtain ⟨-, ⟨c, hc⟩, -, c3, -⟩ := hlink k l hl
      exact ⟨c3, hgetb _ _ hc⟩
    · intro j hj
      obtain ⟨⟨l1, g1⟩, l2, g2⟩ := b7 j hj
      obtain ⟨l1', g1', -⟩ := b9 _ _ g1
      obtain ⟨l2', g2', -⟩ := b9 _ _ g2
      refine ⟨⟨l1', g1'⟩, ⟨l2', g2'⟩, ?_⟩
      simp only
      rw [he3, hs2]
      exact (b4 j.name (List.mem_map_of_mem hj)).2
    · intro k hk
      simp only [List.mem_singleton] at hk
      subst hk
      exact ⟨root, hn⟩
  have hdiv : whileLoop visit ([n], r2, { s2 with eng := e3 }) = .error .diverges := by
    refine whileLoop_diverges ?_
    intro r hr
    have : ∀ st r, LoopEnds visit st r → Known (revolutes joints) st → (∃ k ∈ st.1, k ∈ D) → False := by
      clear hr
      intro st r hst
      induction hst with
      | done hs => intro k1 k2; obtain ⟨st', g1, -⟩ := visit_endless hD k1 k2; rw [hs] at g1; cases g1
      | raised hs => intro k1 k2; obtain ⟨st', g1, -⟩ := visit_endless hD k1 k2; rw [hs] at g1; cases g1
      | next hs _ ih =>
        intro k1 k2
        obtain ⟨st', g1, g2, g3⟩ := visit_endless hD k1 k2
        rw [hs] at g1
        cases g1
        exact ih g2 g3
    exact this _ _ hr hK ⟨n, by simp, hnD⟩
  have hbind : ∀ {α β : Type} {m : SceneM α} {f : α → SceneM β} {s s' : Scene} {a : α}, m s = .ok (a, s') →
      (m >>= f) s = f a s' := by
    intro α β m f s s' a hm
    show (m s >>= fun r => f r.1 r.2) = _
    rw [hm]
    rfl
  unfold build
  rw [hbind h1, hbind h2]
  simp only [h3]
  rw [hname, hbind (a := ()) (api_ok.2 ⟨_, e1, rfl⟩), hbind (a := ()) (api_ok.2 ⟨_, e2, rfl⟩)]
  show (whileLoop visit ([n], r2, { s2 with eng := e3 }) >>= _) = _
  rw [hdiv]
  rfl

end Verif
