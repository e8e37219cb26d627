import Verif.Props.WriteXml2
import Verif.Props.SceneAll7

/-! C111: the joints in the document of `write_xml`, and the scenes of `create_scene`. -/

namespace Verif

open Rigid Rigid.Xml VMesh SMesh SceneM

theorem SceneGood.hasMeshes {s : Scene} (hs : SceneGood s) : HasMeshes s := by
  intro n sh h
  obtain ⟨m, hm, -⟩ := hs.meshes n sh h
  exact ⟨m, hm⟩

/-- **C111.**  Every scene of `create_scene` but "ur5" can be written, as rigid_bodies_app_gui.py does after creating it. -/
theorem C111_scene {O : Outside} (hO : GoodOutside O) (hH : HeavyOutside O) {name : String} (hn : name ∈ get_scene_names) (h5 : name ≠ "ur5") {s s' : Scene}
    (hr : Ready "default" s) (hh : NewHinges s) (hc : Complete s) (h : create_scene O name s = .ok ((), s')) : ∃ d, document s' = .ok d := by
  obtain ⟨s1, h3, g1⟩ := stage_builds hO hn h5 hr hh
  obtain ⟨s1', F, h5', hp⟩ := scene_pushed hr.good.eng h
  rw [h3] at h5'
  cases h5'
  have f1 := stage_fuller hO hH hn h5 hr h3
  have hg := scene_good h3 g1 h
  have hcomp := (f1.1 hc).pushed hp
  refine (C111_raises hg.eng hg.hasMeshes).1.2 ⟨?_, ?_⟩
  · intro b hb
    obtain ⟨i, hi, rfl⟩ := mem_values hb
    exact hcomp.shape _ _ (Dict.get?_entry hg.eng.bodies_nodup hi)
  · intro b hb
    obtain ⟨i, hi, rfl⟩ := mem_values hb
    exact hcomp.hinge _ _ (Dict.get?_entry hg.eng.hinges_nodup hi)

/-- All of them, in an empty engine, with boxes for the meshes of the files. -/
example {eig : Eig} (he : EigSpec eig) (sys : Urdf.Sys) {name : String} (hn : name ∈ get_scene_names) (h5 : name ≠ "ur5") :
    ∃ s' d, create_scene (boxOutside eig sys) name freshScene = .ok ((), s') ∧ document s' = .ok d := by
  obtain ⟨s', h4⟩ := C110_builds (boxOutside_good he sys) hn h5 freshScene_ready freshScene_newHinges rfl rfl
  obtain ⟨d, hd⟩ := C111_scene (boxOutside_good he sys) (boxOutside_heavy eig sys) hn h5 freshScene_ready freshScene_newHinges
    ⟨fun n o h => (by cases h), fun n o h => (by cases h), fun n o h => (by cases h)⟩ h4
  exact ⟨s', d, h4, hd⟩

/-- The element of a hinge in the document. -/
theorem hinge_element {s : Scene} {d : Elem} (h : document s = .ok d) {hn : String} {ho : HingeObj} (hg : s.eng.hinges.get? hn = some ho) :
    ∃ sec el i, d.find "hinges" = some sec ∧ el ∈ sec.children ∧ hingeNode s.eng.bodies (ho, i) = .ok el := by
  obtain ⟨bs, shs, hs, h1, h2, h3, rfl⟩ := document_ok.1 h
  obtain ⟨i, hi, he⟩ := Dict.get?_some hg
  have hv : (ho, i) ∈ s.eng.hinges.values.zipIdx := by
    rw [List.mem_zipIdx_iff_getElem?]
    simp [Dict.values, hi, he]
  obtain ⟨el, hel, hk⟩ := exists_right h3 hv
  exact ⟨_, el, i, rfl, hel, hk⟩

/-- **C111.**  A joint that has just been set with `set_hinge` in the mode "world" is written with the very origin it was set with, with the direction of
its axis, normalised, and with the mode "world". -/
theorem C111_hinge {s : Scene} (hs : EngineOk s.eng) {e : Engine} {hn p c : String} {o a : V3} (ha : a ≠ 0)
    (h : s.eng.set_hinge hn p c o a .world = .ok e) {d : Elem} (hd : document { s with eng := e } = .ok d) :
    ∃ sec el, d.find "hinges" = some sec ∧ el ∈ sec.children ∧ Describes el "hinge"
      [("name", .str hn), ("parent", .str p), ("child", .str c), ("origin", .vec o), ("axis", .vec (V3.unit a)), ("mode", .str "world")] := by
  have hcall : s.eng.call (.setHinge hn p c o a .world) = .ok e := h
  obtain ⟨hh, pb, cb, hhh, hpb, hcb⟩ : ∃ hh pb cb, s.eng.hinges.get? hn = some hh ∧ s.eng.bodies.get? p = some pb ∧ s.eng.bodies.get? c = some cb := by
    have h' := h
    unfold Engine.set_hinge at h'
    cases k1 : s.eng.findHinge hn with
    | error x => rw [k1] at h'; cases h'
    | ok hh =>
      cases k2 : s.eng.findBody p with
      | error x => rw [k1, k2] at h'; cases h'
      | ok pb =>
        cases k3 : s.eng.findBody c with
        | error x => rw [k1, k2, k3] at h'; cases h'
        | ok cb => exact ⟨hh, pb, cb, findHinge_ok.1 k1, findBody_ok.1 k2, findBody_ok.1 k3⟩
  obtain ⟨-, -, -, hpname, hpq, -⟩ := hs.bodies.get? hpb
  obtain ⟨-, -, -, hcname, hcq, -⟩ := hs.bodies.get? hcb
  obtain ⟨O, S, ho, ap, ac, np, nc, hJ, -, rfl, e1, e2, e3, -, e5, -, e7, -, e9, -⟩ := C41_set_hinge h hpb hcb hpq hcq (by intro h; cases h) ha
  obtain ⟨rfl, rfl⟩ : O = o ∧ S = a := hJ
  have hok : EngineOk { s.eng with hinges := s.eng.hinges.setItem hn ho } := ok_after hs (show OpOk (.setHinge hn p c O S .world) from trivial) hcall
  have hget : ({ s.eng with hinges := s.eng.hinges.setItem hn ho } : Engine).hinges.get? hn = some ho := by
    show (s.eng.hinges.setItem hn ho).get? hn = some ho
    rw [Dict.get?_setItem]
    simp
  obtain ⟨sec, el, i, h1, h2, h3⟩ := hinge_element hd hget
  refine ⟨sec, el, h1, h2, ?_⟩
  obtain ⟨pn, p', cn, c', arm, axis, a1, a2, a3, a4, a5, a6, rfl⟩ := hingeNode_ok.1 h3
  simp only at a1 a2 a3 a4 a5 a6
  rw [e1] at a1
  rw [e2] at a3
  rw [e3] at a5
  rw [e5] at a6
  cases a1; cases a3; cases a5; cases a6
  rw [hpb] at a2
  rw [hcb] at a4
  cases a2; cases a4
  have hname : ho.name = hn := by
    obtain ⟨-, -, -, h, -⟩ := hok.hinges.get? hget
    exact h
  unfold bodyToWorld at e7
  simp only
  rw [hname, hpname, hcname, e7, e9]
  described

/-- The hinge is written without a look at the socket in the child. -/
theorem hingeNode_congr (d : Dict String BodyObj) {g g' : HingeObj} (i : ℕ) (h1 : g.name = g'.name) (h2 : g.parent = g'.parent) (h3 : g.child = g'.child)
    (h4 : g.arm_p = g'.arm_p) (h5 : g.axis_p = g'.axis_p) : hingeNode d (g, i) = hingeNode d (g', i) := by
  unfold hingeNode
  simp only
  rw [h1, h2, h3, h4, h5]

theorem mapM_congr₂ {α β : Type} {f : α → Except PyErr β} {L L' : List α} (h : List.Forall₂ (fun a a' => f a = f a') L L') : L.mapM f = L'.mapM f := by
  induction h with
  | nil => rfl
  | cons h1 _ ih => rw [List.mapM_cons, List.mapM_cons, h1, ih]

theorem setItem_values {κ υ : Type} [DecidableEq κ] (d : Dict κ υ) (k : κ) {v v' : υ} {R : υ → υ → Prop} (hR : ∀ x, R x x) (h : R v v') :
    List.Forall₂ R (d.setItem k v).values (d.setItem k v').values := by
  unfold Dict.setItem Dict.values
  split
  · simp only [List.map_map]
    rw [List.forall₂_map_left_iff, List.forall₂_map_right_iff]
    refine List.forall₂_same.2 ?_
    intro x _
    simp only [Function.comp]
    split <;> simp [h, hR]
  · simp only [List.map_append, List.map_cons, List.map_nil]
    exact List.rel_append (List.forall₂_same.2 fun x _ => hR x) (.cons h .nil)

/-- **C111** (what is lost).  Setting a hinge and then moving the child away from the joint, and moving the child first and setting the hinge there, are
written in the same way, although the joint of the first scene is torn by the whole displacement of the child: reading the document cannot tell how far
the two ends of a joint have drifted apart. -/
theorem C111_drift_lost (s : Scene) {hn p c : String} {o a r : V3} (hpc : p ≠ c) {e1 e2 f1 f2 : Engine}
    (h1 : s.eng.set_hinge hn p c o a .world = .ok e1) (h2 : e1.set_position c r false = .ok e2)
    (h3 : s.eng.set_position c r false = .ok f1) (h4 : f1.set_hinge hn p c o a .world = .ok f2) :
    document { s with eng := e2 } = document { s with eng := f2 } ∧
    ∃ b x y, s.eng.bodies.get? c = some b ∧ ((e2.hinges.get? hn).bind (·.arm_c)) = some x ∧ ((f2.hinges.get? hn).bind (·.arm_c)) = some y ∧
      x - y = Quat.rotate (Quat.conjugate b.body.q) (r - b.body.r) := by
  unfold Engine.set_hinge at h1
  cases k1 : s.eng.findHinge hn with
  | error x => rw [k1] at h1; cases h1
  | ok hh =>
  cases k2 : s.eng.findBody p with
  | error x => rw [k1, k2] at h1; cases h1
  | ok pb =>
  cases k3 : s.eng.findBody c with
  | error x => rw [k1, k2, k3] at h1; cases h1
  | ok cb =>
  rw [k1, k2, k3] at h1
  simp only [bind, Except.bind, Engine.hingeFrame, pure, Except.pure, Except.ok.injEq] at h1
  subst h1
  unfold Engine.set_position at h2 h3
  rw [k3] at h3
  have k3' : ({ s.eng with hinges := s.eng.hinges.setItem hn (Engine.setSockets hh p c pb.body cb.body o a) } : Engine).findBody c = .ok cb := k3
  rw [k3'] at h2
  unfold Engine.updateBody at h2 h3
  simp only [bind, Except.bind, Bool.false_eq_true, if_false, k3, k3', pure, Except.pure, Except.ok.injEq] at h2 h3
  subst h2
  subst h3
  unfold Engine.set_hinge at h4
  have k1' : ({ s.eng with bodies := s.eng.bodies.setItem c { cb with body := { cb.body with r := r } } } : Engine).findHinge hn = .ok hh := k1
  have k2' : ({ s.eng with bodies := s.eng.bodies.setItem c { cb with body := { cb.body with r := r } } } : Engine).findBody p = .ok pb := by
    rw [findBody_ok] at k2 ⊢
    show (s.eng.bodies.setItem c _).get? p = some pb
    rw [Dict.get?_setItem, if_neg hpc]
    exact k2
  have k3'' : ({ s.eng with bodies := s.eng.bodies.setItem c { cb with body := { cb.body with r := r } } } : Engine).findBody c =
      .ok { cb with body := { cb.body with r := r } } := by
    rw [findBody_ok]
    show (s.eng.bodies.setItem c _).get? c = _
    rw [Dict.get?_setItem, if_pos rfl]
  rw [k1', k2', k3''] at h4
  simp only [bind, Except.bind, Engine.hingeFrame, pure, Except.pure, Except.ok.injEq] at h4
  subst h4
  constructor
  · unfold document
    simp only
    have hm : (s.eng.hinges.setItem hn (Engine.setSockets hh p c pb.body cb.body o a)).values.zipIdx.mapM
          (hingeNode (s.eng.bodies.setItem c { cb with body := { cb.body with r := r } })) =
        (s.eng.hinges.setItem hn (Engine.setSockets hh p c pb.body { cb.body with r := r } o a)).values.zipIdx.mapM
          (hingeNode (s.eng.bodies.setItem c { cb with body := { cb.body with r := r } })) := by
      refine mapM_congr₂ ?_
      have hF := setItem_values s.eng.hinges hn (v := Engine.setSockets hh p c pb.body cb.body o a)
        (v' := Engine.setSockets hh p c pb.body { cb.body with r := r } o a)
        (R := fun g g' => ∀ i, hingeNode (s.eng.bodies.setItem c { cb with body := { cb.body with r := r } }) (g, i) =
          hingeNode (s.eng.bodies.setItem c { cb with body := { cb.body with r := r } }) (g', i)) (fun _ _ => rfl)
        (fun i => hingeNode_congr _ i rfl rfl rfl rfl rfl)
      rw [List.forall₂_iff_get] at hF ⊢
      refine ⟨by simpa using hF.1, ?_⟩
      intro i hi1 hi2
      have := hF.2 i (by simpa using hi1) (by simpa using hi2) i
      simpa only [List.get_eq_getElem, List.getElem_zipIdx, Nat.zero_add] using this
    rw [hm]
  · refine ⟨cb, Quat.rotate (Quat.conjugate cb.body.q) (o - cb.body.r), Quat.rotate (Quat.conjugate cb.body.q) (o - r), findBody_ok.1 k3, ?_, ?_, ?_⟩
    · simp only [Dict.get?_setItem, if_pos]
      rfl
    · simp only [Dict.get?_setItem, if_pos]
      rfl
    · rw [← rotate_sub]
      congr 1
      refine V3.ext ?_ ?_ ?_ <;> simp <;> ring

/-- The four calls succeed in every engine with the hinge and the two bodies. -/
example (e : Engine) {hn p c : String} {g : HingeObj} {pb cb : BodyObj} (h1 : e.hinges.get? hn = some g) (h2 : e.bodies.get? p = some pb)
    (h3 : e.bodies.get? c = some cb) (hpc : p ≠ c) (o a r : V3) : ∃ e1 e2 f1 f2, e.set_hinge hn p c o a .world = .ok e1 ∧
      e1.set_position c r false = .ok e2 ∧ e.set_position c r false = .ok f1 ∧ f1.set_hinge hn p c o a .world = .ok f2 := by
  have k1 := findHinge_ok.2 h1
  have k2 := findBody_ok.2 h2
  have k3 := findBody_ok.2 h3
  refine ⟨{ e with hinges := e.hinges.setItem hn (Engine.setSockets g p c pb.body cb.body o a) },
    { e with hinges := e.hinges.setItem hn (Engine.setSockets g p c pb.body cb.body o a),
             bodies := e.bodies.setItem c { cb with body := { cb.body with r := r } } },
    { e with bodies := e.bodies.setItem c { cb with body := { cb.body with r := r } } },
    { e with hinges := e.hinges.setItem hn (Engine.setSockets g p c pb.body { cb.body with r := r } o a),
             bodies := e.bodies.setItem c { cb with body := { cb.body with r := r } } }, ?_, ?_, ?_, ?_⟩
  · unfold Engine.set_hinge
    rw [k1, k2, k3]
    rfl
  · unfold Engine.set_position
    have k3' : ({ e with hinges := e.hinges.setItem hn (Engine.setSockets g p c pb.body cb.body o a) } : Engine).findBody c = .ok cb := k3
    rw [k3']
    unfold Engine.updateBody
    simp only [k3', bind, Except.bind]
    rfl
  · unfold Engine.set_position
    rw [k3]
    unfold Engine.updateBody
    simp only [k3, bind, Except.bind]
    rfl
  · unfold Engine.set_hinge
    have k2' : ({ e with bodies := e.bodies.setItem c { cb with body := { cb.body with r := r } } } : Engine).findBody p = .ok pb := by
      rw [findBody_ok]
      show (e.bodies.setItem c _).get? p = some pb
      rw [Dict.get?_setItem, if_neg hpc]
      exact h2
    have k3'' : ({ e with bodies := e.bodies.setItem c { cb with body := { cb.body with r := r } } } : Engine).findBody c =
        .ok { cb with body := { cb.body with r := r } } := by
      rw [findBody_ok]
      show (e.bodies.setItem c _).get? c = _
      rw [Dict.get?_setItem, if_pos rfl]
    have k1' : ({ e with bodies := e.bodies.setItem c { cb with body := { cb.body with r := r } } } : Engine).findHinge hn = .ok g := k1
    rw [k1', k2', k3'']
    rfl

end Verif
