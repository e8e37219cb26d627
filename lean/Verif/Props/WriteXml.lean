import Verif.Model.WriteXml
import Verif.Props.RigidHistory

/-! C111: `write_xml` describes the scene. -/

namespace Verif

open Rigid Rigid.Xml VMesh SMesh

/-- Every shape has its mesh. -/
def HasMeshes (s : Scene) : Prop := ∀ n sh, s.eng.shapes.get? n = some sh → ∃ m, s.meshes.get? n = some m

theorem mapM_forall₂ {α β : Type*} {f : α → Except PyErr β} {L : List α} {R : List β} :
    L.mapM f = .ok R ↔ List.Forall₂ (fun a b => f a = .ok b) L R := by
  induction L generalizing R with
  | nil =>
    rw [List.mapM_nil]
    constructor
    · intro h; cases h; exact .nil
    · intro h; cases h; rfl
  | cons a L ih =>
    rw [List.mapM_cons]
    constructor
    · intro h
      cases ha : f a with
      | error e => rw [ha] at h; cases h
      | ok b =>
        rw [ha] at h
        cases hL : L.mapM f with
        | error e => rw [hL] at h; cases h
        | ok R' => rw [hL] at h; cases h; exact .cons ha (ih.1 hL)
    · intro h
      cases h with
      | cons h1 h2 => rw [h1, ih.2 h2]; rfl

theorem mapM_error {α β : Type*} {f : α → Except PyErr β} {L : List α} {e : PyErr} (h : L.mapM f = .error e) :
    ∃ a ∈ L, f a = .error e := by
  induction L with
  | nil => cases h
  | cons a L ih =>
    rw [List.mapM_cons] at h
    cases ha : f a with
    | error e' => rw [ha] at h; cases h; exact ⟨a, by simp, ha⟩
    | ok b =>
      rw [ha] at h
      cases hL : L.mapM f with
      | error e' => rw [hL] at h; cases h; obtain ⟨x, hx, h2⟩ := ih hL; exact ⟨x, by simp [hx], h2⟩
      | ok R' => rw [hL] at h; cases h

/-- The three lists of elements that can fail to be made. -/
theorem document_ok {s : Scene} {d : Elem} :
    document s = .ok d ↔ ∃ bs shs hs,
      List.Forall₂ (fun b el => bodyNode b = .ok el) s.eng.bodies.values bs ∧
      List.Forall₂ (fun sh el => shapeNode s.meshes sh = .ok el) s.eng.shapes.values shs ∧
      List.Forall₂ (fun h el => hingeNode s.eng.bodies h = .ok el) s.eng.hinges.values.zipIdx hs ∧
      d = .mk "scene" []
        [.mk "bodies" [] bs, .mk "forces" [] (s.eng.forces.values.map forceNode), .mk "shapes" [] shs,
         .mk "materials" [] (s.eng.surfaces_interactions.storage.entries.map interactionNode), .mk "hinges" [] hs,
         .mk "params" [] ((settings s.eng.params).map paramNode)] := by
  unfold document
  constructor
  · intro h
    cases h1 : s.eng.bodies.values.mapM bodyNode with
    | error e => rw [h1] at h; cases h
    | ok bs =>
      cases h2 : s.eng.shapes.values.mapM (shapeNode s.meshes) with
      | error e => rw [h1, h2] at h; cases h
      | ok shs =>
        cases h3 : s.eng.hinges.values.zipIdx.mapM (hingeNode s.eng.bodies) with
        | error e => rw [h1, h2, h3] at h; cases h
        | ok hs =>
          rw [h1, h2, h3] at h
          cases h
          exact ⟨bs, shs, hs, mapM_forall₂.1 h1, mapM_forall₂.1 h2, mapM_forall₂.1 h3, rfl⟩
  · rintro ⟨bs, shs, hs, h1, h2, h3, rfl⟩
    rw [mapM_forall₂.2 h1, mapM_forall₂.2 h2, mapM_forall₂.2 h3]
    rfl

theorem document_error {s : Scene} {e : PyErr} (h : document s = .error e) :
    (∃ b ∈ s.eng.bodies.values, bodyNode b = .error e) ∨ (∃ sh ∈ s.eng.shapes.values, shapeNode s.meshes sh = .error e) ∨
      ∃ x ∈ s.eng.hinges.values.zipIdx, hingeNode s.eng.bodies x = .error e := by
  unfold document at h
  cases h1 : s.eng.bodies.values.mapM bodyNode with
  | error e' => rw [h1] at h; cases h; exact .inl (mapM_error h1)
  | ok bs =>
    cases h2 : s.eng.shapes.values.mapM (shapeNode s.meshes) with
    | error e' => rw [h1, h2] at h; cases h; exact .inr (.inl (mapM_error h2))
    | ok shs =>
      cases h3 : s.eng.hinges.values.zipIdx.mapM (hingeNode s.eng.bodies) with
      | error e' => rw [h1, h2, h3] at h; cases h; exact .inr (.inr (mapM_error h3))
      | ok hs => rw [h1, h2, h3] at h; cases h

theorem mem_values {κ υ : Type} [DecidableEq κ] {d : Dict κ υ} {v : υ} (h : v ∈ d.values) : ∃ i, ∃ hi : i < d.entries.length, (d.entries[i]).2 = v := by
  unfold Dict.values at h
  obtain ⟨e, he, rfl⟩ := List.mem_map.1 h
  obtain ⟨i, hi, rfl⟩ := List.getElem_of_mem he
  exact ⟨i, hi, rfl⟩

theorem get?_values {κ υ : Type} [DecidableEq κ] {d : Dict κ υ} {k : κ} {v : υ} (h : d.get? k = some v) : v ∈ d.values := by
  obtain ⟨i, hi, he⟩ := Dict.get?_some h
  exact List.mem_map.2 ⟨d.entries[i], List.getElem_mem _, by rw [he]⟩

theorem bodyNode_ok {b : BodyObj} {el : Elem} (h : bodyNode b = .ok el) : ∃ sh, b.body.shape = some sh ∧ el = .mk "body"
      [("name", .str b.body.name), ("idx", .int b.idx), ("shape", .str sh.name), ("pos", .vec b.body.r), ("rot", .quat b.body.q),
       ("vel", .vec b.body.v), ("spin", .vec b.body.w), ("mass", .num b.body.mass), ("inertia", .vec b.body.inertia),
       ("is_fixed", .bool b.body.is_fixed), ("material", .str b.body.material)]
      (b.body.forces.map applyNode) := by
  unfold bodyNode at h
  cases hb : b.body.shape with
  | none => rw [hb] at h; cases h
  | some sh => rw [hb] at h; cases h; exact ⟨sh, rfl, rfl⟩

theorem shapeNode_ok {m : Dict String Mesh} {sh : Shape} {el : Elem} (h : shapeNode m sh = .ok el) : ∃ mesh, m.get? sh.name = some mesh ∧
    el = .mk "shape" [("name", .str sh.name)]
    [.mk "vertices" [("count", .int mesh.V.length)] (mesh.V.zipIdx.map vertexNode),
     .mk "triangles" [("count", .int mesh.T.length)] (mesh.T.zipIdx.map triangleNode)] := by
  unfold shapeNode at h
  cases hm : m.getItem sh.name with
  | error e => rw [hm] at h; cases h
  | ok mesh => rw [hm] at h; cases h; exact ⟨mesh, Dict.getItem_ok hm, rfl⟩

theorem some?_ok {α : Type} {o : Option α} {a : α} : some? o = .ok a ↔ o = some a := by
  cases o with
  | none => simp [some?]
  | some b => simp [some?]

theorem getItem_of_get? {κ υ : Type} [DecidableEq κ] {d : Dict κ υ} {k : κ} {v : υ} (h : d.get? k = some v) : d.getItem k = .ok v := by
  unfold Dict.getItem; rw [h]

theorem hingeNode_ok {d : Dict String BodyObj} {h : HingeObj × ℕ} {el : Elem} : hingeNode d h = .ok el ↔
    ∃ pn p cn c arm axis, h.1.parent = some pn ∧ d.get? pn = some p ∧ h.1.child = some cn ∧ d.get? cn = some c ∧
      h.1.arm_p = some arm ∧ h.1.axis_p = some axis ∧ el = .mk "hinge"
        [("name", .str h.1.name), ("idx", .int h.2), ("parent", .str p.body.name), ("parent-idx", .int p.idx),
         ("child", .str c.body.name), ("child-idx", .int c.idx), ("origin", .vec (Quat.rotate p.body.q arm + p.body.r)),
         ("axis", .vec (Quat.rotate p.body.q axis)), ("mode", .str "world")] [] := by
  unfold hingeNode
  constructor
  · intro hk
    cases h1 : some? h.1.parent with
    | error e => rw [h1] at hk; cases hk
    | ok pn =>
    cases h2 : d.getItem pn with
    | error e => rw [h1] at hk; simp only [bind, Except.bind, h2] at hk; cases hk
    | ok p =>
    cases h3 : some? h.1.child with
    | error e => rw [h1] at hk; simp only [bind, Except.bind, h2] at hk; rw [h3] at hk; cases hk
    | ok cn =>
    cases h4 : d.getItem cn with
    | error e => rw [h1] at hk; simp only [bind, Except.bind, h2, h3, h4] at hk; cases hk
    | ok c =>
    cases h5 : some? h.1.arm_p with
    | error e => rw [h1] at hk; simp only [bind, Except.bind, h2, h3, h4, h5] at hk; cases hk
    | ok arm =>
    cases h6 : some? h.1.axis_p with
    | error e => rw [h1] at hk; simp only [bind, Except.bind, h2, h3, h4, h5, h6] at hk; cases hk
    | ok axis =>
      rw [h1] at hk
      simp only [bind, Except.bind, h2, h3, h4, h5, h6] at hk
      cases hk
      exact ⟨pn, p, cn, c, arm, axis, some?_ok.1 h1, Dict.getItem_ok h2, some?_ok.1 h3, Dict.getItem_ok h4, some?_ok.1 h5, some?_ok.1 h6, rfl⟩
  · rintro ⟨pn, p, cn, c, arm, axis, h1, h2, h3, h4, h5, h6, rfl⟩
    simp only [bind, Except.bind, h1, h3, h5, h6, some?, getItem_of_get? h2, getItem_of_get? h4, pure, Except.pure]

theorem exists_right {α β : Type} {R : α → β → Prop} {L : List α} {L' : List β} (h : List.Forall₂ R L L') {a : α} (ha : a ∈ L) :
    ∃ b, b ∈ L' ∧ R a b := by
  induction h with
  | nil => cases ha
  | cons h1 _ ih =>
    rcases List.mem_cons.1 ha with rfl | ha
    · exact ⟨_, by simp, h1⟩
    · obtain ⟨b, hb, hr⟩ := ih ha
      exact ⟨b, by simp [hb], hr⟩

/-- **C111.**  For every scene that the API can build, writing the document raises exactly if some body has no shape or some hinge has never been set;
the exception is an AttributeError. -/
theorem C111_raises {s : Scene} (hs : EngineOk s.eng) (hm : HasMeshes s) :
    ((∃ d, document s = .ok d) ↔
      (∀ b ∈ s.eng.bodies.values, b.body.shape ≠ none) ∧ ∀ h ∈ s.eng.hinges.values, h.parent ≠ none) ∧
    ∀ e, document s = .error e → e = .attributeError := by
  have hshape : ∀ sh ∈ s.eng.shapes.values, ∃ el, shapeNode s.meshes sh = .ok el := by
    intro sh hsh
    obtain ⟨i, hi, rfl⟩ := mem_values hsh
    obtain ⟨m, hm'⟩ := hm _ _ (Dict.get?_entry hs.shapes_nodup hi)
    rw [← (hs.shapes i hi).1] at hm'
    unfold shapeNode
    rw [getItem_of_get? hm']
    exact ⟨_, rfl⟩
  have hbody : ∀ b : BodyObj, (∃ el, bodyNode b = .ok el) ∨ (b.body.shape = none ∧ bodyNode b = .error .attributeError) := by
    intro b
    unfold bodyNode
    cases b.body.shape with
    | none => exact .inr ⟨rfl, rfl⟩
    | some sh => exact .inl ⟨_, rfl⟩
  have hhinge : ∀ x ∈ s.eng.hinges.values.zipIdx, (∃ el, hingeNode s.eng.bodies x = .ok el) ∨
      (x.1.parent = none ∧ hingeNode s.eng.bodies x = .error .attributeError) := by
    rintro ⟨h, i⟩ hx
    have hh : h ∈ s.eng.hinges.values := by
      have := List.mem_zipIdx' hx
      exact this.2 ▸ List.getElem_mem _
    obtain ⟨i', hi, rfl⟩ := mem_values hh
    obtain ⟨-, -, h3⟩ := hs.hinges i' hi
    rcases h3 with h3 | ⟨p, c, ap, ac, np, nc, sp, sc, hp, hc, h3⟩
    · right
      rw [h3]
      exact ⟨rfl, rfl⟩
    · left
      obtain ⟨pb, hpb⟩ := Dict.mem_iff_get?.1 hp
      obtain ⟨cb, hcb⟩ := Dict.mem_iff_get?.1 hc
      rw [h3]
      exact ⟨_, hingeNode_ok.2 ⟨p, pb, c, cb, ap, np, rfl, hpb, rfl, hcb, rfl, rfl, rfl⟩⟩
  constructor
  · constructor
    · rintro ⟨d, hd⟩
      obtain ⟨bs, shs, hs', h1, h2, h3, -⟩ := document_ok.1 hd
      constructor
      · intro b hb hn
        obtain ⟨el, -, hel⟩ := exists_right h1 hb
        obtain ⟨sh, hsh, -⟩ := bodyNode_ok hel
        rw [hn] at hsh; cases hsh
      · intro h hh hn
        obtain ⟨n, hn', rfl⟩ := List.getElem_of_mem hh
        have hz : (s.eng.hinges.values[n], n) ∈ s.eng.hinges.values.zipIdx := by
          rw [List.mem_zipIdx_iff_getElem?]; simp [hn']
        obtain ⟨el, -, hel⟩ := exists_right h3 hz
        obtain ⟨pn, p, cn, c, arm, axis, hp, -⟩ := hingeNode_ok.1 hel
        simp only at hp
        rw [hn] at hp; cases hp
    · rintro ⟨hb, hh⟩
      cases hd : document s with
      | ok d => exact ⟨d, rfl⟩
      | error e =>
        exfalso
        rcases document_error hd with ⟨b, hb1, hb2⟩ | ⟨sh, h1, h2⟩ | ⟨x, h1, h2⟩
        · rcases hbody b with ⟨el, h⟩ | ⟨h, -⟩
          · rw [hb2] at h; cases h
          · exact hb b hb1 h
        · obtain ⟨el, h⟩ := hshape sh h1
          rw [h2] at h; cases h
        · rcases hhinge x h1 with ⟨el, h⟩ | ⟨h, -⟩
          · rw [h2] at h; cases h
          · have := List.mem_zipIdx' h1
            exact hh x.1 (this.2 ▸ List.getElem_mem _) h
  · intro e hd
    rcases document_error hd with ⟨b, hb1, hb2⟩ | ⟨sh, h1, h2⟩ | ⟨x, h1, h2⟩
    · rcases hbody b with ⟨el, h⟩ | ⟨-, h⟩
      · rw [hb2] at h; cases h
      · rw [hb2] at h; cases h; rfl
    · obtain ⟨el, h⟩ := hshape sh h1
      rw [h2] at h; cases h
    · rcases hhinge x h1 with ⟨el, h⟩ | ⟨-, h⟩
      · rw [h2] at h; cases h
      · rw [h2] at h; cases h; rfl

/-- An element has the tag and, among its attributes, these. -/
def Describes (el : Elem) (tag : String) (attrs : List (String × Val)) : Prop :=
  el.tag = tag ∧ ∀ kv ∈ attrs, el.get kv.1 = some kv.2

/-- The section of the document with the given name consists of one element for each member of the list, in order. -/
def Section (d : Elem) (name : String) {α : Type} (L : List α) (P : α → Elem → Prop) : Prop :=
  ∃ sec, d.find name = some sec ∧ List.Forall₂ P L sec.children

theorem forall₂_map_self {α β : Type} {P : α → β → Prop} {f : α → β} (L : List α) (h : ∀ a ∈ L, P a (f a)) : List.Forall₂ P L (L.map f) := by
  induction L with
  | nil => exact .nil
  | cons a L ih => exact .cons (h a (by simp)) (ih fun b hb => h b (by simp [hb]))

macro "described" : tactic => `(tactic| (refine ⟨rfl, ?_⟩; intro kv hkv; fin_cases hkv <;> rfl))

/-- **C111.**  What is in the document: one element per body, force, shape, interaction, hinge and parameter, in the order of creation.  A body comes
with its whole state, its shape and the forces that act on it; a shape with the vertices and triangles of its mesh; a hinge with the names and the
indices of its two bodies and with the position and the direction, in the world, of the joint as the parent carries it. -/
theorem C111_contents {s : Scene} {d : Elem} (h : document s = .ok d) :
    d.tag = "scene" ∧ d.children.map (·.tag) = ["bodies", "forces", "shapes", "materials", "hinges", "params"] ∧
    Section d "bodies" s.eng.bodies.values (fun b el => ∃ sh, b.body.shape = some sh ∧ Describes el "body"
      [("name", .str b.body.name), ("idx", .int b.idx), ("shape", .str sh.name), ("pos", .vec b.body.r), ("rot", .quat b.body.q),
       ("vel", .vec b.body.v), ("spin", .vec b.body.w), ("mass", .num b.body.mass), ("inertia", .vec b.body.inertia),
       ("is_fixed", .bool b.body.is_fixed), ("material", .str b.body.material)] ∧
      List.Forall₂ (fun f el => Describes el "apply" [("name", .str f.name)]) b.body.forces el.children) ∧
    Section d "forces" s.eng.forces.values (fun f el =>
      (∀ g up, f.kind = .gravity g up → Describes el "gravity" [("name", .str f.name), ("g", .num g), ("up", .vec up)]) ∧
      ∀ a b, f.kind = .damping a b → Describes el "damping" [("name", .str f.name), ("alpha", .num a), ("beta", .num b)]) ∧
    Section d "shapes" s.eng.shapes.values (fun sh el => ∃ m vs ts, s.meshes.get? sh.name = some m ∧ Describes el "shape" [("name", .str sh.name)] ∧
      el.children = [vs, ts] ∧ Describes vs "vertices" [("count", .int m.V.length)] ∧ Describes ts "triangles" [("count", .int m.T.length)] ∧
      List.Forall₂ (fun v el => Describes el "v" [("idx", .int v.2), ("p", .vec v.1)]) m.V.zipIdx vs.children ∧
      List.Forall₂ (fun t el => Describes el "t" [("idx", .int t.2), ("labels", .row t.1)]) m.T.zipIdx ts.children) ∧
    Section d "materials" s.eng.surfaces_interactions.storage.entries (fun kv el => Describes el "interaction"
      [("materials", .pair kv.1.1 kv.1.2), ("friction", .vec kv.2.mu), ("restitution", .num kv.2.epsilon)]) ∧
    Section d "hinges" s.eng.hinges.values.zipIdx (fun h el => ∃ pn p cn c arm axis, h.1.parent = some pn ∧ s.eng.bodies.get? pn = some p ∧
      h.1.child = some cn ∧ s.eng.bodies.get? cn = some c ∧ h.1.arm_p = some arm ∧ h.1.axis_p = some axis ∧ Describes el "hinge"
        [("name", .str h.1.name), ("idx", .int h.2), ("parent", .str p.body.name), ("parent-idx", .int p.idx), ("child", .str c.body.name),
         ("child-idx", .int c.idx), ("origin", .vec (bodyToWorld p.body arm)), ("axis", .vec (Quat.rotate p.body.q axis)), ("mode", .str "world")]) ∧
    Section d "params" ([("absolute_tolerance", .num s.eng.params.absolute_tolerance), ("gap_reduction", .num s.eng.params.gap_reduction),
      ("max_gap_value", .num s.eng.params.max_gap_value), ("max_iterations", .int s.eng.params.max_iterations),
      ("min_gap_value", .num s.eng.params.min_gap_value), ("nu_increase", .num s.eng.params.nu_increase),
      ("nu_reduce", .num s.eng.params.nu_reduce), ("relative_tolerance", .num s.eng.params.relative_tolerance),
      ("time_step", .num s.eng.params.time_step), ("too_small_merit_change", .num s.eng.params.too_small_merit_change),
      ("use_bounce", .bool s.eng.params.use_bounce), ("use_post_stabilization", .bool s.eng.params.use_post_stabilization),
      ("use_pre_stabilization", .bool s.eng.params.use_pre_stabilization)] : List (String × Val))
      (fun p el => Describes el "param" [("name", .str p.1), ("value", p.2)]) := by
  obtain ⟨bs, shs, hs, h1, h2, h3, rfl⟩ := document_ok.1 h
  refine ⟨rfl, rfl, ⟨_, rfl, ?_⟩, ⟨_, rfl, ?_⟩, ⟨_, rfl, ?_⟩, ⟨_, rfl, ?_⟩, ⟨_, rfl, ?_⟩, ⟨_, rfl, ?_⟩⟩
  · refine h1.imp ?_
    intro b el hel
    obtain ⟨sh, hsh, rfl⟩ := bodyNode_ok hel
    refine ⟨sh, hsh, by described, ?_⟩
    exact forall₂_map_self _ fun f _ => by described
  · refine forall₂_map_self _ fun f _ => ?_
    constructor
    · intro g up hk
      unfold forceNode
      rw [hk]
      described
    · intro a b hk
      unfold forceNode
      rw [hk]
      described
  · refine h2.imp ?_
    intro sh el hel
    obtain ⟨m, hm, rfl⟩ := shapeNode_ok hel
    refine ⟨m, _, _, hm, by described, rfl, by described, by described, ?_, ?_⟩
    · exact forall₂_map_self _ fun f _ => by described
    · exact forall₂_map_self _ fun f _ => by described
  · exact forall₂_map_self _ fun f _ => by described
  · refine h3.imp ?_
    intro x el hel
    obtain ⟨pn, p, cn, c, arm, axis, a1, a2, a3, a4, a5, a6, rfl⟩ := hingeNode_ok.1 hel
    exact ⟨pn, p, cn, c, arm, axis, a1, a2, a3, a4, a5, a6, by described⟩
  · exact forall₂_map_self _ fun f _ => by described

end Verif
