import Verif.Model.Scenes
import Verif.Props.SceneShape

/-! The effect of the building steps of a scene. -/

namespace Verif

open Rigid Rigid.SceneM SMesh
open VMesh (Tri)

/-- Every stored mesh belongs to a shape. -/
def Rigid.Scene.OK (s : Scene) : Prop := ∀ n, s.eng.shapes.get? n = none → s.meshes.get? n = none

/-- The scene s' is s with bodies called N added (in this order) and possibly more shapes; nothing that was there changed. -/
structure Grows (s s' : Scene) (N : List String) : Prop where
  keys : s'.eng.bodies.keys = s.eng.bodies.keys ++ N
  fresh : ∀ n ∈ N, s.eng.bodies.get? n = none
  nodup : N.Nodup
  old : ∀ n, n ∉ N → s'.eng.bodies.get? n = s.eng.bodies.get? n
  shapes : ∀ n sh, s.eng.shapes.get? n = some sh → s'.eng.shapes.get? n = some sh
  meshes : ∀ n m, s.meshes.get? n = some m → s'.meshes.get? n = some m
  ok : s.OK → s'.OK
  forces : s'.eng.forces = s.eng.forces
  hinges : s'.eng.hinges = s.eng.hinges
  inter : s'.eng.surfaces_interactions = s.eng.surfaces_interactions
  params : s'.eng.params = s.eng.params

theorem Grows.refl (s : Scene) : Grows s s [] :=
  ⟨by simp, by simp, by simp, fun _ _ => rfl, fun _ _ h => h, fun _ _ h => h, fun h => h, rfl, rfl, rfl, rfl⟩

theorem Grows.trans {s s' s'' : Scene} {N N' : List String} (h : Grows s s' N) (h' : Grows s' s'' N') :
    Grows s s'' (N ++ N') := by
  have hdis : ∀ n ∈ N', n ∉ N := by
    intro n hn hn'
    have h1 := h'.fresh n hn
    rw [Dict.get?_eq_none] at h1
    have h2 : s'.eng.bodies.mem n = true := by
      rw [Dict.mem_iff_keys, h.keys]
      simp [hn']
    rw [h1] at h2
    cases h2
  refine ⟨by rw [h'.keys, h.keys, List.append_assoc], ?_, ?_, ?_, fun n sh hh => h'.shapes n sh (h.shapes n sh hh),
    fun n m hh => h'.meshes n m (h.meshes n m hh), fun hh => h'.ok (h.ok hh), h'.forces.trans h.forces, h'.hinges.trans h.hinges,
    h'.inter.trans h.inter, h'.params.trans h.params⟩
  · intro n hn
    rcases List.mem_append.1 hn with hn | hn
    · exact h.fresh n hn
    · have := h'.fresh n hn
      rwa [h.old n (hdis n hn)] at this
  · rw [List.nodup_append]
    exact ⟨h.nodup, h'.nodup, fun a ha b hb e => hdis b hb (e ▸ ha)⟩
  · intro n hn
    rw [List.mem_append, not_or] at hn
    rw [h'.old n hn.2, h.old n hn.1]

/-- A fact about a body (its state, its shape and the stored mesh) and the brick it is meant to be. -/
abbrev BrickFact := RigidBody → Shape → Mesh → Brick → Prop

/-- The body called n exists, has a shape with a mesh, and satisfies Q with respect to the brick b. -/
def Standing (Q : BrickFact) (s : Scene) (n : String) (b : Brick) : Prop :=
  ∃ o sh m, s.eng.bodies.get? n = some o ∧ o.body.shape = some sh ∧ s.meshes.get? sh.name = some m ∧ Q o.body sh m b

/-- s' is s plus bodies N, one for each brick of B in order, each with Q. -/
def PutUp (Q : BrickFact) (s s' : Scene) (B : List Brick) (N : List String) : Prop :=
  Grows s s' N ∧ List.Forall₂ (fun n b => Standing Q s' n b) N B

theorem Standing.grows {Q : BrickFact} {s s' : Scene} {N : List String} {n : String} {b : Brick} (hg : Grows s s' N)
    (h : Standing Q s n b) : Standing Q s' n b := by
  obtain ⟨o, sh, m, h1, h2, h3, h4⟩ := h
  refine ⟨o, sh, m, ?_, h2, hg.meshes _ _ h3, h4⟩
  rw [hg.old n, h1]
  intro hn
  rw [hg.fresh n hn] at h1
  cases h1

theorem PutUp.nil (Q : BrickFact) (s : Scene) : PutUp Q s s [] [] := ⟨Grows.refl s, List.Forall₂.nil⟩

theorem PutUp.append {Q : BrickFact} {s s' s'' : Scene} {B B' : List Brick} {N N' : List String} (h : PutUp Q s s' B N)
    (h' : PutUp Q s' s'' B' N') : PutUp Q s s'' (B ++ B') (N ++ N') := by
  refine ⟨h.1.trans h'.1, List.rel_append ?_ h'.2⟩
  exact h.2.imp fun n b hh => hh.grows h'.1

theorem PutUp.of_grows {Q : BrickFact} {s s' s'' : Scene} {B : List Brick} {N : List String} (h : Grows s s' [])
    (h' : PutUp Q s' s'' B N) : PutUp Q s s'' B N := by
  have := h.trans h'.1
  rw [List.nil_append] at this
  exact ⟨this, h'.2⟩

theorem PutUp.mono {Q Q' : BrickFact} (hQ : ∀ o sh m b, Q o sh m b → Q' o sh m b) {s s' : Scene} {B : List Brick}
    {N : List String} (h : PutUp Q s s' B N) : PutUp Q' s s' B N :=
  ⟨h.1, h.2.imp fun _ _ ⟨o, sh, m, h1, h2, h3, h4⟩ => ⟨o, sh, m, h1, h2, h3, hQ _ _ _ _ h4⟩⟩

theorem PutUp.length {Q : BrickFact} {s s' : Scene} {B : List Brick} {N : List String} (h : PutUp Q s s' B N) :
    N.length = B.length := h.2.length_eq

/-! ### The monad -/

theorem bind_ok {α β : Type} {m : SceneM α} {f : α → SceneM β} {s s'' : Scene} {b : β} :
    (m >>= f) s = .ok (b, s'') ↔ ∃ a s', m s = .ok (a, s') ∧ f a s' = .ok (b, s'') := by
  show (StateT.bind m f) s = _ ↔ _
  unfold StateT.bind
  cases h : m s with
  | error e => simp [bind, Except.bind]
  | ok v =>
    obtain ⟨a, s'⟩ := v
    simp only [bind, Except.bind]
    constructor
    · intro hh; exact ⟨a, s', rfl, hh⟩
    · rintro ⟨a', s1, h1, h2⟩
      cases h1
      exact h2

theorem pure_ok {α : Type} {a b : α} {s s' : Scene} : (pure a : SceneM α) s = .ok (b, s') ↔ a = b ∧ s = s' := by
  show Except.ok (a, s) = .ok (b, s') ↔ _
  simp

theorem raise_ok {α : Type} {e : PyErr} {a : α} {s s' : Scene} : ¬ (raise e : SceneM α) s = .ok (a, s') := by
  intro h
  cases h

theorem api_ok {f : Engine → Except PyErr Engine} {s s' : Scene} {u : Unit} :
    api f s = .ok (u, s') ↔ ∃ e, f s.eng = .ok e ∧ s' = { s with eng := e } := by
  unfold api
  cases h : f s.eng with
  | error e => simp [bind, Except.bind]
  | ok e =>
    simp only [bind, Except.bind, pure, Except.pure, Except.ok.injEq, Prod.mk.injEq]
    constructor
    · rintro ⟨-, rfl⟩; exact ⟨e, rfl, rfl⟩
    · rintro ⟨e', rfl, rfl⟩; exact ⟨trivial, rfl⟩

/-- A loop that adds bodies. -/
theorem mapM_built {α β : Type} {Q : BrickFact} (f : α → SceneM β) (names : β → List String) (bricks : α → List Brick)
    (Inv : Scene → Prop) (hstable : ∀ s s' N, Grows s s' N → Inv s → Inv s')
    (hf : ∀ a s b s', Inv s → f a s = .ok (b, s') → PutUp Q s s' (bricks a) (names b)) :
    ∀ (l : List α) (s s' : Scene) (r : List β), Inv s → l.mapM f s = .ok (r, s') →
      PutUp Q s s' (l.flatMap bricks) (r.flatMap names) := by
  intro l
  induction l with
  | nil =>
    intro s s' r _ h
    rw [List.mapM_nil, pure_ok] at h
    obtain ⟨rfl, rfl⟩ := h
    exact PutUp.nil _ _
  | cons a l ih =>
    intro s s' r hi h
    rw [List.mapM_cons, bind_ok] at h
    obtain ⟨b, s1, h1, h2⟩ := h
    rw [bind_ok] at h2
    obtain ⟨bs, s2, h3, h4⟩ := h2
    rw [pure_ok] at h4
    obtain ⟨rfl, rfl⟩ := h4
    have hb := hf a s b s1 hi h1
    have := ih s1 s2 bs (hstable _ _ _ hb.1 hi) h3
    simpa using hb.append this

/-! ### Shapes -/

/-- The engine has a shape called n that represents the surface VT. -/
def HasShape (s : Scene) (n : String) (VT : List V3 × List Tri) : Prop :=
  ∃ sh m, s.eng.shapes.get? n = some sh ∧ sh.name = n ∧ s.meshes.get? n = some m ∧ ShapeOf sh m VT.1 VT.2 ∧
    sh.mass = snapPos (enclosedVolume VT.1 VT.2) ∧ sh.r = massCentre VT.1 VT.2

theorem HasShape.grows {s s' : Scene} {N : List String} {n : String} {VT : List V3 × List Tri} (hg : Grows s s' N)
    (h : HasShape s n VT) : HasShape s' n VT := by
  obtain ⟨sh, m, h1, h2, h3, h4⟩ := h
  exact ⟨sh, m, hg.shapes _ _ h1, h2, hg.meshes _ _ h3, h4⟩

theorem newShape_ok {eig : Eig} (he : EigSpec eig) {base : String} {VT : List V3 × List Tri} {s s' : Scene} {n : String}
    (hok : s.OK) (hi : IndicesBelow VT.2 VT.1.length) (hc : ClosedOriented VT.2)
    (h : newShape eig base VT s = .ok (n, s')) : Grows s s' [] ∧ HasShape s' n VT := by
  unfold newShape generate_unique_name at h
  rw [bind_ok] at h
  obtain ⟨name, s1, h1, h2⟩ := h
  simp only [Except.ok.injEq, Prod.mk.injEq] at h1
  obtain ⟨rfl, rfl⟩ := h1
  obtain ⟨m, hm1, hm2, hm3, hm4, hm5⟩ := C84_create_mesh he VT.1 VT.2 hi
  rw [hm1] at h2
  simp only [bind, Except.bind] at h2
  cases h3 : Scene.create_shape eig { s with gen := fun i => s.gen (i + 1) } (s.gen 0 base) m with
  | error e => rw [h3] at h2; cases h2
  | ok s2 =>
    rw [h3] at h2
    simp only [pure, Except.pure, Except.ok.injEq, Prod.mk.injEq] at h2
    obtain ⟨rfl, rfl⟩ := h2
    obtain ⟨hf, sh, m', rfl, hn, hV, hmass, -, -, hrep⟩ := C85_create_shape he _ _ _ _ hm4 (hm5 hc) h3
    simp only at hf
    have hf' := (Dict.get?_eq_none _ _).1 hf
    have hmf' := (Dict.get?_eq_none _ _).1 (hok _ hf)
    refine ⟨⟨by simp, by simp, by simp, fun _ _ => rfl, fun k v hk => Dict.get?_insert_of_some hf' hk,
      fun k v hk => Dict.get?_insert_of_some hmf' hk, ?_, rfl, rfl, rfl, rfl⟩, ?_⟩
    · intro _ k hk
      simp only [Dict.get?_setItem] at hk ⊢
      split_ifs at hk ⊢ with hkn
      exact hok k hk
    · refine ⟨sh, m', Dict.get?_setItem_self _ _ _, hn, Dict.get?_setItem_self _ _ _, ?_, ?_⟩
      · exact ⟨hrep.1, hrep.2.1, hrep.2.2.1.trans hm2, hrep.2.2.2.trans hm3⟩
      · rw [hmass.1, hmass.2, enclosedVolume_perm hm3, massCentre_perm hm3]
        exact ⟨rfl, rfl⟩

/-! ### Bodies -/

/-- The body stands in the world where the brick is: the stored mesh, taken to the world with the body's position and
orientation, has the brick's corners and triangles, and the position of the body is the centre of mass of the brick. -/
def Placed : BrickFact := fun o sh m b =>
  (m.V.map (bodyToWorld o)).Perm b.world ∧
    (trianglesOf (m.V.map (bodyToWorld o)) m.T).Perm ((trianglesOf b.V b.T).map fun t => (b.at t.1, b.at t.2.1, b.at t.2.2)) ∧
    sh.mass = snapPos (enclosedVolume b.V b.T) ∧ o.r = b.at (massCentre b.V b.T)

theorem get?_keys_setItem_new {κ υ : Type*} [DecidableEq κ] {d : Dict κ υ} {k : κ} {v : υ} (h : d.get? k = none) :
    (d.setItem k v).keys = d.keys ++ [k] := by
  rw [Dict.keys_setItem, if_neg]
  rw [(Dict.get?_eq_none _ _).1 h]
  decide

theorem create_body_ok {e e' : Engine} {n : String} (h : e.create_rigid_body n = .ok e') :
    e.bodies.get? n = none ∧ e' = { e with bodies := e.bodies.setItem n ⟨e.bodies.len, RigidBody.init n⟩ } := by
  unfold Engine.create_rigid_body at h
  split_ifs at h with hm
  cases h
  exact ⟨(Dict.get?_eq_none _ _).2 (by simpa using hm), rfl⟩

theorem connect_shape_eq {e : Engine} {n k : String} {b : BodyObj} {sh : Shape} (hb : e.bodies.get? n = some b)
    (hs : e.shapes.get? k = some sh) :
    e.connect_shape n k = .ok { e with bodies := e.bodies.setItem n { b with body := { b.body with shape := some sh } } } := by
  unfold Engine.connect_shape
  rw [findBody_ok.2 hb, findShape_ok.2 hs]
  simp only [bind, Except.bind]
  exact updateBody_some _ hb

theorem newBody_ok {base k : String} {VT : List V3 × List Tri} {r : V3} {q : Quat} {s s' : Scene} {n : String}
    (hsh : HasShape s k VT) (h : newBody base k r q s = .ok (n, s')) :
    PutUp Placed s s' [⟨VT.1, VT.2, r, Quat.unit q⟩] [n] := by
  obtain ⟨sh, m, hs1, hs2, hs3, ⟨hr1, hr2, hr3, hr4⟩, hmass, hcentre⟩ := hsh
  unfold newBody generate_unique_name at h
  rw [bind_ok] at h
  obtain ⟨name, s1, h1, h⟩ := h
  simp only [Except.ok.injEq, Prod.mk.injEq] at h1
  obtain ⟨rfl, rfl⟩ := h1
  generalize s.gen 0 base = name at *
  rw [bind_ok] at h
  obtain ⟨u, s2, h2, h⟩ := h
  replace h2 := api_ok.1 h2
  obtain ⟨e1, h2, rfl⟩ := h2
  obtain ⟨hnone, rfl⟩ := create_body_ok h2
  simp only at hnone
  rw [bind_ok] at h
  obtain ⟨u, s3, h3, h⟩ := h
  replace h3 := api_ok.1 h3
  obtain ⟨e2, h3, rfl⟩ := h3
  have hg1 := Dict.get?_setItem_self s.eng.bodies name ⟨s.eng.bodies.len, RigidBody.init name⟩
  simp only at h3
  rw [connect_shape_eq (e := { s.eng with bodies := s.eng.bodies.setItem name ⟨s.eng.bodies.len, RigidBody.init name⟩ })
    hg1 hs1] at h3
  cases h3
  rw [bind_ok] at h
  obtain ⟨u, s4, h4, h⟩ := h
  replace h4 := api_ok.1 h4
  obtain ⟨e3, h4, rfl⟩ := h4
  simp only at h4
  generalize hd2 : (s.eng.bodies.setItem name ⟨s.eng.bodies.len, RigidBody.init name⟩).setItem name
    { idx := s.eng.bodies.len, body := { RigidBody.init name with shape := some sh } } = d2 at h4
  have hg2 : d2.get? name = some ⟨s.eng.bodies.len, { RigidBody.init name with shape := some sh }⟩ := by
    rw [← hd2]; exact Dict.get?_setItem_self _ _ _
  have hk2 : d2.keys = s.eng.bodies.keys ++ [name] := by
    rw [← hd2, Dict.keys_replace hg1]; exact get?_keys_setItem_new hnone
  have ho2 : ∀ k', k' ≠ name → d2.get? k' = s.eng.bodies.get? k' := by
    intro k' hk'
    rw [← hd2, Dict.get?_setItem_ne _ _ hk', Dict.get?_setItem_ne _ _ hk']
  clear hd2
  have hui : IsUnitQ Quat.identity := by unfold IsUnitQ Quat.identity; norm_num
  obtain ⟨r', hp1, hp2⟩ := ((C44_set_position { s.eng with bodies := d2 } name r).2 _ hg2).2.2 sh rfl hr1 hui
  rw [hp1] at h4
  cases h4
  rw [bind_ok] at h
  obtain ⟨u, s5, h5, h⟩ := h
  replace h5 := api_ok.1 h5
  obtain ⟨e4, h5, rfl⟩ := h5
  simp only at h5
  generalize hd3 : d2.setItem name _ = d3 at h5
  have hg3 := (congrArg (fun d => d.get? name) hd3).symm
  simp only [Dict.get?_setItem_self] at hg3
  have hk3 : d3.keys = s.eng.bodies.keys ++ [name] := by
    rw [← hd3, Dict.keys_replace hg2, hk2]
  have ho3 : ∀ k', k' ≠ name → d3.get? k' = s.eng.bodies.get? k' := by
    intro k' hk'
    rw [← hd3, Dict.get?_setItem_ne _ _ hk', ho2 k' hk']
  clear hd3
  obtain ⟨q', r'', hq1, hq2, hq3⟩ := ((C44_set_orientation { s.eng with bodies := d3 } name q).2 _ hg3).2.2 sh rfl hr1 hui
  rw [hq1] at h5
  cases h5
  rw [pure_ok] at h
  obtain ⟨rfl, rfl⟩ := h
  have hworld : ∀ x, bodyToWorld { RigidBody.init name with shape := some sh, q := q', r := r'' } x =
      r + Quat.rotate (Quat.unit q) (bodyToModel sh x) := by
    intro x
    have ho : bodyToModel sh (Quat.rotate (Quat.conjugate sh.q) (-sh.r)) = 0 := by
      unfold bodyToModel
      rw [(C02_rotate_conjugate hr1 _).2]
      simp
    have h1 := hq3 x _ ho
    rw [h1, hp2, ho, rotate_zero, add_zero]
  have hg4 := Dict.get?_setItem_self d3 name
    ⟨s.eng.bodies.len, { RigidBody.init name with shape := some sh, q := q', r := r'' }⟩
  refine ⟨⟨?_, ?_, by simp, ?_, fun _ _ h => h, fun _ _ h => h, fun h => h, rfl, rfl, rfl, rfl⟩, ?_⟩
  · show (Dict.setItem _ _ _).keys = _
    rw [Dict.keys_replace hg3, hk3]
  · intro k' hk'
    rw [List.mem_singleton] at hk'
    rw [hk']; exact hnone
  · intro k' hk'
    rw [List.mem_singleton] at hk'
    show (Dict.setItem _ _ _).get? _ = _
    rw [Dict.get?_setItem_ne _ _ hk', ho3 k' hk']
  · refine List.Forall₂.cons ?_ List.Forall₂.nil
    have hmap : m.V.map (bodyToWorld { RigidBody.init name with shape := some sh, q := q', r := r'' }) =
        (m.V.map (bodyToModel sh)).map (Brick.at ⟨VT.1, VT.2, r, Quat.unit q⟩) := by
      rw [List.map_map]
      exact List.map_congr_left fun x _ => hworld x
    refine ⟨_, sh, m, hg4, rfl, by rw [hs2]; exact hs3, ?_, ?_, hmass, ?_⟩
    · rw [hmap]
      exact hr3.map _
    · rw [hmap, trianglesOf_map _ _ _ (by simpa using hr2)]
      exact hr4.map _
    · have h0 := hworld 0
      unfold bodyToWorld bodyToModel at h0
      rw [rotate_zero, rotate_zero, zero_add, zero_add, hcentre] at h0
      exact h0

/-- The body has the given type, material and the mass of the brick at the given density. -/
def Finished (fixed : Bool) (material : String) (density : ℝ) : BrickFact := fun o sh m b =>
  Placed o sh m b ∧ o.is_fixed = fixed ∧ o.material = material ∧ o.mass = snapPos (enclosedVolume b.V b.T) * density

/-- Everything but the type, the material and the mass is as before, for the bodies N; the rest is untouched. -/
structure SetUp (fixed : Bool) (material : String) (density : ℝ) (s s' : Scene) (N : List String) : Prop where
  keys : s'.eng.bodies.keys = s.eng.bodies.keys
  old : ∀ n, n ∉ N → s'.eng.bodies.get? n = s.eng.bodies.get? n
  upd : ∀ n ∈ N, ∀ o, s.eng.bodies.get? n = some o → ∀ sh, o.body.shape = some sh →
    s'.eng.bodies.get? n = some { o with body := { o.body with
      is_fixed := fixed, material := material, mass := sh.mass * density, inertia := density • sh.inertia } }
  shapes : s'.eng.shapes = s.eng.shapes
  meshes : s'.meshes = s.meshes
  forces : s'.eng.forces = s.eng.forces
  hinges : s'.eng.hinges = s.eng.hinges
  inter : s'.eng.surfaces_interactions = s.eng.surfaces_interactions
  params : s'.eng.params = s.eng.params

theorem set_type_ok {e e' : Engine} {n t : String} (h : e.set_body_type n t = .ok e') : ∃ b,
    e.bodies.get? n = some b ∧ ((t ∈ ["fixed", "Fixed", "FIXED"] ∧
      e' = { e with bodies := e.bodies.setItem n { b with body := { b.body with is_fixed := true } } }) ∨
      (t ∈ ["free", "Free", "FREE"] ∧
      e' = { e with bodies := e.bodies.setItem n { b with body := { b.body with is_fixed := false } } })) := by
  unfold Engine.set_body_type at h
  cases hb : e.bodies.get? n with
  | none => rw [findBody_none hb] at h; cases h
  | some b =>
    rw [findBody_ok.2 hb] at h
    simp only [bind, Except.bind] at h
    refine ⟨b, rfl, ?_⟩
    split_ifs at h with h1 h2
    · rw [updateBody_some _ hb] at h; cases h; exact Or.inl ⟨h1, rfl⟩
    · rw [updateBody_some _ hb] at h; cases h; exact Or.inr ⟨h2, rfl⟩

theorem set_material_ok {e e' : Engine} {n t : String} (h : e.set_body_material n t = .ok e') : ∃ b,
    e.bodies.get? n = some b ∧ e' = { e with bodies := e.bodies.setItem n { b with body := { b.body with material := t } } } := by
  unfold Engine.set_body_material at h
  cases hb : e.bodies.get? n with
  | none => rw [findBody_none hb] at h; cases h
  | some b =>
    rw [findBody_ok.2 hb] at h
    simp only [bind, Except.bind] at h
    refine ⟨b, rfl, ?_⟩
    split_ifs at h with h1
    rw [updateBody_some _ hb] at h; cases h; rfl

theorem set_mass_ok {e e' : Engine} {n : String} {d : ℝ} (h : e.set_mass_properties n d = .ok e') : ∃ b sh,
    e.bodies.get? n = some b ∧ b.body.shape = some sh ∧
      e' = { e with bodies :=
        e.bodies.setItem n ⟨b.idx, { b.body with mass := sh.mass * d, inertia := d • sh.inertia }⟩ } := by
  unfold Engine.set_mass_properties at h
  cases hb : e.bodies.get? n with
  | none => rw [findBody_none hb] at h; cases h
  | some b =>
    rw [findBody_ok.2 hb] at h
    simp only [bind, Except.bind] at h
    cases hs : b.body.shape with
    | none => rw [hs] at h; cases h
    | some sh =>
      rw [hs] at h
      simp only at h
      rw [updateBody_some _ hb] at h
      cases h
      exact ⟨b, sh, rfl, hs, rfl⟩

theorem setup_ok {type material : String} {density : ℝ} {n : String} {s s' : Scene} {u : Unit} {fixed : Bool}
    (ht : (type = "fixed" ∧ fixed = true) ∨ (type = "free" ∧ fixed = false))
    (h : setup type material density n s = .ok (u, s')) : SetUp fixed material density s s' [n] := by
  unfold setup at h
  rw [bind_ok] at h
  obtain ⟨u1, s1, h1, h⟩ := h
  rw [bind_ok] at h
  obtain ⟨u2, s2, h2, h3⟩ := h
  replace h1 := api_ok.1 h1
  obtain ⟨e1, h1, rfl⟩ := h1
  replace h2 := api_ok.1 h2
  obtain ⟨e2, h2, rfl⟩ := h2
  replace h3 := api_ok.1 h3
  obtain ⟨e3, h3, rfl⟩ := h3
  obtain ⟨b, hb, hcase⟩ := set_type_ok h1
  have he1 : e1 = { s.eng with bodies := s.eng.bodies.setItem n { b with body := { b.body with is_fixed := fixed } } } := by
    rcases ht with ⟨rfl, rfl⟩ | ⟨rfl, rfl⟩
    · rcases hcase with ⟨-, h⟩ | ⟨h, -⟩
      · exact h
      · exact absurd h (by decide)
    · rcases hcase with ⟨h, -⟩ | ⟨-, h⟩
      · exact absurd h (by decide)
      · exact h
  subst he1
  simp only at h2
  have g1 := Dict.get?_setItem_self s.eng.bodies n { b with body := { b.body with is_fixed := fixed } }
  obtain ⟨b2, hb2, rfl⟩ := set_material_ok h2
  simp only at hb2
  rw [g1] at hb2
  cases hb2
  simp only at h3
  generalize hd1 : s.eng.bodies.setItem n { b with body := { b.body with is_fixed := fixed } } = d1 at h3 g1
  have g2 := Dict.get?_setItem_self d1 n { b with body := { b.body with is_fixed := fixed, material := material } }
  obtain ⟨b3, sh, hb3, hsh, rfl⟩ := set_mass_ok h3
  simp only at hb3
  rw [g2] at hb3
  cases hb3
  refine ⟨?_, ?_, ?_, rfl, rfl, rfl, rfl, rfl, rfl⟩
  · show (Dict.setItem _ _ _).keys = _
    rw [Dict.keys_replace g2, Dict.keys_replace g1, ← hd1, Dict.keys_replace hb]
  · intro k hk
    rw [List.mem_singleton] at hk
    show (Dict.setItem _ _ _).get? _ = _
    rw [Dict.get?_setItem_ne _ _ hk, Dict.get?_setItem_ne _ _ hk, ← hd1, Dict.get?_setItem_ne _ _ hk]
  · intro k hk o ho sh' hsh'
    rw [List.mem_singleton] at hk
    subst hk
    rw [hb] at ho
    cases ho
    simp only at hsh
    rw [hsh] at hsh'
    cases hsh'
    exact Dict.get?_setItem_self _ _ _

theorem forM_setup_ok {type material : String} {density : ℝ} {fixed : Bool}
    (ht : (type = "fixed" ∧ fixed = true) ∨ (type = "free" ∧ fixed = false)) :
    ∀ (N : List String) (s s' : Scene) (u : Unit), N.Nodup → N.forM (setup type material density) s = .ok (u, s') →
      SetUp fixed material density s s' N := by
  intro N
  induction N with
  | nil =>
    intro s s' u _ h
    change (pure PUnit.unit : SceneM PUnit) s = _ at h
    obtain ⟨-, rfl⟩ := pure_ok.1 h
    exact ⟨rfl, fun _ _ => rfl, by simp, rfl, rfl, rfl, rfl, rfl, rfl⟩
  | cons n N ih =>
    intro s s' u hn h
    change (setup type material density n >>= fun _ => N.forM (setup type material density)) s = _ at h
    rw [bind_ok] at h
    obtain ⟨u1, s1, h1, h2⟩ := h
    rw [List.nodup_cons] at hn
    have a := setup_ok ht h1
    have b := ih s1 s' u hn.2 h2
    refine ⟨b.keys.trans a.keys, ?_, ?_, b.shapes.trans a.shapes, b.meshes.trans a.meshes, b.forces.trans a.forces,
      b.hinges.trans a.hinges, b.inter.trans a.inter, b.params.trans a.params⟩
    · intro k hk
      rw [List.mem_cons, not_or] at hk
      rw [b.old k hk.2, a.old k (by simpa using hk.1)]
    · intro k hk o ho sh hsh
      by_cases hkn : k = n
      · subst hkn
        rw [b.old k hn.1]
        exact a.upd k (by simp) o ho sh hsh
      · have hkN : k ∈ N := by simpa [hkn] using hk
        rw [← a.old k (by simpa using hkn)] at ho
        exact b.upd k hkN o ho sh hsh

/-- Setting type, material and mass of all new bodies. -/
theorem PutUp.setup {s s1 s2 : Scene} {B : List Brick} {N : List String} {fixed : Bool} {material : String} {density : ℝ}
    (h : PutUp Placed s s1 B N) (hs : SetUp fixed material density s1 s2 N) :
    PutUp (Finished fixed material density) s s2 B N := by
  have hg := h.1
  refine ⟨⟨hs.keys.trans hg.keys, hg.fresh, hg.nodup, fun n hn => (hs.old n hn).trans (hg.old n hn), ?_, ?_, ?_,
    hs.forces.trans hg.forces, hs.hinges.trans hg.hinges, hs.inter.trans hg.inter, hs.params.trans hg.params⟩, ?_⟩
  · intro n sh hh; rw [hs.shapes]; exact hg.shapes n sh hh
  · intro n m hh; rw [hs.meshes]; exact hg.meshes n m hh
  · intro hok; have := hg.ok hok; unfold Rigid.Scene.OK at *; rw [hs.shapes, hs.meshes]; exact this
  · have key : ∀ n ∈ N, ∀ b, Standing Placed s1 n b → Standing (Finished fixed material density) s2 n b := by
      intro n hn b ⟨o, sh, m, h1, h2, h3, h4⟩
      have hI := hs.upd n hn o h1 sh h2
      exact ⟨_, sh, m, hI, h2, by rw [hs.meshes]; exact h3, h4, rfl, rfl, by rw [← h4.2.2.1]⟩
    have gen : ∀ (N' : List String) (B' : List Brick), (∀ n ∈ N', n ∈ N) →
        List.Forall₂ (fun n b => Standing Placed s1 n b) N' B' →
        List.Forall₂ (fun n b => Standing (Finished fixed material density) s2 n b) N' B' := by
      intro N' B' hsub hf
      induction hf with
      | nil => exact List.Forall₂.nil
      | cons h1 _ ih =>
        exact List.Forall₂.cons (key _ (hsub _ (by simp)) _ h1) (ih fun n hn => hsub n (by simp [hn]))
    exact gen N B (fun _ h => h) h.2

end Verif
