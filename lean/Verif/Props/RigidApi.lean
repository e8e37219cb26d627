import Verif.Model.RigidApi
import Verif.Lemmas.Dict
import Verif.Props.Quaternion
import Verif.Props.Vector3

/-! C42, C43, C44: the rigid body API. -/

namespace Verif

open Rigid Rigid.Engine

theorem findBody_ok {e : Engine} {n : String} {b : BodyObj} : e.findBody n = .ok b ↔ e.bodies.get? n = some b := by
  unfold Engine.findBody Dict.getItem
  by_cases h : e.bodies.mem n = true
  · rw [if_pos h]
    obtain ⟨v, hv⟩ := Dict.mem_iff_get?.1 h
    rw [hv]
    simp
  · rw [if_neg h]
    rw [Bool.not_eq_true] at h
    rw [(Dict.get?_eq_none _ _).2 h]
    simp

theorem findBody_none {e : Engine} {n : String} (h : e.bodies.get? n = none) : e.findBody n = .error .runtimeError := by
  unfold Engine.findBody
  rw [Dict.get?_eq_none] at h
  rw [if_neg (by simp [h])]

theorem updateBody_some {e : Engine} {n : String} {b : BodyObj} (f : RigidBody → RigidBody)
    (h : e.bodies.get? n = some b) :
    e.updateBody n f = .ok { e with bodies := e.bodies.setItem n { b with body := f b.body } } := by
  unfold Engine.updateBody
  rw [findBody_ok.2 h]
  rfl

theorem updateBody_none {e : Engine} {n : String} (f : RigidBody → RigidBody) (h : e.bodies.get? n = none) :
    e.updateBody n f = .error .runtimeError := by
  unfold Engine.updateBody
  rw [findBody_none h]
  rfl

theorem findShape_ok {e : Engine} {n : String} {b : Shape} : e.findShape n = .ok b ↔ e.shapes.get? n = some b := by
  unfold Engine.findShape Dict.getItem
  by_cases h : e.shapes.mem n = true
  · rw [if_pos h]
    obtain ⟨v, hv⟩ := Dict.mem_iff_get?.1 h
    rw [hv]
    simp
  · rw [if_neg h]
    rw [Bool.not_eq_true] at h
    rw [(Dict.get?_eq_none _ _).2 h]
    simp

theorem findShape_none {e : Engine} {n : String} (h : e.shapes.get? n = none) : e.findShape n = .error .runtimeError := by
  unfold Engine.findShape
  rw [Dict.get?_eq_none] at h
  rw [if_neg (by simp [h])]

theorem findForce_ok {e : Engine} {n : String} {b : Force} : e.findForce n = .ok b ↔ e.forces.get? n = some b := by
  unfold Engine.findForce Dict.getItem
  by_cases h : e.forces.mem n = true
  · rw [if_pos h]
    obtain ⟨v, hv⟩ := Dict.mem_iff_get?.1 h
    rw [hv]
    simp
  · rw [if_neg h]
    rw [Bool.not_eq_true] at h
    rw [(Dict.get?_eq_none _ _).2 h]
    simp

theorem findForce_none {e : Engine} {n : String} (h : e.forces.get? n = none) : e.findForce n = .error .runtimeError := by
  unfold Engine.findForce
  rw [Dict.get?_eq_none] at h
  rw [if_neg (by simp [h])]

theorem findHinge_ok {e : Engine} {n : String} {b : HingeObj} : e.findHinge n = .ok b ↔ e.hinges.get? n = some b := by
  unfold Engine.findHinge Dict.getItem
  by_cases h : e.hinges.mem n = true
  · rw [if_pos h]
    obtain ⟨v, hv⟩ := Dict.mem_iff_get?.1 h
    rw [hv]
    simp
  · rw [if_neg h]
    rw [Bool.not_eq_true] at h
    rw [(Dict.get?_eq_none _ _).2 h]
    simp

theorem findHinge_none {e : Engine} {n : String} (h : e.hinges.get? n = none) : e.findHinge n = .error .runtimeError := by
  unfold Engine.findHinge
  rw [Dict.get?_eq_none] at h
  rw [if_neg (by simp [h])]

/-! ### C44: placing bodies -/

/-- World position of the point with body frame coordinates x. -/
def bodyToWorld (b : RigidBody) (x : V3) : V3 := Quat.rotate b.q x + b.r
/-- Model frame coordinates of the point with body frame coordinates x. -/
def bodyToModel (sh : Shape) (x : V3) : V3 := Quat.rotate sh.q x + sh.r

/-- C44: `set_position`.  Without the model frame flag exactly the position of exactly that body is replaced.  With it,
the body is moved without rotation so that the model frame's origin lies at r: a point with model coordinates m comes to
lie at r + (unchanged model orientation)·m.  Unknown names raise RuntimeError, a body without shape AttributeError. -/
theorem C44_set_position (e : Engine) (n : String) (r : V3) :
    (e.bodies.get? n = none → ∀ m, e.set_position n r m = .error .runtimeError) ∧
    ∀ b, e.bodies.get? n = some b →
      e.set_position n r false = .ok { e with bodies := e.bodies.setItem n { b with body := { b.body with r := r } } } ∧
      (b.body.shape = none → e.set_position n r true = .error .attributeError) ∧
      ∀ sh, b.body.shape = some sh → IsUnitQ sh.q → IsUnitQ b.body.q → ∃ r',
        e.set_position n r true = .ok { e with bodies := e.bodies.setItem n { b with body := { b.body with r := r' } } } ∧
        ∀ x, bodyToWorld { b.body with r := r' } x =
          r + Quat.rotate (Quat.prod b.body.q (Quat.conjugate sh.q)) (bodyToModel sh x) := by
  constructor
  · intro h m
    unfold Engine.set_position
    rw [findBody_none h]
    rfl
  intro b hb
  have hu := fun f => updateBody_some f hb
  refine ⟨?_, ?_, ?_⟩
  · unfold Engine.set_position
    rw [findBody_ok.2 hb]
    simp only [bind, Except.bind]
    rw [if_neg (by decide)]
    exact hu _
  · intro hs
    unfold Engine.set_position
    rw [findBody_ok.2 hb]
    simp only [bind, Except.bind, hs]
    rfl
  · intro sh hs hq hbq
    refine ⟨Engine.modelPosition b.body sh r, ?_, ?_⟩
    · unfold Engine.set_position
      rw [findBody_ok.2 hb]
      simp only [bind, Except.bind]
      rw [if_pos trivial]
      split
      · rename_i h
        rw [hs] at h
        cases h
      · rename_i sh' h
        rw [hs] at h
        cases h
        exact hu _
    · intro x
      unfold bodyToWorld bodyToModel Engine.modelPosition
      simp only []
      rw [(C02_rotate_linear _ 1 _ _).1, C02_rotate_prod, C02_rotate_prod, (C02_rotate_conjugate hq x).1]
      abel

/-- C44: `set_orientation`.  The quaternion is normalised first.  Without the flag exactly the orientation of exactly that
body is replaced.  With it the model frame gets the orientation q and its origin stays where it was: a point with model
coordinates m comes to lie at (old model origin) + unit(q)·m. -/
theorem C44_set_orientation (e : Engine) (n : String) (q : Quat) :
    (e.bodies.get? n = none → ∀ m, e.set_orientation n q m = .error .runtimeError) ∧
    ∀ b, e.bodies.get? n = some b →
      e.set_orientation n q false =
        .ok { e with bodies := e.bodies.setItem n { b with body := { b.body with q := Quat.unit q } } } ∧
      (b.body.shape = none → e.set_orientation n q true = .error .attributeError) ∧
      ∀ sh, b.body.shape = some sh → IsUnitQ sh.q → IsUnitQ b.body.q → ∃ q' r',
        e.set_orientation n q true =
          .ok { e with bodies := e.bodies.setItem n { b with body := { b.body with q := q', r := r' } } } ∧
        IsUnitQ q' ∧
        ∀ x o, bodyToModel sh o = 0 → bodyToWorld { b.body with q := q', r := r' } x =
          bodyToWorld b.body o + Quat.rotate (Quat.unit q) (bodyToModel sh x) := by
  constructor
  · intro h m
    unfold Engine.set_orientation
    rw [findBody_none h]
    rfl
  intro b hb
  have hu := fun f => updateBody_some f hb
  refine ⟨?_, ?_, ?_⟩
  · unfold Engine.set_orientation
    rw [findBody_ok.2 hb]
    simp only [bind, Except.bind]
    rw [if_neg (by decide)]
    exact hu _
  · intro hs
    unfold Engine.set_orientation
    rw [findBody_ok.2 hb]
    simp only [bind, Except.bind, hs]
    rfl
  · intro sh hs hq hbq
    refine ⟨(Engine.modelOrientation b.body sh q).1, (Engine.modelOrientation b.body sh q).2, ?_, ?_, ?_⟩
    · unfold Engine.set_orientation
      rw [findBody_ok.2 hb]
      simp only [bind, Except.bind]
      rw [if_pos trivial]
      split
      · rename_i h
        rw [hs] at h
        cases h
      · rename_i sh' h
        rw [hs] at h
        cases h
        exact hu _
    · exact (C01_unit_group (C01_unit_spec q).1 hq).1
    · intro x o ho
      unfold bodyToWorld
      unfold bodyToModel at *
      unfold Engine.modelOrientation
      simp only []
      have h0 : sh.r = -Quat.rotate sh.q o := by
        rw [eq_neg_iff_add_eq_zero, add_comm]; exact ho
      have h1 : Quat.rotate (Quat.prod b.body.q (Quat.conjugate sh.q)) sh.r = -Quat.rotate b.body.q o := by
        rw [h0, C02_rotate_prod]
        have h2 : ∀ (p : Quat) (v : V3), Quat.rotate p (-v) = -Quat.rotate p v := by
          intro p v
          have := (C02_rotate_linear p (-1) v v).2
          simpa using this
        rw [h2, (C02_rotate_conjugate hq o).1, h2]
      rw [h1, (C02_rotate_linear _ 1 _ _).1, C02_rotate_prod]
      abel

/-- C44: after a successful call the getters return what was set; every other body is untouched; and setters do not
touch what they do not set. -/
theorem C44_get_set (e : Engine) (n : String) (b : BodyObj) (hb : e.bodies.get? n = some b) (a : V3) (q : Quat) :
    (∃ e', e.set_position n a false = .ok e' ∧ e'.get_position n = .ok a ∧ e'.get_orientation n = .ok b.body.q ∧
      e'.get_velocity n = .ok b.body.v ∧ e'.get_spin n = .ok b.body.w ∧ ∀ m, m ≠ n → e'.findBody m = e.findBody m) ∧
    (∃ e', e.set_orientation n q false = .ok e' ∧ e'.get_position n = .ok b.body.r ∧
      e'.get_orientation n = .ok (Quat.unit q) ∧
      e'.get_velocity n = .ok b.body.v ∧ e'.get_spin n = .ok b.body.w ∧ ∀ m, m ≠ n → e'.findBody m = e.findBody m) ∧
    (∃ e', e.set_velocity n a = .ok e' ∧ e'.get_position n = .ok b.body.r ∧ e'.get_orientation n = .ok b.body.q ∧
      e'.get_velocity n = .ok a ∧ e'.get_spin n = .ok b.body.w ∧ ∀ m, m ≠ n → e'.findBody m = e.findBody m) ∧
    (∃ e', e.set_spin n a = .ok e' ∧ e'.get_position n = .ok b.body.r ∧ e'.get_orientation n = .ok b.body.q ∧
      e'.get_velocity n = .ok b.body.v ∧ e'.get_spin n = .ok a ∧ ∀ m, m ≠ n → e'.findBody m = e.findBody m) := by
  have key : ∀ f : RigidBody → RigidBody, ∃ e', e.updateBody n f = .ok e' ∧
      e'.findBody n = .ok { b with body := f b.body } ∧ ∀ m, m ≠ n → e'.findBody m = e.findBody m := by
    intro f
    refine ⟨_, updateBody_some f hb, ?_, ?_⟩
    · rw [findBody_ok]
      exact Dict.get?_setItem_self _ _ _
    · intro m hm
      cases h : e.bodies.get? m with
      | none =>
        rw [findBody_none h, findBody_none]
        rw [← h]
        exact Dict.get?_setItem_ne _ _ hm
      | some v =>
        rw [findBody_ok.2 h, findBody_ok]
        rw [← h]
        exact Dict.get?_setItem_ne _ _ hm
  have h1 : e.set_position n a false = e.updateBody n fun b => { b with r := a } := by
    unfold Engine.set_position
    rw [findBody_ok.2 hb]
    rfl
  have h2 : e.set_orientation n q false = e.updateBody n fun b => { b with q := Quat.unit q } := by
    unfold Engine.set_orientation
    rw [findBody_ok.2 hb]
    rfl
  unfold Engine.get_position Engine.get_orientation Engine.get_velocity Engine.get_spin
  refine ⟨?_, ?_, ?_, ?_⟩
  · rw [h1]
    obtain ⟨e', he, hf, ho⟩ := key fun b => { b with r := a }
    exact ⟨e', he, by rw [hf]; rfl, by rw [hf]; rfl, by rw [hf]; rfl, by rw [hf]; rfl, ho⟩
  · rw [h2]
    obtain ⟨e', he, hf, ho⟩ := key fun b => { b with q := Quat.unit q }
    exact ⟨e', he, by rw [hf]; rfl, by rw [hf]; rfl, by rw [hf]; rfl, by rw [hf]; rfl, ho⟩
  · obtain ⟨e', he, hf, ho⟩ := key fun b => { b with v := a }
    exact ⟨e', he, by rw [hf]; rfl, by rw [hf]; rfl, by rw [hf]; rfl, by rw [hf]; rfl, ho⟩
  · obtain ⟨e', he, hf, ho⟩ := key fun b => { b with w := a }
    exact ⟨e', he, by rw [hf]; rfl, by rw [hf]; rfl, by rw [hf]; rfl, by rw [hf]; rfl, ho⟩

/-! ### C42: the surface interaction library -/

theorem string_cases (A B : String) : (A < B ∧ ¬ B < A) ∨ A = B ∨ (B < A ∧ ¬ A < B) := by
  by_cases h : A < B
  · exact Or.inl ⟨h, String.lt_asymm h⟩
  · by_cases h2 : B < A
    · exact Or.inr (Or.inr ⟨h2, h⟩)
    · exact Or.inr (Or.inl (String.le_antisymm (String.not_lt.1 h2) (String.not_lt.1 h)))

theorem key_comm (A B : String) : SurfacesInteractionLibrary.key A B = SurfacesInteractionLibrary.key B A := by
  unfold SurfacesInteractionLibrary.key
  rcases string_cases A B with ⟨h, h'⟩ | h | ⟨h, h'⟩
  · rw [if_pos h, if_neg h']
  · rw [h]
  · rw [if_neg h', if_pos h]

theorem key_sorted (A B : String) : (if B < A then (B, A) else (A, B)) = SurfacesInteractionLibrary.key A B := by
  unfold SurfacesInteractionLibrary.key
  rcases string_cases A B with ⟨h, h'⟩ | h | ⟨h, h'⟩
  · rw [if_pos h, if_neg h']
  · rw [h]
  · rw [if_neg h', if_pos h]

theorem key_eq_iff (A B C D : String) : SurfacesInteractionLibrary.key A B = SurfacesInteractionLibrary.key C D ↔
    (A = C ∧ B = D) ∨ (A = D ∧ B = C) := by
  unfold SurfacesInteractionLibrary.key
  constructor
  · intro h
    split_ifs at h <;> simp only [Prod.mk.injEq] at h
    · exact Or.inl h
    · exact Or.inr h
    · exact Or.inr ⟨h.2, h.1⟩
    · exact Or.inl ⟨h.2, h.1⟩
  · rintro (⟨rfl, rfl⟩ | ⟨rfl, rfl⟩)
    · rfl
    · exact key_comm A B

/-- C42: the interaction of two materials does not depend on the order in which they are named; `create_surfaces_interaction`
raises RuntimeError exactly when the pair (in either order) is already registered or a coefficient is negative, and
otherwise makes the given coefficients the interaction of that pair in both orders and changes no other pair that was
registered. -/
theorem C42_interactions (e : Engine) (A B : String) (ep : ℝ) (mu : V3) :
    (∀ L : SurfacesInteractionLibrary, L.get_interaction A B = L.get_interaction B A ∧
      L.exist_interaction A B = L.exist_interaction B A) ∧
    ((e.surfaces_interactions.exist_interaction A B = true ∨ ep < 0 ∨ mu.x < 0 ∨ mu.y < 0 ∨ mu.z < 0) →
      e.create_surfaces_interaction A B ep mu = .error .runtimeError) ∧
    ((e.surfaces_interactions.exist_interaction A B = false ∧ 0 ≤ ep ∧ 0 ≤ mu.x ∧ 0 ≤ mu.y ∧ 0 ≤ mu.z) →
      ∃ e', e.create_surfaces_interaction A B ep mu = .ok e' ∧
        e'.surfaces_interactions.get_interaction A B = .ok ⟨mu, ep⟩ ∧
        e'.surfaces_interactions.exist_interaction A B = true ∧
        e'.surfaces_interactions.exist_material A = true ∧ e'.surfaces_interactions.exist_material B = true ∧
        (∀ C D, ¬ ((C = A ∧ D = B) ∨ (C = B ∧ D = A)) →
          e'.surfaces_interactions.exist_interaction C D = e.surfaces_interactions.exist_interaction C D ∧
          (e.surfaces_interactions.exist_interaction C D = true →
            e'.surfaces_interactions.get_interaction C D = e.surfaces_interactions.get_interaction C D)) ∧
        { e' with surfaces_interactions := e.surfaces_interactions } = e) := by
  refine ⟨?_, ?_, ?_⟩
  · intro L
    unfold SurfacesInteractionLibrary.get_interaction SurfacesInteractionLibrary.exist_interaction
    rw [key_comm]
    exact ⟨rfl, rfl⟩
  · intro h
    unfold Engine.create_surfaces_interaction
    rw [show (0.0 : ℝ) = 0 by norm_num]
    split_ifs with h1 h2 h3 h4 h5
    all_goals first | rfl | (exfalso; tauto)
  · rintro ⟨h1, h2, h3, h4, h5⟩
    unfold Engine.create_surfaces_interaction
    rw [show (0.0 : ℝ) = 0 by norm_num, if_neg (by simp [h1]), if_neg (not_lt.2 h2), if_neg (not_lt.2 h3),
      if_neg (not_lt.2 h4), if_neg (not_lt.2 h5), key_sorted]
    refine ⟨_, rfl, ?_, ?_, ?_, ?_, ?_, rfl⟩
    · unfold SurfacesInteractionLibrary.get_interaction
      simp only []
      have hg : (e.surfaces_interactions.storage.setItem (SurfacesInteractionLibrary.key A B) ⟨mu, ep⟩).get?
          (SurfacesInteractionLibrary.key A B) = some ⟨mu, ep⟩ := Dict.get?_setItem_self _ _ _
      rw [if_pos (Dict.mem_of_get? hg)]
      unfold Dict.getItem
      rw [hg]
    · unfold SurfacesInteractionLibrary.exist_interaction
      have hg : (e.surfaces_interactions.storage.setItem (SurfacesInteractionLibrary.key A B) ⟨mu, ep⟩).get?
          (SurfacesInteractionLibrary.key A B) = some ⟨mu, ep⟩ := Dict.get?_setItem_self _ _ _
      rw [if_pos (Dict.mem_of_get? hg)]
    · unfold SurfacesInteractionLibrary.exist_material
      rw [List.any_eq_true]
      refine ⟨SurfacesInteractionLibrary.key A B, ?_, ?_⟩
      · rw [← Dict.mem_iff_keys]
        exact Dict.mem_of_get? (Dict.get?_setItem_self _ _ _)
      · unfold SurfacesInteractionLibrary.key
        split_ifs <;> simp
    · unfold SurfacesInteractionLibrary.exist_material
      rw [List.any_eq_true]
      refine ⟨SurfacesInteractionLibrary.key A B, ?_, ?_⟩
      · rw [← Dict.mem_iff_keys]
        exact Dict.mem_of_get? (Dict.get?_setItem_self _ _ _)
      · unfold SurfacesInteractionLibrary.key
        split_ifs <;> simp
    · intro C D hCD
      have hne : SurfacesInteractionLibrary.key C D ≠ SurfacesInteractionLibrary.key A B := by
        rw [Ne, key_eq_iff]; exact hCD
      have hg := Dict.get?_setItem_ne e.surfaces_interactions.storage (⟨mu, ep⟩ : SurfacesInteraction) hne
      have hm : (e.surfaces_interactions.storage.setItem (SurfacesInteractionLibrary.key A B) ⟨mu, ep⟩).mem
          (SurfacesInteractionLibrary.key C D) = e.surfaces_interactions.storage.mem (SurfacesInteractionLibrary.key C D) := by
        rw [← Dict.get?_isSome, hg, Dict.get?_isSome]
      unfold SurfacesInteractionLibrary.exist_interaction SurfacesInteractionLibrary.get_interaction
      simp only []
      rw [hm]
      refine ⟨rfl, fun h => ?_⟩
      have hmm : e.surfaces_interactions.storage.mem (SurfacesInteractionLibrary.key C D) = true := by
        by_contra hc
        rw [if_neg hc] at h
        cases h
      rw [if_pos hmm, if_pos hmm]
      unfold Dict.getItem
      rw [hg]

/-- C42: a pair that is not registered gets the interaction of ("default", "default"); a new engine has friction one in
all three components and restitution zero there. -/
theorem C42_default (L : SurfacesInteractionLibrary) (A B : String) :
    (L.exist_interaction A B = false → L.get_interaction A B = L.storage.getItem ("default", "default")) ∧
    SurfacesInteractionLibrary.init.get_interaction A B = .ok ⟨⟨1, 1, 1⟩, 0.0⟩ := by
  constructor
  · intro h
    unfold SurfacesInteractionLibrary.exist_interaction at h
    unfold SurfacesInteractionLibrary.get_interaction
    split at h
    · cases h
    · rename_i hm
      rw [if_neg hm]
  · unfold SurfacesInteractionLibrary.get_interaction
    have hg : ∀ k : String × String, SurfacesInteractionLibrary.init.storage.get? k =
        if k = ("default", "default") then some SurfacesInteraction.init else none := by
      intro k
      unfold SurfacesInteractionLibrary.init
      rw [Dict.get?_setItem]
      rfl
    split
    · rename_i hm
      obtain ⟨v, hv⟩ := Dict.mem_iff_get?.1 hm
      rw [hg] at hv
      split at hv
      · rename_i hk
        rw [hk]
        rfl
      · cases hv
    · rfl

end Verif
