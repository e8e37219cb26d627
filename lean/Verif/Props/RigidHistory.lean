import Verif.Props.RigidApi
import Verif.Props.Hinges

/-! C43: invariants of every history of API calls, and the world they build; C41: `set_hinge`. -/

namespace Verif

open Rigid Rigid.Engine

/-- Forces keep the ranges enforced at creation. -/
def ForceOk : ForceKind → Prop
  | .gravity g _ => 0 < g
  | .damping a b => 0 < a ∧ 0 < b

/-- What every engine built through the API satisfies. -/
structure EngineOk (e : Engine) : Prop where
  bodies_nodup : e.bodies.keys.Nodup
  /-- the i-th body has index i, is stored under its name, has a unit orientation, existing forces without repetition, an
  existing shape (or none), and an existing material -/
  bodies : e.bodies.All fun i k b => b.idx = i ∧ b.body.name = k ∧ IsUnitQ b.body.q ∧
    (∀ f ∈ b.body.forces, e.forces.get? f.name = some f) ∧ (b.body.forces.map (·.name)).Nodup ∧
    (∀ sh, b.body.shape = some sh → e.shapes.get? sh.name = some sh) ∧
    e.surfaces_interactions.exist_material b.body.material = true
  hinges_nodup : e.hinges.keys.Nodup
  /-- the i-th hinge has index i, is stored under its name; its sockets are set together and on existing bodies -/
  hinges : e.hinges.All fun i k h => h.idx = i ∧ h.name = k ∧
    (h = HingeObj.init k i ∨ ∃ p c ap ac np nc sp sc, e.bodies.mem p = true ∧ e.bodies.mem c = true ∧
      h = ⟨k, i, some p, some c, some sp, some sc, some ap, some ac, some np, some nc⟩)
  forces_nodup : e.forces.keys.Nodup
  forces : e.forces.All fun _ k f => f.name = k ∧ ForceOk f.kind
  shapes_nodup : e.shapes.keys.Nodup
  shapes : e.shapes.All fun _ k s => s.name = k ∧ IsUnitQ s.q
  interactions : e.surfaces_interactions.storage.All fun _ _ I =>
    0 ≤ I.epsilon ∧ 0 ≤ I.mu.x ∧ 0 ≤ I.mu.y ∧ 0 ≤ I.mu.z
  default_exists : e.surfaces_interactions.storage.mem ("default", "default") = true

/-- Changing one body keeps everything, if the new body is as good as the old one. -/
theorem EngineOk.updateBody {e : Engine} (h : EngineOk e) {n : String} {b : BodyObj} (hb : e.bodies.get? n = some b)
    {b' : RigidBody}
    (hok : (∃ i, b.idx = i ∧ b.body.name = n ∧ IsUnitQ b.body.q ∧
        (∀ f ∈ b.body.forces, e.forces.get? f.name = some f) ∧ (b.body.forces.map (·.name)).Nodup ∧
        (∀ sh, b.body.shape = some sh → e.shapes.get? sh.name = some sh) ∧
        e.surfaces_interactions.exist_material b.body.material = true) →
      b'.name = n ∧ IsUnitQ b'.q ∧
        (∀ f ∈ b'.forces, e.forces.get? f.name = some f) ∧ (b'.forces.map (·.name)).Nodup ∧
        (∀ sh, b'.shape = some sh → e.shapes.get? sh.name = some sh) ∧
        e.surfaces_interactions.exist_material b'.material = true) :
    EngineOk { e with bodies := e.bodies.setItem n { b with body := b' } } where
  bodies_nodup := by
    have := h.bodies_nodup
    change (e.bodies.setItem n { b with body := b' }).keys.Nodup
    rw [Dict.keys_replace hb]
    exact this
  bodies := by
    refine Dict.All.replace h.bodies h.bodies_nodup hb ?_
    intro i hi
    exact ⟨hi.1, hok ⟨i, hi⟩⟩
  hinges_nodup := h.hinges_nodup
  hinges := by
    refine Dict.All.mono h.hinges ?_
    rintro i k hh ⟨h1, h2, h3⟩
    refine ⟨h1, h2, ?_⟩
    have hm : ∀ m, e.bodies.mem m = true → (e.bodies.setItem n { b with body := b' }).mem m = true := by
      intro m hm
      rw [Dict.mem_iff_keys] at *
      rw [Dict.keys_replace hb]
      exact hm
    rcases h3 with h3 | ⟨p, c, ap, ac, np, nc, sp, sc, hp, hc, he⟩
    · exact Or.inl h3
    · exact Or.inr ⟨p, c, ap, ac, np, nc, sp, sc, hm p hp, hm c hc, he⟩
  forces_nodup := h.forces_nodup
  forces := h.forces
  shapes_nodup := h.shapes_nodup
  shapes := h.shapes
  interactions := h.interactions
  default_exists := h.default_exists

/-- The condition on a call that the mesh preprocessing guarantees: the body frame quaternion of a shape is unit. -/
def OpOk : Op → Prop
  | .createShape _ _ q _ _ => IsUnitQ q
  | _ => True

theorem ok_updateBody {e e' : Engine} {n : String} {f : RigidBody → RigidBody} (h : EngineOk e)
    (hc : e.updateBody n f = .ok e')
    (hf : ∀ b, e.bodies.get? n = some b → b.body.name = n → IsUnitQ b.body.q →
        (∀ f ∈ b.body.forces, e.forces.get? f.name = some f) → (b.body.forces.map (·.name)).Nodup →
        (∀ sh, b.body.shape = some sh → e.shapes.get? sh.name = some sh) →
        e.surfaces_interactions.exist_material b.body.material = true →
      (f b.body).name = n ∧ IsUnitQ (f b.body).q ∧
        (∀ g ∈ (f b.body).forces, e.forces.get? g.name = some g) ∧ ((f b.body).forces.map (·.name)).Nodup ∧
        (∀ sh, (f b.body).shape = some sh → e.shapes.get? sh.name = some sh) ∧
        e.surfaces_interactions.exist_material (f b.body).material = true) : EngineOk e' := by
  cases hb : e.bodies.get? n with
  | none =>
    rw [updateBody_none f hb] at hc
    cases hc
  | some b =>
    rw [updateBody_some f hb] at hc
    injection hc with hc
    rw [← hc]
    apply h.updateBody hb
    rintro ⟨i, h1, h2, h3, h4, h5, h6, h7⟩
    exact hf b hb h2 h3 h4 h5 h6 h7

theorem exist_material_mono {L : SurfacesInteractionLibrary} {k : String × String} {v : SurfacesInteraction} {n : String}
    (h : L.exist_material n = true) :
    (⟨L.storage.setItem k v⟩ : SurfacesInteractionLibrary).exist_material n = true := by
  unfold SurfacesInteractionLibrary.exist_material at *
  rw [List.any_eq_true] at *
  obtain ⟨x, hx, hn⟩ := h
  refine ⟨x, ?_, hn⟩
  rw [Dict.keys_setItem]
  split
  · exact hx
  · exact List.mem_append_left _ hx

theorem mem_setItem_mono {υ : Type} {d : Dict String υ} {k m : String} {v : υ} (h : d.mem m = true) :
    (d.setItem k v).mem m = true := by
  rw [Dict.mem_iff_keys] at *
  rw [Dict.keys_setItem]
  split
  · exact h
  · exact List.mem_append_left _ h

theorem ok_after {e e' : Engine} {op : Op} (h : EngineOk e) (ho : OpOk op) (hc : e.call op = .ok e') : EngineOk e' := by
  cases op with
  | createBody n =>
    change e.create_rigid_body n = _ at hc
    unfold Engine.create_rigid_body at hc
    split at hc
    · cases hc
    rename_i hm
    rw [Bool.not_eq_true] at hm
    injection hc with hc
    subst hc
    refine { h with bodies_nodup := Dict.nodup_setItem _ _ _ h.bodies_nodup, bodies := ?_, hinges := ?_ }
    · refine Dict.All.insert h.bodies hm ?_
      refine ⟨rfl, rfl, ?_, ?_, ?_, ?_, ?_⟩
      · unfold RigidBody.init IsUnitQ Quat.identity; norm_num
      · intro f hf; cases hf
      · exact List.nodup_nil
      · intro sh hs; cases hs
      · unfold SurfacesInteractionLibrary.exist_material
        rw [List.any_eq_true]
        exact ⟨("default", "default"), (Dict.mem_iff_keys _ _).1 h.default_exists, rfl⟩
    · refine Dict.All.mono h.hinges ?_
      rintro i k hh ⟨h1, h2, h3⟩
      refine ⟨h1, h2, ?_⟩
      rcases h3 with h3 | ⟨p, c, ap, ac, np, nc, sp, sc, hp, hc, he⟩
      · exact Or.inl h3
      · exact Or.inr ⟨p, c, ap, ac, np, nc, sp, sc, mem_setItem_mono hp, mem_setItem_mono hc, he⟩
  | createHinge n =>
    change e.create_hinge n = _ at hc
    unfold Engine.create_hinge at hc
    split at hc
    · cases hc
    rename_i hm
    rw [Bool.not_eq_true] at hm
    injection hc with hc
    subst hc
    refine { h with hinges_nodup := Dict.nodup_setItem _ _ _ h.hinges_nodup, hinges := ?_ }
    exact Dict.All.insert h.hinges hm ⟨rfl, rfl, Or.inl rfl⟩
  | setHinge hn p c o a m =>
    change e.set_hinge hn p c o a m = _ at hc
    unfold Engine.set_hinge at hc
    simp only [bind, Except.bind] at hc
    split at hc
    · cases hc
    rename_i hg hget
    rw [findHinge_ok] at hget
    split at hc
    · cases hc
    rename_i pb hpb
    split at hc
    · cases hc
    rename_i cb hcb
    split at hc
    · cases hc
    simp only [pure, Except.pure, Except.ok.injEq] at hc
    subst hc
    rw [findBody_ok] at hpb hcb
    refine { h with hinges_nodup := ?_, hinges := ?_ }
    · change (e.hinges.setItem hn _).keys.Nodup
      rw [Dict.keys_replace hget]
      exact h.hinges_nodup
    · refine Dict.All.replace h.hinges h.hinges_nodup hget ?_
      rintro i ⟨h1, h2, h3⟩
      subst h1 h2
      exact ⟨rfl, rfl, Or.inr ⟨p, c, _, _, _, _, _, _, Dict.mem_of_get? hpb, Dict.mem_of_get? hcb, rfl⟩⟩
  | createShape n r q m i =>
    change e.create_shape n r q m i = _ at hc
    unfold Engine.create_shape at hc
    split at hc
    · cases hc
    rename_i hm
    rw [Bool.not_eq_true] at hm
    injection hc with hc
    subst hc
    refine { h with shapes_nodup := Dict.nodup_setItem _ _ _ h.shapes_nodup, shapes := ?_, bodies := ?_ }
    rotate_left
    · exact Dict.All.insert h.shapes hm ⟨rfl, ho⟩
    · refine Dict.All.mono h.bodies ?_
      rintro i k b ⟨h1, h2, h3, h4, h5, h6, h7⟩
      exact ⟨h1, h2, h3, h4, h5, fun sh hs => Dict.get?_insert_of_some hm (h6 sh hs), h7⟩
  | connectShape n s =>
    change e.connect_shape n s = _ at hc
    unfold Engine.connect_shape at hc
    simp only [bind, Except.bind] at hc
    split at hc
    · cases hc
    split at hc
    · cases hc
    rename_i sh hget
    rw [findShape_ok] at hget
    apply ok_updateBody h hc
    intro b _ h2 h3 h4 h5 h6 h7
    refine ⟨h2, h3, h4, h5, ?_, h7⟩
    intro s' hs'
    simp only [Option.some.injEq] at hs'
    subst hs'
    obtain ⟨_, _, hp⟩ := Dict.All.get? h.shapes hget
    rw [hp.1]
    exact hget
  | createGravity n g up =>
    change e.create_gravity_force n g up = _ at hc
    unfold Engine.create_gravity_force at hc
    split at hc
    · cases hc
    rename_i hm
    rw [Bool.not_eq_true] at hm
    split at hc
    · cases hc
    rename_i hg
    injection hc with hc
    subst hc
    refine { h with forces_nodup := Dict.nodup_setItem _ _ _ h.forces_nodup, forces := ?_, bodies := ?_ }
    rotate_left
    · refine Dict.All.insert h.forces hm ?_
      refine ⟨rfl, ?_⟩
      unfold ForceOk
      rw [show (0.0 : ℝ) = 0 by norm_num] at hg
      exact not_le.1 hg
    · refine Dict.All.mono h.bodies ?_
      rintro i k b ⟨h1, h2, h3, h4, h5, h6, h7⟩
      exact ⟨h1, h2, h3, fun f hf => Dict.get?_insert_of_some hm (h4 f hf), h5, h6, h7⟩
  | createDamping n a b =>
    change e.create_damping_force n a b = _ at hc
    unfold Engine.create_damping_force at hc
    split at hc
    · cases hc
    rename_i hm
    rw [Bool.not_eq_true] at hm
    split at hc
    · cases hc
    rename_i ha
    split at hc
    · cases hc
    rename_i hb
    injection hc with hc
    subst hc
    refine { h with forces_nodup := Dict.nodup_setItem _ _ _ h.forces_nodup, forces := ?_, bodies := ?_ }
    rotate_left
    · refine Dict.All.insert h.forces hm ?_
      exact ⟨rfl, not_le.1 ha, not_le.1 hb⟩
    · refine Dict.All.mono h.bodies ?_
      rintro i k b ⟨h1, h2, h3, h4, h5, h6, h7⟩
      exact ⟨h1, h2, h3, fun f hf => Dict.get?_insert_of_some hm (h4 f hf), h5, h6, h7⟩
  | connectForce n s =>
    change e.connect_force n s = _ at hc
    unfold Engine.connect_force at hc
    simp only [bind, Except.bind] at hc
    split at hc
    · cases hc
    rename_i b0 hb0
    rw [findBody_ok] at hb0
    split at hc
    · cases hc
    rename_i sh hget
    rw [findForce_ok] at hget
    split at hc
    · cases hc
    rename_i hany
    apply ok_updateBody h hc
    intro b hb h2 h3 h4 h5 h6 h7
    rw [hb0] at hb
    injection hb with hb
    subst hb
    obtain ⟨_, _, hp⟩ := Dict.All.get? h.forces hget
    refine ⟨h2, h3, ?_, ?_, h6, h7⟩
    · intro f hf
      rcases List.mem_append.1 hf with hf | hf
      · exact h4 f hf
      · rw [List.mem_singleton] at hf
        subst hf
        rw [hp.1]
        exact hget
    · simp only [List.map_append, List.map_cons, List.map_nil]
      rw [List.nodup_append]
      refine ⟨h5, by simp, ?_⟩
      intro x hx y hy
      simp only [List.mem_singleton] at hy
      subst hy
      rintro rfl
      apply hany
      rw [List.any_eq_true]
      obtain ⟨f, hf, hfe⟩ := List.mem_map.1 hx
      exact ⟨f, hf, by simp [hfe]⟩
  | setPosition n r m =>
    change e.set_position n r m = _ at hc
    unfold Engine.set_position at hc
    simp only [bind, Except.bind] at hc
    split at hc
    · cases hc
    split at hc
    · split at hc
      · cases hc
      · apply ok_updateBody h hc
        intro b _ h2 h3 h4 h5 h6 h7
        exact ⟨h2, h3, h4, h5, h6, h7⟩
    · apply ok_updateBody h hc
      intro b _ h2 h3 h4 h5 h6 h7
      exact ⟨h2, h3, h4, h5, h6, h7⟩
  | setOrientation n q m =>
    change e.set_orientation n q m = _ at hc
    unfold Engine.set_orientation at hc
    simp only [bind, Except.bind] at hc
    split at hc
    · cases hc
    rename_i b0 hb0
    rw [findBody_ok] at hb0
    split at hc
    · split at hc
      · cases hc
      · rename_i sh hsh
        apply ok_updateBody h hc
        intro b hb h2 h3 h4 h5 h6 h7
        rw [hb0] at hb
        injection hb with hb
        subst hb
        have hs := h6 sh hsh
        obtain ⟨_, _, hp⟩ := Dict.All.get? h.shapes hs
        exact ⟨h2, (C01_unit_group (C01_unit_spec q).1 hp.2).1, h4, h5, h6, h7⟩
    · apply ok_updateBody h hc
      intro b _ h2 h3 h4 h5 h6 h7
      exact ⟨h2, (C01_unit_spec q).1, h4, h5, h6, h7⟩
  | setVelocity n v =>
    change e.set_velocity n v = _ at hc
    unfold Engine.set_velocity at hc
    apply ok_updateBody h hc
    intro b _ h2 h3 h4 h5 h6 h7
    exact ⟨h2, h3, h4, h5, h6, h7⟩
  | setSpin n v =>
    change e.set_spin n v = _ at hc
    unfold Engine.set_spin at hc
    apply ok_updateBody h hc
    intro b _ h2 h3 h4 h5 h6 h7
    exact ⟨h2, h3, h4, h5, h6, h7⟩
  | setMass n d =>
    change e.set_mass_properties n d = _ at hc
    unfold Engine.set_mass_properties at hc
    simp only [bind, Except.bind] at hc
    split at hc
    · cases hc
    split at hc
    · cases hc
    · apply ok_updateBody h hc
      intro b _ h2 h3 h4 h5 h6 h7
      exact ⟨h2, h3, h4, h5, h6, h7⟩
  | setType n t =>
    change e.set_body_type n t = _ at hc
    unfold Engine.set_body_type at hc
    simp only [bind, Except.bind] at hc
    split at hc
    · cases hc
    split at hc
    · apply ok_updateBody h hc
      intro b _ h2 h3 h4 h5 h6 h7
      exact ⟨h2, h3, h4, h5, h6, h7⟩
    · split at hc
      · apply ok_updateBody h hc
        intro b _ h2 h3 h4 h5 h6 h7
        exact ⟨h2, h3, h4, h5, h6, h7⟩
      · cases hc
  | setMaterial n m =>
    change e.set_body_material n m = _ at hc
    unfold Engine.set_body_material at hc
    simp only [bind, Except.bind] at hc
    split at hc
    · cases hc
    split at hc
    · cases hc
    rename_i hm
    apply ok_updateBody h hc
    intro b _ h2 h3 h4 h5 h6 h7
    refine ⟨h2, h3, h4, h5, h6, ?_⟩
    simpa using hm
  | createInteraction A B ep mu =>
    change e.create_surfaces_interaction A B ep mu = _ at hc
    unfold Engine.create_surfaces_interaction at hc
    rw [show (0.0 : ℝ) = 0 by norm_num, key_sorted] at hc
    split at hc
    · cases hc
    rename_i h1
    split at hc
    · cases hc
    rename_i h2
    split at hc
    · cases hc
    rename_i h3
    split at hc
    · cases hc
    rename_i h4
    split at hc
    · cases hc
    rename_i h5
    injection hc with hc
    subst hc
    have hm : e.surfaces_interactions.storage.mem (SurfacesInteractionLibrary.key A B) = false := by
      unfold SurfacesInteractionLibrary.exist_interaction at h1
      simpa using h1
    refine { h with interactions := ?_, default_exists := ?_, bodies := ?_ }
    rotate_left
    · exact Dict.All.insert h.interactions hm ⟨not_lt.1 h2, not_lt.1 h3, not_lt.1 h4, not_lt.1 h5⟩
    · have := h.default_exists
      rw [Dict.mem_iff_keys] at *
      rw [Dict.keys_setItem]
      split
      · exact this
      · exact List.mem_append_left _ this
    · refine Dict.All.mono h.bodies ?_
      rintro i k b ⟨h1, h2, h3, h4, h5, h6, h7⟩
      exact ⟨h1, h2, h3, h4, h5, h6, exist_material_mono h7⟩

theorem create_engine_ok : EngineOk create_engine where
  bodies_nodup := List.nodup_nil
  bodies := Dict.all_empty _
  hinges_nodup := List.nodup_nil
  hinges := Dict.all_empty _
  forces_nodup := List.nodup_nil
  forces := Dict.all_empty _
  shapes_nodup := List.nodup_nil
  shapes := Dict.all_empty _
  interactions := by
    refine Dict.All.insert (Dict.all_empty _) rfl ?_
    unfold SurfacesInteraction.init V3.ones
    norm_num
  default_exists := rfl

/-- C43: after any history of API calls, successful or not, the engine is consistent (`EngineOk`). -/
theorem C43_history (ops : List Op) (ho : ∀ op ∈ ops, OpOk op) : EngineOk (history ops) := by
  unfold Engine.history
  suffices ∀ e, EngineOk e → EngineOk (ops.foldl after e) from this _ create_engine_ok
  induction ops with
  | nil => intro e he; exact he
  | cons op ops ih =>
    intro e he
    rw [List.foldl_cons]
    apply ih (fun o h => ho o (List.mem_cons_of_mem _ h))
    unfold Engine.after
    cases hc : e.call op with
    | error _ => exact he
    | ok e' => exact ok_after he (ho op List.mem_cons_self) hc

/-- The documented reasons for an exception. -/
def Raises (e : Engine) : Op → Prop
  | .createBody n => n ∈ e.bodies.keys
  | .createHinge n => n ∈ e.hinges.keys
  | .setHinge h p c _ _ m => h ∉ e.hinges.keys ∨ p ∉ e.bodies.keys ∨ c ∉ e.bodies.keys ∨ m = .other ∨
      (m = .model ∧ ∃ b, e.bodies.get? p = some b ∧ b.body.shape = none)
  | .createShape n _ _ _ _ => n ∈ e.shapes.keys
  | .connectShape b s => b ∉ e.bodies.keys ∨ s ∉ e.shapes.keys
  | .createGravity n g _ => n ∈ e.forces.keys ∨ g ≤ 0
  | .createDamping n a b => n ∈ e.forces.keys ∨ a ≤ 0 ∨ b ≤ 0
  | .connectForce b f => b ∉ e.bodies.keys ∨ f ∉ e.forces.keys ∨
      ∃ o, e.bodies.get? b = some o ∧ f ∈ o.body.forces.map (·.name)
  | .setPosition b _ m => b ∉ e.bodies.keys ∨ (m = true ∧ ∃ o, e.bodies.get? b = some o ∧ o.body.shape = none)
  | .setOrientation b _ m => b ∉ e.bodies.keys ∨ (m = true ∧ ∃ o, e.bodies.get? b = some o ∧ o.body.shape = none)
  | .setVelocity b _ => b ∉ e.bodies.keys
  | .setSpin b _ => b ∉ e.bodies.keys
  | .setMass b _ => b ∉ e.bodies.keys ∨ ∃ o, e.bodies.get? b = some o ∧ o.body.shape = none
  | .setType b t => b ∉ e.bodies.keys ∨ t ∉ ["fixed", "Fixed", "FIXED", "free", "Free", "FREE"]
  | .setMaterial b m => b ∉ e.bodies.keys ∨ e.surfaces_interactions.exist_material m = false
  | .createInteraction A B ep mu => e.surfaces_interactions.exist_interaction A B = true ∨ ep < 0 ∨ mu.x < 0 ∨
      mu.y < 0 ∨ mu.z < 0

theorem key_cases {υ : Type} (d : Dict String υ) (n : String) :
    (n ∉ d.keys ∧ d.get? n = none) ∨ (n ∈ d.keys ∧ ∃ b, d.get? n = some b) := by
  cases h : d.get? n with
  | none =>
    left
    rw [Dict.get?_eq_none] at h
    refine ⟨?_, rfl⟩
    rw [← Dict.mem_iff_keys]
    simp [h]
  | some b =>
    right
    exact ⟨(Dict.mem_iff_keys _ _).1 (Dict.mem_of_get? h), b, rfl⟩

/-- C43: a call raises an exception in exactly the documented cases. -/
theorem C43_raises (e : Engine) (h : EngineOk e) (op : Op) : (∃ err, e.call op = .error err) ↔ Raises e op := by
  have hno : ∀ {e' : Engine}, ¬ ∃ err, (Except.ok e' : Except PyErr Engine) = .error err := by
    rintro _ ⟨_, h⟩; cases h
  have hyes : ∀ {x : PyErr}, ∃ err, (Except.error x : Except PyErr Engine) = .error err := ⟨_, rfl⟩
  have hmem : ∀ {υ : Type} (d : Dict String υ) (n : String), (d.mem n = true) = (n ∈ d.keys) := by
    intro υ d n
    rw [Dict.mem_iff_keys]
  cases op with
  | createBody n =>
    change (∃ err, e.create_rigid_body n = .error err) ↔ n ∈ e.bodies.keys
    unfold Engine.create_rigid_body
    simp only [hmem]
    split <;> simp_all
  | createHinge n =>
    change (∃ err, e.create_hinge n = .error err) ↔ n ∈ e.hinges.keys
    unfold Engine.create_hinge
    simp only [hmem]
    split <;> simp_all
  | setHinge hn p c o a m =>
    change (∃ err, e.set_hinge hn p c o a m = .error err) ↔ hn ∉ e.hinges.keys ∨ p ∉ e.bodies.keys ∨ c ∉ e.bodies.keys ∨
      m = .other ∨ (m = .model ∧ ∃ b, e.bodies.get? p = some b ∧ b.body.shape = none)
    unfold Engine.set_hinge
    simp only [bind, Except.bind]
    rcases key_cases e.hinges hn with ⟨k1, g1⟩ | ⟨k1, b1, g1⟩
    · rw [findHinge_none g1]
      exact ⟨fun _ => Or.inl k1, fun _ => hyes⟩
    rw [findHinge_ok.2 g1]
    simp only [k1, not_true_eq_false, false_or]
    rcases key_cases e.bodies p with ⟨k2, g2⟩ | ⟨k2, b2, g2⟩
    · rw [findBody_none g2]
      exact ⟨fun _ => Or.inl k2, fun _ => hyes⟩
    rw [findBody_ok.2 g2]
    simp only [k2, not_true_eq_false, false_or]
    rcases key_cases e.bodies c with ⟨k3, g3⟩ | ⟨k3, b3, g3⟩
    · rw [findBody_none g3]
      exact ⟨fun _ => Or.inl k3, fun _ => hyes⟩
    rw [findBody_ok.2 g3]
    simp only [k3, not_true_eq_false, false_or]
    unfold Engine.hingeFrame
    cases m with
    | world => simp [pure, Except.pure]
    | body => simp [pure, Except.pure]
    | other => simp
    | model =>
      cases hs : b2.body.shape with
      | none => simp [g2, hs]
      | some sh => simp [g2, hs, pure, Except.pure]
  | createShape n r q m i =>
    change (∃ err, e.create_shape n r q m i = .error err) ↔ n ∈ e.shapes.keys
    unfold Engine.create_shape
    simp only [hmem]
    split <;> simp_all
  | connectShape n s =>
    change (∃ err, e.connect_shape n s = .error err) ↔ n ∉ e.bodies.keys ∨ s ∉ e.shapes.keys
    unfold Engine.connect_shape
    simp only [bind, Except.bind]
    rcases key_cases e.bodies n with ⟨k2, g2⟩ | ⟨k2, b2, g2⟩
    · rw [findBody_none g2]
      exact ⟨fun _ => Or.inl k2, fun _ => hyes⟩
    rw [findBody_ok.2 g2]
    simp only [k2, not_true_eq_false, false_or]
    rcases key_cases e.shapes s with ⟨k1, g1⟩ | ⟨k1, b1, g1⟩
    · rw [findShape_none g1]
      exact ⟨fun _ => k1, fun _ => hyes⟩
    rw [findShape_ok.2 g1]
    simp only [k1, not_true_eq_false, iff_false]
    rw [updateBody_some _ g2]
    exact hno
  | createGravity n g up =>
    change (∃ err, e.create_gravity_force n g up = .error err) ↔ n ∈ e.forces.keys ∨ g ≤ 0
    unfold Engine.create_gravity_force
    rw [show (0.0 : ℝ) = 0 by norm_num]
    simp only [hmem]
    split
    · simp_all
    · split <;> simp_all
  | createDamping n a b =>
    change (∃ err, e.create_damping_force n a b = .error err) ↔ n ∈ e.forces.keys ∨ a ≤ 0 ∨ b ≤ 0
    unfold Engine.create_damping_force
    simp only [hmem]
    split
    · simp_all
    · split
      · simp_all
      · split <;> simp_all
  | connectForce n s =>
    change (∃ err, e.connect_force n s = .error err) ↔ n ∉ e.bodies.keys ∨ s ∉ e.forces.keys ∨
      ∃ o, e.bodies.get? n = some o ∧ s ∈ o.body.forces.map (·.name)
    unfold Engine.connect_force
    simp only [bind, Except.bind]
    rcases key_cases e.bodies n with ⟨k2, g2⟩ | ⟨k2, b2, g2⟩
    · rw [findBody_none g2]
      exact ⟨fun _ => Or.inl k2, fun _ => hyes⟩
    rw [findBody_ok.2 g2]
    simp only [k2, not_true_eq_false, false_or]
    rcases key_cases e.forces s with ⟨k1, g1⟩ | ⟨k1, b1, g1⟩
    · rw [findForce_none g1]
      exact ⟨fun _ => Or.inl k1, fun _ => hyes⟩
    rw [findForce_ok.2 g1]
    simp only [k1, not_true_eq_false, false_or]
    obtain ⟨_, _, hp⟩ := Dict.All.get? h.forces g1
    rw [hp.1]
    have hiff : (b2.body.forces.any fun f => f.name == s) = true ↔ s ∈ b2.body.forces.map (·.name) := by
      simp [List.any_eq_true]
    by_cases hc : s ∈ b2.body.forces.map (·.name)
    · rw [if_pos (hiff.2 hc)]
      exact ⟨fun _ => ⟨b2, g2, hc⟩, fun _ => hyes⟩
    · rw [if_neg (fun x => hc (hiff.1 x)), updateBody_some _ g2]
      constructor
      · intro hh; exact absurd hh hno
      · rintro ⟨o, ho, hs⟩
        rw [g2] at ho
        injection ho with ho
        subst ho
        exact absurd hs hc
  | setPosition n r m =>
    change (∃ err, e.set_position n r m = .error err) ↔ n ∉ e.bodies.keys ∨
      (m = true ∧ ∃ o, e.bodies.get? n = some o ∧ o.body.shape = none)
    unfold Engine.set_position
    simp only [bind, Except.bind]
    rcases key_cases e.bodies n with ⟨k2, g2⟩ | ⟨k2, b2, g2⟩
    · rw [findBody_none g2]
      exact ⟨fun _ => Or.inl k2, fun _ => hyes⟩
    rw [findBody_ok.2 g2]
    simp only [k2, not_true_eq_false, false_or]
    cases m with
    | false =>
      simp only [Bool.false_eq_true, if_false, false_and, iff_false]
      rw [updateBody_some _ g2]
      exact hno
    | true =>
      simp only [if_true, true_and]
      cases hs : b2.body.shape with
      | none => exact ⟨fun _ => ⟨b2, g2, hs⟩, fun _ => hyes⟩
      | some sh =>
        simp only []
        rw [updateBody_some _ g2]
        simp [g2, hs]
  | setOrientation n q m =>
    change (∃ err, e.set_orientation n q m = .error err) ↔ n ∉ e.bodies.keys ∨
      (m = true ∧ ∃ o, e.bodies.get? n = some o ∧ o.body.shape = none)
    unfold Engine.set_orientation
    simp only [bind, Except.bind]
    rcases key_cases e.bodies n with ⟨k2, g2⟩ | ⟨k2, b2, g2⟩
    · rw [findBody_none g2]
      exact ⟨fun _ => Or.inl k2, fun _ => hyes⟩
    rw [findBody_ok.2 g2]
    simp only [k2, not_true_eq_false, false_or]
    cases m with
    | false =>
      simp only [Bool.false_eq_true, if_false, false_and, iff_false]
      rw [updateBody_some _ g2]
      exact hno
    | true =>
      simp only [if_true, true_and]
      cases hs : b2.body.shape with
      | none => exact ⟨fun _ => ⟨b2, g2, hs⟩, fun _ => hyes⟩
      | some sh =>
        simp only []
        rw [updateBody_some _ g2]
        simp [g2, hs]
  | setVelocity n v =>
    change (∃ err, e.set_velocity n v = .error err) ↔ n ∉ e.bodies.keys
    unfold Engine.set_velocity
    rcases key_cases e.bodies n with ⟨k2, g2⟩ | ⟨k2, b2, g2⟩
    · rw [updateBody_none _ g2]
      exact ⟨fun _ => k2, fun _ => hyes⟩
    · rw [updateBody_some _ g2]
      exact ⟨fun x => absurd x hno, fun x => absurd k2 x⟩
  | setSpin n v =>
    change (∃ err, e.set_spin n v = .error err) ↔ n ∉ e.bodies.keys
    unfold Engine.set_spin
    rcases key_cases e.bodies n with ⟨k2, g2⟩ | ⟨k2, b2, g2⟩
    · rw [updateBody_none _ g2]
      exact ⟨fun _ => k2, fun _ => hyes⟩
    · rw [updateBody_some _ g2]
      exact ⟨fun x => absurd x hno, fun x => absurd k2 x⟩
  | setMass n d =>
    change (∃ err, e.set_mass_properties n d = .error err) ↔ n ∉ e.bodies.keys ∨
      ∃ o, e.bodies.get? n = some o ∧ o.body.shape = none
    unfold Engine.set_mass_properties
    simp only [bind, Except.bind]
    rcases key_cases e.bodies n with ⟨k2, g2⟩ | ⟨k2, b2, g2⟩
    · rw [findBody_none g2]
      exact ⟨fun _ => Or.inl k2, fun _ => hyes⟩
    rw [findBody_ok.2 g2]
    simp only [k2, not_true_eq_false, false_or]
    cases hs : b2.body.shape with
    | none => exact ⟨fun _ => ⟨b2, g2, hs⟩, fun _ => hyes⟩
    | some sh =>
      simp only []
      rw [updateBody_some _ g2]
      simp [g2, hs]
  | setType n t =>
    change (∃ err, e.set_body_type n t = .error err) ↔ n ∉ e.bodies.keys ∨
      t ∉ ["fixed", "Fixed", "FIXED", "free", "Free", "FREE"]
    unfold Engine.set_body_type
    simp only [bind, Except.bind]
    rcases key_cases e.bodies n with ⟨k2, g2⟩ | ⟨k2, b2, g2⟩
    · rw [findBody_none g2]
      exact ⟨fun _ => Or.inl k2, fun _ => hyes⟩
    rw [findBody_ok.2 g2]
    simp only [k2, not_true_eq_false, false_or]
    by_cases h1 : t ∈ ["fixed", "Fixed", "FIXED"]
    · rw [if_pos h1, updateBody_some _ g2]
      refine ⟨fun x => absurd x hno, fun x => absurd ?_ x⟩
      simp only [List.mem_cons] at h1 ⊢
      tauto
    · rw [if_neg h1]
      by_cases h2 : t ∈ ["free", "Free", "FREE"]
      · rw [if_pos h2, updateBody_some _ g2]
        refine ⟨fun x => absurd x hno, fun x => absurd ?_ x⟩
        simp only [List.mem_cons] at h2 ⊢
        tauto
      · rw [if_neg h2]
        refine ⟨fun _ => ?_, fun _ => hyes⟩
        simp only [List.mem_cons] at h1 h2 ⊢
        tauto
  | setMaterial n m =>
    change (∃ err, e.set_body_material n m = .error err) ↔ n ∉ e.bodies.keys ∨
      e.surfaces_interactions.exist_material m = false
    unfold Engine.set_body_material
    simp only [bind, Except.bind]
    rcases key_cases e.bodies n with ⟨k2, g2⟩ | ⟨k2, b2, g2⟩
    · rw [findBody_none g2]
      exact ⟨fun _ => Or.inl k2, fun _ => hyes⟩
    rw [findBody_ok.2 g2]
    simp only [k2, not_true_eq_false, false_or]
    cases hm : e.surfaces_interactions.exist_material m with
    | false => simp
    | true =>
      simp only [Bool.not_true, Bool.false_eq_true, if_false]
      rw [updateBody_some _ g2]
      simp
  | createInteraction A B ep mu =>
    change (∃ err, e.create_surfaces_interaction A B ep mu = .error err) ↔ _ ∨ _ ∨ _ ∨ _ ∨ _
    have hc := C42_interactions e A B ep mu
    constructor
    · rintro ⟨err, he⟩
      by_contra hn
      push Not at hn
      obtain ⟨e', he', -⟩ := hc.2.2 ⟨by simpa using hn.1, hn.2.1, hn.2.2.1, hn.2.2.2.1, hn.2.2.2.2⟩
      rw [he'] at he
      cases he
    · intro hr
      exact ⟨_, hc.2.1 hr⟩

/-- C42/C43: in every engine built through the API each pair of materials has an interaction, with nonnegative
coefficients; so the friction coefficients of `C40_equilibrium` are nonnegative. -/
theorem C42_nonneg (e : Engine) (h : EngineOk e) (A B : String) :
    ∃ I, e.surfaces_interactions.get_interaction A B = .ok I ∧ 0 ≤ I.epsilon ∧ 0 ≤ I.mu.x ∧ 0 ≤ I.mu.y ∧ 0 ≤ I.mu.z := by
  have key : ∀ k, e.surfaces_interactions.storage.mem k = true → ∃ I, e.surfaces_interactions.storage.getItem k = .ok I ∧
      0 ≤ I.epsilon ∧ 0 ≤ I.mu.x ∧ 0 ≤ I.mu.y ∧ 0 ≤ I.mu.z := by
    intro k hk
    obtain ⟨I, hI⟩ := Dict.mem_iff_get?.1 hk
    obtain ⟨_, _, hp⟩ := Dict.All.get? h.interactions hI
    refine ⟨I, ?_, hp⟩
    unfold Dict.getItem
    rw [hI]
  unfold SurfacesInteractionLibrary.get_interaction
  split
  · rename_i hm
    exact key _ hm
  · exact key _ h.default_exists

theorem mapM_option_exists {α β : Type} {f : α → Option β} (L : List α) (h : ∀ x ∈ L, ∃ y, f x = some y) :
    ∃ R, L.mapM f = some R ∧ R.length = L.length ∧ ∀ k (h1 : k < L.length) (h2 : k < R.length), f L[k] = some R[k] := by
  induction L with
  | nil => exact ⟨[], rfl, rfl, fun k h1 => absurd h1 (by simp)⟩
  | cons a L ih =>
    obtain ⟨b, hb⟩ := h a List.mem_cons_self
    obtain ⟨R, hR, hl, hk⟩ := ih fun x hx => h x (List.mem_cons_of_mem _ hx)
    refine ⟨b :: R, ?_, by simp [hl], ?_⟩
    · rw [List.mapM_cons, hb, hR]
      rfl
    · intro k h1 h2
      cases k with
      | zero => exact hb
      | succ k => exact hk k _ _

/-- C43: the stepper sees what was configured.  In a consistent engine in which both sockets of every hinge have been set,
the bodies are numbered in creation order with pairwise different names, and the k-th hinge of the simulated world
connects the bodies with the configured names through the configured arms and axes. -/
theorem C43_world (e : Engine) (h : EngineOk e)
    (hs : ∀ k (hk : k < e.hinges.entries.length), (e.hinges.entries[k]).2.parent ≠ none) :
    ∃ w, e.toWorld = some w ∧
      (∀ i : Fin e.bodies.len, w.bodies i = (e.bodies.entries.get i).2.body ∧ (w.bodies i).name = (e.bodies.entries.get i).1 ∧
        e.bodies.get? (w.bodies i).name = some (e.bodies.entries.get i).2) ∧
      (∀ i j, (w.bodies i).name = (w.bodies j).name → i = j) ∧
      w.forces = e.forces.values ∧ w.surfaces_interactions = e.surfaces_interactions ∧ w.params = e.params ∧
      w.hinges.length = e.hinges.entries.length ∧
      ∀ k (hk : k < e.hinges.entries.length) (hk' : k < w.hinges.length),
        let ho := (e.hinges.entries[k]).2
        let hg := w.hinges[k]
        ho.parent = some (w.bodies hg.parent).name ∧ ho.child = some (w.bodies hg.child).name ∧
        ho.arm_p = some hg.arm_p ∧ ho.arm_c = some hg.arm_c ∧ ho.axis_p = some hg.axis_p ∧ ho.axis_c = some hg.axis_c := by
  have hidx : ∀ n b, e.bodies.get? n = some b → ∃ hb : b.idx < e.bodies.len, e.bodies.entries[b.idx]'hb = (n, b) ∧
      b.body.name = n := by
    intro n b hb
    obtain ⟨i, hi, he⟩ := Dict.get?_some hb
    have := h.bodies i hi
    rw [he] at this
    obtain ⟨h1, h2, -⟩ := this
    simp only at h1
    subst h1
    exact ⟨hi, he, h2⟩
  have hval : ∀ x ∈ e.hinges.values, ∃ y, e.toHinge x = some y ∧ ∃ p c : BodyObj, ∃ pn cn : String,
      x.parent = some pn ∧ x.child = some cn ∧ e.bodies.get? pn = some p ∧ e.bodies.get? cn = some c ∧
      y.parent.val = p.idx ∧ y.child.val = c.idx ∧ x.arm_p = some y.arm_p ∧ x.arm_c = some y.arm_c ∧
      x.axis_p = some y.axis_p ∧ x.axis_c = some y.axis_c := by
    intro x hx
    unfold Dict.values at hx
    obtain ⟨ent, hent, rfl⟩ := List.mem_map.1 hx
    obtain ⟨k, hk, hke⟩ := List.getElem_of_mem hent
    have hh := h.hinges k hk
    have hp := hs k hk
    rw [hke] at hh hp
    obtain ⟨h1, h2, h3⟩ := hh
    rcases h3 with h3 | ⟨p, c, ap, ac, np, nc, sp, sc, hp, hc, he⟩
    · rw [h3] at hp
      exact absurd rfl hp
    · obtain ⟨pb, hpb⟩ := Dict.mem_iff_get?.1 hp
      obtain ⟨cb, hcb⟩ := Dict.mem_iff_get?.1 hc
      obtain ⟨i1, -, -⟩ := hidx _ _ hpb
      obtain ⟨i2, -, -⟩ := hidx _ _ hcb
      refine ⟨⟨⟨pb.idx, i1⟩, ⟨cb.idx, i2⟩, ap, ac, np, nc⟩, ?_, pb, cb, p, c, ?_⟩
      · rw [he]
        unfold Engine.toHinge
        simp [hpb, hcb, i1, i2]
      · rw [he]
        exact ⟨rfl, rfl, hpb, hcb, rfl, rfl, rfl, rfl, rfl, rfl⟩
  obtain ⟨R, hR, hl, hk⟩ := mapM_option_exists e.hinges.values fun x hx => (hval x hx).imp fun y hy => hy.1
  have hb : ∀ i : Fin e.bodies.len, (e.bodyAt i).body.name = (e.bodies.entries.get i).1 := by
    intro i
    exact (h.bodies i.1 i.2).2.1
  refine ⟨_, by unfold Engine.toWorld; rw [hR]; rfl, ?_, ?_, rfl, rfl, rfl, ?_, ?_⟩
  · intro i
    refine ⟨rfl, hb i, ?_⟩
    change e.bodies.get? (e.bodyAt i).body.name = _
    rw [hb i]
    exact Dict.get?_entry h.bodies_nodup i.2
  · intro i j hij
    change (e.bodyAt i).body.name = (e.bodyAt j).body.name at hij
    rw [hb, hb] at hij
    have hn := h.bodies_nodup
    unfold Dict.keys at hn
    have := (List.nodup_iff_injective_getElem).1 hn
    have h2 := @this ⟨i.1, by rw [List.length_map]; exact i.2⟩ ⟨j.1, by rw [List.length_map]; exact j.2⟩ (by simp only [List.getElem_map]; exact hij)
    apply Fin.ext
    simpa using h2
  · simpa [Dict.values] using hl
  · intro k hk1 hk2
    have hv : k < e.hinges.values.length := by simpa [Dict.values] using hk1
    have he : e.hinges.values[k] = (e.hinges.entries[k]).2 := by simp [Dict.values]
    obtain ⟨y, hy, p, c, pn, cn, e1, e2, e3, e4, e5, e6, e7, e8, e9, e10⟩ := hval e.hinges.values[k] (List.getElem_mem hv)
    have hRy := hk k hv hk2
    rw [hy] at hRy
    injection hRy with hRy
    subst hRy
    rw [he] at e1 e2 e7 e8 e9 e10
    refine ⟨?_, ?_, e7, e8, e9, e10⟩
    · rw [e1]
      obtain ⟨hb1, hb2, hb3⟩ := hidx _ _ e3
      change some pn = some (e.bodyAt R[k].parent).body.name
      rw [hb R[k].parent]
      congr 1
      have : R[k].parent = ⟨p.idx, hb1⟩ := Fin.ext e5
      rw [this]
      change pn = (e.bodies.entries[p.idx]'hb1).1
      rw [hb2]
    · rw [e2]
      obtain ⟨hb1, hb2, hb3⟩ := hidx _ _ e4
      change some cn = some (e.bodyAt R[k].child).body.name
      rw [hb R[k].child]
      congr 1
      have : R[k].child = ⟨c.idx, hb1⟩ := Fin.ext e6
      rw [this]
      change cn = (e.bodies.entries[c.idx]'hb1).1
      rw [hb2]

/-- Where `set_hinge` is asked to put the joint: world origin O and world axis S, for each mode. -/
def JointAt (parent : RigidBody) (origin axis O S : V3) : Mode → Prop
  | .world => O = origin ∧ S = axis
  | .body => O = bodyToWorld parent origin ∧ S = Quat.rotate parent.q axis
  | .model => ∃ sh x y, parent.shape = some sh ∧ bodyToModel sh x = origin ∧ Quat.rotate sh.q y = axis ∧
      O = bodyToWorld parent x ∧ S = Quat.rotate parent.q y
  | .other => False

theorem frame_quaternion {s : V3} (hs : s ≠ 0) :
    IsUnitQ (Quat.from_matrix (M3.make_from_cols (frameS s) (frameT s) (frameN s))) ∧
    Quat.rotate (Quat.from_matrix (M3.make_from_cols (frameS s) (frameT s) (frameN s))) V3.k = V3.unit s := by
  have hF := frame_isFrame hs
  have hrot : IsRotation (M3.make_from_cols (frameS s) (frameT s) (frameN s)) := by
    generalize frameS s = t at hF
    generalize frameT s = b at hF
    generalize frameN s = n at hF
    obtain ⟨h1, h2, h3, h4, h5, h6, h7⟩ := hF
    subst h7
    rw [isRotation_iff]
    simp only [V3.dot, V3.cross] at *
    constructor
    · ext <;> simp only [M3.mul, M3.transpose, M3.make_from_cols, M3.identity, V3.cross] <;> linarith
    · simp only [M3.det, M3.make_from_cols, V3.cross]
      linarith
  obtain ⟨h1, h2⟩ := C04_from_matrix_correct _ hrot
  refine ⟨h1, ?_⟩
  rw [rotate_eq_mulVec h1, h2, ← frameN_eq]
  ext <;> simp [M3.mulVec, M3.make_from_cols, V3.k]

/-- C41: a successful `set_hinge` places the joint where it was asked to: with unit orientations and a nonzero axis, the
anchor points of both bodies are the requested world point O and the hinge axes of both bodies are the normalised
requested direction S; so all five error components of the hinge are zero right after the call. -/
theorem C41_set_hinge {e e' : Engine} {hn p c : String} {o a : V3} {m : Mode} (h : e.set_hinge hn p c o a m = .ok e')
    {pb cb : BodyObj} (hp : e.bodies.get? p = some pb) (hc : e.bodies.get? c = some cb)
    (hpq : IsUnitQ pb.body.q) (hcq : IsUnitQ cb.body.q) (hsq : m = .model → ∀ sh, pb.body.shape = some sh → IsUnitQ sh.q) (ha : a ≠ 0) :
    ∃ O S ho ap ac np nc, JointAt pb.body o a O S m ∧ S ≠ 0 ∧
      e' = { e with hinges := e.hinges.setItem hn ho } ∧
      ho.parent = some p ∧ ho.child = some c ∧ ho.arm_p = some ap ∧ ho.arm_c = some ac ∧ ho.axis_p = some np ∧
      ho.axis_c = some nc ∧
      bodyToWorld pb.body ap = O ∧ bodyToWorld cb.body ac = O ∧
      Quat.rotate pb.body.q np = V3.unit S ∧ Quat.rotate cb.body.q nc = V3.unit S := by
  unfold Engine.set_hinge at h
  simp only [bind, Except.bind] at h
  split at h
  · cases h
  rename_i hg hget
  rw [findBody_ok.2 hp, findBody_ok.2 hc] at h
  simp only [] at h
  split at h
  · cases h
  rename_i os hos
  simp only [pure, Except.pure, Except.ok.injEq] at h
  have hrn : ∀ {q : Quat} {v : V3}, IsUnitQ q → v ≠ 0 → Quat.rotate q v ≠ 0 := by
    intro q v hq hv hz
    apply hv
    have := (C02_rotate_conjugate hq v).1
    rw [hz] at this
    rw [← this]
    have h0 := (C02_rotate_linear (Quat.conjugate q) 0 0 0).2
    simpa using h0
  have hJ : JointAt pb.body o a os.1 os.2 m ∧ os.2 ≠ 0 := by
    unfold Engine.hingeFrame at hos
    cases m with
    | world => injection hos with hos; subst hos; exact ⟨⟨rfl, rfl⟩, ha⟩
    | body => injection hos with hos; subst hos; exact ⟨⟨rfl, rfl⟩, hrn hpq ha⟩
    | other => cases hos
    | model =>
      simp only [] at hos
      split at hos
      · cases hos
      rename_i sh hsh
      injection hos with hos
      subst hos
      have hq := hsq rfl sh hsh
      refine ⟨⟨sh, Quat.rotate (Quat.conjugate sh.q) (o - sh.r), Quat.rotate (Quat.conjugate sh.q) a, hsh, ?_, ?_, rfl, rfl⟩, ?_⟩
      · unfold bodyToModel
        rw [(C02_rotate_conjugate hq _).2]
        abel
      · exact (C02_rotate_conjugate hq _).2
      · exact hrn hpq (hrn (C01_unit_group hq hq).2.1 ha)
  obtain ⟨hJ, hS⟩ := hJ
  have hF := frame_quaternion hS
  refine ⟨os.1, os.2, _, _, _, _, _, hJ, hS, h.symm, rfl, rfl, rfl, rfl, rfl, rfl, ?_, ?_, ?_, ?_⟩
  · unfold bodyToWorld CoordSys.make
    simp only []
    rw [(C02_rotate_conjugate hpq _).2]
    abel
  · unfold bodyToWorld CoordSys.make
    simp only []
    rw [(C02_rotate_conjugate hcq _).2]
    abel
  · unfold CoordSys.make
    simp only []
    rw [C02_rotate_prod, (C02_rotate_conjugate hpq _).2]
    exact hF.2
  · unfold CoordSys.make
    simp only []
    rw [C02_rotate_prod, (C02_rotate_conjugate hcq _).2]
    exact hF.2

end Verif
