import Verif.Props.RigidStep
import Verif.Props.RigidHistory
import Verif.Props.RigidSim
import Verif.Props.SceneBase

/-! C99: forces, masses and body types set through the API act as told on the body they are set on. -/

namespace Verif

open Rigid Rigid.Engine

/-- The engines e and e' differ at most in the body called n, which is b' in e'. -/
def OnlyBody (e e' : Engine) (n : String) (b' : BodyObj) : Prop :=
  e'.bodies.get? n = some b' ∧ (∀ m, m ≠ n → e'.bodies.get? m = e.bodies.get? m) ∧ e'.bodies.keys = e.bodies.keys ∧
    e'.forces = e.forces ∧ e'.shapes = e.shapes ∧ e'.hinges = e.hinges ∧ e'.surfaces_interactions = e.surfaces_interactions

theorem onlyBody_set {e : Engine} {n : String} {b b' : BodyObj} (h : e.bodies.get? n = some b) :
    OnlyBody e { e with bodies := e.bodies.setItem n b' } n b' := by
  refine ⟨Dict.get?_setItem_self _ _ _, fun m hm => Dict.get?_setItem_ne _ _ hm, Dict.keys_replace h, rfl, rfl, rfl, rfl⟩

theorem connect_force_ok {e e' : Engine} {n f : String} (h : e.connect_force n f = .ok e') : ∃ b F, e.bodies.get? n = some b ∧
    e.forces.get? f = some F ∧ OnlyBody e e' n ⟨b.idx, { b.body with forces := b.body.forces ++ [F] }⟩ := by
  unfold Engine.connect_force at h
  cases hb : e.bodies.get? n with
  | none => rw [findBody_none hb] at h; cases h
  | some b =>
    rw [findBody_ok.2 hb] at h
    simp only [bind, Except.bind] at h
    cases hf : e.forces.get? f with
    | none => rw [findForce_none hf] at h; cases h
    | some F =>
      rw [findForce_ok.2 hf] at h
      simp only at h
      split at h
      · cases h
      rw [updateBody_some _ hb] at h
      simp only [Except.ok.injEq] at h
      rw [← h]
      exact ⟨b, F, rfl, rfl, onlyBody_set hb⟩

/-- **C99** (gravity). A gravity force made with the acceleration g and an up direction of any length, and connected to a body: the body
is pulled, in addition to its other forces, with a force of size mass · g against the up direction, whatever its mass and velocities are by
then; no torque is added; no other body is concerned. -/
theorem C99_gravity {e e1 e2 e3 : Engine} {f n : String} {g : ℝ} {up : V3} (hup : up ≠ 0) (h1 : e.create_gravity_force f g up = .ok e1)
    (h2 : e2.forces.get? f = e1.forces.get? f) (h3 : e2.connect_force n f = .ok e3) : ∃ b b' a, e2.bodies.get? n = some b ∧
      OnlyBody e2 e3 n b' ∧ V3.norm a = g ∧ V3.dot a up = -(g * V3.norm up) ∧
      ∀ (mass : ℝ) (v w : V3), appliedForce { b'.body with mass := mass, v := v, w := w } =
          appliedForce { b.body with mass := mass, v := v, w := w } + mass • a ∧
        appliedTorque { b'.body with mass := mass, v := v, w := w } = appliedTorque { b.body with mass := mass, v := v, w := w } := by
  unfold Engine.create_gravity_force at h1
  split at h1
  · cases h1
  split at h1
  · cases h1
  rename_i hg
  simp only [Except.ok.injEq] at h1
  rw [← h1, Dict.get?_setItem_self] at h2
  obtain ⟨b, F, hb, hF, ho⟩ := connect_force_ok h3
  rw [h2] at hF
  simp only [Option.some.injEq] at hF
  have hg0 : 0 < g := by norm_num at hg; exact hg
  have hn : 0 < V3.norm up := V3.norm_pos hup
  refine ⟨b, _, (-g) • V3.unit up, hb, ho, ?_, ?_, ?_⟩
  · have : V3.dot ((-g) • V3.unit up) ((-g) • V3.unit up) = g ^ 2 := by
      have h := V3.unit_dot hup
      simp only [V3.dot, V3.smul_x, V3.smul_y, V3.smul_z] at h ⊢
      linear_combination g ^ 2 * h
    unfold V3.norm
    rw [this, Real.sqrt_sq hg0.le]
  · have h : V3.dot up up = V3.norm up ^ 2 := (V3.norm_sq up).symm
    unfold V3.unit V3.divs
    generalize V3.norm up = L at *
    simp only [V3.dot, V3.smul_x, V3.smul_y, V3.smul_z] at h ⊢
    field_simp
    linear_combination (-1) * h
  · intro m v w
    subst hF
    unfold appliedForce appliedTorque
    simp only [List.map_append, List.map_cons, List.map_nil, List.sum_append, List.sum_cons, List.sum_nil]
    constructor
    · ext <;> simp <;> ring
    · ext <;> simp [worldInertia]

/-- **C99** (damping). A damping force connected to a body brakes its velocity with alpha and its spin with beta. -/
theorem C99_damping {e e1 e2 e3 : Engine} {f n : String} {alpha beta : ℝ} (h1 : e.create_damping_force f alpha beta = .ok e1)
    (h2 : e2.forces.get? f = e1.forces.get? f) (h3 : e2.connect_force n f = .ok e3) : 0 < alpha ∧ 0 < beta ∧ ∃ b b', e2.bodies.get? n = some b ∧
      OnlyBody e2 e3 n b' ∧
      ∀ (mass : ℝ) (v w : V3), appliedForce { b'.body with mass := mass, v := v, w := w } =
          appliedForce { b.body with mass := mass, v := v, w := w } - alpha • v ∧
        appliedTorque { b'.body with mass := mass, v := v, w := w } = appliedTorque { b.body with mass := mass, v := v, w := w } - beta • w := by
  unfold Engine.create_damping_force at h1
  split at h1
  · cases h1
  split at h1
  · cases h1
  split at h1
  · cases h1
  rename_i ha hb
  simp only [Except.ok.injEq] at h1
  rw [← h1, Dict.get?_setItem_self] at h2
  obtain ⟨b, F, hb', hF, ho⟩ := connect_force_ok h3
  rw [h2] at hF
  simp only [Option.some.injEq] at hF
  refine ⟨lt_of_not_ge ha, lt_of_not_ge hb, b, _, hb', ho, ?_⟩
  intro m v w
  subst hF
  unfold appliedForce appliedTorque
  simp only [List.map_append, List.map_cons, List.map_nil, List.sum_append, List.sum_cons, List.sum_nil]
  constructor
  · ext <;> simp <;> ring
  · ext <;> simp [worldInertia] <;> ring

/-- **C99** (mass). `set_mass_properties` gives exactly that body the mass and the principal moments of inertia of its shape, times the
density, and nothing else. -/
theorem C99_mass {e e1 : Engine} {n : String} {d : ℝ} (h : e.set_mass_properties n d = .ok e1) : ∃ b b' sh, e.bodies.get? n = some b ∧
    b.body.shape = some sh ∧ OnlyBody e e1 n b' ∧ b'.body.mass = d * sh.mass ∧ b'.body.inertia.x = d * sh.inertia.x ∧
    b'.body.inertia.y = d * sh.inertia.y ∧ b'.body.inertia.z = d * sh.inertia.z ∧
    b' = ⟨b.idx, { b.body with mass := b'.body.mass, inertia := b'.body.inertia }⟩ := by
  obtain ⟨b, sh, hb, hsh, rfl⟩ := set_mass_ok h
  exact ⟨b, _, sh, hb, hsh, onlyBody_set hb, mul_comm _ _, rfl, rfl, rfl, rfl⟩

/-- **C99** (body type). After `set_body_type` succeeded `is_fixed_body` answers whether the type was "fixed" and nothing else about the
body has changed; a fixed body keeps its position and velocity in all steps (C47). -/
theorem C99_type {e e1 : Engine} {n t : String} (h : e.set_body_type n t = .ok e1) : ∃ b b', e.bodies.get? n = some b ∧ OnlyBody e e1 n b' ∧
    b' = ⟨b.idx, { b.body with is_fixed := b'.body.is_fixed }⟩ ∧ e1.is_fixed_body n = .ok b'.body.is_fixed ∧
    (b'.body.is_fixed = true ↔ t ∈ ["fixed", "Fixed", "FIXED"]) ∧ (b'.body.is_fixed = false ↔ t ∈ ["free", "Free", "FREE"]) := by
  obtain ⟨b, hb, ⟨ht, rfl⟩ | ⟨ht, rfl⟩⟩ := set_type_ok h
  · refine ⟨b, _, hb, onlyBody_set hb, rfl, ?_, ?_, ?_⟩
    · unfold Engine.is_fixed_body
      rw [findBody_ok.2 (onlyBody_set hb).1]
      rfl
    · simp [List.mem_cons] at ht ⊢
      exact ht
    · simp [List.mem_cons] at ht ⊢
      rcases ht with rfl | rfl | rfl <;> decide
  · refine ⟨b, _, hb, onlyBody_set hb, rfl, ?_, ?_, ?_⟩
    · unfold Engine.is_fixed_body
      rw [findBody_ok.2 (onlyBody_set hb).1]
      rfl
    · simp [List.mem_cons] at ht ⊢
      rcases ht with rfl | rfl | rfl <;> decide
    · simp [List.mem_cons] at ht ⊢
      exact ht

/-- The hypotheses are met: a body on which a gravity of 9.8 with an up vector of length two acts. -/
example : ∃ e1 e2 e3, create_engine.create_gravity_force "g" 9.8 ⟨0, 2, 0⟩ = .ok e1 ∧ e1.create_rigid_body "b" = .ok e2 ∧
    e2.forces.get? "g" = e1.forces.get? "g" ∧ e2.connect_force "b" "g" = .ok e3 := by
  have h1 : create_engine.create_gravity_force "g" 9.8 ⟨0, 2, 0⟩ = .ok { create_engine with forces := create_engine.forces.setItem "g" ⟨"g", .gravity 9.8 (V3.unit ⟨0, 2, 0⟩)⟩ } := by
    unfold Engine.create_gravity_force
    rw [if_neg (by decide), if_neg (by norm_num)]
  obtain ⟨e1, he1⟩ : ∃ e1, create_engine.create_gravity_force "g" 9.8 ⟨0, 2, 0⟩ = .ok e1 := ⟨_, h1⟩
  have hf : e1.forces.get? "g" ≠ none ∧ e1.bodies = create_engine.bodies := by
    rw [h1] at he1
    simp only [Except.ok.injEq] at he1
    rw [← he1]
    exact ⟨by rw [Dict.get?_setItem_self]; simp, rfl⟩
  obtain ⟨F, hF⟩ := Option.ne_none_iff_exists'.1 hf.1
  have h2 : e1.create_rigid_body "b" = .ok { e1 with bodies := e1.bodies.setItem "b" ⟨0, RigidBody.init "b"⟩ } := by
    unfold Engine.create_rigid_body
    rw [hf.2]
    rfl
  obtain ⟨e2, he2⟩ : ∃ e2, e2 = { e1 with bodies := e1.bodies.setItem "b" ⟨0, RigidBody.init "b"⟩ } := ⟨_, rfl⟩
  have hb : e2.bodies.get? "b" = some ⟨0, RigidBody.init "b"⟩ := by rw [he2]; exact Dict.get?_setItem_self _ _ _
  have hf2 : e2.forces.get? "g" = some F := by rw [he2]; exact hF
  refine ⟨e1, e2, { e2 with bodies := e2.bodies.setItem "b" ⟨0, { RigidBody.init "b" with forces := [F] }⟩ }, he1, he2 ▸ h2, hf2.trans hF.symm, ?_⟩
  unfold Engine.connect_force
  rw [findBody_ok.2 hb, findForce_ok.2 hf2]
  simp only [bind, Except.bind]
  rw [if_neg (by simp [RigidBody.init]), updateBody_some _ hb]
  simp [RigidBody.init]

end Verif
