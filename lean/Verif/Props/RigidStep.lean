import Verif.Props.StateStorage
import Verif.Props.ContactSolve
import Verif.Props.Hinges
import Verif.Props.ProxRigid
import Verif.Props.Quaternion
import Verif.Model.RigidStep

/-! C47, C48, C65: one time step of rigid bodies. -/

namespace Verif

open Matrix ProxSolver Rigid

variable {N : ℕ}

theorem step_ok {cd : World N → Except PyErr (List (ContactPoint N))} {dt : ℝ} {w w' : World N}
    (h : step cd dt w = .ok w') : ∃ s cps, copy_from_engine w.bodies = .ok s ∧ cd w = .ok cps ∧
      ∃ C du s2, contactProblem dt s { w with contact_points := cps } = .ok C ∧
        velocityChange w.params.toParams (problemList dt s { w with contact_points := cps } C) (dt • s.delta_u_ext) = .ok du ∧
        stabilized { w with contact_points := cps } C
          (position_update (velocity_update s du) dt w.bodies (velocity_update s du).u) = .ok s2 ∧
        w' = { w with contact_points := cps, bodies := copy_to_engine s2 w.bodies } := by
  unfold step at h
  simp only [bind, Except.bind] at h
  split at h
  · cases h
  rename_i s hs
  split at h
  · cases h
  rename_i cps hcps
  split at h
  · cases h
  rename_i C hC
  split at h
  · cases h
  rename_i du hdu
  split at h
  · cases h
  rename_i s2 hs2
  simp only [pure, Except.pure, Except.ok.injEq] at h
  exact ⟨s, cps, hs, hcps, C, du, s2, hC, hdu, hs2, h.symm⟩

/-- The result of the solver for a list of problems, summed up. -/
theorem solveAndAdd_ok {M : Type} {p : ProxSolver.Params} {Ps : List (Prob M)} (hne : ∀ q ∈ Ps, Nonempty q.ι) (d : M → ℝ) :
    ∃ m, m ≤ p.max_iterations ∧
      solveAndAdd p Ps d = .ok (Ps.foldl (fun d q => d + q.finalize (stateAt p q m).sol) d) := by
  obtain ⟨R, m, h1, h2, h3, -⟩ := C37_rigid_solve p Ps hne
  refine ⟨m, h2, ?_⟩
  unfold solveAndAdd
  rw [h1]
  simp only [h3, List.foldl_map]
  rfl

/-- The multipliers of a problem after m iterations. -/
noncomputable def solAt {K B : ℕ} {M : Type} [Fintype M] (p : ProxSolver.Params) (D : Data K B M)
    (prox : Fin K → (Fin B → ℝ) → (Fin B → ℝ)) (m : ℕ) : Fin K × Fin B → ℝ := (stateAt p (D.problem prox) m).sol

theorem finalize_solAt {K B : ℕ} {M : Type} [Fintype M] (p : ProxSolver.Params) (D : Data K B M)
    (prox : Fin K → (Fin B → ℝ) → (Fin B → ℝ)) (m : ℕ) {W : Matrix M M ℝ} {J : Matrix (Fin K × Fin B) M ℝ}
    (h : D.WJT = W * Jᵀ) :
    (D.problem prox).finalize (stateAt p (D.problem prox) m).sol = W *ᵥ (Jᵀ *ᵥ solAt p D prox m) := by
  rw [Matrix.mulVec_mulVec, ← h]
  rfl

/-- The friction coefficient used for a contact. -/
def FrictionOf (w : World N) (cp : ContactPoint N) (mu : ℝ) : Prop :=
  ∃ I, w.surfaces_interactions.get_interaction (w.bodies cp.bodyA).material (w.bodies cp.bodyB).material = .ok I ∧
    mu = I.mu.x

/-- Every interaction that is looked up has a non-negative friction coefficient (an engine invariant, C42_nonneg). -/
def FrictionNonneg (w : World N) : Prop :=
  ∀ A B I, w.surfaces_interactions.get_interaction A B = .ok I → 0 ≤ I.mu.x

theorem contactProblem_ok {dt : ℝ} {s : StateStorage N} {w : World N}
    {C : Option (ContactProblem N w.contact_points.length)} (h : contactProblem dt s w = .ok C) :
    (C = none ∧ w.contact_points = []) ∨
      ∃ D, C = some D ∧ Contacts.initialize dt s w = .ok D ∧ w.contact_points ≠ [] := by
  unfold contactProblem at h
  split at h
  · rename_i he
    injection h with h
    exact Or.inl ⟨h.symm, he⟩
  · rename_i he
    cases hD : Contacts.initialize dt s w with
    | error e => rw [hD] at h; cases h
    | ok D =>
      rw [hD] at h
      simp only [Except.map, Except.ok.injEq] at h
      exact Or.inr ⟨D, h.symm, rfl, he⟩

/-- The velocity change of a step: external forces, contact impulses within the friction cones, hinge impulses. -/
theorem velocityChange_ok {dt : ℝ} {s : StateStorage N} {w : World N}
    {C : Option (ContactProblem N w.contact_points.length)} (hC : contactProblem dt s w = .ok C) :
    ∃ (xc : Fin w.contact_points.length × Fin 4 → ℝ) (xh : Fin w.hinges.length × Fin 5 → ℝ),
      velocityChange w.params.toParams (problemList dt s w C) (dt • s.delta_u_ext) =
        .ok (dt • s.delta_u_ext + s.W *ᵥ ((contactJacobian w.bodies w.contact_points)ᵀ *ᵥ xc) +
          s.W *ᵥ ((hingeJacobian w.bodies w.hinges)ᵀ *ᵥ xh)) ∧
      (FrictionNonneg w → ∀ k, 0 ≤ xc (k, 0) ∧ ∃ mu, FrictionOf w (w.contact_points.get k) mu ∧
        xc (k, 1) ^ 2 + xc (k, 2) ^ 2 + xc (k, 3) ^ 2 ≤ (mu * xc (k, 0)) ^ 2) := by
  have hH := fun m => finalize_solAt w.params.toParams (Hinges.initialize dt s w) freeProx m
    (W := s.W) (J := hingeJacobian w.bodies w.hinges) rfl
  have hh0 : ∀ h : w.hinges ≠ [], Nonempty ((Hinges.initialize dt s w).problem freeProx).ι := fun h =>
    ⟨(⟨0, List.length_pos_of_ne_nil h⟩, 0)⟩
  have hz : s.W *ᵥ ((hingeJacobian w.bodies w.hinges)ᵀ *ᵥ (0 : Fin w.hinges.length × Fin 5 → ℝ)) = 0 := by
    rw [Matrix.mulVec_zero, Matrix.mulVec_zero]
  have hzc : s.W *ᵥ ((contactJacobian w.bodies w.contact_points)ᵀ *ᵥ (0 : Fin w.contact_points.length × Fin 4 → ℝ)) = 0 := by
    rw [Matrix.mulVec_zero, Matrix.mulVec_zero]
  rcases contactProblem_ok hC with ⟨rfl, he⟩ | ⟨D, rfl, hD, hne⟩
  · have hk : ∀ k : Fin w.contact_points.length, False := fun k => by
      exact absurd k.2 (by simp [he])
    by_cases hh : w.hinges = []
    · refine ⟨0, 0, ?_, fun _ k => (hk k).elim⟩
      rw [hz, hzc]
      simp [velocityChange, problemList, hh]
    · obtain ⟨m, -, h1⟩ := solveAndAdd_ok (p := w.params.toParams) (Ps := [(Hinges.initialize dt s w).problem freeProx])
        (by intro q hq; rw [List.mem_singleton] at hq; subst hq; exact hh0 hh) (dt • s.delta_u_ext)
      refine ⟨0, solAt w.params.toParams (Hinges.initialize dt s w) freeProx m, ?_, fun _ k => (hk k).elim⟩
      rw [hzc]
      have hPl : problemList dt s w none = [(Hinges.initialize dt s w).problem freeProx] := by
        simp only [problemList, if_neg hh, List.nil_append]
      rw [hPl]
      unfold velocityChange
      rw [if_neg (by simp), h1]
      simp only [List.foldl_cons, List.foldl_nil, add_zero]
      rw [hH m]
  · obtain ⟨hJ, hW, -⟩ := contacts_init hD
    have hn : ∀ q ∈ problemList dt s w (some D), Nonempty q.ι := by
      intro q hq
      unfold problemList at hq
      rcases List.mem_append.1 hq with hq | hq
      · simp only [List.mem_singleton] at hq
        subst hq
        exact ⟨(⟨0, List.length_pos_of_ne_nil hne⟩, 0)⟩
      · split at hq
        · cases hq
        · simp only [List.mem_singleton] at hq
          subst hq
          exact hh0 ‹_›
    obtain ⟨m, -, h1⟩ := solveAndAdd_ok (p := w.params.toParams) hn (dt • s.delta_u_ext)
    set xc := solAt w.params.toParams D.data (contactProx Prox.prox_sphere D.mu) m with hxc
    have hfin := finalize_solAt w.params.toParams D.data (contactProx Prox.prox_sphere D.mu) m
      (W := s.W) (J := contactJacobian w.bodies w.contact_points) (by rw [hW, hJ])
    have hfeas : FrictionNonneg w → ∀ k, 0 ≤ xc (k, 0) ∧ ∃ mu, FrictionOf w (w.contact_points.get k) mu ∧
        xc (k, 1) ^ 2 + xc (k, 2) ^ 2 + xc (k, 3) ^ 2 ≤ (mu * xc (k, 0)) ^ 2 := by
      intro hmu k
      have hm0 : ∀ k, 0 ≤ D.mu k := by
        intro k
        obtain ⟨I, hI, h2, -⟩ := C40_coefficients hD k
        rw [h2]
        exact hmu _ _ _ hI
      have hf : Feasible D.mu xc := rigid_invariant w.params.toParams
        (D.data.problem (contactProx Prox.prox_sphere D.mu)) (Feasible D.mu) (feasible_zero D.mu) rfl
        (fun r x hx => gsSweep_feasible D.data D.mu hm0 r x hx) m
      obtain ⟨h2, h3⟩ := hf k
      obtain ⟨I, hI, h4, -⟩ := C40_coefficients hD k
      refine ⟨h2, D.mu k, ⟨I, hI, h4⟩, ?_⟩
      exact (Real.sqrt_le_left (mul_nonneg (hm0 k) h2)).1 h3
    by_cases hh : w.hinges = []
    · refine ⟨xc, 0, ?_, hfeas⟩
      have hPl : problemList dt s w (some D) = [D.data.problem (contactProx Prox.prox_sphere D.mu)] := by
        simp only [problemList, if_pos hh, List.append_nil]
      rw [hz]
      rw [hPl] at h1 ⊢
      unfold velocityChange
      rw [if_neg (by simp), h1]
      simp only [List.foldl_cons, List.foldl_nil, add_zero]
      rw [hfin]
    · refine ⟨xc, solAt w.params.toParams (Hinges.initialize dt s w) freeProx m, ?_, hfeas⟩
      have hPl : problemList dt s w (some D) = [D.data.problem (contactProx Prox.prox_sphere D.mu),
          (Hinges.initialize dt s w).problem freeProx] := by
        simp only [problemList, if_neg hh, List.cons_append, List.nil_append]
      rw [hPl] at h1 ⊢
      unfold velocityChange
      rw [if_neg (by simp), h1]
      simp only [List.foldl_cons, List.foldl_nil]
      rw [hfin, hH m]

/-- Post-stabilization moves the bodies by W·Jᵀ·y with non-negative normal displacements y, or not at all. -/
theorem stabilized_ok {dt : ℝ} {s s1 : StateStorage N} {w : World N}
    {C : Option (ContactProblem N w.contact_points.length)} (hC : contactProblem dt s w = .ok C) :
    ∃ s2, stabilized w C s1 = .ok s2 ∧ (s2 = s1 ∨ (w.params.use_post_stabilization = true ∧ w.contact_points ≠ [] ∧
      ∃ y : Fin w.contact_points.length × Fin 4 → ℝ, (∀ k, 0 ≤ y (k, 0) ∧ y (k, 1) = 0 ∧ y (k, 2) = 0 ∧ y (k, 3) = 0) ∧
        s2 = position_update s1 1 w.bodies (s.W *ᵥ ((contactJacobian w.bodies w.contact_points)ᵀ *ᵥ y)))) := by
  rcases contactProblem_ok hC with ⟨rfl, he⟩ | ⟨D, rfl, hD, hne⟩
  · exact ⟨s1, rfl, Or.inl rfl⟩
  · unfold stabilized
    simp only []
    by_cases hp : w.params.use_post_stabilization = true
    · rw [if_pos hp]
      unfold apply_post_stabilization
      simp only [bind, Except.bind]
      split
      · exact ⟨s1, rfl, Or.inl rfl⟩
      · obtain ⟨m, -, h1⟩ := solveAndAdd_ok (p := w.params.toParams)
          (Ps := [(PostStabilization.initialize w D.data).problem normalProx])
          (by intro q hq; rw [List.mem_singleton] at hq; subst hq
              exact ⟨(⟨0, List.length_pos_of_ne_nil hne⟩, 0)⟩) (0 : Vel N → ℝ)
        rw [h1]
        simp only [pure, Except.pure, Except.ok.injEq, List.foldl_cons, List.foldl_nil, zero_add]
        obtain ⟨hJ, hW, -⟩ := contacts_init hD
        have hfin := finalize_solAt w.params.toParams (PostStabilization.initialize w D.data) normalProx m
          (W := s.W) (J := contactJacobian w.bodies w.contact_points) (by rw [← hJ]; exact hW)
        refine ⟨_, rfl, Or.inr ⟨hp, hne, _, C36_post_stabilization w.params.toParams (PostStabilization.initialize w D.data) m, ?_⟩⟩
        rw [hfin, show (1.0 : ℝ) = 1 by norm_num]
        rfl
    · rw [if_neg hp]
      exact ⟨s1, rfl, Or.inl rfl⟩

/-! ### What a step does to each body -/

/-- World-frame inertia tensor of a body: R diag(I) Rᵀ by `C46_inertia_tensor`. -/
noncomputable def worldInertia (b : RigidBody) : M3 := update_inertia_tensor (Quat.to_matrix b.q) b.inertia

/-- Total applied force on a body: gravity and linear damping of the forces connected to it. -/
noncomputable def appliedForce (b : RigidBody) : V3 :=
  (b.forces.map fun f => match f.kind with
    | .gravity g up => (-(b.mass * g)) • up
    | .damping alpha _ => (-alpha) • b.v).sum

/-- Total applied torque on a body: angular damping and the gyroscopic torque -ω × Iω. -/
noncomputable def appliedTorque (b : RigidBody) : V3 :=
  (b.forces.map fun f => match f.kind with
    | .gravity _ _ => 0
    | .damping _ beta => (-beta) • b.w).sum - V3.cross b.w ((worldInertia b).mulVec b.w)

theorem bodyForce_eq (b : RigidBody) : bodyForce b b.q b.v b.w = (appliedForce b, appliedTorque b) := by
  have key : ∀ (fs : List Force) (a c : V3),
      fs.foldl (fun FT f => (FT.1 + (f.kind.compute b b.v b.w).1, FT.2 + (f.kind.compute b b.v b.w).2)) (a, c) =
      (a + (fs.map fun f => match f.kind with
          | .gravity g up => (-(b.mass * g)) • up
          | .damping alpha _ => (-alpha) • b.v).sum,
       c + (fs.map fun f => match f.kind with
          | .gravity _ _ => (0 : V3)
          | .damping _ beta => (-beta) • b.w).sum) := by
    intro fs
    induction fs with
    | nil => intro a c; simp
    | cons f fs ih =>
      intro a c
      rw [List.foldl_cons, ih]
      simp only [List.map_cons, List.sum_cons]
      obtain ⟨n, kd⟩ := f
      cases kd with
      | gravity g up =>
        simp only [ForceKind.compute, Prod.mk.injEq]
        constructor <;> ext <;> simp [V3.zero] <;> ring
      | damping al be =>
        simp only [ForceKind.compute, Prod.mk.injEq]
        constructor <;> ext <;> simp <;> ring
  unfold bodyForce
  simp only []
  rw [key]
  unfold appliedForce appliedTorque worldInertia
  simp only [Prod.mk.injEq]
  constructor
  · ext <;> simp [V3.zero]
  · ext <;> simp <;> ring

theorem lin_add' (u v : Vel N → ℝ) (k : Fin N) : lin (u + v) k = lin u k + lin v k := by
  ext <;> simp [lin]
theorem ang_add' (u v : Vel N → ℝ) (k : Fin N) : ang (u + v) k = ang u k + ang v k := by
  ext <;> simp [ang]

/-- External forces as they enter the stacked vector. -/
theorem f_ext_eq {bodies : Fin N → RigidBody} {s : StateStorage N} (hs : copy_from_engine bodies = .ok s) (k : Fin N) :
    lin s.f_ext k = (if (bodies k).is_fixed then 0 else appliedForce (bodies k)) ∧
    ang s.f_ext k = (if (bodies k).is_fixed then 0 else appliedTorque (bodies k)) := by
  obtain ⟨hx, hu, hf, -⟩ := copy_fields hs
  rw [hf, hx, hu]
  obtain ⟨h1, h2, h3, h4⟩ := state_vectors bodies k
  have h : ∀ c, compute_total_external_forces bodies (get_position_vector bodies) (get_velocity_vector bodies) (k, c) =
      if (bodies k).is_fixed then 0 else six (appliedForce (bodies k)) (appliedTorque (bodies k)) c := by
    intro c
    unfold compute_total_external_forces
    simp only [h2, h3, h4, bodyForce_eq]
  constructor
  · unfold lin
    simp only [h]
    split_ifs <;> ext <;> simp [six]
  · unfold ang
    simp only [h]
    split_ifs <;> ext <;> simp [six]

theorem position_update_spec (s : StateStorage N) (dt : ℝ) (bodies : Fin N → RigidBody) (u : Vel N → ℝ) (k : Fin N) :
    let s' := position_update s dt bodies u
    s'.u = s.u ∧
    ((bodies k).is_fixed = true → xr s'.x k = xr s.x k ∧ xq s'.x k = xq s.x k) ∧
    ((bodies k).is_fixed = false → xr s'.x k = xr s.x k + dt • lin u k ∧
      xq s'.x k = Quat.unit (xq s.x k + (0.5 : ℝ) • (dt • Quat.prod (Quat.from_vector3 (ang u k)) (xq s.x k)))) := by
  refine ⟨rfl, ?_, ?_⟩
  · intro h
    constructor <;> ext <;> simp [position_update, xr, xq, h]
  · intro h
    constructor <;> ext <;> simp [position_update, xr, xq, h, seven]

/-- The velocity part of a step. -/
theorem step_velocity {bodies : Fin N → RigidBody} {s : StateStorage N} (hs : copy_from_engine bodies = .ok s) (dt : ℝ)
    (P : Vel N → ℝ) (k : Fin N) :
    let u' := s.u + (dt • s.delta_u_ext + s.W *ᵥ P)
    ((bodies k).is_fixed = true → lin u' k = (bodies k).v ∧ ang u' k = (bodies k).w) ∧
    ((bodies k).is_fixed = false →
      (bodies k).mass • (lin u' k - (bodies k).v) = dt • appliedForce (bodies k) + lin P k ∧
      ((bodies k).inertia.x ≠ 0 → (bodies k).inertia.y ≠ 0 → (bodies k).inertia.z ≠ 0 →
        (worldInertia (bodies k)).mulVec (ang u' k - (bodies k).w) = dt • appliedTorque (bodies k) + ang P k)) := by
  obtain ⟨hx, hu, -, hW, hd, hm⟩ := copy_fields hs
  obtain ⟨h1, h2, h3, h4⟩ := state_vectors bodies k
  have hE : dt • s.delta_u_ext + s.W *ᵥ P = s.W *ᵥ (dt • s.f_ext + P) := by
    rw [hd, Matrix.mulVec_add, Matrix.mulVec_smul]
  intro u'
  have hu' : u' = s.u + s.W *ᵥ (dt • s.f_ext + P) := by rw [← hE]
  obtain ⟨hl, ha⟩ := inverse_mass_mulVec hW (dt • s.f_ext + P) k
  obtain ⟨hfl, hfa⟩ := f_ext_eq hs k
  have hL : lin (dt • s.f_ext + P) k = dt • lin s.f_ext k + lin P k := by ext <;> simp [lin]
  have hA : ang (dt • s.f_ext + P) k = dt • ang s.f_ext k + ang P k := by ext <;> simp [ang]
  rw [hu', lin_add', ang_add', hl, ha, hu, h3, h4, hL, hA, hfl, hfa]
  have hq : xq s.x k = (bodies k).q := by rw [hx]; exact h2
  rw [hq]
  constructor
  · intro hf
    unfold massBlocks
    rw [if_pos hf]
    constructor <;> ext <;> simp [M3.mulVec, M3.zero]
  · intro hf
    unfold massBlocks
    rw [hf]
    rw [if_neg (by decide), if_neg (by decide), if_neg (by decide)]
    simp only []
    constructor
    · have := hm k hf
      ext <;> simp [M3.mulVec, M3.diag] <;> field_simp <;> norm_num
    · intro hx hy hz
      have hI := C46_inertia_inverse (C03_to_matrix_rotation (bodies k).q) hx hy hz
      have : ∀ f : V3, (worldInertia (bodies k)).mulVec ((update_inertia_tensor (Quat.to_matrix (bodies k).q)
          ⟨1.0 / (bodies k).inertia.x, 1.0 / (bodies k).inertia.y, 1.0 / (bodies k).inertia.z⟩).mulVec f) = f := by
        intro f
        apply V3.toFun_injective
        rw [M3.toMat_mulVec, M3.toMat_mulVec, Matrix.mulVec_mulVec]
        unfold worldInertia
        rw [hI, Matrix.one_mulVec]
      refine Eq.trans ?_ (this _)
      congr 1
      ext <;> simp

/-- The half-step quaternion is never zero: its length is at least that of q. -/
theorem integrated_ne_zero {q : Quat} (hq : q ≠ ⟨0, 0, 0, 0⟩) (dt : ℝ) (w : V3) :
    q + (0.5 : ℝ) • (dt • Quat.prod (Quat.from_vector3 w) q) ≠ ⟨0, 0, 0, 0⟩ := by
  intro h
  apply hq
  obtain ⟨s, x, y, z⟩ := q
  obtain ⟨a, b, c⟩ := w
  simp only [Quat.prod, Quat.from_vector3, Quat.smul_def, Quat.add_def, Quat.mk.injEq, Quat.vec,
    V3.dot, V3.cross, V3.add_x, V3.add_y, V3.add_z, V3.smul_x, V3.smul_y, V3.smul_z] at h ⊢
  obtain ⟨h1, h2, h3, h4⟩ := h
  have e : s ^ 2 + x ^ 2 + y ^ 2 + z ^ 2 = 0 := by
    linear_combination s * h1 + x * h2 + y * h3 + z * h4
  refine ⟨?_, ?_, ?_, ?_⟩ <;> nlinarith [sq_nonneg s, sq_nonneg x, sq_nonneg y, sq_nonneg z]

/-- A step in one formula.  The engine keeps everything but the contact points and the state of the bodies. -/
theorem step_spec {cd : World N → Except PyErr (List (ContactPoint N))} {dt : ℝ} {w w' : World N}
    (h : step cd dt w = .ok w') : ∃ (s s2 : StateStorage N) (cps : List (ContactPoint N)) (xc : Fin cps.length × Fin 4 → ℝ)
      (xh : Fin w.hinges.length × Fin 5 → ℝ), copy_from_engine w.bodies = .ok s ∧ cd w = .ok cps ∧
      w' = { w with contact_points := cps, bodies := copy_to_engine s2 w.bodies } ∧
      (FrictionNonneg w → ∀ k, 0 ≤ xc (k, 0) ∧ ∃ mu, FrictionOf w (cps.get k) mu ∧
        xc (k, 1) ^ 2 + xc (k, 2) ^ 2 + xc (k, 3) ^ 2 ≤ (mu * xc (k, 0)) ^ 2) ∧
      ∃ u', u' = s.u + (dt • s.delta_u_ext + s.W *ᵥ ((contactJacobian w.bodies cps)ᵀ *ᵥ xc +
          (hingeJacobian w.bodies w.hinges)ᵀ *ᵥ xh)) ∧
        let s1 := position_update { s with u := u' } dt w.bodies u'
        (s2 = s1 ∨ (w.params.use_post_stabilization = true ∧ cps ≠ [] ∧
          ∃ y : Fin cps.length × Fin 4 → ℝ, (∀ k, 0 ≤ y (k, 0) ∧ y (k, 1) = 0 ∧ y (k, 2) = 0 ∧ y (k, 3) = 0) ∧
            s2 = position_update s1 1 w.bodies (s.W *ᵥ ((contactJacobian w.bodies cps)ᵀ *ᵥ y)))) := by
  obtain ⟨s, cps, hs, hcd, C, du, s2, hC, hdu, hst, hw⟩ := step_ok h
  obtain ⟨xc, xh, h1, h2⟩ := velocityChange_ok hC
  obtain ⟨s2', h3, h4⟩ := stabilized_ok
    (s1 := position_update (velocity_update s du) dt w.bodies (velocity_update s du).u) hC
  rw [hst] at h3
  injection h3 with h3
  subst h3
  have h1' := hdu.symm.trans h1
  injection h1' with h1'
  refine ⟨s, s2, cps, xc, xh, hs, hcd, hw, h2, s.u + du, ?_, h4⟩
  rw [h1', Matrix.mulVec_add, add_assoc]

/-- C47: a fixed body keeps its position, orientation, velocity and spin through a step, whatever forces, contacts,
hinges and stabilization act. -/
theorem C47_fixed {cd : World N → Except PyErr (List (ContactPoint N))} {dt : ℝ} {w w' : World N}
    (h : step cd dt w = .ok w') (k : Fin N) (hk : (w.bodies k).is_fixed = true) : w'.bodies k = w.bodies k := by
  obtain ⟨s, s2, cps, xc, xh, hs, hcd, hw, -, u', hu', h4⟩ := step_spec h
  obtain ⟨hx, hu, -⟩ := copy_fields hs
  obtain ⟨e1, e2, e3, e4⟩ := state_vectors w.bodies k
  have hv := (step_velocity hs dt ((contactJacobian w.bodies cps)ᵀ *ᵥ xc + (hingeJacobian w.bodies w.hinges)ᵀ *ᵥ xh) k).1 hk
  rw [← hu'] at hv
  rw [hw]
  have key : lin s2.u k = (w.bodies k).v ∧ ang s2.u k = (w.bodies k).w ∧ xr s2.x k = (w.bodies k).r ∧
      xq s2.x k = (w.bodies k).q := by
    obtain ⟨p1, p2, -⟩ := position_update_spec { s with u := u' } dt w.bodies u' k
    have p2 := p2 hk
    rcases h4 with rfl | ⟨-, -, y, -, rfl⟩
    · rw [p1, p2.1, p2.2]
      exact ⟨hv.1, hv.2, by rw [hx]; exact e1, by rw [hx]; exact e2⟩
    · obtain ⟨q1, q2, -⟩ := position_update_spec (position_update { s with u := u' } dt w.bodies u') 1 w.bodies
        (s.W *ᵥ ((contactJacobian w.bodies cps)ᵀ *ᵥ y)) k
      have q2 := q2 hk
      rw [q1, q2.1, q2.2, p1, p2.1, p2.2]
      exact ⟨hv.1, hv.2, by rw [hx]; exact e1, by rw [hx]; exact e2⟩
  change ({ w.bodies k with v := lin s2.u k, w := ang s2.u k, r := xr s2.x k, q := xq s2.x k } : RigidBody) = w.bodies k
  rw [key.1, key.2.1, key.2.2.1, key.2.2.2]

/-- C48: a step replaces the contact points by what collision detection reports and changes nothing else of the engine
except position, orientation, velocity and spin of the bodies. -/
theorem C48_frame {cd : World N → Except PyErr (List (ContactPoint N))} {dt : ℝ} {w w' : World N}
    (h : step cd dt w = .ok w') :
    cd w = .ok w'.contact_points ∧ w'.forces = w.forces ∧ w'.hinges = w.hinges ∧
    w'.surfaces_interactions = w.surfaces_interactions ∧ w'.params = w.params ∧
    ∀ k, w'.bodies k = { w.bodies k with
      r := (w'.bodies k).r, q := (w'.bodies k).q, v := (w'.bodies k).v, w := (w'.bodies k).w } := by
  obtain ⟨s, s2, cps, xc, xh, hs, hcd, hw, -⟩ := step_spec h
  subst hw
  exact ⟨hcd, rfl, rfl, rfl, rfl, fun k => rfl⟩

/-- C48: after a step every movable body has a unit orientation, whatever it was before. -/
theorem C48_unit {cd : World N → Except PyErr (List (ContactPoint N))} {dt : ℝ} {w w' : World N}
    (h : step cd dt w = .ok w') (k : Fin N) (hk : (w.bodies k).is_fixed = false) : IsUnitQ (w'.bodies k).q := by
  obtain ⟨s, s2, cps, xc, xh, hs, hcd, hw, -, u', hu', h4⟩ := step_spec h
  subst hw
  change IsUnitQ (xq s2.x k)
  rcases h4 with rfl | ⟨-, -, y, -, rfl⟩
  · rw [((position_update_spec _ dt w.bodies u' k).2.2 hk).2]
    exact Quat.unit_isUnit _
  · rw [((position_update_spec _ 1 w.bodies _ k).2.2 hk).2]
    exact Quat.unit_isUnit _

/-- C48 (Newton-Euler equations in impulse form): there are contact multipliers, within the friction cones of the
registered coefficients, and hinge multipliers such that every movable body changes its momentum by dt times the applied
force plus the contact and hinge impulses, and its angular momentum (with the inertia tensor at the start of the step)
by dt times the applied torque plus the contact and hinge angular impulses.  Without post-stabilization it then moves
with the new velocity: r' = r + dt v', and q' is the positive multiple of q + dt/2 (0,ω') q of length one. -/
theorem C48_newton_euler {cd : World N → Except PyErr (List (ContactPoint N))} {dt : ℝ} {w w' : World N}
    (h : step cd dt w = .ok w') :
    ∃ (xc : Fin w'.contact_points.length × Fin 4 → ℝ) (xh : Fin w.hinges.length × Fin 5 → ℝ),
      (FrictionNonneg w → ∀ k, 0 ≤ xc (k, 0) ∧ ∃ mu, FrictionOf w (w'.contact_points.get k) mu ∧
        xc (k, 1) ^ 2 + xc (k, 2) ^ 2 + xc (k, 3) ^ 2 ≤ (mu * xc (k, 0)) ^ 2) ∧
      let P := (contactJacobian w.bodies w'.contact_points)ᵀ *ᵥ xc + (hingeJacobian w.bodies w.hinges)ᵀ *ᵥ xh
      ∀ k, (w.bodies k).is_fixed = false →
        let b := w.bodies k
        let b' := w'.bodies k
        b.mass • (b'.v - b.v) = dt • appliedForce b + lin P k ∧
        (b.inertia.x ≠ 0 → b.inertia.y ≠ 0 → b.inertia.z ≠ 0 →
          (worldInertia b).mulVec (b'.w - b.w) = dt • appliedTorque b + ang P k) ∧
        (w.params.use_post_stabilization = false ∨ w'.contact_points = [] → b'.r = b.r + dt • b'.v ∧
          (b.q ≠ ⟨0, 0, 0, 0⟩ → ∃ c : ℝ, 0 < c ∧
            c • b'.q = b.q + (dt / 2) • Quat.prod ⟨0, b'.w.x, b'.w.y, b'.w.z⟩ b.q)) := by
  obtain ⟨s, s2, cps, xc, xh, hs, hcd, hw, hf, u', hu', h4⟩ := step_spec h
  subst hw
  refine ⟨xc, xh, hf, ?_⟩
  intro P k hk b b'
  obtain ⟨hx, hu, -⟩ := copy_fields hs
  obtain ⟨e1, e2, e3, e4⟩ := state_vectors w.bodies k
  have hv := (step_velocity hs dt P k).2 hk
  have hP : u' = s.u + (dt • s.delta_u_ext + s.W *ᵥ P) := hu'
  rw [← hP] at hv
  obtain ⟨p1, -, p2⟩ := position_update_spec { s with u := u' } dt w.bodies u' k
  have p2 := p2 hk
  have hs2u : s2.u = u' := by
    rcases h4 with rfl | ⟨-, -, y, -, rfl⟩
    · exact p1
    · exact p1
  have hbv : b'.v = lin u' k := by
    change lin s2.u k = _
    rw [hs2u]
  have hbw : b'.w = ang u' k := by
    change ang s2.u k = _
    rw [hs2u]
  rw [hbv, hbw]
  refine ⟨hv.1, hv.2, ?_⟩
  intro hps
  have h5 : s2 = position_update { s with u := u' } dt w.bodies u' := by
    rcases h4 with h4 | ⟨h5, h6, -⟩
    · exact h4
    · rcases hps with hps | hps
      · rw [hps] at h5; cases h5
      · exact absurd hps h6
  have hxr : xr s.x k = b.r := by rw [hx]; exact e1
  have hxq : xq s.x k = b.q := by rw [hx]; exact e2
  constructor
  · change xr s2.x k = _
    rw [h5, p2.1]
    change xr s.x k + _ = _
    rw [hxr]
  · intro hq
    obtain ⟨c, hc, e⟩ := (C01_unit_spec _).2.2 (integrated_ne_zero hq dt (ang u' k))
    refine ⟨c, hc, ?_⟩
    have : b'.q = Quat.unit (b.q + (0.5 : ℝ) • (dt • Quat.prod (Quat.from_vector3 (ang u' k)) b.q)) := by
      change xq s2.x k = _
      rw [h5, p2.2]
      change Quat.unit (xq s.x k + (0.5 : ℝ) • (dt • Quat.prod _ (xq s.x k))) = _
      rw [hxq]
    rw [this, ← e]
    congr 1
    rw [show (⟨0, (ang u' k).x, (ang u' k).y, (ang u' k).z⟩ : Quat) = Quat.from_vector3 (ang u' k) by
      simp [Quat.from_vector3]]
    ext <;> simp <;> ring

/-- C48 (free flight): without contacts and hinges a step succeeds when movable bodies have mass, and it is the
semi-implicit Euler step: the new velocity uses the old applied force, the new position the new velocity. -/
theorem C48_free_flight {cd : World N → Except PyErr (List (ContactPoint N))} {dt : ℝ} {w : World N}
    (hcd : cd w = .ok []) (hh : w.hinges = []) (hm : ∀ k, (w.bodies k).is_fixed = false → (w.bodies k).mass ≠ 0) :
    ∃ w', step cd dt w = .ok w' ∧ ∀ k, (w.bodies k).is_fixed = false →
        let b := w.bodies k
        let b' := w'.bodies k
        b'.v = b.v + (dt / b.mass) • appliedForce b ∧ b'.r = b.r + dt • b'.v ∧
        (b.inertia.x ≠ 0 → b.inertia.y ≠ 0 → b.inertia.z ≠ 0 →
          (worldInertia b).mulVec (b'.w - b.w) = dt • appliedTorque b) := by
  obtain ⟨s, hs⟩ := (C46_mass_required w.bodies).2 hm
  have hex : ∃ w', step cd dt w = .ok w' := by
    unfold step
    simp only [bind, Except.bind, hs, hcd, contactProblem, if_true, problemList, if_pos hh, List.append_nil, velocityChange,
      List.isEmpty_nil, stabilized]
    exact ⟨_, rfl⟩
  obtain ⟨w', hw'⟩ := hex
  refine ⟨w', hw', ?_⟩
  obtain ⟨xc, xh, -, hne⟩ := C48_newton_euler hw'
  intro k hk b b'
  obtain ⟨h1, h2, h3⟩ := hne k hk
  have hc : w'.contact_points = [] := by
    have := (C48_frame hw').1
    rw [hcd] at this
    exact (Except.ok.inj this).symm
  have hz : ∀ (A : Vel N → ℝ), A = (contactJacobian w.bodies w'.contact_points)ᵀ *ᵥ xc + (hingeJacobian w.bodies w.hinges)ᵀ *ᵥ xh →
      A = 0 := by
    rintro A rfl
    have e1 : ∀ q : Fin w'.contact_points.length × Fin 4, False := fun q => absurd q.1.2 (by simp [hc])
    have e2 : ∀ q : Fin w.hinges.length × Fin 5, False := fun q => absurd q.1.2 (by simp [hh])
    funext j
    have f1 : ((contactJacobian w.bodies w'.contact_points)ᵀ *ᵥ xc) j = 0 :=
      Finset.sum_eq_zero fun q _ => (e1 q).elim
    have f2 : ((hingeJacobian w.bodies w.hinges)ᵀ *ᵥ xh) j = 0 :=
      Finset.sum_eq_zero fun q _ => (e2 q).elim
    rw [Pi.add_apply, f1, f2]
    simp
  rw [hz _ rfl] at h1 h2
  have hl : lin (0 : Vel N → ℝ) k = 0 := by ext <;> simp [lin]
  have ha : ang (0 : Vel N → ℝ) k = 0 := by ext <;> simp [ang]
  rw [hl, add_zero] at h1
  rw [ha] at h2
  refine ⟨?_, (h3 (Or.inr hc)).1, fun i1 i2 i3 => by rw [h2 i1 i2 i3, add_zero]⟩
  have hmk := hm k hk
  change b.mass • (b'.v - b.v) = _ at h1
  have hmk' : b.mass ≠ 0 := hmk
  have g1 := congrArg V3.x h1
  have g2 := congrArg V3.y h1
  have g3 := congrArg V3.z h1
  simp only [V3.smul_x, V3.smul_y, V3.smul_z, V3.sub_x, V3.sub_y, V3.sub_z] at g1 g2 g3
  change b.mass * _ = dt * (appliedForce b).x at g1
  change b.mass * _ = dt * (appliedForce b).y at g2
  change b.mass * _ = dt * (appliedForce b).z at g3
  ext
  · simp only [V3.add_x, V3.smul_x]; field_simp; linear_combination g1
  · simp only [V3.add_y, V3.smul_y]; field_simp; linear_combination g2
  · simp only [V3.add_z, V3.smul_z]; field_simp; linear_combination g3

end Verif
