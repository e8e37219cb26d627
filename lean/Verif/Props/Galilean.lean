import Verif.Props.Translation
import Verif.Lemmas.Jacobian

/-! C133: the simulation of free rigid bodies is the same for an observer who moves with constant velocity. -/

namespace Verif

open Rigid ProxSolver Matrix

variable {N : ℕ}

/-- The body moving faster by `a`. -/
def Rigid.RigidBody.boost (a : V3) (b : RigidBody) : RigidBody := { b with v := b.v + a }

/-- The world with all bodies moving faster by `a`. -/
def Rigid.World.boost (a : V3) (w : World N) : World N := { w with bodies := fun k => RigidBody.boost a (w.bodies k) }

/-- No body is fixed and only gravity acts: nothing in the world is at rest by law. -/
def FreeWorld (w : World N) : Prop :=
  ∀ k, (w.bodies k).is_fixed = false ∧ ∀ f ∈ (w.bodies k).forces, ∃ g up, f.kind = .gravity g up

/-- The collision detection does not read velocities. -/
def CDIgnoresVelocity (cd : World N → Except PyErr (List (ContactPoint N))) (a : V3) : Prop := ∀ w, cd (World.boost a w) = cd w

namespace Galilean

open Translation

/-- The same velocity for all bodies. -/
def all (a : V3) : Vel N → ℝ := fun i => six a V3.zero i.2

def boostS (a : V3) (s : StateStorage N) : StateStorage N := { s with u := s.u + all a }

abbrev boostB (a : V3) (B : Fin N → RigidBody) : Fin N → RigidBody := fun k => RigidBody.boost a (B k)

theorem lin_all (a : V3) (u : Vel N → ℝ) (k : Fin N) : lin (u + all a) k = lin u k + a := by
  unfold lin all six
  refine V3.ext ?_ ?_ ?_ <;> simp

theorem ang_all (a : V3) (u : Vel N → ℝ) (k : Fin N) : ang (u + all a) k = ang u k := by
  unfold ang all six
  refine V3.ext ?_ ?_ ?_ <;> simp [V3.zero]

theorem velocity_boost (a : V3) (B : Fin N → RigidBody) : get_velocity_vector (boostB a B) = get_velocity_vector B + all a := by
  funext ⟨k, i⟩
  fin_cases i <;> simp [get_velocity_vector, six, all, RigidBody.boost, V3.zero]

theorem bodyForce_boost (a : V3) (b : RigidBody) (hb : ∀ f ∈ b.forces, ∃ g up, f.kind = .gravity g up) (q : Quat) (v w : V3) :
    bodyForce (RigidBody.boost a b) q (v + a) w = bodyForce b q v w := by
  unfold bodyForce
  dsimp only
  refine List.foldl_ext _ _ _ fun x f hf => ?_
  obtain ⟨g, up, h⟩ := hb f hf
  rw [h]
  rfl

theorem copy_from_boost (a : V3) (B : Fin N → RigidBody) (hB : ∀ k, ∀ f ∈ (B k).forces, ∃ g up, f.kind = .gravity g up) :
    copy_from_engine (boostB a B) = (copy_from_engine B).map (boostS a) := by
  have hx : get_position_vector (boostB a B) = get_position_vector B := rfl
  have hf : ∀ x u, compute_total_external_forces (boostB a B) x (u + all a) = compute_total_external_forces B x u := by
    intro x u
    funext i
    unfold compute_total_external_forces
    simp only [lin_all, ang_all, boostB, bodyForce_boost a (B i.1) (hB i.1)]
    rfl
  have hW : ∀ x, compute_inverse_mass_matrix (boostB a B) x = compute_inverse_mass_matrix B x := fun x => rfl
  unfold copy_from_engine
  dsimp only
  rw [hx, velocity_boost, hf, hW]
  cases compute_inverse_mass_matrix B (get_position_vector B) <;> rfl

theorem position_update_boost (a : V3) (s : StateStorage N) (dt : ℝ) (B : Fin N → RigidBody) (hB : ∀ k, (B k).is_fixed = false) (u : Vel N → ℝ) :
    position_update (boostS a s) dt (boostB a B) (u + all a) = boostS a (shiftS (dt • a) (position_update s dt B u)) := by
  unfold position_update shiftS boostS
  dsimp only
  congr 1
  funext ⟨k, i⟩
  have h1 : ¬ (RigidBody.boost a (B k)).is_fixed = true := by
    have h2 : (RigidBody.boost a (B k)).is_fixed = (B k).is_fixed := rfl
    rw [h2, hB k]
    simp
  have h3 : ¬ (B k).is_fixed = true := by rw [hB k]; simp
  simp only [boostB, lin_all, ang_all]
  rw [if_neg h1, if_neg h3]
  fin_cases i <;> simp [seven, seven3]
  all_goals ring

theorem position_update_any (a c : V3) (s : StateStorage N) (dt : ℝ) (B : Fin N → RigidBody) (d : Vel N → ℝ) :
    position_update (boostS a (shiftS c s)) dt (boostB a B) d = boostS a (shiftS c (position_update s dt B d)) := by
  have h := position_update_shift c s dt B d
  have h2 : position_update (shiftS c s) dt (boostB a B) d = position_update (shiftS c s) dt (shiftB c B) d := rfl
  have h3 : position_update (boostS a (shiftS c s)) dt (boostB a B) d = boostS a (position_update (shiftS c s) dt (boostB a B) d) := rfl
  rw [h3, h2, h]

theorem copy_to_boost (a c : V3) (s : StateStorage N) (B : Fin N → RigidBody) :
    copy_to_engine (boostS a (shiftS c s)) (boostB a B) = shiftB c (boostB a (copy_to_engine s B)) := by
  funext k
  unfold copy_to_engine boostS shiftS
  dsimp only
  rw [xq_shift, xr_shift, lin_all, ang_all]
  rfl

/-- A constraint between two bodies sees no velocity common to all bodies. -/
theorem pairRow_all (A Bd : Fin N) (av aw bv bw : V3) (h : bv = -av) (a : V3) : ∑ j, pairRow A Bd av aw bv bw j * all a j = 0 := by
  rw [pairRow_dot]
  subst h
  unfold lin ang all six
  simp [V3.dot, V3.zero]
  ring

theorem contact_all (a : V3) (B : Fin N → RigidBody) (K : ℕ) (f : Fin K → ContactPoint N) :
    (csr ((List.finRange K).flatMap fun k => contactEntries B k (f k)) : Matrix (Fin K × Fin 4) (Vel N) ℝ) *ᵥ all a = 0 := by
  funext ⟨k, i⟩
  have hrow : ∀ j, (csr ((List.finRange K).flatMap fun k => contactEntries B k (f k)) : Matrix (Fin K × Fin 4) (Vel N) ℝ) (k, i) j =
      pairRow (f k).bodyA (f k).bodyB _ _ _ _ j :=
    fun j => csr_assembled (fun k => (f k).bodyA) (fun k => (f k).bodyB) 
      (fun k => ![-frameN (f k).n, -frameS (f k).n, -frameT (f k).n, -V3.zero])
      (fun k => ![-V3.cross ((f k).p - (B (f k).bodyA).r) (frameN (f k).n), -V3.cross ((f k).p - (B (f k).bodyA).r) (frameS (f k).n),
        -V3.cross ((f k).p - (B (f k).bodyA).r) (frameT (f k).n), -frameN (f k).n])
      (fun k => ![frameN (f k).n, frameS (f k).n, frameT (f k).n, V3.zero])
      (fun k => ![V3.cross ((f k).p - (B (f k).bodyB).r) (frameN (f k).n), V3.cross ((f k).p - (B (f k).bodyB).r) (frameS (f k).n),
        V3.cross ((f k).p - (B (f k).bodyB).r) (frameT (f k).n), frameN (f k).n]) k i j
  simp only [Matrix.mulVec, dotProduct, hrow, Pi.zero_apply]
  apply pairRow_all
  fin_cases i <;> refine V3.ext ?_ ?_ ?_ <;> simp

theorem hinge_all (a : V3) (B : Fin N → RigidBody) (hs : List (Hinge N)) : hingeJacobian B hs *ᵥ all a = 0 := by
  funext ⟨k, i⟩
  simp only [Matrix.mulVec, dotProduct, hingeJacobian_row, Pi.zero_apply]
  apply pairRow_all
  fin_cases i <;> refine V3.ext ?_ ?_ ?_ <;> simp [M3.identity, M3.row0, M3.row1, M3.row2, V3.zero]

theorem hinges_boost (a : V3) (dt : ℝ) (s : StateStorage N) (w : World N) :
    Hinges.initialize dt (boostS a s) (World.boost a w) = Hinges.initialize dt s w := by
  have h : hingeJacobian w.bodies w.hinges *ᵥ (s.u + all a) = hingeJacobian w.bodies w.hinges *ᵥ s.u := by
    rw [Matrix.mulVec_add, hinge_all, add_zero]
  change (⟨_, _, hingeJacobian w.bodies w.hinges *ᵥ (s.u + all a) + hingeJacobian w.bodies w.hinges *ᵥ (dt • s.delta_u_ext) + hingeError w.params dt w.bodies w.hinges⟩ :
    Data w.hinges.length 5 (Vel N)) = _
  rw [h]
  rfl

theorem initK_boost (a : V3) (dt : ℝ) (s : StateStorage N) (B : Fin N → RigidBody) (p : Rigid.Params) (K : ℕ) (f : Fin K → ContactPoint N) (el mul : List ℝ) :
    initK dt (boostS a s) (boostB a B) p K f el mul = initK dt s B p K f el mul := by
  have hE : ∀ k : Fin K, contactEntries (boostB a B) k (f k) = contactEntries B k (f k) := fun k => rfl
  unfold initK
  simp only [hE]
  have h : (csr ((List.finRange K).flatMap fun k => contactEntries B k (f k)) : Matrix (Fin K × Fin 4) (Vel N) ℝ) *ᵥ (boostS a s).u =
      (csr ((List.finRange K).flatMap fun k => contactEntries B k (f k)) : Matrix (Fin K × Fin 4) (Vel N) ℝ) *ᵥ s.u := by
    change _ *ᵥ (s.u + all a) = _
    rw [Matrix.mulVec_add, contact_all, add_zero]
  rw [h]
  rfl

theorem postK_boost (a c : V3) (B : Fin N → RigidBody) (p : Rigid.Params) (K : ℕ) (f : Fin K → ContactPoint N) (C : ContactProblem N K) (s : StateStorage N) :
    postK (boostB a B) p K f C (boostS a (shiftS c s)) = (postK B p K f C s).map fun t => boostS a (shiftS c t) := by
  unfold postK
  simp only [position_update_any]
  by_cases hp : p.use_post_stabilization = true
  · rw [if_pos hp, if_pos hp]
    split_ifs with hb
    · rfl
    · cases solveAndAdd p.toParams _ 0 <;> rfl
  · rw [if_neg hp, if_neg hp]
    rfl

theorem move_boost (a : V3) (dt : ℝ) (s : StateStorage N) (B : Fin N → RigidBody) (hB : ∀ k, (B k).is_fixed = false) (d : Vel N → ℝ) :
    position_update (velocity_update (boostS a s) d) dt (boostB a B) (velocity_update (boostS a s) d).u =
      boostS a (shiftS (dt • a) (position_update (velocity_update s d) dt B (velocity_update s d).u)) := by
  have hv : velocity_update (boostS a s) d = boostS a (velocity_update s d) := by
    unfold velocity_update boostS
    dsimp only
    rw [add_right_comm]
  rw [hv]
  exact position_update_boost a (velocity_update s d) dt B hB _

theorem restK_boost (a : V3) (dt : ℝ) (s : StateStorage N) (B : Fin N → RigidBody) (hB : ∀ k, (B k).is_fixed = false) (p : Rigid.Params) (H : List (Prob (Vel N)))
    (K : ℕ) (f : Fin K → ContactPoint N) (C : ContactProblem N K) :
    restK dt (boostS a s) (boostB a B) p H K f C = (restK dt s B p H K f C).map fun t => boostS a (shiftS (dt • a) t) := by
  unfold restK
  have hd : (boostS a s).delta_u_ext = s.delta_u_ext := rfl
  rw [hd]
  cases velocityChange p.toParams ([C.data.problem (contactProx Prox.prox_sphere C.mu)] ++ H) (dt • s.delta_u_ext) with
  | error e => rfl
  | ok d =>
    simp only [Bind.bind, Except.bind]
    rw [move_boost a dt s B hB, postK_boost]

theorem afterCD_boost (a : V3) (dt : ℝ) (s : StateStorage N) (w : World N) (hB : ∀ k, (w.bodies k).is_fixed = false) :
    afterCD dt (boostS a s) (World.boost a w) = (afterCD dt s w).map fun t => boostS a (shiftS (dt • a) t) := by
  have hH := hinges_boost a dt s w
  have hd : (boostS a s).delta_u_ext = s.delta_u_ext := rfl
  have hp : (World.boost a w).params = w.params := rfl
  have hb : (World.boost a w).bodies = boostB a w.bodies := rfl
  have hc : (World.boost a w).contact_points = w.contact_points := rfl
  have hs : (World.boost a w).surfaces_interactions = w.surfaces_interactions := rfl
  have e : (open Classical in (if (World.boost a w).hinges = [] then ([] : List (Prob (Vel N))) else [(Hinges.initialize dt (boostS a s) (World.boost a w)).problem freeProx])) =
      (open Classical in if w.hinges = [] then [] else [(Hinges.initialize dt s w).problem freeProx]) := by
    rw [← hH]
    rfl
  by_cases h : w.contact_points = []
  · rw [afterCD_nil _ _ _ h, afterCD_nil _ _ (World.boost a w) h, e, hd, hp, hb]
    cases velocityChange w.params.toParams _ (dt • s.delta_u_ext) with
    | error e => rfl
    | ok d =>
      simp only [Bind.bind, Except.bind]
      rw [move_boost a dt s w.bodies hB]
      rfl
  · rw [afterCD_cons _ _ _ h, afterCD_cons _ _ (World.boost a w) h, e, hp, hb, hs]
    have hf : frictionVector w.surfaces_interactions (boostB a w.bodies) (World.boost a w).contact_points =
      frictionVector w.surfaces_interactions w.bodies w.contact_points := rfl
    have hr : restitutionVector w.surfaces_interactions w.params (boostB a w.bodies) (World.boost a w).contact_points =
      restitutionVector w.surfaces_interactions w.params w.bodies w.contact_points := rfl
    rw [hf, hr]
    cases restitutionVector w.surfaces_interactions w.params w.bodies w.contact_points with
    | error e => rfl
    | ok el =>
      cases frictionVector w.surfaces_interactions w.bodies w.contact_points with
      | error e => rfl
      | ok mul =>
        simp only [Bind.bind, Except.bind]
        change restK dt (boostS a s) (boostB a w.bodies) w.params _ w.contact_points.length w.contact_points.get
          (initK dt (boostS a s) (boostB a w.bodies) w.params w.contact_points.length w.contact_points.get el mul) = _
        rw [initK_boost, restK_boost a dt s w.bodies hB]

end Galilean

open Translation Galilean

/-- **C133.** A velocity common to all bodies has no effect on what happens between them: if no body is fixed and only gravity acts, a step from the world where every body
moves faster by `a` gives the same bodies with velocities larger by `a` and positions larger by `dt a` (orientations, spins and contact points the same), or raises the same
exception. -/
theorem C133_step {cd : World N → Except PyErr (List (ContactPoint N))} {a : V3} (hcd : CDIgnoresVelocity cd a) (dt : ℝ) {w : World N} (hw : FreeWorld w) :
    step cd dt (World.boost a w) = (step cd dt w).map fun w' =>
      { w' with bodies := fun k => { w'.bodies k with v := (w'.bodies k).v + a, r := (w'.bodies k).r + dt • a } } := by
  rw [step_eq, step_eq]
  have hb : (World.boost a w).bodies = boostB a w.bodies := rfl
  rw [hcd w, hb, copy_from_boost a w.bodies fun k => (hw k).2]
  cases copy_from_engine w.bodies with
  | error e => rfl
  | ok s =>
    cases cd w with
    | error e => rfl
    | ok cps =>
      have h := afterCD_boost a dt s { w with contact_points := cps } fun k => (hw k).1
      change (afterCD dt (boostS a s) (World.boost a { w with contact_points := cps }) >>= _) = _
      rw [h]
      simp only [Bind.bind, Except.bind]
      cases afterCD dt s { w with contact_points := cps } with
      | error e => rfl
      | ok t =>
        simp only [Except.map, pure, Except.pure]
        rw [copy_to_boost]
        rfl

end Verif
