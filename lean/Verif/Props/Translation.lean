import Verif.Model.RigidStep
import Verif.Lemmas.While
import Mathlib.Data.List.OfFn
import Mathlib.Tactic.Ring
import Mathlib.Tactic.FinCases

/-! C131: the simulation of rigid bodies does not depend on where the origin is. -/

namespace Verif

open Rigid ProxSolver Matrix

variable {N : ℕ}

/-- The body moved by `c`. -/
def Rigid.RigidBody.shift (c : V3) (b : RigidBody) : RigidBody := { b with r := b.r + c }

/-- The contact point moved by `c`. -/
def Rigid.ContactPoint.shift (c : V3) (p : ContactPoint N) : ContactPoint N := { p with p := p.p + c }

/-- The world moved by `c`: all bodies and contact points. -/
def Rigid.World.shift (c : V3) (w : World N) : World N :=
  { w with bodies := fun k => RigidBody.shift c (w.bodies k), contact_points := w.contact_points.map (ContactPoint.shift c) }

/-- The collision detection does not depend on where the origin is. -/
def CDShifts (cd : World N → Except PyErr (List (ContactPoint N))) (c : V3) : Prop :=
  ∀ w, cd (World.shift c w) = (cd w).map fun cps => cps.map (ContactPoint.shift c)

namespace Translation

def seven3 (c : V3) : Fin 7 → ℝ := ![c.x, c.y, c.z, 0, 0, 0, 0]

def shiftS (c : V3) (s : StateStorage N) : StateStorage N := { s with x := fun i => s.x i + seven3 c i.2 }

abbrev shiftB (c : V3) (B : Fin N → RigidBody) : Fin N → RigidBody := fun k => RigidBody.shift c (B k)

theorem xq_shift (c : V3) (x : Pos N → ℝ) (k : Fin N) : xq (fun i => x i + seven3 c i.2) k = xq x k := by
  unfold xq seven3
  simp

theorem xr_shift (c : V3) (x : Pos N → ℝ) (k : Fin N) : xr (fun i => x i + seven3 c i.2) k = xr x k + c := by
  unfold xr seven3
  refine V3.ext ?_ ?_ ?_ <;> simp

theorem position_shift (c : V3) (B : Fin N → RigidBody) : get_position_vector (shiftB c B) = fun i => get_position_vector B i + seven3 c i.2 := by
  funext ⟨k, i⟩
  fin_cases i <;> simp [get_position_vector, seven, seven3, RigidBody.shift]

theorem compute_shift (c : V3) (f : ForceKind) (b : RigidBody) (v w : V3) : f.compute (RigidBody.shift c b) v w = f.compute b v w := by
  cases f <;> rfl

theorem bodyForce_shift (c : V3) (b : RigidBody) (q : Quat) (v w : V3) : bodyForce (RigidBody.shift c b) q v w = bodyForce b q v w := by
  unfold bodyForce
  simp only [compute_shift]
  rfl

theorem copy_from_shift (c : V3) (B : Fin N → RigidBody) : copy_from_engine (shiftB c B) = (copy_from_engine B).map (shiftS c) := by
  have hx := position_shift c B
  have hu : get_velocity_vector (shiftB c B) = get_velocity_vector B := rfl
  have hf : ∀ x u, compute_total_external_forces (shiftB c B) (fun i => x i + seven3 c i.2) u = compute_total_external_forces B x u := by
    intro x u
    funext i
    unfold compute_total_external_forces
    simp only [xq_shift, bodyForce_shift]
    rfl
  have hW : ∀ x, compute_inverse_mass_matrix (shiftB c B) (fun i => x i + seven3 c i.2) = compute_inverse_mass_matrix B x := by
    intro x
    unfold compute_inverse_mass_matrix
    simp only [xq_shift]
    rfl
  unfold copy_from_engine
  dsimp only
  rw [hx, hu, hf, hW]
  cases compute_inverse_mass_matrix B (get_position_vector B) <;> rfl

theorem position_update_shift (c : V3) (s : StateStorage N) (dt : ℝ) (B : Fin N → RigidBody) (u : Vel N → ℝ) :
    position_update (shiftS c s) dt (shiftB c B) u = shiftS c (position_update s dt B u) := by
  unfold position_update shiftS
  dsimp only
  congr 1
  funext ⟨k, i⟩
  have hfix : (RigidBody.shift c (B k)).is_fixed = (B k).is_fixed := rfl
  simp only [xq_shift, xr_shift, shiftB, hfix]
  by_cases h : (B k).is_fixed = true
  · rw [if_pos h, if_pos h]
  · rw [if_neg h, if_neg h]
    fin_cases i <;> simp [seven, seven3]
    all_goals ring

theorem copy_to_shift (c : V3) (s : StateStorage N) (B : Fin N → RigidBody) :
    copy_to_engine (shiftS c s) (shiftB c B) = shiftB c (copy_to_engine s B) := by
  funext k
  unfold copy_to_engine shiftS
  dsimp only
  rw [xq_shift, xr_shift]
  rfl

theorem contactEntries_shift (c : V3) (B : Fin N → RigidBody) {K : ℕ} (k : Fin K) (p : ContactPoint N) :
    contactEntries (shiftB c B) k (ContactPoint.shift c p) = contactEntries B k p := by
  have h : ∀ r : V3, p.p + c - (r + c) = p.p - r := fun r => by refine V3.ext ?_ ?_ ?_ <;> simp
  unfold contactEntries
  simp only [shiftB, RigidBody.shift, ContactPoint.shift, h]

theorem hingeError_shift (p : Rigid.Params) (dt : ℝ) (c : V3) (B : Fin N → RigidBody) (hs : List (Hinge N)) :
    hingeError p dt (shiftB c B) hs = hingeError p dt B hs := by
  have h : ∀ a b r s : V3, a + (r + c) - (b + (s + c)) = a + r - (b + s) := fun a b r s => by refine V3.ext ?_ ?_ ?_ <;> simp <;> ring
  have hg : ∀ k, hingeGap (shiftB c B) k = hingeGap B k := by
    intro k
    unfold hingeGap
    simp only [shiftB, RigidBody.shift, h]
  unfold hingeError
  simp only [hg]

theorem hinges_shift (c : V3) (dt : ℝ) (s : StateStorage N) (w : World N) (L : List (ContactPoint N)) :
    Hinges.initialize dt (shiftS c s) { w with bodies := shiftB c w.bodies, contact_points := L } = Hinges.initialize dt s w := by
  unfold Hinges.initialize
  dsimp only
  rw [hingeError_shift]
  rfl

/-- `Contacts.initialize` for contact points given by a function. -/
noncomputable def initK (dt : ℝ) (s : StateStorage N) (B : Fin N → RigidBody) (p : Rigid.Params) (K : ℕ) (f : Fin K → ContactPoint N)
    (el mul : List ℝ) : ContactProblem N K :=
  let J : Matrix (Fin K × Fin 4) (Vel N) ℝ := csr ((List.finRange K).flatMap fun k => contactEntries B k (f k))
  let v := J *ᵥ s.u
  let g : Fin K × Fin 4 → ℝ := open Classical in
    if p.use_pre_stabilization = false then 0
    else fun i => if i.2 = 0 ∧ (f i.1).g < -p.min_gap_value ∧ v (i.1, 0) ≤ 0 then max (-p.max_gap_value / dt) (p.gap_reduction / dt * (f i.1).g) else 0
  let e : Fin K × Fin 4 → ℝ := fun i => if i.2 = 0 then el.getD i.1 0 else 0
  ⟨⟨J, s.W * Jᵀ, (1 + e) * v + J *ᵥ (dt • s.delta_u_ext) + g⟩, g, e, fun k => mul.getD k 0⟩

theorem initialize_eq (dt : ℝ) (s : StateStorage N) (w : World N) : Contacts.initialize dt s w = (do
    let el ← restitutionVector w.surfaces_interactions w.params w.bodies w.contact_points
    let mul ← frictionVector w.surfaces_interactions w.bodies w.contact_points
    return initK dt s w.bodies w.params w.contact_points.length w.contact_points.get el mul) := rfl

theorem initK_shift (c : V3) (dt : ℝ) (s : StateStorage N) (B : Fin N → RigidBody) (p : Rigid.Params) (K : ℕ) (f : Fin K → ContactPoint N) (el mul : List ℝ) :
    initK dt (shiftS c s) (shiftB c B) p K (fun k => ContactPoint.shift c (f k)) el mul = initK dt s B p K f el mul := by
  unfold initK
  simp only [contactEntries_shift]
  rfl

theorem friction_shift (c : V3) (S : SurfacesInteractionLibrary) (B : Fin N → RigidBody) (L : List (ContactPoint N)) :
    frictionVector S (shiftB c B) (L.map (ContactPoint.shift c)) = frictionVector S B L := by
  unfold frictionVector
  rw [List.mapM_map]
  rfl

theorem restitution_shift (c : V3) (S : SurfacesInteractionLibrary) (p : Rigid.Params) (B : Fin N → RigidBody) (L : List (ContactPoint N)) :
    restitutionVector S p (shiftB c B) (L.map (ContactPoint.shift c)) = restitutionVector S p B L := by
  unfold restitutionVector
  rw [List.mapM_map, List.map_map]
  rfl

open Classical in
/-- The stabilisation for contact points given by a function. -/
noncomputable def postK (B : Fin N → RigidBody) (p : Rigid.Params) (K : ℕ) (f : Fin K → ContactPoint N) (C : ContactProblem N K) (s : StateStorage N) :
    Except PyErr (StateStorage N) :=
  if p.use_post_stabilization then (do
    let P : Data K 4 (Vel N) := { C.data with b := fun i => if i.2 = 0 ∧ (f i.1).g < -p.min_gap_value then (f i.1).g else 0 }
    if P.b = 0 then return s
    else
      let delta_r ← solveAndAdd p.toParams [P.problem normalProx] 0
      return position_update s 1.0 B delta_r)
  else .ok s

theorem stabilized_eq (w : World N) (C : ContactProblem N w.contact_points.length) (s : StateStorage N) :
    stabilized w (some C) s = postK w.bodies w.params w.contact_points.length w.contact_points.get C s := rfl

/-- The rest of a step for contact points given by a function. -/
noncomputable def restK (dt : ℝ) (s : StateStorage N) (B : Fin N → RigidBody) (p : Rigid.Params) (H : List (Prob (Vel N))) (K : ℕ) (f : Fin K → ContactPoint N)
    (C : ContactProblem N K) : Except PyErr (StateStorage N) := do
  let delta_u ← velocityChange p.toParams ([C.data.problem (contactProx Prox.prox_sphere C.mu)] ++ H) (dt • s.delta_u_ext)
  let s := velocity_update s delta_u
  let s := position_update s dt B s.u
  postK B p K f C s

theorem postK_shift (c : V3) (B : Fin N → RigidBody) (p : Rigid.Params) (K : ℕ) (f : Fin K → ContactPoint N) (C : ContactProblem N K) (s : StateStorage N) :
    postK (shiftB c B) p K (fun k => ContactPoint.shift c (f k)) C (shiftS c s) = (postK B p K f C s).map (shiftS c) := by
  unfold postK
  simp only [position_update_shift]
  change (if p.use_post_stabilization = true then (do
    let P : Data K 4 (Vel N) := { C.data with b := fun i => if i.2 = 0 ∧ (f i.1).g < -p.min_gap_value then (f i.1).g else 0 }
    if P.b = 0 then return (shiftS c s)
    else
      let delta_r ← solveAndAdd p.toParams [P.problem normalProx] 0
      return shiftS c (position_update s 1.0 B delta_r)) else _) = _
  by_cases hp : p.use_post_stabilization = true
  · rw [if_pos hp, if_pos hp]
    dsimp only
    split_ifs with hb
    · rfl
    · cases solveAndAdd p.toParams _ 0 <;> rfl
  · rw [if_neg hp, if_neg hp]
    rfl

theorem restK_shift (c : V3) (dt : ℝ) (s : StateStorage N) (B : Fin N → RigidBody) (p : Rigid.Params) (H : List (Prob (Vel N))) (K : ℕ) (f : Fin K → ContactPoint N)
    (C : ContactProblem N K) :
    restK dt (shiftS c s) (shiftB c B) p H K (fun k => ContactPoint.shift c (f k)) C = (restK dt s B p H K f C).map (shiftS c) := by
  unfold restK
  have hd : (shiftS c s).delta_u_ext = s.delta_u_ext := rfl
  rw [hd]
  cases velocityChange p.toParams ([C.data.problem (contactProx Prox.prox_sphere C.mu)] ++ H) (dt • s.delta_u_ext) with
  | error e => rfl
  | ok d =>
    have hv : velocity_update (shiftS c s) d = shiftS c (velocity_update s d) := rfl
    change postK (shiftB c B) p K (fun k => ContactPoint.shift c (f k)) C (position_update (velocity_update (shiftS c s) d) dt (shiftB c B) _) = _
    rw [hv, position_update_shift, postK_shift]
    rfl

/-- What a step does after the collision detection. -/
noncomputable def afterCD (dt : ℝ) (s : StateStorage N) (w : World N) : Except PyErr (StateStorage N) := do
  let C ← contactProblem dt s w
  let delta_u ← velocityChange w.params.toParams (problemList dt s w C) (dt • s.delta_u_ext)
  let s := velocity_update s delta_u
  let s := position_update s dt w.bodies s.u
  stabilized w C s

theorem step_eq (cd : World N → Except PyErr (List (ContactPoint N))) (dt : ℝ) (w : World N) : step cd dt w = (do
    let s ← copy_from_engine w.bodies
    let cps ← cd w
    let t ← afterCD dt s { w with contact_points := cps }
    return { w with contact_points := cps, bodies := copy_to_engine t w.bodies }) := by
  unfold step afterCD
  cases copy_from_engine w.bodies with
  | error e => rfl
  | ok s =>
    simp only [Bind.bind, Except.bind]
    cases cd w with
    | error e => rfl
    | ok cps =>
      simp only
      cases contactProblem dt s { w with contact_points := cps } with
      | error e => rfl
      | ok C =>
        simp only
        cases velocityChange w.params.toParams (problemList dt s { w with contact_points := cps } C) (dt • s.delta_u_ext) <;> rfl

open Classical in
theorem afterCD_nil (dt : ℝ) (s : StateStorage N) (w : World N) (h : w.contact_points = []) : afterCD dt s w = (do
    let delta_u ← velocityChange w.params.toParams (if w.hinges = [] then [] else [(Hinges.initialize dt s w).problem freeProx]) (dt • s.delta_u_ext)
    let s := velocity_update s delta_u
    .ok (position_update s dt w.bodies s.u)) := by
  unfold afterCD contactProblem
  rw [if_pos h]
  rfl

open Classical in
theorem afterCD_cons (dt : ℝ) (s : StateStorage N) (w : World N) (h : w.contact_points ≠ []) : afterCD dt s w = (do
    let el ← restitutionVector w.surfaces_interactions w.params w.bodies w.contact_points
    let mul ← frictionVector w.surfaces_interactions w.bodies w.contact_points
    restK dt s w.bodies w.params (if w.hinges = [] then [] else [(Hinges.initialize dt s w).problem freeProx]) w.contact_points.length w.contact_points.get
      (initK dt s w.bodies w.params w.contact_points.length w.contact_points.get el mul)) := by
  unfold afterCD contactProblem
  rw [if_neg h, initialize_eq]
  cases restitutionVector w.surfaces_interactions w.params w.bodies w.contact_points with
  | error e => rfl
  | ok el =>
    cases frictionVector w.surfaces_interactions w.bodies w.contact_points with
    | error e => rfl
    | ok mul => rfl

theorem sigma_map (g : ContactPoint N → ContactPoint N) (L : List (ContactPoint N)) :
    (⟨(L.map g).length, (L.map g).get⟩ : Σ n, Fin n → ContactPoint N) = ⟨L.length, fun k => g (L.get k)⟩ := by
  rw [← List.ofFn_inj', List.ofFn_get]
  conv_lhs => rw [← List.ofFn_get L]
  rw [List.map_ofFn]
  rfl

theorem afterCD_shift (c : V3) (dt : ℝ) (s : StateStorage N) (w : World N) :
    afterCD dt (shiftS c s) (World.shift c w) = (afterCD dt s w).map (shiftS c) := by
  have hH := hinges_shift c dt s w (w.contact_points.map (ContactPoint.shift c))
  have hH' : (Hinges.initialize dt (shiftS c s) (World.shift c w)) = Hinges.initialize dt s w := hH
  have hd : (shiftS c s).delta_u_ext = s.delta_u_ext := rfl
  have hh : (World.shift c w).hinges = w.hinges := rfl
  have hp : (World.shift c w).params = w.params := rfl
  have hb : (World.shift c w).bodies = shiftB c w.bodies := rfl
  have hc : (World.shift c w).contact_points = w.contact_points.map (ContactPoint.shift c) := rfl
  have hs : (World.shift c w).surfaces_interactions = w.surfaces_interactions := rfl
  by_cases h : w.contact_points = []
  · rw [afterCD_nil _ _ _ h, afterCD_nil _ _ (World.shift c w) (by rw [hc, h]; rfl)]
    have e : (open Classical in (if (World.shift c w).hinges = [] then ([] : List (Prob (Vel N))) else [(Hinges.initialize dt (shiftS c s) (World.shift c w)).problem freeProx])) =
        (open Classical in if w.hinges = [] then [] else [(Hinges.initialize dt s w).problem freeProx]) := by
      rw [← hH']
      rfl
    rw [e, hd, hp, hb]
    cases velocityChange w.params.toParams _ (dt • s.delta_u_ext) with
    | error e => rfl
    | ok d =>
      have hv : velocity_update (shiftS c s) d = shiftS c (velocity_update s d) := rfl
      change Except.ok (position_update (velocity_update (shiftS c s) d) dt (shiftB c w.bodies) _) = _
      rw [hv, position_update_shift]
      rfl
  · rw [afterCD_cons _ _ _ h, afterCD_cons _ _ (World.shift c w) (by rw [hc]; simpa using h)]
    have e : (open Classical in (if (World.shift c w).hinges = [] then ([] : List (Prob (Vel N))) else [(Hinges.initialize dt (shiftS c s) (World.shift c w)).problem freeProx])) =
        (open Classical in if w.hinges = [] then [] else [(Hinges.initialize dt s w).problem freeProx]) := by
      rw [← hH']
      rfl
    rw [e, hp, hb, hs, hc, friction_shift, restitution_shift]
    cases restitutionVector w.surfaces_interactions w.params w.bodies w.contact_points with
    | error e => rfl
    | ok el =>
      cases frictionVector w.surfaces_interactions w.bodies w.contact_points with
      | error e => rfl
      | ok mul =>
        simp only [Bind.bind, Except.bind]
        have hG := congrArg (fun q : Σ n, Fin n → ContactPoint N => restK dt (shiftS c s) (shiftB c w.bodies) w.params
          (open Classical in if w.hinges = [] then [] else [(Hinges.initialize dt s w).problem freeProx]) q.1 q.2
          (initK dt (shiftS c s) (shiftB c w.bodies) w.params q.1 q.2 el mul)) (sigma_map (ContactPoint.shift c) w.contact_points)
        refine hG.trans ?_
        dsimp only
        rw [initK_shift, restK_shift]

end Translation

open Translation

/-- **C131.** Moving the origin changes nothing: if the collision detection does not depend on it, a step from a world moved by any `c` gives the same world moved by `c`
(all velocities and orientations the same), or raises the same exception. -/
theorem C131_step {cd : World N → Except PyErr (List (ContactPoint N))} {c : V3} (hcd : CDShifts cd c) (dt : ℝ) (w : World N) :
    step cd dt (World.shift c w) = (step cd dt w).map (World.shift c) := by
  rw [step_eq, step_eq]
  have hb : (World.shift c w).bodies = shiftB c w.bodies := rfl
  rw [hcd w, hb, copy_from_shift]
  cases copy_from_engine w.bodies with
  | error e => rfl
  | ok s =>
    cases cd w with
    | error e => rfl
    | ok cps =>
      have h := afterCD_shift c dt s { w with contact_points := cps }
      change (afterCD dt (shiftS c s) (World.shift c { w with contact_points := cps }) >>= _) = _
      rw [h]
      simp only [Bind.bind, Except.bind]
      cases afterCD dt s { w with contact_points := cps } with
      | error e => rfl
      | ok t =>
        simp only [Except.map, pure, Except.pure]
        rw [copy_to_shift]
        rfl

/-- **C131.** The same for a whole simulation. -/
theorem C131_simulate {cd : World N → Except PyErr (List (ContactPoint N))} {c : V3} (hcd : CDShifts cd c) (w : World N) (T : ℝ) :
    simulate (some (step cd)) (World.shift c w) T = (simulate (some (step cd)) w T).map (World.shift c) := by
  unfold simulate
  split_ifs with hT
  · rfl
  · have h := whileLoop_forget (simTrip (step cd)) (simTrip (step cd)) (fun s : World N × ℝ => (World.shift c s.1, s.2)) (by
      rintro ⟨w, t⟩
      unfold simTrip
      dsimp only
      split_ifs with ht
      · rfl
      · have hp : (World.shift c w).params = w.params := rfl
        rw [hp, C131_step hcd]
        cases step cd (min t w.params.time_step) w <;> rfl) (w, T)
    dsimp only at h ⊢
    rw [← h]
    cases whileLoop (simTrip (step cd)) (w, T) <;> rfl

/-- A collision detection that finds nothing does not depend on the origin: the hypothesis can be met. -/
example (c : V3) : CDShifts (N := N) (fun _ => .ok []) c := fun _ => rfl

end Verif
