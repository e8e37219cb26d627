import Verif.Props.SoftSim

/-! C74: what the calls of the soft body API do, and when a step cannot succeed. -/

namespace Verif

open Soft Mech Soft.Engine

/-! ### Setters -/

/-- **C74** (Dirichlet conditions select a region). `create_dirichlet_conditions` pins, in addition to what was pinned, exactly the nodes with phi ≤ 0 at
their undeformed position; nothing else of the engine changes. -/
theorem C74_dirichlet_selects {e : Soft.Engine} {k : String} {b : SoftBody} (hb : HasBody e k b) (phi : V3 → ℝ) :
    ∃ ds, create_dirichlet_conditions e k phi = .ok (e.putBody k { b with dirichlet_conditions := ds }) ∧
      ∀ a p, (a, p) ∈ ds ↔ (a, p) ∈ b.dirichlet_conditions ∨ (phi (b.x0 a) ≤ 0 ∧ p = b.x0 a) := by
  refine ⟨dirichletLoop b.x0 phi b.dirichlet_conditions, ?_, fun a p => ?_⟩
  · unfold create_dirichlet_conditions
    rw [hasBody_findBody hb]
    rfl
  · rw [dirichletLoop_mem]
    simp only [List.mem_append, List.mem_map, List.mem_filter, List.mem_finRange, true_and, decide_eq_true_eq, Prod.mk.injEq]
    constructor
    · rintro (h | ⟨i, h1, rfl, rfl⟩)
      · exact .inl h
      · exact .inr ⟨h1, rfl⟩
    · rintro (h | ⟨h1, rfl⟩)
      · exact .inl h
      · exact .inr ⟨a, h1, rfl, rfl⟩

/-- **C74** (traction conditions select a region). `create_traction_conditions` loads, in addition to what was loaded, exactly the surface triangles with
phi ≤ 0 at all three undeformed corners. -/
theorem C74_traction_selects {e : Soft.Engine} {k : String} {b : SoftBody} (hb : HasBody e k b) (phi : V3 → ℝ) (load : V3) :
    ∃ ts, create_traction_conditions e k phi load = .ok (e.putBody k { b with traction_conditions := ts }) ∧
      ∀ t, t ∈ ts ↔ t ∈ b.traction_conditions ∨ ((t.i, t.j, t.k) ∈ b.surface ∧ t.traction = load ∧
        phi (b.x0 t.i) ≤ 0 ∧ phi (b.x0 t.j) ≤ 0 ∧ phi (b.x0 t.k) ≤ 0) := by
  refine ⟨tractionLoop b.x0 b.surface phi load b.traction_conditions, ?_, fun t => ?_⟩
  · unfold create_traction_conditions
    rw [hasBody_findBody hb]
    rfl
  · rw [tractionLoop_mem]
    simp only [List.mem_append, List.mem_map, List.mem_filter, decide_eq_true_eq]
    constructor
    · rintro (h | ⟨i, ⟨h1, h2⟩, rfl⟩)
      · exact .inl h
      · exact .inr ⟨h1, rfl, h2⟩
    · rintro (h | ⟨h1, rfl, h2⟩)
      · exact .inl h
      · exact .inr ⟨_, ⟨h1, h2⟩, rfl⟩

/-- **C74** (frame of the body calls). Changing one body leaves all other bodies, the materials, interactions, parameters and the node numbering alone; the body
itself is the given one afterwards. -/
theorem C74_put_body (e : Soft.Engine) (k : String) (b : SoftBody) :
    HasBody (e.putBody k b) k b ∧ (∀ k' c, k' ≠ k → (HasBody (e.putBody k b) k' c ↔ HasBody e k' c)) ∧
    (e.putBody k b).materials = e.materials ∧ (e.putBody k b).surfaces_interactions = e.surfaces_interactions ∧
    (e.putBody k b).params = e.params ∧ (e.putBody k b).number_of_nodes = e.number_of_nodes ∧ (e.putBody k b).stepper = e.stepper := by
  refine ⟨Dict.get?_setItem_self _ _ _, fun k' c hk => ?_, rfl, rfl, rfl, rfl, rfl⟩
  unfold HasBody Engine.putBody
  simp only
  rw [Dict.get?_setItem, if_neg hk]

/-- **C74** (interactions are symmetric). The friction coefficient does not depend on the order of the two materials, and a new
interaction is found afterwards. -/
theorem C74_interaction {e e' : Soft.Engine} {A B : String} {mu : ℝ} (h : create_surfaces_interaction e A B mu = .ok e') :
    (∀ C D, e.get_interaction C D = e.get_interaction D C) ∧ e'.get_interaction A B = some mu ∧ e'.get_interaction B A = some mu ∧
    e.get_interaction A B = none ∧ 0 ≤ mu := by
  have hsymm : ∀ C D, interactionKey C D = interactionKey D C := by
    intro C D
    unfold interactionKey
    by_cases h : C < D
    · rw [if_pos h, if_neg (String.lt_asymm h)]
    · by_cases h' : D < C
      · rw [if_neg h, if_pos h']
      · rw [String.le_antisymm h' h]
  have hs : ∀ (e : Soft.Engine) C D, e.get_interaction C D = e.get_interaction D C := by
    intro e C D
    unfold get_interaction
    rw [hsymm]
  unfold create_surfaces_interaction at h
  split_ifs at h with h1 h2 h3 h4
  injection h with h
  have hg : e'.get_interaction A B = some mu := by
    rw [← h]
    unfold get_interaction
    exact Dict.get?_setItem_self _ _ _
  refine ⟨hs e, hg, by rw [hs]; exact hg, ?_, ?_⟩
  · unfold get_interaction
    unfold exist_interaction at h3
    exact (Dict.get?_eq_none _ _).2 (by simpa using h3)
  · norm_num at h4; exact h4

/-! ### When a step succeeds -/

theorem gather_exists (B : List SoftBody) (g : (b : SoftBody) → Except PyErr (Fin b.n → V3)) (hg : ∀ b ∈ B, ∃ f, g b = .ok f) (y0 : ℕ → V3) :
    ∃ R, B.foldlM (fun y b => do
      let f ← g b
      return writeSlice y b.offset f) y0 = .ok R := by
  induction B generalizing y0 with
  | nil => exact ⟨y0, rfl⟩
  | cons b B ih =>
    obtain ⟨f, hf⟩ := hg b (List.mem_cons_self ..)
    rw [List.foldlM_cons, hf]
    exact ih (fun c hc => hg c (List.mem_cons_of_mem _ hc)) _

/-- The total of the forces exists if those of every body do. -/
theorem totalForces_exists {e : Soft.Engine} (hok : SoftOk e) {B : List SoftBody} (hB : bodyList e = .ok B)
    (hF : ∀ k b, HasBody e k b → ∃ f, IsForce e b (pinnedX b) (pinnedU b) f) :
    ∃ F, totalForces e B (apply_boundary_conditions_on_positions (get_position_vector B) B)
      (apply_boundary_conditions_on_velocities (get_velocity_vector B) B) = .ok F := by
  generalize hx : apply_boundary_conditions_on_positions (get_position_vector B) B = x
  generalize hu : apply_boundary_conditions_on_velocities (get_velocity_vector B) B = u
  have hall : ∀ b ∈ B, ∃ f, IsForce e b (readSlice b.n x b.offset) (readSlice b.n u b.offset) f := by
    intro b hb
    obtain ⟨k, hk⟩ := (mem_bodyList hok.nodup hB b).1 hb
    obtain ⟨f, hf⟩ := hF k b hk
    rw [← readSlice_pinnedX hok hB hk, ← readSlice_pinnedU hok hB hk] at hf
    rw [← hx, ← hu]
    exact ⟨f, hf⟩
  obtain ⟨Fe, hFe⟩ := gather_exists B (bodyElastic e x) (fun b hb => by
    obtain ⟨f, m, F, lam, mu, Fe, C, hm, hF, hl, hmu, hFe, hC, -⟩ := hall b hb
    refine ⟨Fe, ?_⟩
    unfold bodyElastic
    simp only [bind, Except.bind]
    rw [hF, hm]
    simp only
    rw [hl]
    simp only
    rw [hmu]
    exact hFe) (fun _ => V3.zero)
  obtain ⟨Fd, hFd⟩ := gather_exists B (fun b => do
    let C_array ← getArray b.C_array
    return Soft.compute_damping_forces b.T C_array (readSlice b.n u b.offset)) (fun b hb => by
    obtain ⟨f, m, F, lam, mu, Fe, C, hm, hF, hl, hmu, hFe, hC, -⟩ := hall b hb
    rw [hC]
    exact ⟨_, rfl⟩) (fun _ => V3.zero)
  obtain ⟨Fg, hFg⟩ := gather_exists B (fun b => do
    let m ← material e b
    return compute_gravity_forces b.T b.vol0 m.rho b.gravity) (fun b hb => by
    obtain ⟨f, m, F, lam, mu, Fe, C, hm, hF, hl, hmu, hFe, hC, -⟩ := hall b hb
    rw [hm]
    exact ⟨_, rfl⟩) (fun _ => V3.zero)
  have hFd' : global_damping_forces B u = .ok Fd := by
    rw [← hFd]
    unfold global_damping_forces
    congr 1
    funext y c
    simp only [bind, Except.bind]
    cases getArray c.C_array <;> rfl
  have hFg' : global_external_forces e B = .ok Fg := by
    rw [← hFg]
    unfold global_external_forces
    congr 1
    funext y c
    simp only [bind, Except.bind]
    cases material e c <;> rfl
  have hFe' : global_elastic_forces e B x = .ok Fe := hFe
  unfold totalForces
  rw [hFe', hFd', hFg']
  exact ⟨_, rfl⟩

/-- **C74** (when a step without contacts succeeds). If collision detection reports no contacts, a step of a consistent engine whose bodies are all finished
succeeds exactly when the stepper was made for the present number of nodes and the forces of every body are defined. -/
theorem C74_step_succeeds {P : Plugins} {W : ℕ × (ℕ → ℕ → ℝ)} {dt : ℝ} {e : Soft.Engine} (hok : SoftOk e) {B : List SoftBody}
    (hB : bodyList e = .ok B) (hd : P.detect e = .ok []) :
    (∃ e', Soft.step P W dt e = .ok e') ↔ W.1 = e.number_of_nodes * 3 ∧
      ∀ k b, HasBody e k b → ∃ f, IsForce e b (pinnedX b) (pinnedU b) f := by
  constructor
  · rintro ⟨e', h⟩
    obtain ⟨D⟩ := softStep_ok h
    refine ⟨D.hW, fun k b hb => ?_⟩
    have := totalForces_body hok D.hB D.hF hb
    rw [readSlice_pinnedX hok D.hB hb, readSlice_pinnedU hok D.hB hb] at this
    exact ⟨_, this⟩
  · rintro ⟨hW, hF⟩
    have hfor := totalForces_exists hok hB hF
    obtain ⟨F, hF⟩ := hfor
    unfold Soft.step
    simp only [bind, Except.bind]
    rw [hB]
    simp only
    rw [hF]
    simp only
    unfold applyW
    rw [if_pos hW]
    simp only
    rw [hd]
    simp only
    have hpost : ∀ e1 : Soft.Engine, e1.contact_points = [] → postStep e1 = .ok e1 := by
      intro e1 h1
      unfold postStep
      rw [h1]
      simp
    have hcv : ∀ (e1 : Soft.Engine) V up, e1.contact_points = [] → contactVelocity P e1 V up = .ok fun _ => 0 := by
      intro e1 V up h1
      unfold contactVelocity
      rw [h1]
      simp
    rw [hcv _ _ _ rfl]
    simp only
    rw [hpost _ rfl]
    exact ⟨_, rfl⟩

/-! ### When it cannot -/

/-- **C74** (late bodies). Once the stepper exists, an engine whose number of nodes no longer fits it can never be simulated again: every `simulate` fails.
In particular adding a body with at least one node after the first `simulate` makes all further calls fail. -/
theorem C74_late_body {P : Plugins} {e : Soft.Engine} {W : ℕ × (ℕ → ℕ → ℝ)} (hs : e.stepper = some W)
    (hW : W.1 ≠ e.number_of_nodes * 3) (T : ℝ) : ∀ e', Soft.simulate P e T ≠ .ok e' := by
  intro e' h
  obtain ⟨W', dt, e1, hg, hI, hst⟩ := simulate_last h (fun e1 => e1.number_of_nodes = e.number_of_nodes) (fun _ _ => rfl)
    fun W dt e e' hI hst => ((C76_frame hst).1.nodes).trans hI
  unfold getStepper at hg
  rw [hs] at hg
  injection hg with hg
  obtain ⟨D⟩ := softStep_ok hst
  rw [← hg] at D
  have := D.hW
  rw [hI] at this
  exact hW this

/-- **C74** (failed bodies). `create_soft_body` with a tetrahedron that is degenerate or inverted raises RuntimeError, but leaves an unfinished body in the engine: the
name is taken (a second attempt raises RuntimeError whatever the mesh) and every later `simulate` for a positive time raises TypeError. -/
theorem C74_failed_body_poisons (e : Soft.Engine) (k : String) {n K : ℕ} (V : Fin n → V3) (Tt : Fin K → Fin 4 → Fin n)
    (surface : List (Fin n × Fin n × Fin n)) (hk : e.bodies.mem k = false) (hd : ∃ t, edgeTriple (fun a => V (Tt t a)) ≤ 0) :
    (create_soft_body e k V Tt surface).2 = some .runtimeError ∧
    (∀ {n' K' : ℕ} (V' : Fin n' → V3) (T' : Fin K' → Fin 4 → Fin n') (s' : List (Fin n' × Fin n' × Fin n')),
      create_soft_body (create_soft_body e k V Tt surface).1 k V' T' s' = ((create_soft_body e k V Tt surface).1, some .runtimeError)) ∧
    ((∀ s ∈ e.bodies.values, ∃ b, s = .ready b) → 0 < e.params.time_step → ∀ (P : Plugins) (T : ℝ), 0 < T →
      Soft.simulate P (create_soft_body e k V Tt surface).1 T = .error .typeError) := by
  have hmk : makeBody e k V Tt surface = .error .runtimeError := by
    unfold makeBody compute_inverse_D0 compute_D
    rw [if_pos hd]
    rfl
  have hc : create_soft_body e k V Tt surface = ({ e with bodies := e.bodies.setItem k .broken }, some .runtimeError) := by
    unfold create_soft_body
    rw [if_neg (by simp [hk]), hmk]
  rw [hc]
  refine ⟨rfl, ?_, ?_⟩
  · intro n' K' V' T' s'
    have hmem : (e.bodies.setItem k .broken).mem k = true := Dict.mem_iff_get?.2 ⟨_, Dict.get?_setItem_self _ _ _⟩
    unfold create_soft_body
    rw [if_pos hmem]
  · intro hall hts P T hT
    have hbl : ∀ e1 : Soft.Engine, e1.bodies = e.bodies.setItem k .broken → bodyList e1 = .error .typeError := by
      intro e1 h1
      unfold bodyList
      rw [h1]
      have hv : (e.bodies.setItem k Slot.broken).values = e.bodies.values ++ [Slot.broken] := by
        unfold Dict.setItem
        rw [hk]
        simp [Dict.values]
      rw [hv]
      have : ∀ (f : Slot → Except PyErr SoftBody), (∀ b, f (.ready b) = .ok b) → ∀ L : List Slot, (∀ s ∈ L, ∃ b, s = .ready b) →
          ∃ B, L.mapM f = .ok B := by
        intro f hf L
        induction L with
        | nil => intro _; exact ⟨[], rfl⟩
        | cons s L ih =>
          intro hL
          obtain ⟨b, rfl⟩ := hL s (List.mem_cons_self ..)
          obtain ⟨B, hB⟩ := ih fun c hc => hL c (List.mem_cons_of_mem _ hc)
          rw [List.mapM_cons, hB, hf]
          exact ⟨_, rfl⟩
      have h2 : ∀ (f : Slot → Except PyErr SoftBody), (∀ b, f (.ready b) = .ok b) → f .broken = .error .typeError →
          (e.bodies.values ++ [Slot.broken]).mapM f = .error .typeError := by
        intro f hf hbr
        obtain ⟨B, hB⟩ := this f hf _ hall
        rw [List.mapM_append, hB, List.mapM_cons, hbr]
        rfl
      exact h2 _ (fun b => rfl) rfl
    have hstep : ∀ (W : ℕ × (ℕ → ℕ → ℝ)) (dt : ℝ) (e1 : Soft.Engine), e1.bodies = e.bodies.setItem k .broken →
        Soft.step P W dt e1 = .error .typeError := by
      intro W dt e1 h1
      unfold Soft.step
      rw [hbl e1 h1]
      rfl
    set e2 : Soft.Engine := { e with bodies := e.bodies.setItem k .broken } with he2
    obtain ⟨h1, h2, -, -, -⟩ := C76_simulate P e2 hT hts
    cases hg : getStepper e2 with
    | ok W =>
      rw [h1 W hg]
      generalize hdts : List.replicate _ _ ++ _ = dts
      cases dts with
      | nil => simp at hdts
      | cons dt dts =>
        unfold softRun
        rw [hstep W dt _ rfl]
    | error err =>
      rw [h2 err hg]
      unfold getStepper at hg
      split at hg
      · cases hg
      · unfold compute_inverse_mass_matrix at hg
        rw [hbl e2 rfl] at hg
        simp only [bind, Except.bind, Except.map, Except.error.injEq] at hg
        rw [hg]

/-- No step succeeds while some body has no defined forces. -/
theorem no_force_no_step {P : Plugins} {W : ℕ × (ℕ → ℕ → ℝ)} {dt : ℝ} {e e' : Soft.Engine} (hok : SoftOk e) {k : String} {b : SoftBody}
    (hb : HasBody e k b) (hno : ∀ x u f, ¬ IsForce e b x u f) : Soft.step P W dt e ≠ .ok e' := by
  intro h
  obtain ⟨D⟩ := softStep_ok h
  exact hno _ _ _ (totalForces_body hok D.hB D.hF hb)

/-- **C74** (the default material). A body with at least one tetrahedron and the default constitutive model (corotational) can not be stepped, whatever the
contacts: `set_constitutive_model` is obligatory. -/
theorem C74_default_material_fails {P : Plugins} {W : ℕ × (ℕ → ℕ → ℝ)} {dt : ℝ} {e e' : Soft.Engine} (hok : SoftOk e) {k : String} {b : SoftBody}
    (hb : HasBody e k b) (hK : 0 < b.K) {eigh : M3 → V3 × M3} (hm : ∀ m, material e b = .ok m → m.pk1_stress = COR.pk1_stress eigh) :
    Soft.step P W dt e ≠ .ok e' := by
  refine no_force_no_step hok hb fun x u f hf => ?_
  obtain ⟨m, lam, mu, Fe, C, hm', -, -, hFe, -⟩ := isForce_elastic (hok.bodyOk hb) hf
  rw [hm m hm'] at hFe
  exact (C52_cor_always_fails eigh).2.2 _ _ _ _ _ _ hK _ hFe

/-- **C74** (incompressible materials). `set_elasticity` accepts the Poisson ratio 1/2, and then no step succeeds (ZeroDivisionError). -/
theorem C74_incompressible_fails {P : Plugins} {W : ℕ × (ℕ → ℕ → ℝ)} {dt : ℝ} {e e' : Soft.Engine} (hok : SoftOk e) :
    (∀ (name : String) (m : Material) (E : ℝ), e.materials.get? name = some m → 0 < E →
      set_elasticity e name E (1 / 2) = .ok (e.putMaterial name { m with E := E, nu := 1 / 2 })) ∧
    ∀ {k : String} {b : SoftBody}, HasBody e k b → (∀ m, material e b = .ok m → m.nu = 1 / 2) → Soft.step P W dt e ≠ .ok e' := by
  refine ⟨fun name m E hm hE => ?_, fun hb hnu => no_force_no_step hok hb fun x u f hf => ?_⟩
  · unfold set_elasticity findMaterial
    rw [hm]
    simp only [bind, Except.bind]
    rw [if_neg (not_le.2 hE), if_neg (by norm_num)]
    rfl
  · obtain ⟨m, F, lam, mu, Fe, C, hm', -, hl, -⟩ := hf
    have := hnu m hm'
    unfold first_lame at hl
    rw [if_pos (by rw [this]; norm_num)] at hl
    cases hl

/-- **C74** (stabilization). With pre-stabilization switched on no step with a contact succeeds, and with post-stabilization switched on no step with a penetration deeper
than `min_gap_value` does; nor does any step with a contact between two materials without an interaction. -/
theorem C74_contact_failures {P : Plugins} {W : ℕ × (ℕ → ℕ → ℝ)} {dt : ℝ} {e e' : Soft.Engine} {cps : List ContactPoint}
    (hd : P.detect e = .ok cps) (hbad :
      (e.params.use_pre_stabilization = true ∧ cps ≠ []) ∨
      (e.params.use_post_stabilization = true ∧ ∃ cp ∈ cps, cp.g < -e.params.min_gap_value ∧ cp.g ≠ 0) ∨
      ∃ cp ∈ cps, ∃ bA bB mA mB, HasBody e cp.bodyA bA ∧ HasBody e cp.bodyB bB ∧ material e bA = .ok mA ∧ material e bB = .ok mB ∧
        e.get_interaction mA.name mB.name = none) : Soft.step P W dt e ≠ .ok e' := by
  intro h
  obtain ⟨D⟩ := softStep_ok h
  have hcps : D.cps = cps := by
    have := D.hcps
    rw [hd] at this
    injection this with this
    exact this.symm
  have hne : cps ≠ [] → ∃ mu, e.params.use_pre_stabilization = false ∧ get_friction_coefficient_vector { e with contact_points := cps } = .ok mu := by
    intro hne
    have hv := D.hWPc
    rw [hcps] at hv
    unfold contactVelocity at hv
    rw [if_pos (List.length_pos_iff.2 hne)] at hv
    unfold contactResponse at hv
    simp only [bind, Except.bind] at hv
    generalize compute_jacobian_matrix _ = R at hv
    cases R with
    | error err => cases hv
    | ok J =>
      simp only at hv
      split_ifs at hv with hp
      generalize hg : get_friction_coefficient_vector _ = R2 at hv
      cases R2 with
      | error err => cases hv
      | ok mu => exact ⟨mu, by simpa using hp, rfl⟩
  rcases hbad with ⟨h1, h2⟩ | ⟨h1, cp, hcp, h2, h3⟩ | ⟨cp, hcp, bA, bB, mA, mB, hA, hB, hmA, hmB, hnone⟩
  · obtain ⟨mu, h3, -⟩ := hne h2
    rw [h1] at h3
    cases h3
  · rw [← hcps] at hcp
    exact h3 (D.hpost h1 cp hcp h2)
  · obtain ⟨mu, -, hmu⟩ := hne (List.ne_nil_of_mem hcp)
    unfold get_friction_coefficient_vector at hmu
    obtain ⟨y, -, hy⟩ := forall₂_mem_left (mapM_ok hmu) cp hcp
    unfold frictionOf at hy
    have fA : findBody { e with contact_points := cps } cp.bodyA = .ok bA := hasBody_findBody hA
    have fB : findBody { e with contact_points := cps } cp.bodyB = .ok bB := hasBody_findBody hB
    have gA : material { e with contact_points := cps } bA = .ok mA := hmA
    have gB : material { e with contact_points := cps } bB = .ok mB := hmB
    have gi : get_interaction { e with contact_points := cps } mA.name mB.name = none := hnone
    rw [fA, fB] at hy
    simp only [bind, Except.bind] at hy
    rw [gA] at hy
    simp only at hy
    rw [gB] at hy
    simp only at hy
    rw [gi] at hy
    cases hy

/-! ### Fixed bodies and stale densities -/

/-- **C74** (fixed bodies move). The type "fixed" has no influence on the step: a body at rest that is marked as fixed, without pins, loads and contacts, gains the momentum dt·mass·g. -/
theorem C74_fixed_moves {P : Plugins} {W : ℕ × (ℕ → ℕ → ℝ)} {dt : ℝ} {e e' : Soft.Engine} (hok : SoftOk e)
    (hW : compute_inverse_mass_matrix e = .ok W.2) (h : Soft.step P W dt e = .ok e') (hc : e'.contact_points = []) {k : String} {b : SoftBody}
    {R : M3} {t : V3} (_hfixed : b.is_fixed = true) (hf : FreeFlight e k b R t 0) (a : Fin b.n) (hg : b.gravity ≠ 0) (hdt : dt ≠ 0) :
    ∃ x u, HasBody e' k { b with x := x, u := u } ∧ u a = dt • b.gravity ∧ x a = b.x a + (dt * dt) • b.gravity ∧ x a ≠ b.x a := by
  have h1 := C72_free_fall hok hW h hc hf
  refine ⟨_, _, h1.body, by simp, ?_, ?_⟩
  · rw [hf.x]
    unfold rigidMove
    refine V3.ext ?_ ?_ ?_ <;> simp <;> ring
  · rw [hf.x]
    unfold rigidMove
    intro heq
    apply hg
    have hx := congrArg V3.x heq; have hy := congrArg V3.y heq; have hz := congrArg V3.z heq
    simp at hx hy hz
    have e1 : ∀ r : ℝ, r = 0 ∨ dt = 0 → r = 0 := fun r hr => hr.resolve_right hdt
    refine V3.ext ?_ ?_ ?_
    · simpa [hdt] using hx
    · simpa [hdt] using hy
    · simpa [hdt] using hz

/-- **C74** (stale densities). The mass matrix keeps the density rho the material had when it was given to the body, while gravity uses the present density: after
`set_mass_density` a body that would be in free fall accelerates with (new density / rho) g, unless `set_material` is called again. -/
theorem C74_stale_density {P : Plugins} {W : ℕ × (ℕ → ℕ → ℝ)} {dt : ℝ} {e e' : Soft.Engine} (hok : SoftOk e)
    (hW : compute_inverse_mass_matrix e = .ok W.2) (h : Soft.step P W dt e = .ok e') (hc : e'.contact_points = []) {k : String} {b : SoftBody}
    {R : M3} {t v : V3} (hb : HasBody e k b) (hR : IsRotation R) (hpins : b.dirichlet_conditions = []) (hloads : b.traction_conditions = [])
    (hx : b.x = rigidMove R t b.x0) (hu : b.u = fun _ => v) (hC : b.C_array = some (compute_damping_element_array 0 b.vol0 true))
    {m : Material} (hm : material e b = .ok m) (hpk : m.pk1_stress = SVK.pk1_stress) {rho : ℝ} (hrho : 0 < rho)
    (hM : b.M_array = some (compute_mass_element_array rho b.vol0 true)) (a : Fin b.n) (ha : ∃ i p, b.T i p = a) :
    ∃ x u, HasBody e' k { b with x := x, u := u } ∧ u a = v + dt • ((m.rho / rho) • b.gravity) := by
  obtain ⟨fc, hfc, hall⟩ := C72_newton hok hW h
  obtain ⟨rho', x', u', f, hb', hM', hF, hnode⟩ := hall k b hb
  have hp : ∀ a, ¬ Pinned b a := by
    rintro a ⟨d, hd, -⟩
    rw [hpins] at hd
    cases hd
  have hbo := hok.bodyOk hb
  rw [pinnedX_free hp, pinnedU_free hp] at hF
  obtain ⟨m', lam, mu, Fe, C, hm', hl, hmu, hFe, hC', hfa⟩ := isForce_elastic hbo hF
  rw [hm] at hm'
  injection hm' with hm'
  subst hm'
  have hfc0 : ∀ q, fc q = 0 := by
    rcases hfc with ⟨-, rfl⟩ | ⟨J, WJT, bb, mu, lamc, hJ, -, -, rfl⟩
    · intro q; rfl
    · intro q
      unfold nodalImpulse
      simp only [hc, List.length_nil, zero_mul, Finset.range_zero, Finset.sum_empty]
      rfl
  have hFe0 : Fe = 0 := by
    rw [hx, hpk] at hFe
    exact solverElastic_unique hFe (C52_rigid_no_force b.x0 b.T b.invD0 hbo.prepared R hR t lam mu).1
  have hvol : ∀ i, 0 < b.vol0 i := by
    intro i
    rw [hbo.vol0]
    exact C54_volume_pos _ _ _ hbo.prepared i
  have hlin : ∀ r, nodeMass b.T b.vol0 r a = r * nodeMass b.T b.vol0 1 a := by
    intro r
    unfold nodeMass
    rw [Finset.mul_sum]
    refine Finset.sum_congr rfl fun i _ => ?_
    rw [Finset.mul_sum]
    refine Finset.sum_congr rfl fun p _ => ?_
    split_ifs <;> ring
  have hrr : rho' = rho := by
    obtain ⟨i, p, -⟩ := ha
    rw [hM] at hM'
    injection hM' with hM'
    have h00 := congrArg M3.m00 (congrFun (congrFun (congrFun hM' i) 0) 0)
    simp [compute_mass_element_array, shapeProducts, M3.identity] at h00
    rcases h00 with h00 | h00
    · exact h00.symm
    · exact absurd h00 (hvol i).ne'
  have hCz : Soft.compute_damping_forces b.T C b.u a = 0 := by
    rw [hC] at hC'
    injection hC' with hC'
    rw [← hC']
    exact damping_zero _ _ _ _ _
  have hpos : 0 < nodeMass b.T b.vol0 1 a := ((C72_node_mass b.T b.vol0 hvol 1 zero_le_one).2.1 a).2 ⟨zero_lt_one, ha⟩
  have ht0 : Soft.compute_traction_forces b.x ([] : List (TractionCondition b.n)) a = 0 := rfl
  have hut : b.u a = v := by rw [hu]
  have h1 := (hnode a (hp a)).1
  rw [hfa a, hfc0, hFe0, hloads, gravity_nodeMass, hCz, ht0, hut, hrr, hlin rho, hlin m.rho] at h1
  refine ⟨x', u', hb', ?_⟩
  have hx1 := congrArg V3.x h1; have hy1 := congrArg V3.y h1; have hz1 := congrArg V3.z h1
  simp at hx1 hy1 hz1
  generalize nodeMass b.T b.vol0 1 a = N at *
  have key : ∀ p q g : ℝ, rho * N * (p - q) = dt * (m.rho * N * g) → p = q + dt * (m.rho / rho * g) := by
    intro p q g hpq
    have : N * (rho * (p - q) - dt * (m.rho * g)) = 0 := by linear_combination hpq
    rcases mul_eq_zero.1 this with h | h
    · exact absurd h hpos.ne'
    · field_simp
      linarith
  refine V3.ext ?_ ?_ ?_
  · simp; exact key _ _ _ hx1
  · simp; exact key _ _ _ hy1
  · simp; exact key _ _ _ hz1

/-- `set_mass_density` does not touch the bodies. -/
theorem C74_density_only_material {e e' : Soft.Engine} {name : String} {rho : ℝ} (h : set_mass_density e name rho = .ok e') :
    e'.bodies = e.bodies ∧ 0 ≤ rho ∧ ∃ m, e.materials.get? name = some m ∧ e'.materials.get? name = some { m with rho := rho } := by
  unfold set_mass_density at h
  simp only [bind, Except.bind] at h
  cases hm : e.findMaterial name with
  | error err => rw [hm] at h; cases h
  | ok m =>
    rw [hm] at h
    simp only at h
    split_ifs at h with h0
    simp only [pure, Except.pure, Except.ok.injEq] at h
    rw [← h]
    exact ⟨rfl, not_lt.1 h0, m, findMaterial_ok hm, Dict.get?_setItem_self _ _ _⟩

end Verif
