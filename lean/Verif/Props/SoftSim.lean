import Verif.Props.SoftMomentum

/-! C76: `simulate` of the soft body engine; C72: free fall. -/

namespace Verif

open Soft Mech

/-! ### Specification -/

/-- A sequence of steps of given sizes. -/
noncomputable def softRun (P : Plugins) (W : ℕ × (ℕ → ℕ → ℝ)) : List ℝ → Soft.Engine → Except PyErr Soft.Engine
  | [], e => .ok e
  | dt :: dts, e => match Soft.step P W dt e with
    | .error err => .error err
    | .ok e' => softRun P W dts e'

/-! ### Proofs -/

theorem softStep_params {P : Plugins} {W : ℕ × (ℕ → ℕ → ℝ)} {dt : ℝ} {e e' : Soft.Engine} (h : Soft.step P W dt e = .ok e') :
    e'.params = { e.params with time_stamp := e.params.time_stamp + 1 } := by
  obtain ⟨D⟩ := softStep_ok h
  exact congrArg Engine.params D.he'

theorem softLoop (P : Plugins) (W : ℕ × (ℕ → ℕ → ℝ)) (n : ℕ) (w : Soft.Engine) (T ts : ℝ)
    (hts : w.params.time_step = ts) (h0 : 0 < ts) (h1 : n * ts < T) (h2 : T ≤ (n + 1) * ts) :
    LoopEnds (Soft.simTrip P W) (w, T) ((softRun P W (List.replicate n ts ++ [T - n * ts]) w).map fun w' => (w', 0)) := by
  induction n generalizing w T with
  | zero =>
    simp only [Nat.cast_zero, zero_mul, zero_add, one_mul] at h1 h2
    simp only [Nat.cast_zero, zero_mul, sub_zero, List.replicate_zero, List.nil_append, softRun]
    have hmin : min T w.params.time_step = T := by rw [hts]; exact min_eq_left h2
    cases hs : Soft.step P W T w with
    | error e =>
      refine .raised ?_
      simp only [Soft.simTrip, if_neg h1.ne', hmin, hs]
    | ok w' =>
      refine .next (s' := (w', 0)) ?_ (.done ?_)
      · simp only [Soft.simTrip, if_neg h1.ne', hmin, hs, sub_self]
      · simp [Soft.simTrip]
  | succ n ih =>
    push_cast at h1 h2
    have hT : 0 < T := by nlinarith [(Nat.cast_nonneg n : (0 : ℝ) ≤ n)]
    have hmin : min T w.params.time_step = ts := by
      rw [hts]
      exact min_eq_right (by nlinarith [(Nat.cast_nonneg n : (0 : ℝ) ≤ n)])
    rw [List.replicate_succ, List.cons_append]
    unfold softRun
    cases hs : Soft.step P W ts w with
    | error e =>
      refine .raised ?_
      simp only [Soft.simTrip, if_neg hT.ne', hmin, hs]
    | ok w' =>
      have e : T - ((n + 1 : ℕ) : ℝ) * ts = (T - ts) - n * ts := by push_cast; ring
      rw [e]
      refine .next (s' := (w', T - ts)) ?_ (ih w' (T - ts) (by rw [softStep_params hs]; exact hts) (by linarith) (by linarith))
      simp only [Soft.simTrip, if_neg hT.ne', hmin, hs]

/-- **C76** (`simulate`). With a positive time step `simulate(T)` makes the stepper if there is none and then n = ⌈T / time_step⌉ steps, n - 1 of size
time_step and a last one of the remaining size, which is positive and at most time_step; the sizes sum to T.  Its result is that of these steps. -/
theorem C76_simulate (P : Plugins) (e : Soft.Engine) {T : ℝ} (hT : 0 < T) (hts : 0 < e.params.time_step) :
    let ts := e.params.time_step
    let n := ⌈T / ts⌉₊
    let dts := List.replicate (n - 1) ts ++ [T - (n - 1 : ℕ) * ts]
    (∀ W, getStepper e = .ok W → Soft.simulate P e T = softRun P W dts { e with stepper := some W }) ∧
    (∀ err, getStepper e = .error err → Soft.simulate P e T = .error err) ∧ dts.length = n ∧ dts.sum = T ∧ ∀ dt ∈ dts, 0 < dt ∧ dt ≤ ts := by
  intro ts n dts
  have hts' : 0 < ts := hts
  have hn : 0 < n := Nat.ceil_pos.2 (div_pos hT hts)
  have h1 : ((n - 1 : ℕ) : ℝ) * ts < T := by
    have : ((n - 1 : ℕ) : ℝ) < T / ts := by
      rw [← Nat.lt_ceil]
      exact Nat.sub_lt hn one_pos
    rwa [lt_div_iff₀ hts'] at this
  have h2 : T ≤ (((n - 1 : ℕ) : ℝ) + 1) * ts := by
    have h3 := Nat.le_ceil (T / ts)
    rw [div_le_iff₀ hts'] at h3
    have h4 : ((n - 1 : ℕ) : ℝ) + 1 = (n : ℝ) := by
      rw [← Nat.cast_succ]; congr 1; omega
    rw [h4]
    exact h3
  refine ⟨?_, ?_, ?_, ?_, ?_⟩
  · intro W hW
    unfold Soft.simulate
    rw [if_neg (not_le.2 hT), hW]
    simp only [bind, Except.bind]
    rw [whileLoop_eq (softLoop P W (n - 1) { e with stepper := some W } T ts rfl hts' h1 h2)]
    change _ = softRun P W dts { e with stepper := some W }
    rw [show List.replicate (n - 1) ts ++ [T - ((n - 1 : ℕ) : ℝ) * ts] = dts from rfl]
    cases softRun P W dts { e with stepper := some W } <;> rfl
  · intro err hW
    unfold Soft.simulate
    rw [if_neg (not_le.2 hT), hW]
    rfl
  · simp only [dts, List.length_append, List.length_replicate, List.length_singleton]
    omega
  · simp only [dts, List.sum_append, List.sum_replicate, List.sum_singleton, nsmul_eq_mul]
    ring
  · intro dt hdt
    rcases List.mem_append.1 hdt with h | h
    · rw [(List.mem_replicate.1 h).2]
      exact ⟨hts', le_rfl⟩
    · rw [List.mem_singleton.1 h]
      exact ⟨by linarith, by linarith⟩

/-- **C76** (invalid requests). A time that is not positive raises ValueError; with a time step that is not positive `simulate` never returns. -/
theorem C76_simulate_invalid (P : Plugins) (e : Soft.Engine) (T : ℝ) :
    (T ≤ 0 → Soft.simulate P e T = .error .valueError) ∧
    (0 < T → e.params.time_step ≤ 0 → ∀ e', Soft.simulate P e T ≠ .ok e') := by
  refine ⟨fun h => by simp [Soft.simulate, h], ?_⟩
  intro hT hts e' h
  have key : ∀ W s r, LoopEnds (Soft.simTrip P W) s r → 0 < s.2 → s.1.params.time_step ≤ 0 → ∀ s', r ≠ .ok s' := by
    intro W s r hr
    induction hr with
    | done hs =>
      intro h1 h2
      simp only [Soft.simTrip, if_neg h1.ne'] at hs
      split at hs <;> cases hs
    | raised hs => intro _ _ s' h; cases h
    | @next s s1 r hs _ ih =>
      intro h1 h2
      simp only [Soft.simTrip, if_neg h1.ne'] at hs
      split at hs
      · cases hs
      · rename_i w1 hw1
        injection hs with hs
        injection hs with hs
        subst hs
        apply ih
        · simp only
          have h3 := min_le_right s.2 s.1.params.time_step
          linarith
        · simp only
          rw [softStep_params hw1]
          exact h2
  unfold Soft.simulate at h
  rw [if_neg (not_le.2 hT)] at h
  simp only [bind, Except.bind] at h
  cases hW : getStepper e with
  | error err => rw [hW] at h; cases h
  | ok W =>
    rw [hW] at h
    simp only at h
    cases hl : whileLoop (Soft.simTrip P W) ({ e with stepper := some W }, T) with
    | error err => rw [hl] at h; cases h
    | ok s' => exact key W _ _ (whileLoop_ok hl) hT hts s' rfl

/-- What stays as it is during steps. -/
structure SoftSame (e e' : Soft.Engine) : Prop where
  materials : e'.materials = e.materials
  interactions : e'.surfaces_interactions = e.surfaces_interactions
  nodes : e'.number_of_nodes = e.number_of_nodes
  stepper : e'.stepper = e.stepper
  names : e'.bodies.keys = e.bodies.keys
  bodies : ∀ k c, HasBody e' k c ↔ ∃ b, HasBody e k b ∧ ∃ x u, c = { b with x := x, u := u } ∧ HasBody e' k { b with x := x, u := u }
  params : ∃ s, e'.params = { e.params with time_stamp := s }

/-- **C76** (frame). A step changes only positions and velocities of the bodies, the list of contact points and the step counter, which it
increments. -/
theorem C76_frame {P : Plugins} {W : ℕ × (ℕ → ℕ → ℝ)} {dt : ℝ} {e e' : Soft.Engine} (h : Soft.step P W dt e = .ok e') :
    SoftSame e e' ∧ e'.params = { e.params with time_stamp := e.params.time_stamp + 1 } := by
  obtain ⟨D⟩ := softStep_ok h
  have hE : ∀ {A : Type} (f : Soft.Engine → A) (v : A), f _ = v → f e' = v := fun f v hv => (congrArg f D.he').trans hv
  refine ⟨⟨hE _ _ rfl, hE _ _ rfl, hE _ _ rfl, hE _ _ rfl, ?_, ?_, ⟨_, hE _ _ rfl⟩⟩, hE _ _ rfl⟩
  · rw [D.bodies]
    simp only [Dict.keys, List.map_map]
    rfl
  · intro k c
    constructor
    · intro hc
      obtain ⟨b, hb, rfl⟩ := (D.hasBody k c).1 hc
      exact ⟨b, hb, _, _, rfl, hc⟩
    · rintro ⟨b, hb, x, u, rfl, hc⟩
      exact hc

/-- The stepper stays the inverse of the mass matrix. -/
theorem inverse_step {P : Plugins} {W : ℕ × (ℕ → ℕ → ℝ)} {dt : ℝ} {e e' : Soft.Engine} (h : Soft.step P W dt e = .ok e') :
    compute_inverse_mass_matrix e' = compute_inverse_mass_matrix e := by
  obtain ⟨D⟩ := softStep_ok h
  have hN : e'.number_of_nodes = e.number_of_nodes := (congrArg Engine.number_of_nodes D.he').trans rfl
  have hv : e'.bodies.values = D.B.map fun b => Slot.ready (movedBody D.x D.u b) := by
    rw [D.bodies]
    have := bodyList_entries D.hB
    unfold Dict.values at this ⊢
    simp only [List.map_map]
    rw [show (Prod.snd ∘ fun kv : String × Slot => (kv.1, movedSlot D.x D.u kv.2)) = movedSlot D.x D.u ∘ Prod.snd from rfl,
      ← List.map_map, this, List.map_map]
    rfl
  have hB' : bodyList e' = .ok (D.B.map (movedBody D.x D.u)) := by
    unfold bodyList
    rw [hv]
    induction D.B with
    | nil => rfl
    | cons b B ih =>
      rw [List.map_cons, List.mapM_cons, ih]
      rfl
  unfold compute_inverse_mass_matrix
  rw [hB', D.hB, hN]
  simp only [bind, Except.bind]
  have hm : compute_mass_matrix (D.B.map (movedBody D.x D.u)) = compute_mass_matrix D.B := by
    unfold compute_mass_matrix
    congr 1
    induction D.B with
    | nil => rfl
    | cons b B ih =>
      rw [List.map_cons, List.mapM_cons, List.mapM_cons, ih]
      rfl
  rw [hm]

/-- **C76** (history). A successful `simulate` keeps materials, interactions, meshes and all settings of the bodies, and counts its steps. -/
theorem C76_history {P : Plugins} {e e' : Soft.Engine} {T : ℝ} (hts : 0 < e.params.time_step) (h : Soft.simulate P e T = .ok e') :
    0 < T ∧ e'.materials = e.materials ∧ e'.surfaces_interactions = e.surfaces_interactions ∧ e'.number_of_nodes = e.number_of_nodes ∧
    e'.bodies.keys = e.bodies.keys ∧ getStepper e = (match e'.stepper with | some W => .ok W | none => .error .typeError) ∧
    (∀ k b, HasBody e k b → ∃ x u, HasBody e' k { b with x := x, u := u }) ∧
    e'.params = { e.params with time_stamp := e.params.time_stamp + ⌈T / e.params.time_step⌉₊ } := by
  have hT : 0 < T := by
    by_contra hc
    rw [(C76_simulate_invalid P e T).1 (not_lt.1 hc)] at h
    cases h
  obtain ⟨h1, h2, h3, -, -⟩ := C76_simulate P e hT hts
  cases hW : getStepper e with
  | error err => rw [h2 err hW] at h; cases h
  | ok W =>
    rw [h1 W hW] at h
    have key : ∀ (dts : List ℝ) (e0 : Soft.Engine), softRun P W dts e0 = .ok e' → e'.materials = e0.materials ∧
        e'.surfaces_interactions = e0.surfaces_interactions ∧ e'.number_of_nodes = e0.number_of_nodes ∧
        e'.bodies.keys = e0.bodies.keys ∧ e'.stepper = e0.stepper ∧ (∀ k b, HasBody e0 k b → ∃ x u, HasBody e' k { b with x := x, u := u }) ∧
        e'.params = { e0.params with time_stamp := e0.params.time_stamp + dts.length } := by
      intro dts
      induction dts with
      | nil =>
        intro e0 h
        injection h with h
        subst h
        exact ⟨rfl, rfl, rfl, rfl, rfl, fun k b hb => ⟨b.x, b.u, hb⟩, rfl⟩
      | cons dt dts ih =>
        intro e0 h
        unfold softRun at h
        split at h
        · cases h
        rename_i e1 hs
        obtain ⟨hS, hp⟩ := C76_frame hs
        obtain ⟨a1, a2, a3, a4, a5, a6, a7⟩ := ih e1 h
        refine ⟨a1.trans hS.materials, a2.trans hS.interactions, a3.trans hS.nodes, a4.trans hS.names, a5.trans hS.stepper, ?_, ?_⟩
        · intro k b hb
          obtain ⟨D⟩ := softStep_ok hs
          obtain ⟨x, u, hxu⟩ := a6 k _ ((D.hasBody k _).2 ⟨b, hb, rfl⟩)
          exact ⟨x, u, hxu⟩
        · rw [a7, hp]
          simp only [List.length_cons]
          congr 1
          omega
    obtain ⟨a1, a2, a3, a4, a5, a6, a7⟩ := key _ _ h
    rw [h3] at a7
    refine ⟨hT, a1, a2, a3, a4, ?_, a6, a7⟩
    rw [a5]

/-! ### Free fall -/

/-- A body in free flight: no pins, no loads, undamped, an undeformed shape (rotated and translated), one velocity, a Saint Venant-Kirchhoff or stable
neo-Hookean material whose density is that of the mass matrix, and every node part of a tetrahedron. -/
structure FreeFlight (e : Soft.Engine) (k : String) (b : SoftBody) (R : M3) (t v : V3) : Prop where
  body : HasBody e k b
  rot : IsRotation R
  nopins : b.dirichlet_conditions = []
  noloads : b.traction_conditions = []
  x : b.x = rigidMove R t b.x0
  u : b.u = fun _ => v
  undamped : b.C_array = some (compute_damping_element_array 0 b.vol0 true)
  nodes : ∀ a, ∃ i p, b.T i p = a
  material : ∃ m, material e b = .ok m ∧ (m.pk1_stress = SVK.pk1_stress ∨ m.pk1_stress = SNH.pk1_stress) ∧ 0 < m.rho ∧
    b.M_array = some (compute_mass_element_array m.rho b.vol0 true)

theorem gravity_nodeMass {n K : ℕ} (T : Fin K → Fin 4 → Fin n) (vol0 : Fin K → ℝ) (rho : ℝ) (g : V3) (a : Fin n) :
    compute_gravity_forces T vol0 rho g a = nodeMass T vol0 rho a • g := by
  rw [gravity_apply, nodeMass, Finset.sum_smul]
  refine Finset.sum_congr rfl fun e _ => ?_
  rw [Finset.sum_smul]
  refine Finset.sum_congr rfl fun i _ => ?_
  split_ifs
  · rfl
  · rw [zero_smul]

theorem damping_zero {n K : ℕ} (T : Fin K → Fin 4 → Fin n) (vol0 : Fin K → ℝ) (l : Bool) (u : Fin n → V3) (a : Fin n) :
    Soft.compute_damping_forces T (compute_damping_element_array 0 vol0 l) u a = 0 := by
  simp only [Soft.compute_damping_forces, Pi.neg_apply, prod_mat_vec_apply, compute_damping_element_array, zero_smul, smul_zero]
  rw [neg_eq_zero]
  refine Finset.sum_eq_zero fun e _ => Finset.sum_eq_zero fun i _ => Finset.sum_eq_zero fun j _ => ?_
  split_ifs
  · ext <;> simp [M3.mulVec]
  · rfl

/-- The Lamé parameters of a legal material. -/
theorem lame_pos {E nu lam mu : ℝ} (hE : 0 < E) (h0 : 0 ≤ nu) (h1 : nu ≤ 1 / 2) (hl : first_lame E nu = .ok lam) (hm : second_lame E nu = .ok mu) :
    0 ≤ lam ∧ 0 < mu := by
  unfold first_lame at hl
  unfold second_lame at hm
  split_ifs at hl hm with a1 a2
  injection hl with hl
  injection hm with hm
  subst hl hm
  constructor
  · have : 0 ≤ 1 - 2 * nu := by linarith
    positivity
  · positivity

theorem solverElastic_unique {n K : ℕ} {x0 x : Fin n → V3} {T : Fin K → Fin 4 → Fin n} {invD0 : Fin K → M3} {lam mu : ℝ}
    {pk : M3 → ℝ → ℝ → Except PyErr M3} {f g : Fin n → V3} (h1 : elasticForces x0 x T invD0 lam mu pk = .ok f)
    (h2 : elasticForces x0 x T invD0 lam mu pk = .ok g) : f = g := by
  rw [h1] at h2
  injection h2

/-- **C72** (free fall, one step). A body in free flight without contacts stays in free flight: after a step all its nodes have the velocity v + dt g and
all of it is displaced by dt (v + dt g). -/
theorem C72_free_fall {P : Plugins} {W : ℕ × (ℕ → ℕ → ℝ)} {dt : ℝ} {e e' : Soft.Engine} (hok : SoftOk e)
    (hW : compute_inverse_mass_matrix e = .ok W.2) (h : Soft.step P W dt e = .ok e') (hc : e'.contact_points = []) {k : String} {b : SoftBody}
    {R : M3} {t v : V3} (hf : FreeFlight e k b R t v) :
    FreeFlight e' k { b with x := rigidMove R (t + dt • (v + dt • b.gravity)) b.x0, u := fun _ => v + dt • b.gravity } R
      (t + dt • (v + dt • b.gravity)) (v + dt • b.gravity) := by
  obtain ⟨fc, hfc, hall⟩ := C72_newton hok hW h
  obtain ⟨rho, x', u', f, hb', hM, hF, hnode⟩ := hall k b hf.body
  have hp : ∀ a, ¬ Pinned b a := by
    rintro a ⟨d, hd, -⟩
    rw [hf.nopins] at hd
    cases hd
  have hbo := hok.bodyOk hf.body
  rw [pinnedX_free hp, pinnedU_free hp] at hF
  obtain ⟨m, lam, mu, Fe, C, hm, hl, hmu, hFe, hC, hfa⟩ := isForce_elastic hbo hF
  obtain ⟨m', hm', hpk, hrho, hM'⟩ := hf.material
  rw [hm] at hm'
  injection hm' with hm'
  subst hm'
  have hfc0 : ∀ q, fc q = 0 := by
    rcases hfc with ⟨-, rfl⟩ | ⟨J, WJT, bb, mu, lamc, hJ, -, -, rfl⟩
    · intro q; rfl
    · intro q
      unfold nodalImpulse
      simp only [hc, List.length_nil, zero_mul, Finset.range_zero, Finset.sum_empty]
      rfl
  have hmat : 0 < m.E ∧ 0 ≤ m.nu ∧ m.nu ≤ 1 / 2 := by
    unfold Soft.material at hm
    split at hm
    · cases hm
    · split at hm
      · cases hm
      · rename_i m' hget
        injection hm with hm
        subst hm
        have := hok.materials _ _ hget
        exact ⟨this.2.1, this.2.2.1, this.2.2.2.1⟩
  obtain ⟨hlam, hmup⟩ := lame_pos hmat.1 hmat.2.1 hmat.2.2 hl hmu
  have hFe0 : Fe = 0 := by
    rw [hf.x] at hFe
    obtain ⟨r1, r2⟩ := C52_rigid_no_force b.x0 b.T b.invD0 hbo.prepared R hf.rot t lam mu
    rcases hpk with hpk | hpk
    · rw [hpk] at hFe; exact solverElastic_unique hFe r1
    · rw [hpk] at hFe; exact solverElastic_unique hFe (r2 (by positivity))
  have hvol : ∀ i, 0 < b.vol0 i := by
    intro i
    rw [hbo.vol0]
    exact C54_volume_pos _ _ _ hbo.prepared i
  have hmass : ∀ a, nodeMass b.T b.vol0 rho a = nodeMass b.T b.vol0 m.rho a := by
    intro a
    obtain ⟨i, p, -⟩ := hf.nodes a
    rw [hM] at hM'
    injection hM' with hM'
    have := congrFun (congrFun (congrFun hM' i) 0) 0
    have h00 := congrArg M3.m00 this
    simp [compute_mass_element_array, shapeProducts, M3.identity] at h00
    rcases h00 with h00 | h00
    · rw [h00]
    · exact absurd h00 (hvol i).ne'
  have hu' : u' = fun _ => v + dt • b.gravity := by
    funext a
    have h1 := (hnode a (hp a)).1
    rw [hfa a, hfc0, hFe0, hf.noloads, gravity_nodeMass, hmass a] at h1
    have hCz : Soft.compute_damping_forces b.T C b.u a = 0 := by
      have := hf.undamped
      rw [hC] at this
      injection this with this
      rw [this]
      exact damping_zero _ _ _ _ _
    rw [hCz] at h1
    have hpos : 0 < nodeMass b.T b.vol0 m.rho a := ((C72_node_mass b.T b.vol0 hvol m.rho hrho.le).2.1 a).2 ⟨hrho, hf.nodes a⟩
    have hut : b.u a = v := by rw [hf.u]
    rw [hut] at h1
    have ht0 : Soft.compute_traction_forces b.x ([] : List (TractionCondition b.n)) a = 0 := rfl
    rw [ht0] at h1
    have hx := congrArg V3.x h1; have hy := congrArg V3.y h1; have hz := congrArg V3.z h1
    simp at hx hy hz
    refine V3.ext ?_ ?_ ?_
    · simp
      have : nodeMass b.T b.vol0 m.rho a * ((u' a).x - (v.x + dt * b.gravity.x)) = 0 := by linear_combination hx
      rcases mul_eq_zero.1 this with h | h
      · exact absurd h hpos.ne'
      · linarith
    · simp
      have : nodeMass b.T b.vol0 m.rho a * ((u' a).y - (v.y + dt * b.gravity.y)) = 0 := by linear_combination hy
      rcases mul_eq_zero.1 this with h | h
      · exact absurd h hpos.ne'
      · linarith
    · simp
      have : nodeMass b.T b.vol0 m.rho a * ((u' a).z - (v.z + dt * b.gravity.z)) = 0 := by linear_combination hz
      rcases mul_eq_zero.1 this with h | h
      · exact absurd h hpos.ne'
      · linarith
  have hx' : x' = rigidMove R (t + dt • (v + dt • b.gravity)) b.x0 := by
    funext a
    rw [(hnode a (hp a)).2, hu', hf.x]
    unfold rigidMove
    simp only
    rw [add_assoc]
  rw [hu', hx'] at hb'
  refine ⟨hb', hf.rot, hf.nopins, hf.noloads, rfl, rfl, hf.undamped, hf.nodes, m, ?_, hpk, hrho, hM'⟩
  have hS := (C76_frame h).1
  unfold Soft.material at hm ⊢
  rw [hS.materials]
  exact hm

/-- **C76** (free fall, whole simulation). A body in free flight, in an engine in which no contacts are ever found: after `simulate(T)` from a fresh or
fitting stepper the body has kept its shape and orientation and every node has the velocity v + T g. -/
theorem C76_free_fall {P : Plugins} (hP : ∀ e cps, P.detect e = .ok cps → cps = []) {e e' : Soft.Engine} (hok : SoftOk e) {T : ℝ}
    (hts : 0 < e.params.time_step) (hst : ∀ W, e.stepper = some W → compute_inverse_mass_matrix e = .ok W.2)
    (h : Soft.simulate P e T = .ok e') {k : String} {b : SoftBody} {R : M3} {t v : V3} (hf : FreeFlight e k b R t v) :
    ∃ x t', HasBody e' k { b with x := x, u := fun _ => v + T • b.gravity } ∧ x = rigidMove R t' b.x0 := by
  have hT := (C76_history hts h).1
  obtain ⟨h1, h2, -, hsum, -⟩ := C76_simulate P e hT hts
  cases hW : getStepper e with
  | error err => rw [h2 err hW] at h; cases h
  | ok W =>
    rw [h1 W hW] at h
    have hinv : compute_inverse_mass_matrix { e with stepper := some W } = .ok W.2 := by
      have : compute_inverse_mass_matrix { e with stepper := some W } = compute_inverse_mass_matrix e := rfl
      rw [this]
      unfold getStepper at hW
      cases hs : e.stepper with
      | some W' =>
        rw [hs] at hW
        simp only [Except.ok.injEq] at hW
        rw [← hW]
        exact hst W' hs
      | none =>
        rw [hs] at hW
        simp only at hW
        cases hc : compute_inverse_mass_matrix e with
        | error err => rw [hc] at hW; cases hW
        | ok V =>
          rw [hc] at hW
          simp only [Except.map, Except.ok.injEq] at hW
          rw [← hW]
    have key : ∀ (dts : List ℝ) (e0 : Soft.Engine) (b : SoftBody) (t v : V3), SoftOk e0 → compute_inverse_mass_matrix e0 = .ok W.2 →
        FreeFlight e0 k b R t v → softRun P W dts e0 = .ok e' →
        ∃ x t', HasBody e' k { b with x := x, u := fun _ => v + dts.sum • b.gravity } ∧ x = rigidMove R t' b.x0 := by
      intro dts
      induction dts with
      | nil =>
        intro e0 b t v _ _ hf h
        injection h with h
        subst h
        refine ⟨b.x, t, ?_, hf.x⟩
        have := hf.body
        have hu := hf.u
        simp only [List.sum_nil, zero_smul, add_zero]
        rw [← hu]
        exact this
      | cons dt dts ih =>
        intro e0 b t v hok hinv hf h
        unfold softRun at h
        split at h
        · cases h
        rename_i e1 hs
        have hcp : e1.contact_points = [] := by
          obtain ⟨D⟩ := softStep_ok hs
          rw [show e1.contact_points = D.cps from congrArg Engine.contact_points D.he']
          exact hP _ _ D.hcps
        have hf1 := C72_free_fall hok hinv hs hcp hf
        obtain ⟨x, t', hx, hr⟩ := ih e1 _ _ _ (softOk_step hok hs) ((inverse_step hs).trans hinv) hf1 h
        refine ⟨x, t', ?_, hr⟩
        simp only at hx
        have : v + dt • b.gravity + dts.sum • b.gravity = v + (dt :: dts).sum • b.gravity := by
          rw [List.sum_cons, add_smul, add_assoc]
        rw [this] at hx
        exact hx
    have hf0 : FreeFlight { e with stepper := some W } k b R t v :=
      ⟨hf.body, hf.rot, hf.nopins, hf.noloads, hf.x, hf.u, hf.undamped, hf.nodes, hf.material⟩
    have := key _ { e with stepper := some W } b t v (hok.congr rfl rfl rfl rfl) hinv hf0 h
    rw [hsum] at this
    exact this

end Verif
