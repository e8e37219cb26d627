import Verif.Props.RigidStep
import Verif.Props.BVHBuild
import Mathlib.Algebra.Order.Floor.Semiring

/-! C45 (simulate), C47/C48 for histories of steps, C65 (momentum), C66 (when a step raises), C67 (energy). -/

namespace Verif

open Matrix ProxSolver Rigid

variable {N : ℕ}

/-- C65: linear momentum.  If every body can move, a step changes the total momentum by exactly dt times the total
applied force: contacts and hinges never create momentum. -/
theorem C65_linear_momentum {cd : World N → Except PyErr (List (ContactPoint N))} {dt : ℝ} {w w' : World N}
    (h : step cd dt w = .ok w') (hf : ∀ k, (w.bodies k).is_fixed = false) :
    ∑ k, (w'.bodies k).mass • (w'.bodies k).v =
      ∑ k, (w.bodies k).mass • (w.bodies k).v + dt • ∑ k, appliedForce (w.bodies k) := by
  obtain ⟨xc, xh, -, hne⟩ := C48_newton_euler h
  have hmass : ∀ k, (w'.bodies k).mass = (w.bodies k).mass := by
    intro k
    rw [(C48_frame h).2.2.2.2.2 k]
  have hc := (C40_action_reaction w.bodies w'.contact_points xc 0).1
  have hh := (C41_action_reaction w.bodies w.hinges xh 0).1
  have key : ∀ k, (w'.bodies k).mass • (w'.bodies k).v = (w.bodies k).mass • (w.bodies k).v +
      (dt • appliedForce (w.bodies k) + (lin ((contactJacobian w.bodies w'.contact_points)ᵀ *ᵥ xc) k +
        lin ((hingeJacobian w.bodies w.hinges)ᵀ *ᵥ xh) k)) := by
    intro k
    have h1 := (hne k (hf k)).1
    rw [lin_add'] at h1
    rw [hmass, ← h1]
    ext <;> simp <;> ring
  simp only [key]
  rw [Finset.sum_add_distrib, Finset.sum_add_distrib, Finset.sum_add_distrib, hc, hh, Finset.smul_sum]
  simp

/-- C65: angular momentum about any point o (bodies at their places at the start of the step): if every body can move,
has inertia, and the anchor points of every hinge coincide, a step changes the total angular momentum by exactly dt
times the total applied moment. -/
theorem C65_angular_momentum {cd : World N → Except PyErr (List (ContactPoint N))} {dt : ℝ} {w w' : World N}
    (h : step cd dt w = .ok w') (hf : ∀ k, (w.bodies k).is_fixed = false)
    (hI : ∀ k, (w.bodies k).inertia.x ≠ 0 ∧ (w.bodies k).inertia.y ≠ 0 ∧ (w.bodies k).inertia.z ≠ 0)
    (hA : ∀ j ∈ w.hinges, anchorP w.bodies j = anchorC w.bodies j) (o : V3) :
    ∑ k, moment o (w.bodies k).r ((w.bodies k).mass • (w'.bodies k).v) ((worldInertia (w.bodies k)).mulVec (w'.bodies k).w) =
      ∑ k, moment o (w.bodies k).r ((w.bodies k).mass • (w.bodies k).v) ((worldInertia (w.bodies k)).mulVec (w.bodies k).w) +
      dt • ∑ k, moment o (w.bodies k).r (appliedForce (w.bodies k)) (appliedTorque (w.bodies k)) := by
  obtain ⟨xc, xh, -, hne⟩ := C48_newton_euler h
  have hc := (C40_action_reaction w.bodies w'.contact_points xc o).2
  have hh := (C41_action_reaction w.bodies w.hinges xh o).2 hA
  have key : ∀ k, moment o (w.bodies k).r ((w.bodies k).mass • (w'.bodies k).v) ((worldInertia (w.bodies k)).mulVec (w'.bodies k).w) =
      moment o (w.bodies k).r ((w.bodies k).mass • (w.bodies k).v) ((worldInertia (w.bodies k)).mulVec (w.bodies k).w) +
      (dt • moment o (w.bodies k).r (appliedForce (w.bodies k)) (appliedTorque (w.bodies k)) +
        (moment o (w.bodies k).r (lin ((contactJacobian w.bodies w'.contact_points)ᵀ *ᵥ xc) k)
            (ang ((contactJacobian w.bodies w'.contact_points)ᵀ *ᵥ xc) k) +
          moment o (w.bodies k).r (lin ((hingeJacobian w.bodies w.hinges)ᵀ *ᵥ xh) k)
            (ang ((hingeJacobian w.bodies w.hinges)ᵀ *ᵥ xh) k))) := by
    intro k
    obtain ⟨h1, h2, -⟩ := hne k (hf k)
    have h2 := h2 (hI k).1 (hI k).2.1 (hI k).2.2
    rw [lin_add'] at h1
    rw [ang_add'] at h2
    generalize lin ((contactJacobian w.bodies w'.contact_points)ᵀ *ᵥ xc) k = c1 at *
    generalize ang ((contactJacobian w.bodies w'.contact_points)ᵀ *ᵥ xc) k = c2 at *
    generalize lin ((hingeJacobian w.bodies w.hinges)ᵀ *ᵥ xh) k = c3 at *
    generalize ang ((hingeJacobian w.bodies w.hinges)ᵀ *ᵥ xh) k = c4 at *
    generalize appliedForce (w.bodies k) = F at *
    generalize appliedTorque (w.bodies k) = T at *
    generalize worldInertia (w.bodies k) = I at *
    generalize (w.bodies k).mass = m at *
    generalize (w.bodies k).v = v at *
    generalize (w.bodies k).w = om at *
    generalize (w'.bodies k).v = v' at *
    generalize (w'.bodies k).w = om' at *
    generalize (w.bodies k).r = r at *
    have e1 : m • v' = m • v + (dt • F + (c1 + c3)) := by
      rw [← h1]; ext <;> simp <;> ring
    have e2 : I.mulVec om' = I.mulVec om + (dt • T + (c2 + c4)) := by
      rw [← h2]; ext <;> simp [M3.mulVec] <;> ring
    unfold moment
    rw [e1, e2]
    clear h1 h2 e1 e2
    ext <;> simp [V3.cross] <;> ring
  simp only [key]
  rw [Finset.sum_add_distrib, Finset.sum_add_distrib, Finset.sum_add_distrib, hc, hh, Finset.smul_sum]
  simp

/-! ### When a step raises -/

/-- C66: a step raises exactly when a movable body has mass zero, collision detection raises, or a reported contact has
no interaction registered for its materials (nor a default). -/
theorem C66_step_raises (cd : World N → Except PyErr (List (ContactPoint N))) (dt : ℝ) (w : World N) :
    (∃ w', step cd dt w = .ok w') ↔ (∀ k, (w.bodies k).is_fixed = false → (w.bodies k).mass ≠ 0) ∧
      ∃ cps, cd w = .ok cps ∧ ∀ cp ∈ cps, ∃ I,
        w.surfaces_interactions.get_interaction (w.bodies cp.bodyA).material (w.bodies cp.bodyB).material = .ok I := by
  constructor
  · rintro ⟨w', h⟩
    obtain ⟨s, cps, hs, hcd, C, du, s2, hC, -⟩ := step_ok h
    obtain ⟨-, -, -, -, -, hm⟩ := copy_fields hs
    refine ⟨hm, cps, hcd, ?_⟩
    rcases contactProblem_ok hC with ⟨-, he⟩ | ⟨D, -, hD, -⟩
    · have : cps = [] := he
      intro cp hcp
      rw [this] at hcp
      cases hcp
    · intro cp hcp
      obtain ⟨k, hk, rfl⟩ := List.mem_iff_getElem.1 hcp
      obtain ⟨I, hI, -⟩ := C40_coefficients hD ⟨k, hk⟩
      exact ⟨I, hI⟩
  · rintro ⟨hm, cps, hcd, hI⟩
    obtain ⟨s, hs⟩ := (C46_mass_required w.bodies).2 hm
    have hC : ∃ C, contactProblem dt s { w with contact_points := cps } = .ok C := by
      unfold contactProblem
      split
      · exact ⟨_, rfl⟩
      · have h1 : ∃ R, frictionVector w.surfaces_interactions w.bodies cps = .ok R := by
          obtain ⟨R, hR, -⟩ := mapM_except (L := cps) (P := fun _ _ => True) (f := fun cp => do
              let behavior ← w.surfaces_interactions.get_interaction (w.bodies cp.bodyA).material (w.bodies cp.bodyB).material
              return behavior.mu.x) (by
            intro cp hcp
            obtain ⟨I, h⟩ := hI cp hcp
            simp only [bind, Except.bind, h]
            exact ⟨_, rfl, trivial⟩)
          exact ⟨R, hR⟩
        have h2 : ∃ R, restitutionVector w.surfaces_interactions w.params w.bodies cps = .ok R := by
          unfold restitutionVector
          split
          · exact ⟨_, rfl⟩
          · obtain ⟨R, hR, -⟩ := mapM_except (L := cps) (P := fun _ _ => True) (f := fun cp => do
              let behavior ← w.surfaces_interactions.get_interaction (w.bodies cp.bodyA).material (w.bodies cp.bodyB).material
              return behavior.epsilon) (by
              intro cp hcp
              obtain ⟨I, h⟩ := hI cp hcp
              simp only [bind, Except.bind, h]
              exact ⟨_, rfl, trivial⟩)
            exact ⟨R, hR⟩
        obtain ⟨R1, h1⟩ := h1
        obtain ⟨R2, h2⟩ := h2
        unfold Contacts.initialize
        simp only [bind, Except.bind, h1, h2]
        exact ⟨_, rfl⟩
    obtain ⟨C, hC⟩ := hC
    obtain ⟨xc, xh, hdu, -⟩ := velocityChange_ok hC
    obtain ⟨s2, hst, -⟩ := stabilized_ok
      (s1 := position_update (velocity_update s _) dt w.bodies (velocity_update s _).u) hC
    unfold step
    simp only [bind, Except.bind, hs, hcd, hC]
    simp only [hdu]
    rw [hst]
    exact ⟨_, rfl⟩

/-! ### Many steps -/

/-- Steps of the given sizes one after the other. -/
noncomputable def runSteps (st : ℝ → World N → Except PyErr (World N)) : List ℝ → World N → Except PyErr (World N)
  | [], w => .ok w
  | dt :: dts, w => match st dt w with
    | .error e => .error e
    | .ok w' => runSteps st dts w'

/-- C47 for histories: however many steps are made, with whatever step sizes and contacts, fixed bodies stay exactly as
they are; names, masses, inertia, shapes, forces, materials, hinges and parameters of the engine never change. -/
theorem C47_history {cd : World N → Except PyErr (List (ContactPoint N))} (dts : List ℝ) {w w' : World N}
    (h : runSteps (step cd) dts w = .ok w') :
    (∀ k, (w.bodies k).is_fixed = true → w'.bodies k = w.bodies k) ∧
    w'.forces = w.forces ∧ w'.hinges = w.hinges ∧ w'.surfaces_interactions = w.surfaces_interactions ∧
    w'.params = w.params ∧ ∀ k, w'.bodies k = { w.bodies k with
      r := (w'.bodies k).r, q := (w'.bodies k).q, v := (w'.bodies k).v, w := (w'.bodies k).w } := by
  induction dts generalizing w with
  | nil =>
    injection h with h
    subst h
    exact ⟨fun _ _ => rfl, rfl, rfl, rfl, rfl, fun _ => rfl⟩
  | cons dt dts ih =>
    unfold runSteps at h
    split at h
    · cases h
    rename_i w1 h1
    obtain ⟨a1, a2, a3, a4, a5, a6⟩ := ih h
    obtain ⟨-, b2, b3, b4, b5, b6⟩ := C48_frame h1
    refine ⟨?_, a2.trans b2, a3.trans b3, a4.trans b4, a5.trans b5, ?_⟩
    · intro k hk
      have h2 := C47_fixed h1 k hk
      rw [a1 k (by rw [h2]; exact hk), h2]
    · intro k
      rw [a6 k, b6 k]

/-- C48 for histories: if the orientations are unit at the start they are unit after any number of steps; movable
bodies have unit orientations after at least one step, whatever they had before. -/
theorem C48_unit_history {cd : World N → Except PyErr (List (ContactPoint N))} (dts : List ℝ) {w w' : World N}
    (h : runSteps (step cd) dts w = .ok w') (k : Fin N)
    (hk : IsUnitQ (w.bodies k).q ∨ (dts ≠ [] ∧ (w.bodies k).is_fixed = false)) : IsUnitQ (w'.bodies k).q := by
  induction dts generalizing w with
  | nil =>
    injection h with h
    subst h
    rcases hk with hk | ⟨hk, -⟩
    · exact hk
    · exact absurd rfl hk
  | cons dt dts ih =>
    unfold runSteps at h
    split at h
    · cases h
    rename_i w1 h1
    apply ih h
    left
    cases hfk : (w.bodies k).is_fixed with
    | false => exact C48_unit h1 k hfk
    | true =>
      rw [C47_fixed h1 k hfk]
      rcases hk with hk | ⟨-, hk⟩
      · exact hk
      · rw [hk] at hfk; cases hfk

/-! ### C45 simulate -/

/-- The stepper never changes the time step parameter (true of `step` by `C48_frame`). -/
def KeepsTimeStep (st : ℝ → World N → Except PyErr (World N)) : Prop :=
  ∀ dt w w', st dt w = .ok w' → w'.params.time_step = w.params.time_step

theorem step_keeps (cd : World N → Except PyErr (List (ContactPoint N))) : KeepsTimeStep (step cd) := by
  intro dt w w' h
  rw [(C48_frame h).2.2.2.2.1]

/-- The loop of `simulate` with n + 1 trips: n full steps and a last step of size T - n·ts. -/
theorem simLoop (st : ℝ → World N → Except PyErr (World N)) (hst : KeepsTimeStep st) (n : ℕ) (w : World N) (T ts : ℝ)
    (hts : w.params.time_step = ts) (h0 : 0 < ts) (h1 : n * ts < T) (h2 : T ≤ (n + 1) * ts) :
    LoopEnds (simTrip st) (w, T) ((runSteps st (List.replicate n ts ++ [T - n * ts]) w).map fun w' => (w', 0)) := by
  induction n generalizing w T with
  | zero =>
    simp only [Nat.cast_zero, zero_mul, zero_add, one_mul] at h1 h2
    simp only [Nat.cast_zero, zero_mul, sub_zero, List.replicate_zero, List.nil_append, runSteps]
    have hmin : min T w.params.time_step = T := by rw [hts]; exact min_eq_left h2
    cases hs : st T w with
    | error e =>
      refine .raised ?_
      simp only [simTrip, if_neg h1.ne', hmin, hs]
    | ok w' =>
      refine .next (s' := (w', 0)) ?_ (.done ?_)
      · simp only [simTrip, if_neg h1.ne', hmin, hs, sub_self]
      · simp [simTrip]
  | succ n ih =>
    push_cast at h1 h2
    have hT : 0 < T := by nlinarith [(Nat.cast_nonneg n : (0 : ℝ) ≤ n)]
    have hmin : min T w.params.time_step = ts := by
      rw [hts]
      exact min_eq_right (by nlinarith [(Nat.cast_nonneg n : (0 : ℝ) ≤ n)])
    rw [List.replicate_succ, List.cons_append]
    unfold runSteps
    cases hs : st ts w with
    | error e =>
      refine .raised ?_
      simp only [simTrip, if_neg hT.ne', hmin, hs]
    | ok w' =>
      have e : T - ((n + 1 : ℕ) : ℝ) * ts = (T - ts) - n * ts := by push_cast; ring
      rw [e]
      refine .next (s' := (w', T - ts)) ?_ (ih w' (T - ts) ((hst _ _ _ hs).trans hts) (by linarith) (by linarith))
      simp only [simTrip, if_neg hT.ne', hmin, hs]

/-- C45: with a positive time step, `simulate(T)` makes n = ⌈T / time_step⌉ steps, n - 1 of them of size time_step and
one of the remaining size T - (n - 1)·time_step, which is positive and at most time_step; so the sizes sum to T. -/
theorem C45_simulate (st : ℝ → World N → Except PyErr (World N)) (hst : KeepsTimeStep st) (w : World N) {T : ℝ} (hT : 0 < T)
    (hts : 0 < w.params.time_step) :
    let ts := w.params.time_step
    let n := ⌈T / ts⌉₊
    let dts := List.replicate (n - 1) ts ++ [T - (n - 1 : ℕ) * ts]
    simulate (some st) w T = runSteps st dts w ∧ dts.sum = T ∧ ∀ dt ∈ dts, 0 < dt ∧ dt ≤ ts := by
  intro ts n dts
  have hts' : 0 < ts := hts
  have hn : 0 < n := Nat.ceil_pos.2 (div_pos hT hts)
  have h1 : ((n - 1 : ℕ) : ℝ) * ts < T := by
    have : ((n - 1 : ℕ) : ℝ) < T / ts := by
      rw [← Nat.lt_ceil]
      exact Nat.sub_lt hn one_pos
    rwa [lt_div_iff₀ hts'] at this
  have h2 : T ≤ (((n - 1 : ℕ) : ℝ) + 1) * ts := by
    have h3 := Nat.le_ceil (T / ts)
    rw [div_le_iff₀ hts'] at h3
    have h4 : ((n - 1 : ℕ) : ℝ) + 1 = (n : ℝ) := by
      rw [← Nat.cast_succ]; congr 1; omega
    rw [h4]
    exact h3
  refine ⟨?_, ?_, ?_⟩
  · unfold simulate
    rw [if_neg (not_le.2 hT)]
    simp only []
    rw [whileLoop_eq (simLoop st hst (n - 1) w T ts rfl hts' h1 h2)]
    change (Except.map _ (runSteps st dts w)).map Prod.fst = _
    cases runSteps st dts w <;> rfl
  · simp only [dts, List.sum_append, List.sum_replicate, List.sum_singleton, nsmul_eq_mul]
    ring
  · intro dt hdt
    rcases List.mem_append.1 hdt with h | h
    · rw [(List.mem_replicate.1 h).2]
      exact ⟨hts', le_rfl⟩
    · rw [List.mem_singleton.1 h]
      exact ⟨by linarith, by linarith⟩

/-- C45: invalid requests: a non-positive time or a missing stepper raise ValueError; a non-positive time step never
returns (the loop runs until a step raises, if ever). -/
theorem C45_simulate_invalid (stepper : Option (ℝ → World N → Except PyErr (World N))) (w : World N) (T : ℝ) :
    (T ≤ 0 → simulate stepper w T = .error .valueError) ∧ (simulate none w T = .error .valueError) ∧
    (∀ st, stepper = some st → KeepsTimeStep st → 0 < T → w.params.time_step ≤ 0 → ∀ w', simulate stepper w T ≠ .ok w') := by
  refine ⟨fun h => by simp [simulate, h], ?_, ?_⟩
  · unfold simulate
    split <;> rfl
  · rintro st rfl hst hT hts w' h
    have key : ∀ s r, LoopEnds (simTrip st) s r → 0 < s.2 → s.1.params.time_step ≤ 0 → ∀ s', r ≠ .ok s' := by
      intro s r hr
      induction hr with
      | done hs =>
        intro h1 h2
        simp only [simTrip, if_neg h1.ne'] at hs
        split at hs <;> cases hs
      | raised hs => intro _ _ s' h; cases h
      | @next s s1 r hs _ ih =>
        intro h1 h2
        simp only [simTrip, if_neg h1.ne'] at hs
        split at hs
        · cases hs
        · rename_i w1 hw1
          injection hs with hs
          injection hs with hs
          subst hs
          apply ih
          · simp only
            have h3 := min_le_right s.2 s.1.params.time_step
            linarith
          · simp only
            rw [hst _ _ _ hw1]
            exact h2
    unfold simulate at h
    rw [if_neg (not_le.2 hT)] at h
    simp only [] at h
    cases hl : whileLoop (simTrip st) (w, T) with
    | error e => rw [hl] at h; cases h
    | ok s' =>
      by_cases hex : ∃ r, LoopEnds (simTrip st) (w, T) r
      · obtain ⟨r, hr⟩ := hex
        rw [whileLoop_eq hr] at hl
        exact key _ _ hr hT hts s' hl
      · rw [whileLoop_diverges (not_exists.1 hex)] at hl
        cases hl

/-- C45 with the stepper of the package: fixed bodies, parameters and static data survive a whole simulation. -/
theorem C45_simulate_history (cd : World N → Except PyErr (List (ContactPoint N))) {w w' : World N} {T : ℝ}
    (hts : 0 < w.params.time_step) (h : simulate (some (step cd)) w T = .ok w') :
    0 < T ∧ (∀ k, (w.bodies k).is_fixed = true → w'.bodies k = w.bodies k) ∧
    (∀ k, (w.bodies k).is_fixed = false → IsUnitQ (w'.bodies k).q) ∧ w'.params = w.params := by
  have hT : 0 < T := by
    by_contra hc
    rw [(C45_simulate_invalid (some (step cd)) w T).1 (not_lt.1 hc)] at h
    cases h
  have h1 := (C45_simulate (step cd) (step_keeps cd) w hT hts).1
  rw [h1] at h
  have h2 := C47_history _ h
  refine ⟨hT, h2.1, fun k hk => C48_unit_history _ h k (Or.inr ⟨by simp, hk⟩), h2.2.2.2.2.1⟩

/-! ### C67 energy -/

/-- Sum of the gravity accelerations of a list of forces. -/
noncomputable def gravitySum (fs : List Force) : V3 :=
  (fs.map fun f => match f.kind with
    | .gravity g up => g • up
    | .damping _ _ => 0).sum

theorem totalGravity_eq (fs : List Force) : (totalGravity fs).getD 0 = gravitySum fs := by
  have key : ∀ (fs : List Force) (G : Option V3), (fs.foldl (fun G f => match f.kind with
      | .gravity g up => some ((G.getD V3.zero) + g • up)
      | .damping _ _ => G) G).getD 0 = G.getD 0 + gravitySum fs := by
    intro fs
    induction fs with
    | nil => intro G; simp [gravitySum]
    | cons f fs ih =>
      intro G
      rw [List.foldl_cons, ih]
      unfold gravitySum
      obtain ⟨n, kd⟩ := f
      cases kd with
      | gravity g up =>
        simp only [List.map_cons, List.sum_cons, Option.getD_some]
        rw [add_assoc]
        rfl
      | damping a b => simp
  refine (key fs none).trans ?_
  simp

theorem norm_smul_unit (G r : V3) (m : ℝ) : m * V3.norm G * V3.dot (V3.unit G) r = m * V3.dot G r := by
  by_cases h : G = 0
  · subst h
    have h0 : V3.norm 0 = 0 := by simp [V3.norm, V3.dot]
    have h1 : V3.dot 0 r = 0 := by simp [V3.dot]
    rw [h0, h1]; ring
  · have hn := (V3.norm_pos h).ne'
    have : V3.dot (V3.unit G) r * V3.norm G = V3.dot G r := by
      simp only [V3.unit, V3.divs, V3.dot]
      field_simp
    rw [← this]; ring

/-- C67: `compute_total_energy` is the sum over the movable bodies of ½ m v·v + ½ ω·Iω and of m G·r, where G is the sum
of all gravity accelerations of the engine.  (If there are gravity forces but they cancel, G = 0, the program computes
0·(0/0), which is nan in floating point and 0 here.) -/
theorem C67_energy (s : StateStorage N) (w : World N) :
    let b := copy_to_engine s w.bodies
    compute_total_energy s w =
      (∑ k, (if (b k).is_fixed then 0 else (b k).mass * V3.dot (b k).v (b k).v / 2 +
          V3.dot (b k).w ((worldInertia (b k)).mulVec (b k).w) / 2),
       ∑ k, (if (b k).is_fixed then 0 else (b k).mass * V3.dot (gravitySum w.forces) (b k).r)) := by
  intro b
  have key : ∀ (ks : List (Fin N)) (a c : ℝ), ks.foldl (fun kp k =>
      if (w.bodies k).is_fixed then kp
      else
        let r := xr s.x k
        let R := Quat.to_matrix (xq s.x k)
        let v := lin s.u k
        let om := ang s.u k
        let m := (w.bodies k).mass
        let I_wcs := update_inertia_tensor R (w.bodies k).inertia
        let potential := match totalGravity w.forces with
          | some G => kp.2 + m * V3.norm G * V3.dot (V3.unit G) r
          | none => kp.2
        let wIw := V3.dot om (I_wcs.mulVec om)
        (kp.1 + 0.5 * (m * V3.dot v v + wIw), potential)) (a, c) =
      (a + (ks.map fun k => if (b k).is_fixed then 0 else (b k).mass * V3.dot (b k).v (b k).v / 2 +
          V3.dot (b k).w ((worldInertia (b k)).mulVec (b k).w) / 2).sum,
       c + (ks.map fun k => if (b k).is_fixed then 0 else (b k).mass * V3.dot (gravitySum w.forces) (b k).r).sum) := by
    intro ks
    induction ks with
    | nil => intro a c; simp
    | cons k ks ih =>
      intro a c
      rw [List.foldl_cons]
      have hb : (b k).is_fixed = (w.bodies k).is_fixed := rfl
      simp only [List.map_cons, List.sum_cons, hb]
      by_cases hf : (w.bodies k).is_fixed = true
      · rw [if_pos hf, ih]
        simp only [hf, if_true, zero_add]
      · rw [if_neg hf, ih]
        have hp : (match totalGravity w.forces with
            | some G => c + (w.bodies k).mass * V3.norm G * V3.dot (V3.unit G) (xr s.x k)
            | none => c) = c + (b k).mass * V3.dot (gravitySum w.forces) (b k).r := by
          rw [← totalGravity_eq]
          cases totalGravity w.forces with
          | none => simp [V3.dot]
          | some G =>
            simp only [norm_smul_unit]
            rfl
        simp only [if_neg hf]
        rw [Prod.mk.injEq]
        constructor
        · change a + 0.5 * ((b k).mass * V3.dot (b k).v (b k).v + V3.dot (b k).w ((worldInertia (b k)).mulVec (b k).w)) + _ = _
          ring
        · refine Eq.trans (congrArg (· + _) hp) ?_
          ring
  have hfr : ∀ f : Fin N → ℝ, ((List.finRange N).map f).sum = ∑ k, f k := by
    intro f
    rw [← List.ofFn_eq_map, List.sum_ofFn]
  unfold compute_total_energy
  rw [show ((0.0 : ℝ), (0.0 : ℝ)) = (0, 0) by norm_num]
  refine (key _ 0 0).trans ?_
  rw [hfr, hfr, zero_add, zero_add]

/-- C67: the kinetic energy is non-negative when masses and principal moments are. -/
theorem C67_kinetic_nonneg (s : StateStorage N) (w : World N) (hm : ∀ k, 0 ≤ (w.bodies k).mass)
    (hI : ∀ k, 0 ≤ (w.bodies k).inertia.x ∧ 0 ≤ (w.bodies k).inertia.y ∧ 0 ≤ (w.bodies k).inertia.z) :
    0 ≤ (compute_total_energy s w).1 := by
  rw [C67_energy]
  dsimp only
  refine Finset.sum_nonneg fun k _ => ?_
  split
  · exact le_rfl
  · have h1 : 0 ≤ V3.dot (copy_to_engine s w.bodies k).v (copy_to_engine s w.bodies k).v := by
      unfold V3.dot
      nlinarith [sq_nonneg (copy_to_engine s w.bodies k).v.x, sq_nonneg (copy_to_engine s w.bodies k).v.y,
        sq_nonneg (copy_to_engine s w.bodies k).v.z]
    have h2 : 0 ≤ V3.dot (copy_to_engine s w.bodies k).w
        ((worldInertia (copy_to_engine s w.bodies k)).mulVec (copy_to_engine s w.bodies k).w) := by
      unfold worldInertia
      have e : (copy_to_engine s w.bodies k).inertia = (w.bodies k).inertia := rfl
      rw [e]
      obtain ⟨i1, i2, i3⟩ := hI k
      generalize Quat.to_matrix _ = R
      generalize (copy_to_engine s w.bodies k).w = o
      generalize (w.bodies k).inertia = I at *
      have : V3.dot o ((update_inertia_tensor R I).mulVec o) =
          I.x * (R.m00 * o.x + R.m10 * o.y + R.m20 * o.z) ^ 2 + I.y * (R.m01 * o.x + R.m11 * o.y + R.m21 * o.z) ^ 2 +
            I.z * (R.m02 * o.x + R.m12 * o.y + R.m22 * o.z) ^ 2 := by
        simp only [V3.dot, M3.mulVec, update_inertia_tensor]
        ring
      rw [this]
      positivity
    have h3 : 0 ≤ (copy_to_engine s w.bodies k).mass := hm k
    have := mul_nonneg h3 h1
    linarith

/-- C67: if the gravity forces connected to a movable body add up to those of the engine, the potential energy is
consistent with the applied forces: without damping, minus the work of the applied force is the change of the potential.
(A gravity force that exists but is not connected to a body still counts in the energy, see
`C67_unconnected_gravity`.) -/
theorem C67_potential (w : World N) (k : Fin N) (hd : ∀ f ∈ (w.bodies k).forces, ∃ g up, f.kind = .gravity g up)
    (hg : gravitySum (w.bodies k).forces = gravitySum w.forces) (d : V3) :
    (w.bodies k).mass * V3.dot (gravitySum w.forces) ((w.bodies k).r + d) -
      (w.bodies k).mass * V3.dot (gravitySum w.forces) (w.bodies k).r = -V3.dot (appliedForce (w.bodies k)) d := by
  have key : appliedForce (w.bodies k) = (-(w.bodies k).mass) • gravitySum (w.bodies k).forces := by
    unfold appliedForce gravitySum
    generalize (w.bodies k).forces = fs at hd
    clear hg
    induction fs with
    | nil => ext <;> simp
    | cons f fs ih =>
      simp only [List.map_cons, List.sum_cons]
      rw [ih (fun f hf => hd f (List.mem_cons_of_mem _ hf))]
      obtain ⟨g, up, hk⟩ := hd f List.mem_cons_self
      rw [hk]
      ext <;> simp <;> ring
  rw [key, hg]
  simp only [V3.dot, V3.add_x, V3.add_y, V3.add_z, V3.smul_x, V3.smul_y, V3.smul_z]
  ring

/-- C67 (finding): gravity that is connected to no body still enters the reported potential energy: for a movable unit
mass at height z, with gravity 9.8 created but not connected, the applied force is zero but the potential is 9.8 z. -/
theorem C67_unconnected_gravity (z : ℝ) :
    let b : RigidBody := { RigidBody.init "a" with mass := 1, inertia := ⟨1, 1, 1⟩, r := ⟨0, 0, z⟩ }
    let g : Force := ⟨"g", .gravity 9.8 ⟨0, 0, 1⟩⟩
    let w : World 1 := ⟨fun _ => b, [g], [], [], SurfacesInteractionLibrary.init, Params.init⟩
    ∃ s, copy_from_engine w.bodies = .ok s ∧ appliedForce b = 0 ∧ compute_total_energy s w = (0, 9.8 * z) := by
  intro b g w
  obtain ⟨s, hs⟩ := (C46_mass_required w.bodies).2 (fun k _ => one_ne_zero)
  refine ⟨s, hs, rfl, ?_⟩
  have h := C67_energy s w
  have hb : copy_to_engine s w.bodies = w.bodies := by
    obtain ⟨hx, hu, -⟩ := copy_fields hs
    have := (C46_round_trip s w.bodies).1
    rw [← hx, ← hu] at this
    exact this
  rw [hb] at h
  rw [h]
  have h1 : ∀ k, (w.bodies k).is_fixed = false ∧ (w.bodies k).mass = 1 ∧ (w.bodies k).v = 0 ∧ (w.bodies k).w = 0 ∧
      (w.bodies k).r = ⟨0, 0, z⟩ := fun k => ⟨rfl, rfl, rfl, rfl, rfl⟩
  have hG : gravitySum w.forces = ⟨0, 0, 9.8⟩ := by
    change gravitySum [⟨"g", .gravity 9.8 ⟨0, 0, 1⟩⟩] = _
    simp [gravitySum]
    ext <;> simp
  simp only [h1, hG, Finset.univ_unique, Finset.sum_singleton]
  simp [V3.dot]

end Verif
