import Verif.Props.Contacts
import Verif.Props.ProxRigid

/-! C40: what a converged contact solve means. -/

namespace Verif

open Matrix ProxSolver Rigid

variable {N : ℕ}

/-- Block k of x is reproduced by its own update. -/
def BlockFixed {K B : ℕ} {M : Type} [Fintype M] (D : Data K B M) (prox : Fin K → (Fin B → ℝ) → (Fin B → ℝ))
    (r x : Fin K × Fin B → ℝ) (k : Fin K) : Prop :=
  (fun c => x (k, c)) = prox k (fun c => x (k, c) - r (k, c) * (((D.J * D.WJT) *ᵥ x) (k, c) + D.b (k, c)))

theorem exactBlock_eq_iff {K B : ℕ} {M : Type} [Fintype M] (D : Data K B M)
    (prox : Fin K → (Fin B → ℝ) → (Fin B → ℝ)) (r x : Fin K × Fin B → ℝ) (k : Fin K) :
    exactBlock D prox r x k = x ↔ BlockFixed D prox r x k := by
  unfold BlockFixed
  constructor
  · intro h
    funext c
    have := congrFun h (k, c)
    unfold exactBlock at this
    rw [if_pos rfl] at this
    exact this.symm
  · intro h
    funext q
    unfold exactBlock
    split_ifs with hq
    · rw [← h]
      simp only []
      rw [← hq]
    · rfl

theorem exactFold_other {K B : ℕ} {M : Type} [Fintype M] (D : Data K B M)
    (prox : Fin K → (Fin B → ℝ) → (Fin B → ℝ)) (r x : Fin K × Fin B → ℝ) (ks : List (Fin K)) (q : Fin K × Fin B)
    (h : q.1 ∉ ks) : ks.foldl (exactBlock D prox r) x q = x q := by
  induction ks generalizing x with
  | nil => rfl
  | cons k ks ih =>
    rw [List.mem_cons, not_or] at h
    rw [List.foldl_cons, ih _ h.2]
    unfold exactBlock
    rw [if_neg h.1]

theorem exactFold_fixed_iff {K B : ℕ} {M : Type} [Fintype M] (D : Data K B M)
    (prox : Fin K → (Fin B → ℝ) → (Fin B → ℝ)) (r x : Fin K × Fin B → ℝ) (ks : List (Fin K)) (hn : ks.Nodup) :
    ks.foldl (exactBlock D prox r) x = x ↔ ∀ k ∈ ks, BlockFixed D prox r x k := by
  induction ks with
  | nil => simp
  | cons k ks ih =>
    rw [List.nodup_cons] at hn
    rw [List.foldl_cons]
    constructor
    · intro h
      have hy : exactBlock D prox r x k = x := by
        funext q
        by_cases hq : q.1 = k
        · have := congrFun h q
          rw [exactFold_other _ _ _ _ _ _ (by rw [hq]; exact hn.1)] at this
          exact this
        · unfold exactBlock
          rw [if_neg hq]
      rw [hy] at h
      intro l hl
      rcases List.mem_cons.1 hl with rfl | hl
      · exact (exactBlock_eq_iff ..).1 hy
      · exact (ih hn.2).1 h l hl
    · intro h
      rw [(exactBlock_eq_iff D prox r x k).2 (h k List.mem_cons_self)]
      exact (ih hn.2).2 fun l hl => h l (List.mem_cons_of_mem _ hl)

/-- A sweep leaves x unchanged exactly when every block reproduces itself. -/
theorem sweep_fixed_iff {K B : ℕ} {M : Type} [Fintype M] (D : Data K B M)
    (prox : Fin K → (Fin B → ℝ) → (Fin B → ℝ)) (r x : Fin K × Fin B → ℝ) :
    gsSweep D prox r x = x ↔ ∀ k, BlockFixed D prox r x k := by
  rw [C38_sweep_exact, exactFold_fixed_iff _ _ _ _ _ (List.nodup_finRange K)]
  simp

/-- The fields of an initialised contact problem. -/
theorem contacts_init {dt : ℝ} {s : StateStorage N} {w : World N} {C : ContactProblem N w.contact_points.length}
    (h : Contacts.initialize dt s w = .ok C) :
    C.data.J = contactJacobian w.bodies w.contact_points ∧ C.data.WJT = s.W * C.data.Jᵀ ∧
    C.g = contactError w.params dt w.contact_points (C.data.J *ᵥ s.u) ∧
    (∀ i, i.2 ≠ 0 → C.e i = 0) ∧
    C.data.b = (1 + C.e) * (C.data.J *ᵥ s.u) + C.data.J *ᵥ (dt • s.delta_u_ext) + C.g := by
  unfold Contacts.initialize at h
  simp only [bind, Except.bind] at h
  split at h
  · cases h
  split at h
  · cases h
  simp only [pure, Except.pure, Except.ok.injEq] at h
  subst h
  refine ⟨rfl, rfl, rfl, ?_, rfl⟩
  intro i hi
  simp only [if_neg hi]

theorem contactError_tangent (p : Rigid.Params) (dt : ℝ) (cps : List (ContactPoint N)) (v : Fin cps.length × Fin 4 → ℝ)
    (i : Fin cps.length × Fin 4) (hi : i.2 ≠ 0) : contactError p dt cps v i = 0 := by
  unfold contactError
  split
  · rfl
  · simp [hi]

theorem friction_fixed {x1 x2 x3 v1 v2 v3 r1 r2 r3 mu xn : ℝ} (h0 : 0 ≤ xn) (hm : 0 ≤ mu) (h1 : 0 < r1) (h2 : 0 < r2)
    (h3 : 0 < r3)
    (h : (⟨x1, x2, x3⟩ : V3) = Prox.prox_sphere ⟨x1 - r1 * v1, x2 - r2 * v2, x3 - r3 * v3⟩ mu xn) :
    x1 ^ 2 + x2 ^ 2 + x3 ^ 2 ≤ (mu * xn) ^ 2 ∧
    (x1 ^ 2 + x2 ^ 2 + x3 ^ 2 < (mu * xn) ^ 2 → v1 = 0 ∧ v2 = 0 ∧ v3 = 0) ∧
    (x1 * v1 ≤ 0 ∧ x2 * v2 ≤ 0 ∧ x3 * v3 ≤ 0) := by
  unfold Prox.prox_sphere at h
  by_cases hx : xn ≤ 0
  · rw [if_pos hx, V3.mk.injEq] at h
    obtain ⟨rfl, rfl, rfl⟩ := h
    have : xn = 0 := le_antisymm hx h0
    subst this
    simp
  rw [if_neg hx] at h
  simp only [] at h
  set z1 := x1 - r1 * v1 with hz1
  set z2 := x2 - r2 * v2 with hz2
  set z3 := x3 - r3 * v3 with hz3
  have hR : 0 ≤ mu * xn := mul_nonneg hm h0
  by_cases hin : z1 * z1 + z2 * z2 + z3 * z3 ≤ mu * xn * (mu * xn)
  · rw [if_pos hin, V3.mk.injEq] at h
    obtain ⟨a, b, c⟩ := h
    have w1 : v1 = 0 := by
      have : r1 * v1 = 0 := by linarith
      exact (mul_eq_zero.1 this).resolve_left h1.ne'
    have w2 : v2 = 0 := by
      have : r2 * v2 = 0 := by linarith
      exact (mul_eq_zero.1 this).resolve_left h2.ne'
    have w3 : v3 = 0 := by
      have : r3 * v3 = 0 := by linarith
      exact (mul_eq_zero.1 this).resolve_left h3.ne'
    refine ⟨?_, fun _ => ⟨w1, w2, w3⟩, by simp [w1], by simp [w2], by simp [w3]⟩
    rw [a, b, c]
    nlinarith
  · rw [if_neg hin, V3.mk.injEq] at h
    push Not at hin
    obtain ⟨a, b, c⟩ := h
    set S := z1 * z1 + z2 * z2 + z3 * z3 with hS
    have hS0 : 0 < S := lt_of_le_of_lt (mul_nonneg hR hR) hin
    have hq : 0 < Real.sqrt S := Real.sqrt_pos.2 hS0
    have hqq : Real.sqrt S * Real.sqrt S = S := Real.mul_self_sqrt hS0.le
    set t := mu * xn / Real.sqrt S with ht
    have ht0 : 0 ≤ t := div_nonneg hR hq.le
    have ht1 : t ≤ 1 := by
      rw [ht, div_le_one hq]
      exact abs_le_of_sq_le_sq' (by nlinarith) hq.le |>.2
    have htS : t * t * S = (mu * xn) ^ 2 := by
      have : t * Real.sqrt S = mu * xn := by rw [ht]; field_simp
      rw [← this, mul_pow, pow_two (Real.sqrt S), hqq]; ring
    have heq : x1 ^ 2 + x2 ^ 2 + x3 ^ 2 = (mu * xn) ^ 2 := by
      rw [← htS, hS, a, b, c]; ring
    refine ⟨heq.le, fun hlt => absurd heq hlt.ne, ?_⟩
    have key : ∀ {x z r v : ℝ}, 0 < r → z = x - r * v → x = z * t → x * v ≤ 0 := by
      intro x z r v hr hz hxz
      have : r * (x * v) = x * x - x * z := by rw [hz]; ring
      have h2 : x * x - x * z = -(t * (1 - t) * z ^ 2) := by rw [hxz]; ring
      have h3 : 0 ≤ t * (1 - t) * z ^ 2 := mul_nonneg (mul_nonneg ht0 (by linarith)) (sq_nonneg z)
      by_contra hc
      push Not at hc
      have := mul_pos hr hc
      linarith
    exact ⟨key h1 hz1 a, key h2 hz2 b, key h3 hz3 c⟩

/-- C40: contacts in equilibrium.  Take any contact forces x that a sweep of the contact problem reproduces (with any
positive r-factors), let u' = u + dt·W·f_ext + W·Jᵀ·x be the velocities they lead to, and write v = J u, v' = J u' for
the contact velocities before and after.  Then for every contact: the normal force does not pull; the normal velocity
satisfies v'ₙ + e·vₙ + g ≥ 0, with equality wherever the normal force is positive (Newton's impact law, no approach
when e = g = 0); the friction force is at most μ times the normal force; strictly below the limit the contact sticks;
and each friction component never does positive work. -/
theorem C40_equilibrium {dt : ℝ} {s : StateStorage N} {w : World N} {C : ContactProblem N w.contact_points.length}
    (h : Contacts.initialize dt s w = .ok C) (hmu : ∀ k, 0 ≤ C.mu k) (r x : Fin w.contact_points.length × Fin 4 → ℝ)
    (hr : ∀ q, 0 < r q) (hx : gsSweep C.data (contactProx Prox.prox_sphere C.mu) r x = x)
    (k : Fin w.contact_points.length) :
    let J := contactJacobian w.bodies w.contact_points
    let u' := s.u + dt • s.delta_u_ext + s.W *ᵥ (Jᵀ *ᵥ x)
    let v := J *ᵥ s.u
    let v' := J *ᵥ u'
    0 ≤ x (k, 0) ∧
    0 ≤ v' (k, 0) + C.e (k, 0) * v (k, 0) + C.g (k, 0) ∧
    (0 < x (k, 0) → v' (k, 0) = -C.e (k, 0) * v (k, 0) - C.g (k, 0)) ∧
    x (k, 1) ^ 2 + x (k, 2) ^ 2 + x (k, 3) ^ 2 ≤ (C.mu k * x (k, 0)) ^ 2 ∧
    (x (k, 1) ^ 2 + x (k, 2) ^ 2 + x (k, 3) ^ 2 < (C.mu k * x (k, 0)) ^ 2 →
      v' (k, 1) = 0 ∧ v' (k, 2) = 0 ∧ v' (k, 3) = 0) ∧
    (x (k, 1) * v' (k, 1) ≤ 0 ∧ x (k, 2) * v' (k, 2) ≤ 0 ∧ x (k, 3) * v' (k, 3) ≤ 0) := by
  obtain ⟨hJ, hW, hg, he, hb⟩ := contacts_init h
  intro J u' v v'
  have hJ' : C.data.J = J := hJ
  have hres : ∀ i : Fin 4, ((C.data.J * C.data.WJT) *ᵥ x) (k, i) + C.data.b (k, i) =
      v' (k, i) + C.e (k, i) * v (k, i) + C.g (k, i) := by
    intro i
    have : v' = v + J *ᵥ (dt • s.delta_u_ext) + (C.data.J * C.data.WJT) *ᵥ x := by
      change J *ᵥ u' = _
      rw [hW, hJ', Matrix.mulVec_add, Matrix.mulVec_add, ← Matrix.mulVec_mulVec, ← Matrix.mulVec_mulVec]
    rw [hb, this, hJ']
    simp only [Pi.add_apply, Pi.mul_apply, Pi.one_apply]
    change _ + ((1 + C.e (k, i)) * v (k, i) + _ + _) = _
    ring
  have hfix := (sweep_fixed_iff ..).1 hx k
  unfold BlockFixed at hfix
  simp only [hres] at hfix
  have hg0 : ∀ i : Fin 4, i ≠ 0 → C.g (k, i) = 0 := by
    intro i hi
    rw [hg]
    exact contactError_tangent _ _ _ _ _ hi
  have e1 : C.e (k, 1) = 0 := he (k, 1) (by simp)
  have e2 : C.e (k, 2) = 0 := he (k, 2) (by simp)
  have e3 : C.e (k, 3) = 0 := he (k, 3) (by simp)
  have g1 := hg0 1 (by simp)
  have g2 := hg0 2 (by simp)
  have g3 := hg0 3 (by simp)
  have f0 := congrFun hfix 0
  have f1 := congrFun hfix 1
  have f2 := congrFun hfix 2
  have f3 := congrFun hfix 3
  have r0 := hr (k, 0)
  have r1 := hr (k, 1)
  have r2 := hr (k, 2)
  have r3 := hr (k, 3)
  have hm := hmu k
  simp only [contactProx, e1, e2, e3, g1, g2, g3, zero_mul, add_zero, Matrix.cons_val_zero, Matrix.cons_val_one,
    Matrix.cons_val] at f0 f1 f2 f3
  rw [← f0] at f1 f2 f3
  have hx0 : 0 ≤ x (k, 0) := by rw [f0]; norm_num
  have hf := friction_fixed (v1 := v' (k, 1)) (v2 := v' (k, 2)) (v3 := v' (k, 3)) hx0 hm r1 r2 r3 (V3.ext f1 f2 f3)
  refine ⟨hx0, ?_, ?_, hf⟩
  · by_contra hc
    push Not at hc
    have h1 := mul_neg_of_pos_of_neg r0 hc
    have h2 : x (k, 0) - r (k, 0) * (v' (k, 0) + C.e (k, 0) * v (k, 0) + C.g (k, 0)) ≤ x (k, 0) := by
      conv_rhs => rw [f0]
      exact le_max_right _ _
    linarith
  · intro hpos
    rcases max_choice (0.0 : ℝ) (x (k, 0) - r (k, 0) * (v' (k, 0) + C.e (k, 0) * v (k, 0) + C.g (k, 0))) with hc | hc
    · rw [hc] at f0
      norm_num at f0
      linarith
    · rw [hc] at f0
      have h1 : r (k, 0) * (v' (k, 0) + C.e (k, 0) * v (k, 0) + C.g (k, 0)) = 0 := by linarith
      have h2 := (mul_eq_zero.1 h1).resolve_left r0.ne'
      linarith

/-- C40: the pre-stabilization velocity of a contact is zero unless pre-stabilization is on, the contact penetrates more
than `min_gap_value` and is not separating; then, for a positive time step, it is γ·gap/dt, cut off at
-`max_gap_value`/dt.  Combined with `C40_equilibrium`: an active contact separates at exactly the speed that removes the
fraction γ of the penetration in one step, at most `max_gap_value`. -/
theorem C40_stabilization (p : Rigid.Params) {dt : ℝ} (hdt : 0 < dt) (cps : List (ContactPoint N))
    (v : Fin cps.length × Fin 4 → ℝ) (k : Fin cps.length) :
    (contactError p dt cps v (k, 0) * dt =
      if p.use_pre_stabilization = true ∧ (cps.get k).g < -p.min_gap_value ∧ v (k, 0) ≤ 0 then
        max (-p.max_gap_value) (p.gap_reduction * (cps.get k).g) else 0) ∧
    ∀ i : Fin 4, i ≠ 0 → contactError p dt cps v (k, i) = 0 := by
  refine ⟨?_, fun i hi => contactError_tangent p dt cps v (k, i) hi⟩
  unfold contactError
  by_cases h : p.use_pre_stabilization = false
  · rw [if_pos h]
    simp [h]
  · rw [if_neg h]
    rw [Bool.not_eq_false] at h
    simp only [h, true_and]
    split
    · rw [max_mul_of_nonneg _ _ hdt.le]
      congr 1 <;> field_simp
    · simp

theorem mapM_getD {α β : Type} {f : α → Except PyErr β} {L : List α} {R : List β} (h : L.mapM f = .ok R) (d : β)
    (k : Fin L.length) : f (L.get k) = .ok (R.getD k d) := by
  induction L generalizing R with
  | nil => exact k.elim0
  | cons a L ih =>
    rw [List.mapM_cons] at h
    simp only [bind, Except.bind] at h
    split at h
    · cases h
    rename_i b hb
    split at h
    · cases h
    rename_i R' hR'
    simp only [pure, Except.pure, Except.ok.injEq] at h
    subst h
    refine Fin.cases ?_ (fun k => ?_) k
    · simpa using hb
    · simpa using ih hR' k

/-- C40: every contact uses the friction coefficient (first entry of μ) and, if bounce is enabled, the restitution
coefficient of the interaction registered for the materials of its two bodies; without bounce the restitution is 0. -/
theorem C40_coefficients {dt : ℝ} {s : StateStorage N} {w : World N} {C : ContactProblem N w.contact_points.length}
    (h : Contacts.initialize dt s w = .ok C) (k : Fin w.contact_points.length) :
    let cp := w.contact_points.get k
    ∃ I, w.surfaces_interactions.get_interaction (w.bodies cp.bodyA).material (w.bodies cp.bodyB).material = .ok I ∧
      C.mu k = I.mu.x ∧ C.e (k, 0) = (if w.params.use_bounce = true then I.epsilon else 0) ∧
      ∀ i : Fin 4, i ≠ 0 → C.e (k, i) = 0 := by
  have he := (contacts_init h).2.2.2.1
  unfold Contacts.initialize at h
  simp only [bind, Except.bind] at h
  split at h
  · cases h
  rename_i el hel
  split at h
  · cases h
  rename_i mul hmul
  simp only [pure, Except.pure, Except.ok.injEq] at h
  subst h
  have hmu := mapM_getD hmul 0 k
  simp only [bind, Except.bind] at hmu
  split at hmu
  · cases hmu
  rename_i I hI
  simp only [pure, Except.pure, Except.ok.injEq] at hmu
  refine ⟨I, hI, hmu.symm, ?_, fun i hi => he (k, i) hi⟩
  simp only [if_true]
  unfold restitutionVector at hel
  by_cases hb : w.params.use_bounce = false
  · rw [if_pos hb] at hel
    rw [if_neg (by simp [hb])]
    injection hel with hel
    rw [← hel]
    simp
  · rw [if_neg hb] at hel
    rw [Bool.not_eq_false] at hb
    rw [if_pos hb]
    have h2 := mapM_getD hel 0 k
    simp only [bind, Except.bind] at h2
    rw [hI] at h2
    simp only [pure, Except.pure, Except.ok.injEq] at h2
    exact h2.symm

/-- A body takes part in contact k. -/
def InContact (cps : List (ContactPoint N)) (m : Fin N) (k : Fin cps.length) : Prop :=
  m = (cps.get k).bodyA ∨ m = (cps.get k).bodyB

theorem contactJacobian_zero (bodies : Fin N → RigidBody) (cps : List (ContactPoint N)) (k : Fin cps.length) (i : Fin 4)
    (m : Fin N) (c : Fin 6) (h : ¬ InContact cps m k) : contactJacobian bodies cps (k, i) (m, c) = 0 := by
  rw [contactJacobian_row]
  unfold InContact at h
  push Not at h
  simp only [pairRow, if_neg h.1, if_neg h.2, add_zero]

/-- The inverse mass matrix couples no two different bodies, and nothing at all for a fixed body. -/
theorem inverse_mass_block {bodies : Fin N → RigidBody} {x : Pos N → ℝ} {W : Matrix (Vel N) (Vel N) ℝ}
    (h : compute_inverse_mass_matrix bodies x = .ok W) (m n : Fin N) (c d : Fin 6)
    (hmn : m ≠ n ∨ (bodies m).is_fixed = true ∨ (bodies n).is_fixed = true) : W (m, c) (n, d) = 0 := by
  unfold compute_inverse_mass_matrix at h
  split at h
  · cases h
  injection h with h
  subst h
  simp only []
  split_ifs with he
  · subst he
    have hf : (bodies m).is_fixed = true := by
      rcases hmn with h | h | h
      · exact absurd rfl h
      · exact h
      · exact h
    simp only [massBlocks, hf, if_true]
    clear hmn
    simp only [sixBlock, M3.zero]
    fin_cases c <;> fin_cases d <;> rfl
  · rfl

/-- C40: contacts that have no movable body in common do not influence each other: the Delassus matrix has no entry
between them.  So the colour groups of C39 are decoupled. -/
theorem C40_decoupled {dt : ℝ} {s : StateStorage N} {w : World N} {C : ContactProblem N w.contact_points.length}
    (hs : copy_from_engine w.bodies = .ok s) (h : Contacts.initialize dt s w = .ok C)
    (ks : List (Fin w.contact_points.length))
    (hk : ∀ k ∈ ks, ∀ l ∈ ks, k ≠ l → ∀ m, InContact w.contact_points m k → InContact w.contact_points m l →
      (w.bodies m).is_fixed = true) : Decoupled C.data ks := by
  obtain ⟨hJ, hW, -⟩ := contacts_init h
  have hM : compute_inverse_mass_matrix w.bodies (get_position_vector w.bodies) = .ok s.W := by
    unfold copy_from_engine at hs
    simp only [bind, Except.bind] at hs
    split at hs
    · cases hs
    rename_i W hW2
    simp only [pure, Except.pure, Except.ok.injEq] at hs
    rw [← hs]
    exact hW2
  intro k hkk l hl hne c d
  rw [hW, hJ]
  simp only [Matrix.mul_apply, Matrix.transpose_apply]
  apply Finset.sum_eq_zero
  rintro ⟨m, i⟩ _
  by_cases hm : InContact w.contact_points m k
  · rw [mul_eq_zero]
    right
    apply Finset.sum_eq_zero
    rintro ⟨n, j⟩ _
    by_cases hn : InContact w.contact_points n l
    · rw [mul_eq_zero]
      left
      apply inverse_mass_block hM
      by_cases hmn : m = n
      · subst hmn
        exact Or.inr (Or.inl (hk k hkk l hl hne m hm hn))
      · exact Or.inl hmn
    · rw [contactJacobian_zero _ _ _ _ _ _ hn, mul_zero]
  · rw [contactJacobian_zero _ _ _ _ _ _ hm, zero_mul]

/-- C39/C40: the groups the greedy colouring makes of the contact graph of a rigid body engine are decoupled. -/
theorem C39_rigid_groups_decoupled {dt : ℝ} {s : StateStorage N} {w : World N}
    {C : ContactProblem N w.contact_points.length} (hs : copy_from_engine w.bodies = .ok s)
    (h : Contacts.initialize dt s w = .ok C) (ks : List (Fin w.contact_points.length))
    (hk : (ks.map fun k => (4 * k.val, 4 * k.val + 4)) ∈ (Blocking.greedy_graph_coloring
      (Blocking.build_contact_graph_rigid (w.contact_points.map fun cp => ⟨cp.bodyA.val, cp.bodyB.val⟩))).values) :
    Decoupled C.data ks := by
  apply C40_decoupled hs h
  intro k hk1 l hl1 hne m hm1 hm2
  exfalso
  set cs : List Blocking.RigidContact := w.contact_points.map fun cp => ⟨cp.bodyA.val, cp.bodyB.val⟩ with hcs
  have hadj := (C39_greedy_groups _ (C39_graphs_loopless cs []).1).2 _ hk
  have hz := hadj.2.2 (4 * k.val, 4 * k.val + 4) (List.mem_map.2 ⟨k, hk1, rfl⟩) (4 * l.val, 4 * l.val + 4)
    (List.mem_map.2 ⟨l, hl1, rfl⟩) k.val l.val rfl rfl
  rw [← Bool.not_eq_true, C39_rigid_graph] at hz
  apply hz
  refine ⟨fun e => hne (Fin.ext e), ⟨(w.contact_points.get k).bodyA.val, (w.contact_points.get k).bodyB.val⟩,
    ⟨(w.contact_points.get l).bodyA.val, (w.contact_points.get l).bodyB.val⟩, m.val, by simp [hcs], by simp [hcs], ?_, ?_⟩
  · rcases hm1 with rfl | rfl <;> simp
  · rcases hm2 with rfl | rfl <;> simp

/-- C40 (largest penetration): the reported value is nonnegative, no contact penetrates deeper, and it is attained by a
contact unless it is zero. -/
theorem C40_largest_penetration (cps : List (ContactPoint N)) :
    0 ≤ get_largest_penetration cps ∧ (∀ cp ∈ cps, -cp.g ≤ get_largest_penetration cps) ∧
      (get_largest_penetration cps = 0 ∨ ∃ cp ∈ cps, get_largest_penetration cps = -cp.g) := by
  unfold get_largest_penetration
  suffices hh : ∀ a : ℝ, cps.foldl (fun gap cp => min gap cp.g) a ≤ a ∧
      (∀ cp ∈ cps, cps.foldl (fun gap cp => min gap cp.g) a ≤ cp.g) ∧
      (cps.foldl (fun gap cp => min gap cp.g) a = a ∨ ∃ cp ∈ cps, cps.foldl (fun gap cp => min gap cp.g) a = cp.g) by
    rw [show (0.0 : ℝ) = 0 by norm_num]
    obtain ⟨h1, h2, h3⟩ := hh 0
    refine ⟨by linarith, fun cp hcp => by linarith [h2 cp hcp], ?_⟩
    rcases h3 with h3 | ⟨cp, h, e⟩
    · left; simpa using h3
    · right; exact ⟨cp, h, by simpa using e⟩
  induction cps with
  | nil => intro a; simp
  | cons c cs ih =>
    intro a
    rw [List.foldl_cons]
    obtain ⟨h1, h2, h3⟩ := ih (min a c.g)
    refine ⟨h1.trans (min_le_left _ _), ?_, ?_⟩
    · intro cp hcp
      rcases List.mem_cons.1 hcp with rfl | hcp
      · exact h1.trans (min_le_right _ _)
      · exact h2 cp hcp
    · rcases h3 with h3 | ⟨cp, h, e⟩
      · rw [h3]
        rcases min_choice a c.g with hm | hm
        · left; exact hm
        · right; exact ⟨c, List.mem_cons_self, hm⟩
      · right; exact ⟨cp, List.mem_cons_of_mem _ h, e⟩

end Verif
