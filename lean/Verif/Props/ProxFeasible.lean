import Verif.Props.ProxSolver

/-! C36: the forces returned by the proximal solvers are feasible. -/

namespace Verif

open ProxSolver Matrix

variable {K : ℕ} {M : Type} [Fintype M]

/-- Forces that respect the contact laws: no pulling, and friction inside the Coulomb cone of each contact. -/
def Feasible (mu : Fin K → ℝ) (x : Fin K × Fin 4 → ℝ) : Prop :=
  ∀ k, 0 ≤ x (k, 0) ∧ Real.sqrt (x (k, 1) ^ 2 + x (k, 2) ^ 2 + x (k, 3) ^ 2) ≤ mu k * x (k, 0)

theorem feasible_zero (mu : Fin K → ℝ) : Feasible mu 0 := by
  intro k; simp

theorem prox_cone (z : V3) (mu x_n : ℝ) (hmu : 0 ≤ mu) (hx : 0 ≤ x_n) :
    Real.sqrt ((Prox.prox_sphere z mu x_n).x ^ 2 + (Prox.prox_sphere z mu x_n).y ^ 2 +
      (Prox.prox_sphere z mu x_n).z ^ 2) ≤ mu * x_n := by
  have h := (C34_prox_sphere_basic z mu x_n hmu).1
  unfold InDisk at h
  rw [max_eq_left hx] at h
  exact h

/-- A block computed by the contact operator is feasible. -/
theorem contactProx_feasible (mu : Fin K → ℝ) (hmu : ∀ k, 0 ≤ mu k) (k : Fin K) (z : Fin 4 → ℝ) :
    0 ≤ contactProx Prox.prox_sphere mu k z 0 ∧
    Real.sqrt (contactProx Prox.prox_sphere mu k z 1 ^ 2 + contactProx Prox.prox_sphere mu k z 2 ^ 2 +
      contactProx Prox.prox_sphere mu k z 3 ^ 2) ≤ mu k * contactProx Prox.prox_sphere mu k z 0 := by
  have h0 : (0 : ℝ) ≤ max 0.0 (z 0) := le_trans (by norm_num) (le_max_left _ _)
  refine ⟨h0, ?_⟩
  exact prox_cone _ (mu k) _ (hmu k) h0

theorem setBlock_feasible (mu : Fin K → ℝ) (x : Fin K × Fin 4 → ℝ) (hx : Feasible mu x) (k : Fin K) (xb : Fin 4 → ℝ)
    (hb : 0 ≤ xb 0 ∧ Real.sqrt (xb 1 ^ 2 + xb 2 ^ 2 + xb 3 ^ 2) ≤ mu k * xb 0) : Feasible mu (setBlock x k xb) := by
  intro j
  unfold setBlock
  by_cases h : j = k
  · subst h; simpa using hb
  · simpa [h] using hx j

/-- A Gauss-Seidel sweep from feasible forces gives feasible forces. -/
theorem gsSweep_feasible (D : Data K 4 M) (mu : Fin K → ℝ) (hmu : ∀ k, 0 ≤ mu k) (r x : Fin K × Fin 4 → ℝ)
    (hx : Feasible mu x) : Feasible mu (gsSweep D (contactProx Prox.prox_sphere mu) r x) := by
  unfold gsSweep
  generalize List.finRange K = ks
  suffices h : ∀ s : (Fin K × Fin 4 → ℝ) × (M → ℝ), Feasible mu s.1 →
      Feasible mu (ks.foldl (gsBlock D (contactProx Prox.prox_sphere mu) r) s).1 from h _ hx
  induction ks with
  | nil => intro s hs; exact hs
  | cons k ks ih =>
    intro s hs
    exact ih _ (setBlock_feasible mu _ hs k _ (contactProx_feasible mu hmu k _))

/-- C36 for `GaussSeidelSolver`: however the run ends, for every problem data, parameters and initial r-factors, the
returned forces are feasible. -/
theorem C36_gauss_seidel (p : Params) (D : Data K 4 M) (mu : Fin K → ℝ) (hmu : ∀ k, 0 ≤ mu k) (r0 : Fin K × Fin 4 → ℝ)
    (R : Result (Fin K × Fin 4)) (hR : solve p (gsSweep D (contactProx Prox.prox_sphere mu)) r0 = .ok R) :
    Feasible mu R.sol :=
  C37_invariant p _ r0 (Feasible mu) (feasible_zero mu) (fun r x hx => gsSweep_feasible D mu hmu r x hx) R hR

/-- C36 for `ParallelGaussSeidelSolver`, for every choice of colour groups and every order of the parallel trips. -/
theorem C36_parallel_gauss_seidel (p : Params) (D : Data K 4 M) (mu : Fin K → ℝ) (hmu : ∀ k, 0 ≤ mu k)
    (groups : List (Fin K × List (Fin K))) (r0 : Fin K × Fin 4 → ℝ)
    (R : Result (Fin K × Fin 4)) (hR : solve p (parallelSweep D Prox.prox_sphere mu groups) r0 = .ok R) :
    Feasible mu R.sol := by
  refine C37_invariant p _ r0 (Feasible mu) (feasible_zero mu) ?_ R hR
  intro r x hx
  unfold parallelSweep
  simp only []
  generalize D.WJT *ᵥ x = w0
  clear hR
  suffices h : ∀ s : (Fin K × Fin 4 → ℝ) × (Fin K → M → ℝ), Feasible mu s.1 →
      Feasible mu (groups.foldl (fun s g => g.2.foldl (workerTrip D Prox.prox_sphere mu r (groupW w0 s.2 g.1)) s) s).1
    from h _ hx
  induction groups with
  | nil => intro s hs; exact hs
  | cons g gs ih =>
    intro s hs
    refine ih _ ?_
    · obtain ⟨first, ks⟩ := g
      simp only
      generalize groupW w0 s.2 first = w
      clear ih
      induction ks generalizing s with
      | nil => exact hs
      | cons k ks ih =>
        exact ih _ (setBlock_feasible mu _ hs k _ (contactProx_feasible mu hmu k _))

/-- C36 for `ParallelJacobiHybridSolver`. -/
theorem C36_jacobi_hybrid (p : Params) (D : Data K 4 M) (mu : Fin K → ℝ) (hmu : ∀ k, 0 ≤ mu k)
    (r0 : Fin K × Fin 4 → ℝ) (R : Result (Fin K × Fin 4))
    (hR : solve p (jacobiSweep D Prox.prox_sphere mu true) r0 = .ok R) : Feasible mu R.sol := by
  refine C37_invariant p _ r0 (Feasible mu) (feasible_zero mu) ?_ R hR
  intro r x _ k
  exact contactProx_feasible mu hmu k
    (fun c => x (k, c) - r (k, c) * ((D.J *ᵥ (D.WJT *ᵥ x)) (k, c) + D.b (k, c)))

/-! `ParallelJacobiSolver` limits friction with the normal force of the previous iterate, and so can return forces
outside the friction cone. -/

/-- Two contacts with the same normal and tangent on one body of unit mass. -/
noncomputable def twoContacts : Data 2 4 (Fin 2) where
  J := fun q i => if (q.2 = 0 ∧ i = 0) ∨ (q.2 = 1 ∧ i = 1) then 1 else 0
  WJT := fun i q => if (q.2 = 0 ∧ i = 0) ∨ (q.2 = 1 ∧ i = 1) then 1 else 0
  b := fun q => if q = (0, 0) then -1 else if q = (1, 0) then -1 / 10 else if q = (1, 1) then -10 else 0

/-- The forces after one and two sweeps. -/
noncomputable def two1 : Fin 2 × Fin 4 → ℝ := fun q => if q = (0, 0) then 1 / 10 else if q = (1, 0) then 1 / 100 else 0
noncomputable def two2 : Fin 2 × Fin 4 → ℝ := fun q =>
  if q = (0, 0) then 189 / 1000 else if q = (1, 0) then 9 / 1000 else if q = (1, 1) then 1 / 100 else 0

theorem two_sweep1 (r : Fin 2 × Fin 4 → ℝ) (hr : ∀ q, r q = 1 / 10) :
    jacobiSweep twoContacts Prox.prox_sphere (fun _ => 1) false r 0 = two1 := by
  funext ⟨k, c⟩
  simp only [jacobiSweep, Matrix.mulVec_zero, hr]
  fin_cases k <;> fin_cases c <;>
    simp [two1, twoContacts, Prox.prox_sphere] <;> norm_num

theorem two_sweep2 (r : Fin 2 × Fin 4 → ℝ) (hr : ∀ q, r q = 1 / 10) :
    jacobiSweep twoContacts Prox.prox_sphere (fun _ => 1) false r two1 = two2 := by
  have hw : twoContacts.WJT *ᵥ two1 = ![11 / 100, 0] := by
    funext i
    fin_cases i <;> simp [Matrix.mulVec, dotProduct, twoContacts, two1, Fintype.sum_prod_type, Fin.sum_univ_succ] <;>
      norm_num
  have hJ : ∀ q, (twoContacts.J *ᵥ ![11 / 100, 0]) q = if q.2 = 0 then 11 / 100 else 0 := by
    rintro ⟨k, c⟩
    fin_cases c <;> simp [Matrix.mulVec, dotProduct, twoContacts, Fin.sum_univ_succ]
  funext ⟨k, c⟩
  simp only [jacobiSweep, hw, hJ, hr]
  fin_cases k <;> fin_cases c <;>
    simp [two1, two2, twoContacts, Prox.prox_sphere] <;> norm_num

theorem two_norm1 : ‖two1 - 0‖ = 1 / 10 := by
  apply le_antisymm
  · rw [pi_norm_le_iff_of_nonneg (by norm_num)]
    rintro ⟨k, c⟩
    fin_cases k <;> fin_cases c <;> simp [two1] <;> norm_num
  · have := norm_le_pi_norm (two1 - 0) (0, 0)
    refine le_trans (le_of_eq ?_) this
    simp [two1]

theorem two_norm2 : ‖two2 - two1‖ = 89 / 1000 := by
  apply le_antisymm
  · rw [pi_norm_le_iff_of_nonneg (by norm_num)]
    rintro ⟨k, c⟩
    fin_cases k <;> fin_cases c <;> simp [two1, two2] <;> norm_num [abs_le, abs_of_pos]
  · have := norm_le_pi_norm (two2 - two1) (0, 0)
    refine le_trans (le_of_eq ?_) this
    simp [two1, two2]
    norm_num

theorem solveLoop_accept {ι : Type} [Fintype ι] (p : Params) (sweep : (ι → ℝ) → (ι → ℝ) → (ι → ℝ)) (n : ℕ) (s : State ι)
    (x : ι → ℝ) (m : ℝ) (hx : sweep s.r s.x = x) (hm : ‖x - s.sol‖ = m) (h1 : ¬ m < p.absolute_tolerance)
    (h2 : ¬ relConverged p m s.last_merit) (h3 : ¬ diverged m s.last_merit) (h4 : ¬ tooSlow p m s.last_merit) :
    solveLoop p sweep (n + 1) s = solveLoop p sweep n ⟨x, x, s.r, some m, s.log ++ [⟨x, m, false⟩]⟩ := by
  subst hx
  subst hm
  rw [solveLoop]
  rw [if_neg h1, if_neg h2, if_neg h3, if_neg h4]

theorem two_run (p : Params) (ha : p.absolute_tolerance = 1 / 1000) (hb : p.relative_tolerance = 1 / 1000)
    (hc : p.too_small_merit_change = 1 / 1000) (hn : p.max_iterations = 2) (r0 : Fin 2 × Fin 4 → ℝ)
    (hr : ∀ q, r0 q = 1 / 10) :
    solve p (jacobiSweep twoContacts Prox.prox_sphere (fun _ => 1) false) r0 =
      .ok ⟨two2, [⟨two1, 1 / 10, false⟩, ⟨two2, 89 / 1000, false⟩], 2, 0⟩ := by
  unfold solve
  rw [if_neg (by rintro ⟨h, _⟩; exact h.false (0, 0)), hn]
  rw [solveLoop_accept p _ 1 ⟨0, 0, r0, none, []⟩ two1 (1 / 10) (two_sweep1 r0 hr) two_norm1 (by rw [ha]; norm_num)
    (by simp [relConverged]) (by simp [diverged]) (by simp [tooSlow])]
  rw [solveLoop_accept p _ 0 ⟨two1, two1, r0, some (1 / 10), _⟩ two2 (89 / 1000) (two_sweep2 r0 hr) two_norm2 (by rw [ha]; norm_num)
    (by simp only [relConverged, hb]; norm_num [abs_of_neg]) (by simp only [diverged]; norm_num)
    (by simp only [tooSlow, hc]; norm_num)]
  simp only [solveLoop, hn]
  rfl

/-- C36 fails for `ParallelJacobiSolver`: with the solver's own initial r-factors, nonnegative friction and ordinary
parameters it returns a friction force larger than mu times the normal force. -/
theorem C36_jacobi_infeasible : ∃ (p : Params) (D : Data 2 4 (Fin 2)) (mu : Fin 2 → ℝ) (R : Result (Fin 2 × Fin 4)),
    (∀ k, 0 ≤ mu k) ∧ D.WJT = D.Jᵀ ∧ 0 < p.absolute_tolerance ∧ 0 < p.relative_tolerance ∧
    solve p (jacobiSweep D Prox.prox_sphere mu false) (compute_initial_r_factor D) = .ok R ∧ ¬ Feasible mu R.sol := by
  have hr : ∀ q, compute_initial_r_factor twoContacts q = 1 / 10 := by
    rintro ⟨k, c⟩
    unfold compute_initial_r_factor ProxSolver.diag
    fin_cases c <;> simp [twoContacts, Fin.sum_univ_succ] <;> norm_num
  refine ⟨⟨1 / 1000, 1 / 1000, 1 / 2, 2, 1 / 1000, 2⟩, twoContacts, fun _ => 1,
    ⟨two2, [⟨two1, 1 / 10, false⟩, ⟨two2, 89 / 1000, false⟩], 2, 0⟩, fun _ => zero_le_one, ?_, by norm_num, by norm_num,
    ?_, ?_⟩
  · funext i q
    simp [twoContacts, Matrix.transpose]
  · exact two_run _ rfl rfl rfl rfl _ hr
  · intro h
    have := (h 1).2
    have e0 : two2 (1, 0) = 9 / 1000 := by simp [two2]
    have e1 : two2 (1, 1) = 1 / 100 := by simp [two2]
    have e2 : two2 (1, 2) = 0 := by simp [two2]
    have e3 : two2 (1, 3) = 0 := by simp [two2]
    simp only [e0, e1, e2, e3] at this
    rw [show ((1 / 100 : ℝ) ^ 2 + 0 ^ 2 + 0 ^ 2) = (1 / 100) ^ 2 by norm_num, Real.sqrt_sq (by norm_num)] at this
    norm_num at this

/-- What holds for `ParallelJacobiSolver`: normal forces are nonnegative, and friction is limited by the normal force
of the iterate before. -/
theorem C36_jacobi_weak (D : Data K 4 M) (mu : Fin K → ℝ) (hmu : ∀ k, 0 ≤ mu k) (r x : Fin K × Fin 4 → ℝ)
    (hx : ∀ k, 0 ≤ x (k, 0)) (k : Fin K) :
    let x' := jacobiSweep D Prox.prox_sphere mu false r x
    0 ≤ x' (k, 0) ∧ Real.sqrt (x' (k, 1) ^ 2 + x' (k, 2) ^ 2 + x' (k, 3) ^ 2) ≤ mu k * x (k, 0) := by
  refine ⟨le_trans (by norm_num) (le_max_left _ _), ?_⟩
  exact prox_cone _ (mu k) (x (k, 0)) (hmu k) (hx k)

/-- The Gauss-Seidel theorem applies to the same two contacts. -/
example : ∃ R, solve ⟨1 / 1000, 1 / 1000, 1 / 2, 2, 1 / 1000, 2⟩
    (gsSweep twoContacts (contactProx Prox.prox_sphere (fun _ => 1))) (compute_initial_r_factor twoContacts) = .ok R ∧
    Feasible (fun _ => 1) R.sol := by
  obtain ⟨R, hR, _⟩ := C37_solve_history ⟨1 / 1000, 1 / 1000, 1 / 2, 2, 1 / 1000, 2⟩
    (gsSweep twoContacts (contactProx Prox.prox_sphere (fun _ => 1))) (compute_initial_r_factor twoContacts)
  exact ⟨R, hR, C36_gauss_seidel _ _ _ (fun _ => zero_le_one) _ R hR⟩

end Verif
