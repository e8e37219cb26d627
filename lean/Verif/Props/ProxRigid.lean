import Verif.Props.ProxFeasible

/-! C36/C37 for the solver of `prox_rigid_bodies`, which runs several problems side by side. -/

namespace Verif

open ProxSolver Matrix

variable {M : Type}

/-- The state of a problem after j iterations of the solver. -/
noncomputable def stateAt (p : Params) (q : Prob M) (j : ℕ) : PState q.ι :=
  (PState.step p q.sweep)^[j] { q.st with last_merit := none }

/-- The problem after j iterations of the solver. -/
noncomputable def probAt (p : Params) (j : ℕ) (q : Prob M) : Prob M := { q with st := stateAt p q j }

theorem stateAt_succ (p : Params) (q : Prob M) (j : ℕ) : stateAt p q (j + 1) = (stateAt p q j).step p q.sweep := by
  unfold stateAt
  rw [Function.iterate_succ_apply']

/-- How one problem develops, independently of the other problems of the run: after each iteration the iterate is the
last accepted solution; an iteration either accepts the sweep (and then its merit, the change against the last accepted
solution, does not exceed the previous merit), or rolls back and reduces the r-factors. -/
theorem C37_rigid_step (p : Params) (q : Prob M) (hx : q.st.x = q.st.sol) (j : ℕ) :
    let s := stateAt p q j
    let s' := stateAt p q (j + 1)
    let y := q.sweep s.r s.sol
    s.x = s.sol ∧
    ((s'.sol = y ∧ s'.last_merit = some ‖y - s.sol‖ ∧ (∀ l, s.last_merit = some l → ‖y - s.sol‖ ≤ l) ∧
        (s'.r = s.r ∨ s'.r = p.nu_increase • s.r)) ∨
      (s'.sol = s.sol ∧ s'.r = p.nu_reduce • s.r ∧ s'.last_merit = s.last_merit ∧
        ∃ l, s.last_merit = some l ∧ l < ‖y - s.sol‖)) := by
  have hxs : (stateAt p q j).x = (stateAt p q j).sol := by
    cases j with
    | zero => exact hx
    | succ j =>
      rw [stateAt_succ]
      unfold PState.step
      simp only []
      split <;> rfl
  refine ⟨hxs, ?_⟩
  simp only [stateAt_succ]
  generalize stateAt p q j = s at *
  obtain ⟨x, sol, r, last⟩ := s
  simp only at hxs
  subst hxs
  unfold PState.step
  simp only []
  by_cases h : diverged ‖q.sweep r x - x‖ last
  · rw [if_pos h]
    right
    refine ⟨rfl, rfl, rfl, ?_⟩
    cases last with
    | none => exact h.elim
    | some l => exact ⟨l, rfl, h⟩
  · rw [if_neg h]
    left
    refine ⟨rfl, rfl, ?_, ?_⟩
    · intro l hl
      rw [hl] at h
      exact not_lt.1 h
    · simp only []
      split
      · right; rfl
      · left; rfl

/-- The merit reported for a problem after at least one iteration. -/
noncomputable def meritAt (p : Params) (q : Prob M) (j : ℕ) : ℝ := (stateAt p q j).last_merit.getD 0

theorem last_some (p : Params) (q : Prob M) (j : ℕ) : (stateAt p q (j + 1)).last_merit = some (meritAt p q (j + 1)) := by
  unfold meritAt
  rw [stateAt_succ]
  unfold PState.step
  simp only []
  split
  · rename_i h
    simp only
    cases hl : (stateAt p q j).last_merit with
    | none => rw [hl] at h; exact h.elim
    | some l => rfl
  · rfl

theorem contribution_eq (p : Params) (q : Prob M) (j : ℕ) :
    (probAt p j q).contribution = meritAt p q (j + 1) := by
  unfold Prob.contribution meritAt probAt
  rw [stateAt_succ]
  unfold PState.step
  simp only []
  by_cases h : diverged ‖q.sweep (stateAt p q j).r (stateAt p q j).x - (stateAt p q j).sol‖ (stateAt p q j).last_merit
  · rw [if_pos h, if_pos h]
  · rw [if_neg h, if_neg h]; rfl

theorem meritAt_nonneg (p : Params) (q : Prob M) (j : ℕ) : 0 ≤ meritAt p q j := by
  induction j with
  | zero => simp [meritAt, stateAt]
  | succ j ih =>
    unfold meritAt
    rw [stateAt_succ]
    unfold PState.step
    simp only []
    split
    · exact ih
    · exact norm_nonneg _

theorem meritAt_antitone (p : Params) (q : Prob M) (j : ℕ) : meritAt p q (j + 2) ≤ meritAt p q (j + 1) := by
  have h := last_some p q j
  conv_lhs => unfold meritAt
  rw [stateAt_succ p q (j + 1)]
  unfold PState.step
  simp only []
  split
  · simp only [h, Option.getD_some]; exact le_rfl
  · rename_i hd
    rw [h] at hd
    exact not_lt.1 hd

/-- The global merit of iteration j (counted from 1): the largest merit of a problem. -/
noncomputable def globalMerit (p : Params) (Ps : List (Prob M)) (j : ℕ) : ℝ :=
  Ps.foldl (fun g q => max g (meritAt p q j)) 0

theorem globalMerit_antitone (p : Params) (Ps : List (Prob M)) (j : ℕ) :
    globalMerit p Ps (j + 2) ≤ globalMerit p Ps (j + 1) := by
  unfold globalMerit
  suffices h : ∀ a b : ℝ, a ≤ b → Ps.foldl (fun g q => max g (meritAt p q (j + 2))) a ≤
      Ps.foldl (fun g q => max g (meritAt p q (j + 1))) b from h 0 0 le_rfl
  induction Ps with
  | nil => intro a b h; exact h
  | cons q Ps ih =>
    intro a b h
    exact ih _ _ (max_le_max h (meritAt_antitone p q j))

theorem rigidLoop_spec (p : Params) (Ps : List (Prob M)) (n j : ℕ) (hn : j + n = p.max_iterations) (glast : Option ℝ)
    (hg : glast = if j = 0 then none else some (globalMerit p Ps j)) (res : List ℝ)
    (hres : res = (List.range j).map fun i => globalMerit p Ps (i + 1))
    (hno : ∀ i, i < j → ¬ globalMerit p Ps (i + 1) < p.absolute_tolerance ∧
      (0 < i → ¬ |globalMerit p Ps (i + 1) - globalMerit p Ps i| < p.relative_tolerance * globalMerit p Ps i)) :
    ∃ m ≤ p.max_iterations,
      (rigidLoop p n (Ps.map (probAt p j)) glast res).problems = Ps.map (probAt p m) ∧
      (rigidLoop p n (Ps.map (probAt p j)) glast res).residuals =
        (List.range m).map (fun i => globalMerit p Ps (i + 1)) ∧
      (∀ i, i + 1 < m → ¬ globalMerit p Ps (i + 1) < p.absolute_tolerance ∧
        (0 < i → ¬ |globalMerit p Ps (i + 1) - globalMerit p Ps i| < p.relative_tolerance * globalMerit p Ps i)) ∧
      (((rigidLoop p n (Ps.map (probAt p j)) glast res).exitcode = 0 ∧ m = p.max_iterations ∧
          (rigidLoop p n (Ps.map (probAt p j)) glast res).iterations = m) ∨
        ((rigidLoop p n (Ps.map (probAt p j)) glast res).exitcode = 1 ∧ 0 < m ∧
          (rigidLoop p n (Ps.map (probAt p j)) glast res).iterations = m - 1 ∧
          globalMerit p Ps m < p.absolute_tolerance) ∨
        ((rigidLoop p n (Ps.map (probAt p j)) glast res).exitcode = 2 ∧ 1 < m ∧
          (rigidLoop p n (Ps.map (probAt p j)) glast res).iterations = m - 1 ∧
          |globalMerit p Ps m - globalMerit p Ps (m - 1)| < p.relative_tolerance * globalMerit p Ps (m - 1))) := by
  induction n generalizing j glast res with
  | zero =>
    exact ⟨j, by omega, rfl, hres, fun i hi => hno i (by omega), Or.inl ⟨rfl, by omega, by simp [rigidLoop]; omega⟩⟩
  | succ n ih =>
    have hit : rigidIteration p (Ps.map (probAt p j)) = (Ps.map (probAt p (j + 1)), globalMerit p Ps (j + 1)) := by
      unfold rigidIteration globalMerit
      rw [List.map_map, List.foldl_map]
      congr 1
      · apply List.map_congr_left
        intro q _
        simp only [Function.comp, Prob.step, probAt, stateAt_succ]
        rfl
      · congr 1
        funext g q
        rw [contribution_eq]
    have hres' : res ++ [globalMerit p Ps (j + 1)] = (List.range (j + 1)).map fun i => globalMerit p Ps (i + 1) := by
      rw [hres, List.range_succ, List.map_append]; rfl
    have hlen : res.length = j := by rw [hres]; simp
    rw [rigidLoop, hit]
    simp only
    by_cases h1 : globalMerit p Ps (j + 1) < p.absolute_tolerance
    · rw [if_pos h1]
      exact ⟨j + 1, by omega, rfl, hres', fun i hi => hno i (by omega), Or.inr (Or.inl ⟨rfl, by omega, by simp [hlen], h1⟩)⟩
    rw [if_neg h1]
    by_cases h2 : relConverged p (globalMerit p Ps (j + 1)) glast
    · rw [if_pos h2]
      by_cases hj : j = 0
      · rw [if_pos hj] at hg
        rw [hg] at h2
        exact h2.elim
      · rw [if_neg hj] at hg
        rw [hg] at h2
        exact ⟨j + 1, by omega, rfl, hres', fun i hi => hno i (by omega),
          Or.inr (Or.inr ⟨rfl, by omega, by simp [hlen], h2⟩)⟩
    rw [if_neg h2]
    apply ih (j + 1) (by omega) _ _ _ hres'
    · intro i hi
      by_cases h : i < j
      · exact hno i h
      · have : i = j := by omega
        subst this
        refine ⟨h1, fun hpos hrel => h2 ?_⟩
        rw [hg, if_neg (by omega)]
        exact hrel
    · simp

/-- `solve` of prox_rigid_bodies, for every list of problems: it performs some number m ≤ max_iterations of iterations,
after which every problem is where its own m steps (`C37_rigid_step`) bring it; the recorded residuals are the largest
merit over the problems, and never increase; the loop stops at the first iteration that meets one of the two
tolerances, and the exit code tells which. -/
theorem C37_rigid_solve (p : Params) (Ps : List (Prob M)) (hne : ∀ q ∈ Ps, Nonempty q.ι) :
    ∃ R m, rigidSolve p Ps = .ok R ∧ m ≤ p.max_iterations ∧ R.problems = Ps.map (probAt p m) ∧
      R.residuals = (List.range m).map (fun i => globalMerit p Ps (i + 1)) ∧ R.residuals.Pairwise (· ≥ ·) ∧
      (∀ i, i + 1 < m → ¬ globalMerit p Ps (i + 1) < p.absolute_tolerance ∧
        (0 < i → ¬ |globalMerit p Ps (i + 1) - globalMerit p Ps i| < p.relative_tolerance * globalMerit p Ps i)) ∧
      ((R.exitcode = 0 ∧ m = p.max_iterations ∧ R.iterations = m) ∨
        (R.exitcode = 1 ∧ 0 < m ∧ R.iterations = m - 1 ∧ globalMerit p Ps m < p.absolute_tolerance) ∨
        (R.exitcode = 2 ∧ 1 < m ∧ R.iterations = m - 1 ∧
          |globalMerit p Ps m - globalMerit p Ps (m - 1)| < p.relative_tolerance * globalMerit p Ps (m - 1))) := by
  have hok : rigidSolve p Ps = .ok (rigidLoop p p.max_iterations (Ps.map (probAt p 0)) none []) := by
    unfold rigidSolve
    rw [if_neg]
    · rfl
    · rintro ⟨⟨q, hq, he⟩, _⟩
      have := hne q hq
      exact not_isEmpty_of_nonempty q.ι he
  obtain ⟨m, hm, h1, h2, h3, h4⟩ := rigidLoop_spec p Ps p.max_iterations 0 (by omega) none (by simp) [] (by simp)
    (by intro i hi; omega)
  refine ⟨_, m, hok, hm, h1, h2, ?_, h3, h4⟩
  rw [h2, List.pairwise_map]
  refine List.Pairwise.imp ?_ (List.pairwise_lt_range (n := m))
  intro a b hab
  have : ∀ d, globalMerit p Ps (a + d + 1) ≤ globalMerit p Ps (a + 1) := by
    intro d
    induction d with
    | zero => exact le_rfl
    | succ d ih => exact le_trans (globalMerit_antitone p Ps (a + d)) ih
  have h := this (b - a)
  rw [show a + (b - a) + 1 = b + 1 by omega] at h
  exact h

/-- A property that holds for the zero vector and is kept by the sweep holds for the solution of the problem, whatever
else is in the problem list and however the run ends. -/
theorem rigid_invariant (p : Params) (q : Prob M) (P : (q.ι → ℝ) → Prop) (h0 : P q.st.sol) (hx : q.st.x = q.st.sol)
    (hP : ∀ r x, P x → P (q.sweep r x)) (j : ℕ) : P (stateAt p q j).sol := by
  induction j with
  | zero => exact h0
  | succ j ih =>
    rcases (C37_rigid_step p q hx j).2 with ⟨h, _⟩ | ⟨h, _⟩
    · rw [h]; exact hP _ _ ih
    · rw [h]; exact ih

/-- C36 for the rigid body simulator: the contact problem, solved together with any other problems (hinges), ends with
feasible contact forces. -/
theorem C36_rigid_contacts {K : ℕ} {M : Type} [Fintype M] (p : Params) (D : Data K 4 M) (mu : Fin K → ℝ) (hmu : ∀ k, 0 ≤ mu k)
    (before after : List (Prob M)) (R : RigidResult M)
    (hR : rigidSolve p (before ++ D.problem (contactProx Prox.prox_sphere mu) :: after) = .ok R) :
    ∃ s, R.problems[before.length]? = some { D.problem (contactProx Prox.prox_sphere mu) with st := s } ∧
      s.x = s.sol ∧ Feasible mu s.sol := by
  have hne : rigidSolve p (before ++ D.problem (contactProx Prox.prox_sphere mu) :: after) =
      .ok (rigidLoop p p.max_iterations
        ((before ++ D.problem (contactProx Prox.prox_sphere mu) :: after).map (probAt p 0)) none []) := by
    rw [hR]
    unfold rigidSolve at hR
    split at hR
    · cases hR
    · injection hR with hR
      rw [← hR]; rfl
  rw [hne] at hR
  injection hR with hR
  subst hR
  obtain ⟨m, -, h1, -⟩ := rigidLoop_spec p (before ++ D.problem (contactProx Prox.prox_sphere mu) :: after)
    p.max_iterations 0 (by omega) none (by simp) [] (by simp) (by intro i hi; omega)
  refine ⟨stateAt p (D.problem (contactProx Prox.prox_sphere mu)) m, ?_, ?_, ?_⟩
  · rw [h1]
    simp [probAt]
  · exact (C37_rigid_step p _ rfl m).1
  · exact rigid_invariant p (D.problem (contactProx Prox.prox_sphere mu)) (Feasible mu) (feasible_zero mu) rfl
      (fun r x hx => gsSweep_feasible D mu hmu r x hx) m

/-- C36 for post-stabilization: only non-negative normal displacements. -/
theorem C36_post_stabilization {K : ℕ} {M : Type} [Fintype M] (p : Params) (D : Data K 4 M) (m : ℕ) (k : Fin K) :
    let x := (stateAt p (D.problem normalProx) m).sol
    0 ≤ x (k, 0) ∧ x (k, 1) = 0 ∧ x (k, 2) = 0 ∧ x (k, 3) = 0 := by
  refine rigid_invariant p (D.problem normalProx)
    (fun x => 0 ≤ x (k, 0) ∧ x (k, 1) = 0 ∧ x (k, 2) = 0 ∧ x (k, 3) = 0) (by simp [Data.problem]) rfl ?_ m
  intro r x hx
  show 0 ≤ gsSweep D normalProx r x (k, 0) ∧ gsSweep D normalProx r x (k, 1) = 0 ∧ gsSweep D normalProx r x (k, 2) = 0 ∧
    gsSweep D normalProx r x (k, 3) = 0
  unfold gsSweep
  generalize List.finRange K = ks
  generalize D.WJT *ᵥ x = w
  induction ks generalizing x w with
  | nil => exact hx
  | cons j ks ih =>
    rw [List.foldl_cons]
    apply ih
    simp only [gsBlock, setBlock]
    by_cases h : k = j
    · subst h
      simp [normalProx]
      norm_num
    · simpa [h] using hx

/-- With a single problem the solver gives up at its first rejected iterate: the roll-back leaves the global merit
unchanged, which the relative test takes for convergence.  So, unlike in the other package, a reduced r-factor is never
tried. -/
theorem C37_single_problem_stops (p : Params) (q : Prob M) (hx : q.st.x = q.st.sol) (ha : 0 < p.absolute_tolerance)
    (hr : 0 < p.relative_tolerance) (R : RigidResult M) (m : ℕ) (hne : Nonempty q.ι) (hR : rigidSolve p [q] = .ok R)
    (hm : R.residuals.length = m) (i : ℕ) (hi : i + 1 < m) :
    (stateAt p q (i + 1)).sol = q.sweep (stateAt p q i).r (stateAt p q i).sol := by
  obtain ⟨R', m', hR', hm', h1, h2, -, h3, -⟩ := C37_rigid_solve p [q] (by simpa using hne)
  rw [hR] at hR'
  injection hR' with hR'
  subst hR'
  have : m' = m := by rw [← hm, h2]; simp
  subst this
  have hg : ∀ j, globalMerit p [q] j = meritAt p q j := by
    intro j
    simp [globalMerit, meritAt_nonneg]
  rcases (C37_rigid_step p q hx i).2 with ⟨h, _⟩ | ⟨h, _, hlast, l, hl, hlt⟩
  · exact h
  · exfalso
    cases i with
    | zero => simp [stateAt] at hl
    | succ i =>
      obtain ⟨ha1, hr1⟩ := h3 (i + 1) hi
      have heq : meritAt p q (i + 2) = meritAt p q (i + 1) := by
        unfold meritAt; rw [hlast]
      apply hr1 (by omega)
      rw [hg, hg, heq, sub_self, abs_zero]
      apply mul_pos hr
      have h4 := (h3 i (by omega)).1
      rw [hg] at h4
      exact lt_of_lt_of_le ha (not_lt.1 h4)

end Verif
