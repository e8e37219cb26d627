import Verif.Model.ProxSolver
import Verif.Props.Prox
import Mathlib.Data.List.Pairwise
import Mathlib.Tactic.FinCases

/-! C36–C38: the proximal solvers.  Feasibility of the returned forces, the accept/reject history, and the incremental
velocity vector. -/

namespace Verif

open ProxSolver Matrix

variable {K B : ℕ} {M : Type} [Fintype M]

/-! ### C38: w = WJT x -/

theorem setBlock_eq (x : Fin K × Fin B → ℝ) (k : Fin K) (xb : Fin B → ℝ) (q : Fin K × Fin B) :
    setBlock x k xb q = x q + (if q.1 = k then xb q.2 - x (k, q.2) else 0) := by
  unfold setBlock
  obtain ⟨i, c⟩ := q
  by_cases h : i = k
  · subst h; simp
  · simp [h]

theorem mulVec_setBlock (D : Data K B M) (x : Fin K × Fin B → ℝ) (k : Fin K) (xb : Fin B → ℝ) :
    D.WJT *ᵥ setBlock x k xb = D.WJT *ᵥ x + blockDot D k (fun c => xb c - x (k, c)) := by
  funext i
  simp only [Matrix.mulVec, dotProduct, blockDot, Pi.add_apply]
  simp_rw [setBlock_eq, mul_add, Finset.sum_add_distrib]
  congr 1
  rw [Fintype.sum_prod_type, Finset.sum_eq_single k]
  · simp
  · intro j _ hj; simp [hj]
  · simp

/-- The block update that recomputes J·WJT·x from scratch. -/
noncomputable def exactBlock (D : Data K B M) (prox : Fin K → (Fin B → ℝ) → (Fin B → ℝ)) (r x : Fin K × Fin B → ℝ)
    (k : Fin K) : Fin K × Fin B → ℝ :=
  fun q => if q.1 = k then
    prox k (fun c => x (k, c) - r (k, c) * (((D.J * D.WJT) *ᵥ x) (k, c) + D.b (k, c))) q.2 else x q

/-- For every order of blocks: the incrementally updated w is W Jᵀ x for the current forces after each block. -/
theorem C38_velocity_consistent (D : Data K B M) (prox : Fin K → (Fin B → ℝ) → (Fin B → ℝ)) (r x : Fin K × Fin B → ℝ)
    (ks : List (Fin K)) :
    (ks.foldl (gsBlock D prox r) (x, D.WJT *ᵥ x)).2 = D.WJT *ᵥ (ks.foldl (gsBlock D prox r) (x, D.WJT *ᵥ x)).1 := by
  suffices h : ∀ s : (Fin K × Fin B → ℝ) × (M → ℝ), s.2 = D.WJT *ᵥ s.1 →
      (ks.foldl (gsBlock D prox r) s).2 = D.WJT *ᵥ (ks.foldl (gsBlock D prox r) s).1 from h _ rfl
  induction ks with
  | nil => intro s hs; exact hs
  | cons k ks ih =>
    intro s hs
    rw [List.foldl_cons]
    apply ih
    obtain ⟨x, w⟩ := s
    simp only at hs
    subst hs
    simp only [gsBlock]
    rw [mulVec_setBlock]

/-- So a sweep (contacts, hinges and post-stabilization alike) is exact block Gauss-Seidel: block after block, in
order, each computed from the residual J W Jᵀ x + b of the current forces. -/
theorem C38_sweep_exact (D : Data K B M) (prox : Fin K → (Fin B → ℝ) → (Fin B → ℝ)) (r x : Fin K × Fin B → ℝ) :
    gsSweep D prox r x = (List.finRange K).foldl (exactBlock D prox r) x := by
  unfold gsSweep
  generalize List.finRange K = ks
  induction ks generalizing x with
  | nil => rfl
  | cons k ks ih =>
    rw [List.foldl_cons, List.foldl_cons]
    have hx : (gsBlock D prox r (x, D.WJT *ᵥ x) k).1 = exactBlock D prox r x k := by
      funext q
      simp only [gsBlock, exactBlock, setBlock, Matrix.mulVec_mulVec]
    have hw : (gsBlock D prox r (x, D.WJT *ᵥ x) k).2 = D.WJT *ᵥ (exactBlock D prox r x k) := by
      rw [← hx]
      exact C38_velocity_consistent D prox r x [k]
    rw [← ih (exactBlock D prox r x k)]
    have hxw : gsBlock D prox r (x, D.WJT *ᵥ x) k = (exactBlock D prox r x k, D.WJT *ᵥ exactBlock D prox r x k) :=
      Prod.ext hx hw
    rw [hxw]

/-- A block can only change its own entries. -/
theorem C38_block_local (D : Data K B M) (prox : Fin K → (Fin B → ℝ) → (Fin B → ℝ)) (r x : Fin K × Fin B → ℝ)
    (w : M → ℝ) (k : Fin K) (q : Fin K × Fin B) (h : q.1 ≠ k) : (gsBlock D prox r (x, w) k).1 q = x q := by
  simp [gsBlock, setBlock, h]

/-! ### C37: the history of a solve -/

section history

variable {ι : Type} [Fintype ι]

/-- The last iterate that was not rejected; the zero vector if there is none. -/
def best (L : List (Iterate ι)) : ι → ℝ := ((L.filter (fun s => !s.reject)).getLast?.map Iterate.x).getD 0

/-- Its merit; none if nothing was accepted yet. -/
def bestMerit (L : List (Iterate ι)) : Option ℝ := (L.filter (fun s => !s.reject)).getLast?.map Iterate.merit

/-- The part of the log that went through the accept/reject decision: all of it, except the iteration at which a
convergence test stopped the loop. -/
def decided (R : Result ι) : List (Iterate ι) := if R.exitcode = 0 then R.log else R.log.dropLast

theorem best_reject (L : List (Iterate ι)) (x : ι → ℝ) (m : ℝ) : best (L ++ [⟨x, m, true⟩]) = best L := by
  simp [best, List.filter_append]

theorem bestMerit_reject (L : List (Iterate ι)) (x : ι → ℝ) (m : ℝ) : bestMerit (L ++ [⟨x, m, true⟩]) = bestMerit L := by
  simp [bestMerit, List.filter_append]

theorem best_accept (L : List (Iterate ι)) (x : ι → ℝ) (m : ℝ) : best (L ++ [⟨x, m, false⟩]) = x := by
  simp [best, List.filter_append]

theorem bestMerit_accept (L : List (Iterate ι)) (x : ι → ℝ) (m : ℝ) :
    bestMerit (L ++ [⟨x, m, false⟩]) = some m := by
  simp [bestMerit, List.filter_append]

/-- What the log says about one iteration `s` that followed the iterations `pre`. -/
structure GoodIterate (p : Params) (sweep : (ι → ℝ) → (ι → ℝ) → (ι → ℝ)) (r0 : ι → ℝ) (pre : List (Iterate ι))
    (s : Iterate ι) : Prop where
  /-- the sweep started from the last accepted iterate, with the r-factors multiplied by nu_reduce for each rejection
  so far, and by nu_increase for some of the acceptances. -/
  start : ∃ b ≤ (pre.filter (fun s => !s.reject)).length,
    s.x = sweep ((p.nu_reduce ^ (pre.filter (fun s => s.reject)).length * p.nu_increase ^ b) • r0) (best pre)
  /-- the merit is the largest change of a component against the last accepted iterate. -/
  merit : s.merit = ‖s.x - best pre‖

/-- ... and about an iteration after which the loop went on. -/
structure GoodDecision (p : Params) (pre : List (Iterate ι)) (s : Iterate ι) : Prop where
  reject : s.reject = true ↔ ∃ l, bestMerit pre = some l ∧ l < s.merit
  absolute : ¬ s.merit < p.absolute_tolerance
  relative : ∀ l, bestMerit pre = some l → ¬ |s.merit - l| < p.relative_tolerance * l

theorem split_snoc {α : Type} {L pre post : List α} {a s : α} (h : L ++ [a] = pre ++ s :: post) :
    (post = [] ∧ pre = L ∧ s = a) ∨ ∃ post', post = post' ++ [a] ∧ L = pre ++ s :: post' := by
  rcases List.eq_nil_or_concat post with rfl | ⟨post', b, rfl⟩
  · left
    have h2 := List.append_inj' h (by simp)
    obtain ⟨h3, h4⟩ := h2
    injection h4 with h5
    exact ⟨rfl, h3.symm, h5.symm⟩
  · right
    rw [List.concat_eq_append] at *
    have h2 : L ++ [a] = (pre ++ s :: post') ++ [b] := by rw [h]; simp
    have h3 := List.append_inj' h2 rfl
    obtain ⟨h4, h5⟩ := h3
    injection h5 with h6
    exact ⟨post', by rw [h6], h4⟩

structure LoopInv (p : Params) (sweep : (ι → ℝ) → (ι → ℝ) → (ι → ℝ)) (r0 : ι → ℝ) (s : State ι) : Prop where
  sol : s.sol = best s.log
  x : s.x = best s.log
  last : s.last_merit = bestMerit s.log
  r : ∃ b ≤ (s.log.filter (fun s => !s.reject)).length,
    s.r = (p.nu_reduce ^ (s.log.filter (fun s => s.reject)).length * p.nu_increase ^ b) • r0
  good : ∀ pre a post, s.log = pre ++ a :: post → GoodIterate p sweep r0 pre a ∧ GoodDecision p pre a
  mono : ((s.log.filter (fun s => !s.reject)).map Iterate.merit).Pairwise (· ≥ ·)

theorem solveLoop_spec (p : Params) (sweep : (ι → ℝ) → (ι → ℝ) → (ι → ℝ)) (r0 : ι → ℝ) (n : ℕ) (s : State ι)
    (hs : LoopInv p sweep r0 s) (hn : s.log.length + n = p.max_iterations) :
    let R := solveLoop p sweep n s
    R.log.length ≤ p.max_iterations ∧
    R.sol = best (decided R) ∧
    (((decided R).filter (fun s => !s.reject)).map Iterate.merit).Pairwise (· ≥ ·) ∧
    (∀ pre a post, R.log = pre ++ a :: post → GoodIterate p sweep r0 pre a) ∧
    (∀ pre a post, decided R = pre ++ a :: post → GoodDecision p pre a) ∧
    ((R.exitcode = 0 ∧ R.log.length = p.max_iterations ∧ R.iterations = p.max_iterations) ∨
     (∃ a, R.exitcode = 1 ∧ R.log = decided R ++ [a] ∧ R.iterations + 1 = R.log.length ∧
        a.merit < p.absolute_tolerance) ∨
     (∃ a l, R.exitcode = 2 ∧ R.log = decided R ++ [a] ∧ R.iterations + 1 = R.log.length ∧
        bestMerit (decided R) = some l ∧ |a.merit - l| < p.relative_tolerance * l)) := by
  induction n generalizing s with
  | zero =>
    have hlen : s.log.length = p.max_iterations := by omega
    simp only [solveLoop, decided, if_true]
    exact ⟨hlen.le, hs.sol, hs.mono, fun pre a post h => (hs.good pre a post h).1,
      fun pre a post h => (hs.good pre a post h).2, Or.inl ⟨trivial, hlen, trivial⟩⟩
  | succ n ih =>
    obtain ⟨b, hb, hr⟩ := hs.r
    have hgood : ∀ rej, GoodIterate p sweep r0 s.log ⟨sweep s.r s.x, ‖sweep s.r s.x - s.sol‖, rej⟩ := by
      intro rej
      exact ⟨⟨b, hb, by simp only; rw [hr, hs.x]⟩, by simp only; rw [hs.sol]⟩
    simp only [solveLoop]
    generalize hx : sweep s.r s.x = x at *
    generalize hm : ‖x - s.sol‖ = m at *
    have hlog : ∀ rej pre a post, s.log ++ [⟨x, m, rej⟩] = pre ++ a :: post → GoodIterate p sweep r0 pre a := by
      intro rej pre a post h
      rcases split_snoc h with ⟨_, rfl, rfl⟩ | ⟨post', _, h'⟩
      · exact hgood rej
      · exact (hs.good pre a post' h').1
    by_cases h1 : m < p.absolute_tolerance
    · rw [if_pos h1]
      simp only [decided, one_ne_zero, if_false, List.dropLast_concat]
      exact ⟨by simp; omega, hs.sol, hs.mono, hlog false, fun pre a post h => (hs.good pre a post h).2,
        Or.inr (Or.inl ⟨⟨x, m, false⟩, trivial, by simp, by simp, h1⟩)⟩
    rw [if_neg h1]
    by_cases h2 : relConverged p m s.last_merit
    · rw [if_pos h2]
      simp only [decided, OfNat.ofNat_ne_zero, if_false, List.dropLast_concat]
      refine ⟨by simp; omega, hs.sol, hs.mono, hlog false, fun pre a post h => (hs.good pre a post h).2,
        Or.inr (Or.inr ?_)⟩
      cases hl : s.last_merit with
      | none => rw [hl] at h2; exact h2.elim
      | some l =>
        rw [hl] at h2
        exact ⟨⟨x, m, false⟩, l, trivial, by simp, by simp, by rw [← hs.last, hl], h2⟩
    rw [if_neg h2]
    have hrel : ∀ l, bestMerit s.log = some l → ¬ |m - l| < p.relative_tolerance * l := by
      intro l hl h
      apply h2
      rw [hs.last, hl]
      exact h
    by_cases h3 : diverged m s.last_merit
    · rw [if_pos h3]
      apply ih
      · refine ⟨?_, ?_, ?_, ?_, ?_, ?_⟩
        · simp only; rw [best_reject]; exact hs.sol
        · simp only; rw [best_reject]; exact hs.sol
        · simp only; rw [bestMerit_reject]; exact hs.last
        · refine ⟨b, ?_, ?_⟩
          · simpa [List.filter_append] using hb
          · simp only
            rw [hr, smul_smul, List.filter_append]
            simp only [List.filter_cons, List.filter_nil, if_true, List.length_append, List.length_cons, List.length_nil]
            rw [zero_add, pow_succ]
            congr 1; ring
        · intro pre a post h
          refine ⟨hlog true pre a post h, ?_⟩
          rcases split_snoc h with ⟨_, rfl, rfl⟩ | ⟨post', _, h'⟩
          · refine ⟨?_, h1, hrel⟩
            simp only [true_iff]
            rw [← hs.last]
            cases hl : s.last_merit with
            | none => rw [hl] at h3; exact h3.elim
            | some l => rw [hl] at h3; exact ⟨l, rfl, h3⟩
          · exact (hs.good pre a post' h').2
        · simp only [List.filter_append]
          simpa using hs.mono
      · simp; omega
    · rw [if_neg h3]
      apply ih
      · refine ⟨?_, ?_, ?_, ?_, ?_, ?_⟩
        · simp only; rw [best_accept]
        · simp only; rw [best_accept]
        · simp only; rw [bestMerit_accept]
        · by_cases h4 : tooSlow p m s.last_merit
          · refine ⟨b + 1, ?_, ?_⟩
            · simpa [List.filter_append] using hb
            · simp only [if_pos h4]
              rw [hr, smul_smul, List.filter_append]
              simp [pow_succ]
              congr 1; ring
          · refine ⟨b, ?_, ?_⟩
            · simp [List.filter_append]; omega
            · simp only [if_neg h4]
              rw [hr, List.filter_append]
              simp
        · intro pre a post h
          refine ⟨hlog false pre a post h, ?_⟩
          rcases split_snoc h with ⟨_, rfl, rfl⟩ | ⟨post', _, h'⟩
          · refine ⟨?_, h1, hrel⟩
            simp only [Bool.false_eq_true, false_iff]
            rintro ⟨l, hl, hlt⟩
            apply h3
            rw [hs.last, hl]
            exact hlt
          · exact (hs.good pre a post' h').2
        · simp only [List.filter_append, List.map_append]
          simp only [List.filter_cons, List.filter_nil, Bool.not_false, if_true, List.map_cons, List.map_nil]
          rw [List.pairwise_append]
          refine ⟨hs.mono, by simp, ?_⟩
          intro a ha c hc
          simp only [List.mem_singleton] at hc
          rw [hc]
          -- the last accepted merit is the smallest one
          have hlast : ∃ l, bestMerit s.log = some l ∧ l ≤ a := by
            unfold bestMerit
            generalize hL : s.log.filter (fun s => !s.reject) = L at *
            rcases List.eq_nil_or_concat L with rfl | ⟨L', y, rfl⟩
            · simp at ha
            · rw [List.concat_eq_append] at *
              refine ⟨y.merit, by simp, ?_⟩
              rw [List.map_append, List.mem_append] at ha
              rcases ha with ha | ha
              · have := hs.mono
                rw [hL, List.map_append, List.pairwise_append] at this
                exact this.2.2 a ha y.merit (by simp)
              · simp at ha; exact ha.ge
          obtain ⟨l, hl, hla⟩ := hlast
          have : ¬ l < m := by
            intro h
            apply h3
            rw [hs.last, hl]
            exact h
          exact le_trans (not_lt.1 this) hla
      · simp; omega

/-- `solve` of the proximal_contact package, for every sweep function, parameters and initial r-factors.  It performs
at most `max_iterations` sweeps.  Each sweep starts from the last accepted iterate (so rejected iterates leave no
trace), its merit is the change against that iterate; it is rejected exactly when its merit exceeds the merit of the
last accepted one.  The merits of accepted iterates never increase and the returned vector is the last accepted
iterate.  The exit code tells which test stopped the loop. -/
theorem C37_solve_history [Nonempty ι] (p : Params) (sweep : (ι → ℝ) → (ι → ℝ) → (ι → ℝ)) (r0 : ι → ℝ) :
    ∃ R, solve p sweep r0 = .ok R ∧ R.log.length ≤ p.max_iterations ∧
    R.sol = best (decided R) ∧
    (((decided R).filter (fun s => !s.reject)).map Iterate.merit).Pairwise (· ≥ ·) ∧
    (∀ pre a post, R.log = pre ++ a :: post → GoodIterate p sweep r0 pre a) ∧
    (∀ pre a post, decided R = pre ++ a :: post → GoodDecision p pre a) ∧
    ((R.exitcode = 0 ∧ R.log.length = p.max_iterations ∧ R.iterations = p.max_iterations) ∨
     (∃ a, R.exitcode = 1 ∧ R.log = decided R ++ [a] ∧ R.iterations + 1 = R.log.length ∧
        a.merit < p.absolute_tolerance) ∨
     (∃ a l, R.exitcode = 2 ∧ R.log = decided R ++ [a] ∧ R.iterations + 1 = R.log.length ∧
        bestMerit (decided R) = some l ∧ |a.merit - l| < p.relative_tolerance * l)) := by
  refine ⟨_, ?_, solveLoop_spec p sweep r0 p.max_iterations ⟨0, 0, r0, none, []⟩ ?_ (by simp)⟩
  · unfold solve
    rw [if_neg]
    rintro ⟨h, _⟩
    exact not_isEmpty_of_nonempty ι h
  · refine ⟨rfl, rfl, rfl, ⟨0, le_rfl, by simp⟩, ?_, by simp⟩
    intro pre a post h
    simp at h

/-- Everything a sweep preserves, and that holds at zero, holds for the returned forces: whatever the termination. -/
theorem C37_invariant (p : Params) (sweep : (ι → ℝ) → (ι → ℝ) → (ι → ℝ)) (r0 : ι → ℝ) (P : (ι → ℝ) → Prop)
    (h0 : P 0) (hP : ∀ r x, P x → P (sweep r x)) (R : Result ι) (hR : solve p sweep r0 = .ok R) : P R.sol := by
  unfold solve at hR
  split at hR
  · cases hR
  · injection hR with hR
    subst hR
    suffices h : ∀ n (s : State ι), P s.sol → s.x = s.sol → P (solveLoop p sweep n s).sol from h _ _ h0 rfl
    intro n
    induction n with
    | zero => intro s hs _; exact hs
    | succ n ih =>
      intro s hs hx
      simp only [solveLoop]
      split
      · exact hs
      · split
        · exact hs
        · split
          · exact ih _ hs rfl
          · exact ih _ (hP _ _ (hx ▸ hs)) rfl

end history

end Verif
