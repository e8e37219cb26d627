import Verif.Model.Vec

/-! Python `while` loops. -/

namespace Verif

/-- One trip of a loop: `ok none` = the loop exits in this state, `ok (some s')` = the body ran and
left s', `error e` = the body raised. -/
abbrev LoopStep (σ : Type*) := σ → Except PyErr (Option σ)

/-- `LoopEnds step s r`: the loop started in s ends with r (after finitely many trips). -/
inductive LoopEnds {σ : Type*} (step : LoopStep σ) : σ → Except PyErr σ → Prop
  | done {s} : step s = .ok none → LoopEnds step s (.ok s)
  | raised {s e} : step s = .error e → LoopEnds step s (.error e)
  | next {s s' r} : step s = .ok (some s') → LoopEnds step s' r → LoopEnds step s r

theorem LoopEnds.det {σ : Type*} {step : LoopStep σ} {s : σ} {r r' : Except PyErr σ}
    (h : LoopEnds step s r) (h' : LoopEnds step s r') : r = r' := by
  induction h with
  | done hs =>
    cases h' with
    | done => rfl
    | raised hs' => rw [hs] at hs'; cases hs'
    | next hs' => rw [hs] at hs'; cases hs'
  | raised hs =>
    cases h' with
    | done hs' => rw [hs] at hs'; cases hs'
    | raised hs' => rw [hs] at hs'; cases hs'; rfl
    | next hs' => rw [hs] at hs'; cases hs'
  | next hs _ ih =>
    cases h' with
    | done hs' => rw [hs] at hs'; cases hs'
    | raised hs' => rw [hs] at hs'; cases hs'
    | next hs' h2 => rw [hs] at hs'; cases hs'; exact ih h2

open Classical in
/-- The result of a loop; a loop that never ends has the result `error diverges`. -/
noncomputable def whileLoop {σ : Type*} (step : LoopStep σ) (s : σ) : Except PyErr σ :=
  if h : ∃ r, LoopEnds step s r then h.choose else .error .diverges

theorem whileLoop_eq {σ : Type*} {step : LoopStep σ} {s : σ} {r : Except PyErr σ}
    (h : LoopEnds step s r) : whileLoop step s = r := by
  have hex : ∃ r, LoopEnds step s r := ⟨r, h⟩
  unfold whileLoop
  rw [dif_pos hex]
  exact LoopEnds.det hex.choose_spec h

theorem whileLoop_diverges {σ : Type*} {step : LoopStep σ} {s : σ}
    (h : ∀ r, ¬ LoopEnds step s r) : whileLoop step s = .error .diverges := by
  unfold whileLoop
  rw [dif_neg (by push Not; exact h)]

/-- Total correctness from an invariant and a measure: if each trip from an invariant state either
exits or moves to an invariant state of smaller measure, the loop ends in an invariant exit state. -/
theorem LoopEnds.of_measure {σ : Type*} {step : LoopStep σ} (I : σ → Prop) (μ : σ → ℕ)
    (hstep : ∀ s, I s → step s = .ok none ∨ ∃ s', step s = .ok (some s') ∧ I s' ∧ μ s' < μ s)
    (s : σ) (hs : I s) : ∃ s', LoopEnds step s (.ok s') ∧ I s' ∧ step s' = .ok none := by
  induction hn : μ s using Nat.strong_induction_on generalizing s with
  | _ n ih =>
    rcases hstep s hs with h | ⟨s', h, hI, hlt⟩
    · exact ⟨s, .done h, hs, h⟩
    · obtain ⟨s'', h1, h2, h3⟩ := ih _ (hn ▸ hlt) s' hI rfl
      exact ⟨s'', .next h h1, h2, h3⟩

end Verif
