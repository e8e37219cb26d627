import Verif.Model.While

/-! Lemmas about `while` loops. -/

namespace Verif

/-- Two loops whose trips agree after forgetting a part of the state end alike. -/
theorem whileLoop_forget {σ τ : Type} (f : LoopStep σ) (g : LoopStep τ) (π : σ → τ) (hfg : ∀ s, (f s).map (Option.map π) = g (π s)) (s : σ) :
    (whileLoop f s).map π = whileLoop g (π s) := by
  have fwd : ∀ s r, LoopEnds f s r → LoopEnds g (π s) (r.map π) := by
    intro s r h
    induction h with
    | done hs => exact .done (by rw [← hfg, hs]; rfl)
    | raised hs => exact .raised (by rw [← hfg, hs]; rfl)
    | next hs _ ih => exact .next (by rw [← hfg, hs]; rfl) ih
  have bwd : ∀ t r, LoopEnds g t r → ∀ s, π s = t → ∃ r', LoopEnds f s r' := by
    intro t r h
    induction h with
    | @done t hs =>
      rintro s rfl
      rw [← hfg] at hs
      cases hf : f s with
      | error e => exact ⟨_, .raised hf⟩
      | ok o =>
        cases o with
        | none => exact ⟨_, .done hf⟩
        | some s' => rw [hf] at hs; cases Except.ok.inj hs
    | @raised t e hs =>
      rintro s rfl
      rw [← hfg] at hs
      cases hf : f s with
      | error e => exact ⟨_, .raised hf⟩
      | ok o => rw [hf] at hs; cases hs
    | @next t t' r hs _ ih =>
      rintro s rfl
      rw [← hfg] at hs
      cases hf : f s with
      | error e => exact ⟨_, .raised hf⟩
      | ok o =>
        cases o with
        | none => exact ⟨_, .done hf⟩
        | some s' =>
          rw [hf] at hs
          obtain ⟨r', hr'⟩ := ih s' (Option.some.inj (Except.ok.inj hs))
          exact ⟨r', .next hf hr'⟩
  by_cases hex : ∃ r, LoopEnds f s r
  · obtain ⟨r, hr⟩ := hex
    rw [whileLoop_eq hr, whileLoop_eq (fwd s r hr)]
  · rw [whileLoop_diverges (not_exists.1 hex), whileLoop_diverges]
    · rfl
    · intro r hr
      exact hex (bwd _ r hr s rfl)

end Verif
