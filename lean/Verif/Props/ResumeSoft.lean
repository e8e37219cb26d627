import Verif.Props.Resume
import Verif.Props.SoftApp

/-! C132 for the soft body simulator. -/

namespace Verif

open Soft

namespace Resume

theorem soft_trips (eps : ℝ) (listOf : Finset (ℤ × ℤ) → List (ℤ × ℤ)) (P : FullParams) (W : ℕ × (ℕ → ℕ → ℝ)) {T : ℝ} (hT : 0 < T) (n : ℕ) :
    ∀ (w : Soft.World), 0 < w.eng.params.time_step → w.eng.stepper = some W →
    (whileLoop (World.trip eps listOf P W) (w, n * w.eng.params.time_step + T)).map Prod.fst =
      ((whileLoop (World.trip eps listOf P W) (w, n * w.eng.params.time_step)).map Prod.fst >>= fun w' => w'.simulate eps listOf P T) := by
  induction n with
  | zero =>
    intro w _ hW
    rw [whileLoop_unfold _ (w, ((0 : ℕ) : ℝ) * w.eng.params.time_step)]
    have : World.trip eps listOf P W (w, ((0 : ℕ) : ℝ) * w.eng.params.time_step) = .ok none := by
      unfold World.trip
      rw [if_pos (by simp)]
    rw [this]
    have hg : getStepper w.eng = .ok W := by unfold getStepper; rw [hW]
    have hw : ({ w with eng := { w.eng with stepper := some W } } : Soft.World) = w := by rw [← hW]
    change _ = w.simulate eps listOf P T
    unfold World.simulate
    rw [if_neg (not_le.2 hT), hg]
    simp only [Nat.cast_zero, zero_mul, zero_add, Bind.bind, Except.bind]
    rw [hw]
    cases whileLoop (World.trip eps listOf P W) (w, T) <;> rfl
  | succ n ih =>
    intro s hts hW
    have hn : (0 : ℝ) ≤ n * s.eng.params.time_step := by positivity
    have h0 : ∀ {x : ℝ}, s.eng.params.time_step ≤ x → World.trip eps listOf P W (s, x) = (match s.step eps listOf P W s.eng.params.time_step with
        | .error e => .error e
        | .ok w => .ok (some (w, x - s.eng.params.time_step))) := by
      intro x hx
      unfold World.trip
      rw [if_neg (by dsimp only; linarith)]
      dsimp only
      rw [min_eq_right hx]
      rfl
    have e1 : ((n + 1 : ℕ) : ℝ) * s.eng.params.time_step = n * s.eng.params.time_step + s.eng.params.time_step := by push_cast; ring
    rw [e1, whileLoop_unfold _ (s, n * s.eng.params.time_step + s.eng.params.time_step + T), whileLoop_unfold _ (s, n * s.eng.params.time_step + s.eng.params.time_step),
      h0 (by linarith), h0 (by linarith)]
    cases hs : s.step eps listOf P W s.eng.params.time_step with
    | error e => rfl
    | ok s' =>
      dsimp only
      have hsame := SoftApp.worldStep_same hs
      have hp : s'.eng.params.time_step = s.eng.params.time_step := by
        obtain ⟨t, ht⟩ := hsame.params
        rw [ht]
      have := ih s' (by rw [hp]; exact hts) (hsame.stepper.trans hW)
      rw [hp] at this
      rw [show (n : ℝ) * s.eng.params.time_step + s.eng.params.time_step + T - s.eng.params.time_step = n * s.eng.params.time_step + T by ring,
        show (n : ℝ) * s.eng.params.time_step + s.eng.params.time_step - s.eng.params.time_step = n * s.eng.params.time_step by ring]
      exact this

end Resume

open Resume

/-- **C132.** The soft body simulator: simulating n time steps and then T more in a second call is the same as one call for the sum; also when `simulate` makes its stepper
(the mass matrix) only in the first call. -/
theorem C132_soft_split (eps : ℝ) (listOf : Finset (ℤ × ℤ) → List (ℤ × ℤ)) (P : FullParams) (w : Soft.World) (hts : 0 < w.eng.params.time_step) (n : ℕ) (hn : 0 < n) {T : ℝ}
    (hT : 0 < T) : w.simulate eps listOf P (n * w.eng.params.time_step + T) =
      (w.simulate eps listOf P (n * w.eng.params.time_step) >>= fun w' => w'.simulate eps listOf P T) := by
  have h1 : (0 : ℝ) < n * w.eng.params.time_step := mul_pos (by exact_mod_cast hn) hts
  have h2 : ∀ X : ℝ, 0 < X → w.simulate eps listOf P X = (getStepper w.eng >>= fun W =>
      (whileLoop (World.trip eps listOf P W) ({ w with eng := { w.eng with stepper := some W } }, X)).map Prod.fst) := by
    intro X hX
    unfold World.simulate
    rw [if_neg (not_le.2 hX)]
    cases getStepper w.eng with
    | error e => rfl
    | ok W =>
      simp only [Bind.bind, Except.bind]
      cases whileLoop (World.trip eps listOf P W) ({ w with eng := { w.eng with stepper := some W } }, X) <;> rfl
  rw [h2 _ (by linarith), h2 _ h1]
  cases getStepper w.eng with
  | error e => rfl
  | ok W => exact soft_trips eps listOf P W hT n { w with eng := { w.eng with stepper := some W } } hts rfl

/-- A time step of 1/100 second: three steps and then 1/2 second more are 53/100 of a second. -/
example (eps : ℝ) (listOf : Finset (ℤ × ℤ) → List (ℤ × ℤ)) (P : FullParams) (w : Soft.World) (h : w.eng.params.time_step = 1 / 100) :
    w.simulate eps listOf P (53 / 100) = (w.simulate eps listOf P (3 / 100) >>= fun w' => w'.simulate eps listOf P (1 / 2)) := by
  have := C132_soft_split eps listOf P w (by rw [h]; norm_num) 3 (by norm_num) (T := 1 / 2) (by norm_num)
  rw [h] at this
  norm_num at this
  exact this

end Verif
