import Verif.Model.SoftStep
import Verif.Lemmas.Dict
import Verif.Lemmas.Soft
import Verif.Props.Collision

/-! Reading the soft body stepper backwards. -/

namespace Verif

open Soft

/-- What a successful step computed. -/
structure StepData (P : Plugins) (W : ℕ × (ℕ → ℕ → ℝ)) (dt : ℝ) (e e' : Engine) where
  B : List SoftBody
  hB : bodyList e = .ok B
  F : ℕ → V3
  hF : totalForces e B (apply_boundary_conditions_on_positions (get_position_vector B) B)
    (apply_boundary_conditions_on_velocities (get_velocity_vector B) B) = .ok F
  hW : W.1 = e.number_of_nodes * 3
  cps : List ContactPoint
  hcps : P.detect e = .ok cps
  WPc : ℕ → ℝ
  hWPc : contactVelocity P { e with contact_points := cps } W.2 (fun r =>
    flat (apply_boundary_conditions_on_velocities (get_velocity_vector B) B) r + dt * matVec W.1 W.2 (flat F) r) = .ok WPc
  u : ℕ → V3
  hu : u = apply_boundary_conditions_on_velocities (fun q => apply_boundary_conditions_on_velocities (unflat fun r =>
    flat (apply_boundary_conditions_on_velocities (get_velocity_vector B) B) r + dt * matVec W.1 W.2 (flat F) r) B q + unflat WPc q) B
  x : ℕ → V3
  hx : x = apply_boundary_conditions_on_positions
    (fun q => apply_boundary_conditions_on_positions (get_position_vector B) B q + dt • u q) B
  hpost : e.params.use_post_stabilization = true → ∀ cp ∈ cps, cp.g < -e.params.min_gap_value → cp.g = 0
  he' : e' = { e with
    contact_points := cps
    params := { e.params with time_stamp := e.params.time_stamp + 1 }
    bodies := ⟨e.bodies.entries.map fun kv => (kv.1, match kv.2 with
      | .ready b => .ready { b with u := readSlice b.n u b.offset, x := readSlice b.n x b.offset }
      | .broken => .broken)⟩ }

theorem set_vectors (x u : ℕ → V3) (e : Engine) :
    set_position_vector x (set_velocity_vector u e) = { e with bodies := ⟨e.bodies.entries.map fun kv => (kv.1, match kv.2 with
      | .ready b => .ready { b with u := readSlice b.n u b.offset, x := readSlice b.n x b.offset }
      | .broken => .broken)⟩ } := by
  unfold set_position_vector set_velocity_vector mapBodies
  simp only [List.map_map]
  congr 2
  refine List.map_congr_left fun kv _ => ?_
  rcases kv with ⟨k, _ | _⟩ <;> rfl

theorem postStep_ok {e e' : Engine} (h : postStep e = .ok e') : e' = e ∧
    (e.params.use_post_stabilization = true → ∀ cp ∈ e.contact_points, cp.g < -e.params.min_gap_value → cp.g = 0) := by
  unfold postStep at h
  by_cases h1 : e.params.use_post_stabilization = true
  · rw [if_pos h1] at h
    by_cases h2 : e.contact_points.length > 0
    · rw [if_pos h2] at h
      unfold apply_post_stabilization at h
      split_ifs at h with h3
      · injection h with h
        refine ⟨h.symm, fun _ cp hcp hg => ?_⟩
        by_contra hne
        exact h3 ⟨cp, hcp, hg, hne⟩
    · rw [if_neg h2] at h
      injection h with h
      refine ⟨h.symm, fun _ cp hcp => ?_⟩
      have := List.length_pos_of_mem hcp
      omega
  · rw [if_neg h1] at h
    injection h with h
    exact ⟨h.symm, fun h => absurd h h1⟩

theorem softStep_ok {P : Plugins} {W : ℕ × (ℕ → ℕ → ℝ)} {dt : ℝ} {e e' : Engine} (h : step P W dt e = .ok e') :
    Nonempty (StepData P W dt e e') := by
  unfold step at h
  simp only [bind, Except.bind] at h
  cases hB : bodyList e with
  | error err => rw [hB] at h; cases h
  | ok B =>
    rw [hB] at h
    simp only at h
    cases hF : totalForces e B (apply_boundary_conditions_on_positions (get_position_vector B) B)
      (apply_boundary_conditions_on_velocities (get_velocity_vector B) B) with
    | error err => rw [hF] at h; cases h
    | ok F =>
      rw [hF] at h
      simp only at h
      unfold applyW at h
      by_cases hW : W.1 = e.number_of_nodes * 3
      · rw [if_pos hW] at h
        simp only at h
        cases hc : P.detect e with
        | error err => rw [hc] at h; cases h
        | ok cps =>
          rw [hc] at h
          simp only at h
          generalize hv : contactVelocity P _ W.2 _ = R at h
          cases R with
          | error err => cases h
          | ok WPc =>
            simp only [set_vectors] at h
            generalize hp : postStep _ = R2 at h
            cases R2 with
            | error err => cases h
            | ok e2 =>
              obtain ⟨h1, h2⟩ := postStep_ok hp
              simp only [pure, Except.pure, Except.ok.injEq] at h
              refine ⟨⟨B, hB, F, hF, hW, cps, hc, WPc, hv, _, rfl, _, rfl, h2, ?_⟩⟩
              rw [← h, h1]
      · rw [if_neg hW] at h
        cases h

theorem whileLoop_ok {σ : Type*} {step : LoopStep σ} {s s' : σ} (h : whileLoop step s = .ok s') : LoopEnds step s (.ok s') := by
  unfold whileLoop at h
  split_ifs at h with hex
  have := hex.choose_spec
  rw [h] at this
  exact this

/-- A property kept by every step is kept by `simulate`. -/
theorem simulate_invariant {P : Plugins} {e e' : Engine} {T : ℝ} (h : simulate P e T = .ok e') (I : Engine → Prop)
    (h0 : ∀ W, getStepper e = .ok W → I { e with stepper := some W })
    (hstep : ∀ W dt e e', I e → step P W dt e = .ok e' → I e') : I e' := by
  unfold simulate at h
  split_ifs at h
  simp only [bind, Except.bind] at h
  cases hW : getStepper e with
  | error err => rw [hW] at h; cases h
  | ok W =>
    rw [hW] at h
    simp only at h
    cases hl : whileLoop (simTrip P W) ({ e with stepper := some W }, T) with
    | error err => rw [hl] at h; cases h
    | ok s =>
      rw [hl] at h
      simp only [pure, Except.pure, Except.ok.injEq] at h
      have hI : I ({ e with stepper := some W }, T).1 := h0 W hW
      have hE := whileLoop_ok hl
      rw [← h]
      clear h hl
      generalize ({ e with stepper := some W }, T) = s0 at hI hE
      generalize hr : (Except.ok s : Except PyErr (Engine × ℝ)) = r at hE
      induction hE with
      | done _ => cases hr; exact hI
      | raised _ => cases hr
      | @next s1 s2 r' hs _ ih =>
        refine ih ?_ hr
        unfold simTrip at hs
        split_ifs at hs with hz
        · cases hs
        dsimp only at hs
        cases hst : step P W (min s1.2 s1.1.params.time_step) s1.1 with
        | error err => rw [hst] at hs; cases hs
        | ok e2 =>
          rw [hst] at hs
          simp only [Except.ok.injEq, Option.some.injEq] at hs
          rw [← hs]
          exact hstep W _ _ _ hI hst

/-- The last thing a successful `simulate` does is a successful step, from a state with any property kept by steps. -/
theorem simulate_last {P : Plugins} {e e' : Engine} {T : ℝ} (h : simulate P e T = .ok e') (I : Engine → Prop)
    (h0 : ∀ W, getStepper e = .ok W → I { e with stepper := some W })
    (hstep : ∀ W dt e e', I e → step P W dt e = .ok e' → I e') : ∃ W dt e1, getStepper e = .ok W ∧ I e1 ∧ step P W dt e1 = .ok e' := by
  unfold simulate at h
  split_ifs at h with hT
  simp only [bind, Except.bind] at h
  cases hW : getStepper e with
  | error err => rw [hW] at h; cases h
  | ok W =>
    rw [hW] at h
    simp only at h
    cases hl : whileLoop (simTrip P W) ({ e with stepper := some W }, T) with
    | error err => rw [hl] at h; cases h
    | ok s =>
      rw [hl] at h
      simp only [pure, Except.pure, Except.ok.injEq] at h
      have hI : I ({ e with stepper := some W }, T).1 := h0 W hW
      have hE := whileLoop_ok hl
      have hT' : ({ e with stepper := some W }, T).2 ≠ 0 := by
        simp only
        intro h'
        exact hT h'.le
      rw [← h]
      clear h hl hT
      generalize ({ e with stepper := some W }, T) = s0 at hI hE hT'
      have key : ∀ r, LoopEnds (simTrip P W) s0 r → r = .ok s →
          (s0.2 = 0 ∧ s = s0) ∨ ∃ W' dt e1, .ok W = (.ok W' : Except PyErr _) ∧ I e1 ∧ step P W' dt e1 = .ok s.1 := by
        intro r hr
        clear hE hT'
        induction hr with
        | @done s1 hs =>
          intro he
          injection he with he
          left
          refine ⟨?_, he.symm⟩
          unfold simTrip at hs
          split_ifs at hs with hz
          · exact hz
          · dsimp only at hs
            split at hs <;> cases hs
        | raised _ => intro he; cases he
        | @next s1 s2 r' hs _ ih =>
          intro he
          unfold simTrip at hs
          split_ifs at hs with hz
          · cases hs
          dsimp only at hs
          cases hst : step P W (min s1.2 s1.1.params.time_step) s1.1 with
          | error err => rw [hst] at hs; cases hs
          | ok e2 =>
            rw [hst] at hs
            simp only [Except.ok.injEq, Option.some.injEq] at hs
            rw [← hs] at ih
            rcases ih (hstep W _ _ _ hI hst) he with ⟨-, h2⟩ | h2
            · exact .inr ⟨W, _, s1.1, rfl, hI, by rw [h2]; exact hst⟩
            · exact .inr h2
      rcases key _ hE rfl with h1 | h1
      · exact absurd h1.1 hT'
      · exact h1

end Verif
