import Verif.Props.Galilean
import Verif.Props.RigidSim

/-! C133 for whole simulations. -/

namespace Verif

open Rigid Translation Galilean

variable {N : ℕ}

/-- The collision detection reads neither velocities nor the contact points of the step before, and does not depend on where the origin is. -/
def CDGeometric (cd : World N → Except PyErr (List (ContactPoint N))) : Prop :=
  (∀ a, CDIgnoresVelocity cd a) ∧ (∀ c, CDShifts cd c) ∧ ∀ w L, cd { w with contact_points := L } = cd w

namespace Galilean

theorem step_forgets {cd : World N → Except PyErr (List (ContactPoint N))} (hcd : CDGeometric cd) (dt : ℝ) (w : World N) (L : List (ContactPoint N)) :
    step cd dt { w with contact_points := L } = step cd dt w := by
  rw [step_eq, step_eq, hcd.2.2]

/-- The world as the moving observer sees it after the time `τ`, without the contact points. -/
noncomputable def seen (a : V3) (τ : ℝ) (w : World N) : World N :=
  { w with contact_points := [], bodies := fun k => { w.bodies k with v := (w.bodies k).v + a, r := (w.bodies k).r + τ • a } }

def bare (w : World N) : World N := { w with contact_points := [] }

theorem step_seen {cd : World N → Except PyErr (List (ContactPoint N))} (hcd : CDGeometric cd) (a : V3) (τ dt : ℝ) {w : World N} (hw : FreeWorld w) :
    (step cd dt (seen a τ w)).map bare = (step cd dt w).map (seen a (τ + dt)) := by
  have h1 : step cd dt (seen a τ w) = step cd dt (World.shift (τ • a) (World.boost a w)) := by
    rw [← step_forgets hcd dt (World.shift (τ • a) (World.boost a w)) []]
    rfl
  rw [h1, C131_step (hcd.2.1 _), C133_step (hcd.1 a) dt hw]
  cases step cd dt w with
  | error e => rfl
  | ok w' =>
    simp only [Except.map, bare, seen, World.shift, RigidBody.shift]
    congr 3
    funext k
    congr 1
    refine V3.ext ?_ ?_ ?_ <;> simp <;> ring

theorem free_step {cd : World N → Except PyErr (List (ContactPoint N))} {dt : ℝ} {w w' : World N} (h : step cd dt w = .ok w') (hw : FreeWorld w) : FreeWorld w' := by
  intro k
  rw [(C48_frame h).2.2.2.2.2 k]
  exact hw k

theorem run_seen {cd : World N → Except PyErr (List (ContactPoint N))} (hcd : CDGeometric cd) (a : V3) (dts : List ℝ) : ∀ (τ : ℝ) (w w1 : World N), FreeWorld w →
    bare w1 = seen a τ w → (runSteps (step cd) dts w1).map bare = (runSteps (step cd) dts w).map (seen a (τ + dts.sum)) := by
  induction dts with
  | nil =>
    intro τ w w1 _ h
    simp only [runSteps, Except.map, List.sum_nil, add_zero, h]
  | cons dt dts ih =>
    intro τ w w1 hw h
    have h1 : step cd dt w1 = step cd dt (seen a τ w) := by
      rw [← h]
      exact (step_forgets hcd dt w1 []).symm
    have h2 := step_seen hcd a τ dt hw
    rw [← h1] at h2
    unfold runSteps
    cases hs : step cd dt w with
    | error e =>
      rw [hs] at h2
      cases hs1 : step cd dt w1 with
      | error e1 => rw [hs1] at h2; cases h2; rfl
      | ok x => rw [hs1] at h2; cases h2
    | ok w' =>
      rw [hs] at h2
      cases hs1 : step cd dt w1 with
      | error e1 => rw [hs1] at h2; cases h2
      | ok w1' =>
        rw [hs1] at h2
        have h3 := ih (τ + dt) w' w1' (free_step hs hw) (Except.ok.inj h2)
        dsimp only
        rw [h3, List.sum_cons, add_assoc]

end Galilean

/-- **C133.** The same for a whole simulation: after the time `T` every body has a velocity larger by `a` and a position larger by `T a`; orientations and spins are the same, and
so is everything else in the engine but the contact points; an exception is raised in one run exactly if it is in the other. -/
theorem C133_simulate {cd : World N → Except PyErr (List (ContactPoint N))} (hcd : CDGeometric cd) (a : V3) {w : World N} (hw : FreeWorld w)
    (hts : 0 < w.params.time_step) (T : ℝ) :
    (simulate (some (step cd)) (World.boost a w) T).map (fun w' => { w' with contact_points := [] }) =
      (simulate (some (step cd)) w T).map fun w' =>
        { w' with contact_points := [], bodies := fun k => { w'.bodies k with v := (w'.bodies k).v + a, r := (w'.bodies k).r + T • a } } := by
  by_cases hT : 0 < T
  · obtain ⟨h1, hsum, -⟩ := C45_simulate (step cd) (step_keeps cd) w hT hts
    obtain ⟨h2, -, -⟩ := C45_simulate (step cd) (step_keeps cd) (World.boost a w) hT hts
    have hp : (World.boost a w).params = w.params := rfl
    rw [hp] at h2
    rw [h1, h2]
    have h3 := run_seen hcd a (List.replicate (⌈T / w.params.time_step⌉₊ - 1) w.params.time_step ++
      [T - (⌈T / w.params.time_step⌉₊ - 1 : ℕ) * w.params.time_step]) 0 w (World.boost a w) hw (by
        have h0 : ∀ r : V3, r + (0 : ℝ) • a = r := fun r => by refine V3.ext ?_ ?_ ?_ <;> simp
        unfold bare seen World.boost RigidBody.boost
        simp only [h0])
    rw [hsum, zero_add] at h3
    exact h3
  · rw [(C45_simulate_invalid (some (step cd)) _ T).1 (not_lt.1 hT), (C45_simulate_invalid (some (step cd)) _ T).1 (not_lt.1 hT)]
    rfl

/-- **C133** (the hypothesis is needed): a fixed body with a velocity does not move, so a world with one fixed body does not obey the law for any `a ≠ 0`, `dt ≠ 0`. -/
theorem C133_fixed_body {cd : World N → Except PyErr (List (ContactPoint N))} {dt : ℝ} (hdt : dt ≠ 0) {a : V3} (ha : a ≠ 0) {w w' w'' : World N} (k : Fin N)
    (hk : (w.bodies k).is_fixed = true) (h : step cd dt w = .ok w') (h' : step cd dt (World.boost a w) = .ok w'') :
    (w''.bodies k).r ≠ (w'.bodies k).r + dt • a := by
  have h1 := (C47_history [dt] (w' := w') (w := w) (cd := cd) (by unfold runSteps; rw [h]; rfl)).1 k hk
  have h2 := (C47_history [dt] (w' := w'') (w := World.boost a w) (cd := cd) (by unfold runSteps; rw [h']; rfl)).1 k hk
  rw [h1, h2]
  change (w.bodies k).r ≠ (w.bodies k).r + dt • a
  intro he
  refine ha (V3.ext ?_ ?_ ?_)
  · have := congrArg V3.x he; simp at this; simpa [hdt] using this
  · have := congrArg V3.y he; simp at this; simpa [hdt] using this
  · have := congrArg V3.z he; simp at this; simpa [hdt] using this

end Verif
