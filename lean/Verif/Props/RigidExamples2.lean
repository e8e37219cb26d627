import Verif.Props.RigidExamples
import Verif.Props.RigidHistory
import Verif.Props.RigidSim

/-! Non-vacuity of C41_set_hinge, C43, C45, C47, C48, C65, C66. -/

namespace Verif.RigidExample

open Matrix ProxSolver Rigid Engine

/-- Two bodies and a hinge. -/
noncomputable def ops : List Op := [.createBody "a", .createBody "b", .createHinge "h"]

theorem keys_after : (history ops).bodies.keys = ["a", "b"] ∧ (history ops).hinges.keys = ["h"] := ⟨rfl, rfl⟩

/-- C41_set_hinge, C43_raises: the hinge can be set in world mode. -/
example (o a : V3) : ∃ e', (history ops).set_hinge "h" "a" "b" o a .world = .ok e' := by
  have hok : EngineOk (history ops) := C43_history ops (by intro op hop; simp [ops] at hop; rcases hop with rfl | rfl | rfl <;> trivial)
  have h := (C43_raises (history ops) hok (.setHinge "h" "a" "b" o a .world)).not.2 (by
    simp [Raises, keys_after.1, keys_after.2])
  cases hc : (history ops).call (.setHinge "h" "a" "b" o a .world) with
  | error e => exact absurd ⟨e, hc⟩ h
  | ok e' => exact ⟨e', hc⟩

/-- C47, C48, C66: a step of the example world with its contact succeeds. -/
theorem step_example (dt : ℝ) : ∃ w', step (fun w => .ok w.contact_points) dt world = .ok w' := by
  rw [C66_step_raises]
  refine ⟨?_, _, rfl, ?_⟩
  · intro k hk
    change (bodies k).is_fixed = false at hk
    change (bodies k).mass ≠ 0
    unfold bodies at hk ⊢
    split_ifs at hk ⊢
    exact one_ne_zero
  · intro cp _
    rw [material, material]
    exact ⟨_, library_get⟩

/-- Two movable bodies in contact: the hypotheses of C65. -/
noncomputable def world2 : World 2 :=
  { world with bodies := fun k => { bodies 1 with v := if k = 0 then ⟨0, 0, 1⟩ else ⟨0, 0, -1⟩ } }

example (dt : ℝ) : (∃ w', step (fun w => .ok w.contact_points) dt world2 = .ok w') ∧
    (∀ k, (world2.bodies k).is_fixed = false) ∧
    (∀ k, (world2.bodies k).inertia.x ≠ 0 ∧ (world2.bodies k).inertia.y ≠ 0 ∧ (world2.bodies k).inertia.z ≠ 0) ∧
    ∀ j ∈ world2.hinges, anchorP world2.bodies j = anchorC world2.bodies j := by
  refine ⟨?_, fun _ => rfl, fun _ => ⟨one_ne_zero, one_ne_zero, one_ne_zero⟩, fun j hj => by cases hj⟩
  rw [C66_step_raises]
  exact ⟨fun k _ => one_ne_zero, _, rfl, fun cp _ => ⟨_, library_get⟩⟩

/-- C48_free_flight: the same without contacts. -/
example : (fun w : World 2 => (.ok [] : Except PyErr (List (ContactPoint 2)))) world2 = .ok [] ∧ world2.hinges = [] ∧
    (∀ k, (world2.bodies k).is_fixed = false → (world2.bodies k).mass ≠ 0) := ⟨rfl, rfl, fun _ _ => one_ne_zero⟩

/-- C45: one tenth of a second takes ten steps of the default size. -/
example : simulate (some (step fun _ => .ok [])) world2 0.1 =
    runSteps (step fun _ => .ok []) (List.replicate 9 0.01 ++ [0.1 - 9 * 0.01]) world2 := by
  have h := (C45_simulate (step fun _ => .ok []) (step_keeps _) world2 (T := 0.1) (by norm_num)
    (by change (0 : ℝ) < 0.01; norm_num)).1
  have hts : world2.params.time_step = 0.01 := rfl
  simp only [hts] at h
  have hn : ⌈(0.1 : ℝ) / 0.01⌉₊ = 10 := by
    rw [show (0.1 : ℝ) / 0.01 = ((10 : ℕ) : ℝ) by norm_num, Nat.ceil_natCast]
  rw [hn] at h
  simpa using h

end Verif.RigidExample
