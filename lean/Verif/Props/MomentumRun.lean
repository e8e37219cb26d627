import Verif.Props.GalileanFull

/-! C65 for whole simulations. -/

namespace Verif

open Rigid Collision Galilean Matrix

variable {N : ℕ}

namespace MomentumRun

theorem applied_same {b b' : RigidBody} (hm : b'.mass = b.mass) (hf : b'.forces = b.forces) (hg : ∀ f ∈ b.forces, ∃ g up, f.kind = .gravity g up) :
    appliedForce b' = appliedForce b := by
  unfold appliedForce
  rw [hf, hm]
  congr 1
  refine List.map_congr_left fun f hf => ?_
  obtain ⟨g, up, h⟩ := hg f hf
  rw [h]

theorem step_masses {cd : World N → Except PyErr (List (ContactPoint N))} {dt : ℝ} {w w' : World N} (h : step cd dt w = .ok w') (hw : FreeWorld w) (k : Fin N) :
    (w'.bodies k).mass = (w.bodies k).mass ∧ appliedForce (w'.bodies k) = appliedForce (w.bodies k) := by
  have hk := (C48_frame h).2.2.2.2.2 k
  have hm : (w'.bodies k).mass = (w.bodies k).mass := by rw [hk]
  exact ⟨hm, applied_same hm (by rw [hk]) (hw k).2⟩

theorem run {cd : World N → Except PyErr (List (ContactPoint N))} (dts : List ℝ) : ∀ {w w' : World N}, FreeWorld w → runSteps (step cd) dts w = .ok w' →
    ∑ k, (w'.bodies k).mass • (w'.bodies k).v = ∑ k, (w.bodies k).mass • (w.bodies k).v + dts.sum • ∑ k, appliedForce (w.bodies k) := by
  induction dts with
  | nil =>
    intro w w' _ h
    cases h
    rw [List.sum_nil, zero_smul, add_zero]
  | cons dt dts ih =>
    intro w w' hw h
    unfold runSteps at h
    cases hs : step cd dt w with
    | error e => rw [hs] at h; cases h
    | ok w1 =>
      rw [hs] at h
      have h1 := C65_linear_momentum hs fun k => (hw k).1
      have h2 := ih (free_step hs hw) h
      have h3 : ∑ k, appliedForce (w1.bodies k) = ∑ k, appliedForce (w.bodies k) := Finset.sum_congr rfl fun k _ => (step_masses hs hw k).2
      rw [h2, h1, h3, List.sum_cons, add_smul, add_assoc]

/-- A step moves the centre of mass by `dt` times the new momentum, with or without post-stabilization: pushing contacts apart does not move it. -/
theorem step_centre {cd : World N → Except PyErr (List (ContactPoint N))} {dt : ℝ} {w w' : World N} (h : step cd dt w = .ok w') (hw : ∀ k, (w.bodies k).is_fixed = false) :
    ∑ k, (w.bodies k).mass • (w'.bodies k).r = ∑ k, (w.bodies k).mass • (w.bodies k).r + dt • ∑ k, (w.bodies k).mass • (w'.bodies k).v := by
  obtain ⟨s, s2, cps, xc, xh, hs, -, hw', -, u', hu', h4⟩ := step_spec h
  obtain ⟨hx, hu, -⟩ := copy_fields hs
  have hr : ∀ k, xr s.x k = (w.bodies k).r := fun k => by rw [hx]; exact (state_vectors w.bodies k).1
  have hrv : ∀ k, (w'.bodies k).r = xr s2.x k ∧ (w'.bodies k).v = lin s2.u k := fun k => by rw [hw']; exact ⟨rfl, rfl⟩
  have p := fun k => position_update_spec { s with u := u' } dt w.bodies u' k
  have hs2u : s2.u = u' := by rcases h4 with rfl | ⟨-, -, y, -, rfl⟩ <;> rfl
  have hd : ∃ d : Fin N → V3, (∀ k, xr s2.x k = (w.bodies k).r + dt • lin u' k + d k) ∧ ∑ k, (w.bodies k).mass • d k = 0 := by
    rcases h4 with rfl | ⟨-, -, y, -, rfl⟩
    · refine ⟨fun _ => 0, fun k => ?_, by simp⟩
      rw [((p k).2.2 (hw k)).1, add_zero, ← hr k]
    · refine ⟨fun k => lin (s.W *ᵥ ((contactJacobian w.bodies cps)ᵀ *ᵥ y)) k, fun k => ?_, ?_⟩
      · have q := (position_update_spec (position_update { s with u := u' } dt w.bodies u') 1 w.bodies (s.W *ᵥ ((contactJacobian w.bodies cps)ᵀ *ᵥ y)) k).2.2 (hw k)
        rw [q.1, ((p k).2.2 (hw k)).1, one_smul, ← hr k]
      · rw [← (C40_action_reaction w.bodies cps y 0).1]
        refine Finset.sum_congr rfl fun k _ => ?_
        have hv := ((step_velocity hs 0 ((contactJacobian w.bodies cps)ᵀ *ᵥ y) k).2 (hw k)).1
        have hl : lin (s.u + ((0 : ℝ) • s.delta_u_ext + s.W *ᵥ ((contactJacobian w.bodies cps)ᵀ *ᵥ y))) k - (w.bodies k).v =
            lin (s.W *ᵥ ((contactJacobian w.bodies cps)ᵀ *ᵥ y)) k := by
          have e : lin s.u k = (w.bodies k).v := by rw [hu]; exact (state_vectors w.bodies k).2.2.1
          rw [← e]
          refine V3.ext ?_ ?_ ?_ <;> simp [lin]
        rw [hl, zero_smul, zero_add] at hv
        exact hv
  obtain ⟨d, h1, h2⟩ := hd
  rw [← add_zero (∑ k, (w.bodies k).mass • (w.bodies k).r + _), ← h2, Finset.smul_sum, ← Finset.sum_add_distrib, ← Finset.sum_add_distrib]
  refine Finset.sum_congr rfl fun k _ => ?_
  rw [(hrv k).1, (hrv k).2, hs2u, h1 k, smul_add, smul_add, smul_comm dt]

theorem run_centre {cd : World N → Except PyErr (List (ContactPoint N))} (dts : List ℝ) : ∀ {w w' : World N}, FreeWorld w →
    ∑ k, appliedForce (w.bodies k) = 0 → runSteps (step cd) dts w = .ok w' →
    ∑ k, (w'.bodies k).mass • (w'.bodies k).r = ∑ k, (w.bodies k).mass • (w.bodies k).r + dts.sum • ∑ k, (w.bodies k).mass • (w.bodies k).v := by
  induction dts with
  | nil =>
    intro w w' _ _ h
    cases h
    rw [List.sum_nil, zero_smul, add_zero]
  | cons dt dts ih =>
    intro w w' hw hF h
    unfold runSteps at h
    cases hs : step cd dt w with
    | error e => rw [hs] at h; cases h
    | ok w1 =>
      rw [hs] at h
      have h1 := C65_linear_momentum hs fun k => (hw k).1
      rw [hF, smul_zero, add_zero] at h1
      have h3 : ∑ k, appliedForce (w1.bodies k) = 0 := by
        rw [← hF]
        exact Finset.sum_congr rfl fun k _ => (step_masses hs hw k).2
      have h2 := ih (free_step hs hw) h3 h
      have hm : ∀ k, (w1.bodies k).mass = (w.bodies k).mass := fun k => (step_masses hs hw k).1
      have h4 : ∑ k, (w1.bodies k).mass • (w1.bodies k).r = ∑ k, (w.bodies k).mass • (w.bodies k).r + dt • ∑ k, (w1.bodies k).mass • (w1.bodies k).v := by
        simp only [hm]
        exact step_centre hs fun k => (hw k).1
      rw [h2, h4, h1, List.sum_cons, add_smul, add_assoc]

theorem run_fall {cd : World N → Except PyErr (List (ContactPoint N))} (ts : ℝ) (n : ℕ) : ∀ {w w' : World N}, FreeWorld w → runSteps (step cd) (List.replicate n ts) w = .ok w' →
    ∑ k, (w'.bodies k).mass • (w'.bodies k).r = ∑ k, (w.bodies k).mass • (w.bodies k).r + (n * ts) • ∑ k, (w.bodies k).mass • (w.bodies k).v +
      (n * (n + 1) / 2 * ts ^ 2) • ∑ k, appliedForce (w.bodies k) := by
  induction n with
  | zero =>
    intro w w' _ h
    cases h
    simp
  | succ n ih =>
    intro w w' hw h
    rw [List.replicate_succ] at h
    unfold runSteps at h
    cases hs : step cd ts w with
    | error e => rw [hs] at h; cases h
    | ok w1 =>
      rw [hs] at h
      have h1 := C65_linear_momentum hs fun k => (hw k).1
      have h3 : ∑ k, appliedForce (w1.bodies k) = ∑ k, appliedForce (w.bodies k) := Finset.sum_congr rfl fun k _ => (step_masses hs hw k).2
      have h2 := ih (free_step hs hw) h
      have hm : ∀ k, (w1.bodies k).mass = (w.bodies k).mass := fun k => (step_masses hs hw k).1
      have h4 : ∑ k, (w1.bodies k).mass • (w1.bodies k).r = ∑ k, (w.bodies k).mass • (w.bodies k).r + ts • ∑ k, (w1.bodies k).mass • (w1.bodies k).v := by
        simp only [hm]
        exact step_centre hs fun k => (hw k).1
      rw [h2, h4, h1, h3]
      generalize ∑ k, appliedForce (w.bodies k) = F
      generalize ∑ k, (w.bodies k).mass • (w.bodies k).v = p
      generalize ∑ k, (w.bodies k).mass • (w.bodies k).r = R
      push_cast
      refine V3.ext ?_ ?_ ?_ <;> simp <;> ring

end MomentumRun

/-- **C65** for whole simulations, with any collision detection: if no body is fixed and only gravity acts, `simulate` for the time `T` changes the total momentum by exactly
`T` times the total weight, whatever contacts and hinges there are on the way. -/
theorem C65_simulate {cd : World N → Except PyErr (List (ContactPoint N))} {w w' : World N} (hw : FreeWorld w) (hts : 0 < w.params.time_step) {T : ℝ}
    (h : simulate (some (step cd)) w T = .ok w') :
    ∑ k, (w'.bodies k).mass • (w'.bodies k).v = ∑ k, (w.bodies k).mass • (w.bodies k).v + T • ∑ k, appliedForce (w.bodies k) := by
  obtain ⟨hT, -⟩ := C45_simulate_history cd hts h
  obtain ⟨h1, hsum, -⟩ := C45_simulate (step cd) (step_keeps cd) w hT hts
  rw [h1] at h
  have := MomentumRun.run _ hw h
  rwa [hsum] at this

/-- **C65.** Without a net weight the centre of mass moves with constant velocity through a whole simulation, whatever contacts, hinges and stabilization do. -/
theorem C65_centre_of_mass {cd : World N → Except PyErr (List (ContactPoint N))} {w w' : World N} (hw : FreeWorld w) (hts : 0 < w.params.time_step)
    (hF : ∑ k, appliedForce (w.bodies k) = 0) {T : ℝ} (h : simulate (some (step cd)) w T = .ok w') :
    ∑ k, (w'.bodies k).mass • (w'.bodies k).r = ∑ k, (w.bodies k).mass • (w.bodies k).r + T • ∑ k, (w.bodies k).mass • (w.bodies k).v := by
  obtain ⟨hT, -⟩ := C45_simulate_history cd hts h
  obtain ⟨h1, hsum, -⟩ := C45_simulate (step cd) (step_keeps cd) w hT hts
  rw [h1] at h
  have := MomentumRun.run_centre _ hw hF h
  rwa [hsum] at this

/-- **C65.** Under gravity the centre of mass falls on a parabola: after `n` full time steps `ts` its place is what Newton's law gives, with `ts² n (n + 1) / 2` for `T² / 2`
(the semi-implicit scheme), whatever contacts, hinges and stabilization do between the bodies. -/
theorem C65_centre_falls {cd : World N → Except PyErr (List (ContactPoint N))} {w w' : World N} (hw : FreeWorld w) (hts : 0 < w.params.time_step) (n : ℕ)
    (h : simulate (some (step cd)) w (n * w.params.time_step) = .ok w') :
    ∑ k, (w'.bodies k).mass • (w'.bodies k).r = ∑ k, (w.bodies k).mass • (w.bodies k).r + (n * w.params.time_step) • ∑ k, (w.bodies k).mass • (w.bodies k).v +
      (n * (n + 1) / 2 * w.params.time_step ^ 2) • ∑ k, appliedForce (w.bodies k) := by
  obtain ⟨hT, -⟩ := C45_simulate_history cd hts h
  obtain ⟨h1, -, -⟩ := C45_simulate (step cd) (step_keeps cd) w hT hts
  rw [h1] at h
  have hn : n ≠ 0 := by
    rintro rfl
    simp at hT
  have hc : ⌈(n : ℝ) * w.params.time_step / w.params.time_step⌉₊ = n := by
    rw [mul_div_assoc, div_self hts.ne', mul_one, Nat.ceil_natCast]
  rw [hc] at h
  obtain ⟨m, rfl⟩ := Nat.exists_eq_succ_of_ne_zero hn
  have hl : ((m.succ : ℕ) : ℝ) * w.params.time_step - ((m.succ - 1 : ℕ) : ℝ) * w.params.time_step = w.params.time_step := by
    rw [Nat.succ_sub_one, Nat.cast_succ]
    ring
  rw [hl, Nat.succ_sub_one, ← List.replicate_succ'] at h
  exact MomentumRun.run_fall _ _ hw h

/-- **C65.** The same with the package's own collision detection and the hierarchies made by `connect_shape`. -/
theorem C65_full_simulate {P : Collision.CDParams} {w w' : World N} {C C' : Fin N → Collider} (hC : HierarchiesMade C) (hw : FreeWorld w) (hts : 0 < w.params.time_step) {T : ℝ}
    (h : fullSimulate P (w, C) T = .ok (w', C')) :
    ∑ k, (w'.bodies k).mass • (w'.bodies k).v = ∑ k, (w.bodies k).mass • (w.bodies k).v + T • ∑ k, appliedForce (w.bodies k) ∧
    (∑ k, appliedForce (w.bodies k) = 0 →
      ∑ k, (w'.bodies k).mass • (w'.bodies k).r = ∑ k, (w.bodies k).mass • (w.bodies k).r + T • ∑ k, (w.bodies k).mass • (w.bodies k).v) := by
  have h1 := fullSimulate_fst P hC w T
  rw [h] at h1
  exact ⟨C65_simulate hw hts h1.symm, fun hF => C65_centre_of_mass hw hts hF h1.symm⟩

/-- Two bodies drifting with no forces and no contacts: the hypotheses are met by a run that succeeds. -/
example : ∃ w w' : World 2, FreeWorld w ∧ 0 < w.params.time_step ∧ ∑ k, appliedForce (w.bodies k) = 0 ∧
    (w.bodies 0).v ≠ 0 ∧ step (fun _ => .ok []) (1 / 100) w = .ok w' := by
  let b : RigidBody := { RigidBody.init "b" with mass := 1, v := ⟨1, 2, 3⟩ }
  let w : World 2 := ⟨fun _ => b, [], [], [], SurfacesInteractionLibrary.init, Rigid.Params.init⟩
  obtain ⟨w', h, -⟩ := C48_free_flight (cd := fun _ => .ok []) (dt := 1 / 100) (w := w) rfl rfl (fun k _ => one_ne_zero)
  refine ⟨w, w', fun k => ⟨rfl, fun f hf => by cases hf⟩, by norm_num [w, Rigid.Params.init], ?_, ?_, h⟩
  · simp [w, b, appliedForce, RigidBody.init]
  · intro h0
    have := congrArg V3.x h0
    simp [w, b] at this

end Verif
