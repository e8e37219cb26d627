import Verif.Props.RigidCmdScene
import Verif.Props.SoftAppFilm

/-! C124: what the command line program simulates. -/

namespace Verif

open Rigid Rigid.SceneM SMesh Collision

variable {N : ℕ}

/-- `simulate(engine, time_step)` is one step. -/
theorem one_frame {P : CDParams} (hK : P.K = 3 ∨ P.K = 4) (he : 0 ≤ P.envelope) {s : Sim N} (hs : Simulable s)
    (hts : 0 < s.1.params.time_step) :
    ∃ s', fullSimulate P s s.1.params.time_step = .ok s' ∧ fullStep P s.1.params.time_step s = .ok s' ∧ Simulable s' ∧ SameWorld s s' := by
  obtain ⟨s', dts, h1, h2, -, -, -, h3, h4, h5⟩ := C95_simulate hK he hs hts hts
  rw [div_self hts.ne', Nat.ceil_one] at h5
  have : dts = [s.1.params.time_step] := by rw [h5]; simp
  rw [this] at h2
  refine ⟨s', h1, ?_, h3, h4⟩
  unfold fullRun at h2
  cases h : fullStep P s.1.params.time_step s with
  | error e => rw [h] at h2; cases h2
  | ok s1 => rw [h] at h2; cases h2; rfl

theorem cmdLoop_runs {P : CDParams} (hK : P.K = 3 ∨ P.K = 4) (he : 0 ≤ P.envelope) {dt : ℝ} (hdt : 0 < dt) (n : ℕ) {s : Sim N}
    (hs : Simulable s) (hts : s.1.params.time_step = dt) :
    ∃ s', cmdLoop P dt n s = .ok s' ∧ fullRun P (List.replicate n dt) s = .ok s' ∧ Simulable s' ∧ SameWorld s s' := by
  induction n generalizing s with
  | zero => exact ⟨s, rfl, rfl, hs, SameWorld.refl s⟩
  | succ n ih =>
    obtain ⟨s1, h1, h2, h3, h4⟩ := one_frame hK he hs (by rw [hts]; exact hdt)
    rw [hts] at h1 h2
    obtain ⟨s2, g1, g2, g3, g4⟩ := ih h3 (by rw [h4.params]; exact hts)
    refine ⟨s2, ?_, ?_, g3, h4.trans g4⟩
    · unfold cmdLoop
      rw [h1]
      exact g1
    · rw [List.replicate_succ]
      unfold fullRun
      rw [h2]
      exact g2

/-- **C124.** The program's `simulate` returns for every scene that can be simulated and every positive time step.  It makes equal steps of
exactly one time step, and the time simulated is within half a time step of half a second. -/
theorem C124_simulate {P : CDParams} (hK : P.K = 3 ∨ P.K = 4) (he : 0 ≤ P.envelope) {s : Sim N} (hs : Simulable s)
    (hts : 0 < s.1.params.time_step) :
    ∃ s' n, cmdSimulate P s = .ok s' ∧ fullRun P (List.replicate n s.1.params.time_step) s = .ok s' ∧
      |n * s.1.params.time_step - 1 / 2| ≤ s.1.params.time_step / 2 ∧ Simulable s' ∧ SameWorld s s' := by
  obtain ⟨ts, hts'⟩ : ∃ ts, ts = s.1.params.time_step := ⟨_, rfl⟩
  rw [← hts'] at hts ⊢
  obtain ⟨n, hn⟩ : ∃ n, n = (SoftApp.npRound (0.5 * (1.0 / ts))).toNat := ⟨_, rfl⟩
  obtain ⟨s', h1, h2, h3, h4⟩ := cmdLoop_runs hK he hts n hs hts'.symm
  refine ⟨s', n, ?_, h2, ?_, h3, h4⟩
  · unfold cmdSimulate
    simp only
    rw [← hts', if_neg hts.ne', ← hn]
    exact h1
  · have e : (0.5 : ℝ) * (1.0 / ts) = 1 / 2 / ts := by
      rw [lit1, show (0.5 : ℝ) = 1 / 2 by norm_num]
      field_simp
    rw [e] at hn
    obtain ⟨r1, -⟩ := npRound_spec (1 / 2 / ts)
    have hpos : (0 : ℝ) < 1 / 2 / ts := by positivity
    have h0 : 0 ≤ SoftApp.npRound (1 / 2 / ts) := by
      by_contra c
      have : (SoftApp.npRound (1 / 2 / ts) : ℝ) ≤ -1 := by exact_mod_cast (by omega : SoftApp.npRound (1 / 2 / ts) ≤ -1)
      have := (abs_le.1 r1).1
      linarith
    have en : (n : ℝ) = (SoftApp.npRound (1 / 2 / ts) : ℝ) := by
      rw [hn]
      have := Int.toNat_of_nonneg h0
      exact_mod_cast this
    rw [en]
    have e2 : (SoftApp.npRound (1 / 2 / ts) : ℝ) * ts - 1 / 2 = ((SoftApp.npRound (1 / 2 / ts) : ℝ) - 1 / 2 / ts) * ts := by
      field_simp
    rw [e2, abs_mul, abs_of_pos hts]
    nlinarith

/-- **C124.** A zero time step makes it raise; a negative one, and one of a second or more, make it simulate nothing. -/
theorem C124_no_steps {P : CDParams} (s : Sim N) :
    (s.1.params.time_step = 0 → cmdSimulate P s = .error .zeroDivision) ∧
    (s.1.params.time_step < 0 → cmdSimulate P s = .ok s) ∧ (1 ≤ s.1.params.time_step → cmdSimulate P s = .ok s) := by
  have key : s.1.params.time_step ≠ 0 → SoftApp.npRound (0.5 * (1.0 / s.1.params.time_step)) ≤ 0 → cmdSimulate P s = .ok s := by
    intro h0 h
    unfold cmdSimulate
    simp only
    rw [if_neg h0, Int.toNat_of_nonpos h]
    rfl
  have e : (0.5 : ℝ) * (1.0 / s.1.params.time_step) = 1 / 2 / s.1.params.time_step := by
    rw [lit1, show (0.5 : ℝ) = 1 / 2 by norm_num]
    ring
  refine ⟨?_, ?_, ?_⟩
  · intro h
    unfold cmdSimulate
    simp only
    rw [if_pos h]
  · intro h
    refine key h.ne ?_
    rw [e]
    obtain ⟨r1, -⟩ := npRound_spec (1 / 2 / s.1.params.time_step)
    have : 1 / 2 / s.1.params.time_step < 0 := div_neg_of_pos_of_neg (by norm_num) h
    have h2 := (abs_le.1 r1).2
    have : (SoftApp.npRound (1 / 2 / s.1.params.time_step) : ℝ) < 1 := by linarith
    have : SoftApp.npRound (1 / 2 / s.1.params.time_step) < 1 := by exact_mod_cast this
    omega
  · intro h
    refine key (by linarith) ?_
    rw [e]
    have hle : 1 / 2 / s.1.params.time_step ≤ 1 / 2 := div_le_self (by norm_num) h
    have hge : 0 ≤ 1 / 2 / s.1.params.time_step := by positivity
    obtain ⟨r1, r2⟩ := npRound_spec (1 / 2 / s.1.params.time_step)
    have h2 := (abs_le.1 r1).2
    by_contra c
    have h1 : (1 : ℝ) ≤ SoftApp.npRound (1 / 2 / s.1.params.time_step) := by exact_mod_cast (by omega : 1 ≤ SoftApp.npRound (1 / 2 / s.1.params.time_step))
    have h3 : (SoftApp.npRound (1 / 2 / s.1.params.time_step) : ℝ) = 1 := by linarith
    have h4 : SoftApp.npRound (1 / 2 / s.1.params.time_step) = 1 := by exact_mod_cast h3
    have h5 := r2 (by rw [h3, show 1 / 2 / s.1.params.time_step = 1 / 2 by linarith]; norm_num)
    rw [h4] at h5
    exact absurd h5 (by decide)

/-- The world of a complete scene can be simulated. -/
theorem scene_simulable {sd : SignedDistance} (hsd : OnePerNode sd) {P : GeoParams} (hP : GoodGeo P) {s : Scene} (hs : SceneGood s)
    (hc : Complete s) :
    ∃ w C, s.eng.toWorld = some w ∧ (∀ i, s.collider sd P (w.bodies i) = .ok (C i)) ∧
      (∀ i, w.bodies i = (s.eng.bodyAt i).body) ∧ w.params = s.eng.params ∧ Simulable (w, C) := by
  obtain ⟨w, hw, hbod, -, -, hint, hpar, -⟩ := C43_world s.eng hs.eng (by
    intro k hk
    exact hc.hinge _ _ (Dict.get?_entry hs.eng.hinges_nodup hk))
  have hex : ∀ i, ∃ c, s.collider sd P (w.bodies i) = .ok c ∧ ColliderOK c := by
    intro i
    obtain ⟨h1, h2, h3⟩ := hbod i
    have hsh := hc.shape _ _ h3
    rw [← h1] at hsh
    obtain ⟨sh, hsh⟩ := Option.ne_none_iff_exists'.1 hsh
    obtain ⟨-, -, -, -, -, h4, -⟩ := hs.eng.bodies i.1 i.2
    have h5 := h4 sh (by rw [h1] at hsh; exact hsh)
    obtain ⟨m, hm1, hm2⟩ := hs.meshes _ _ h5
    obtain ⟨c, hc1, -, -, hc2⟩ := C95_collider hsd hP hsh hm1 hm2
    exact ⟨c, hc1, hc2⟩
  choose C hC1 hC2 using hex
  refine ⟨w, C, hw, hC1, ?_, hpar, ?_⟩
  · unfold Engine.toWorld at hw
    cases h : s.eng.hinges.values.mapM s.eng.toHinge with
    | none => rw [h] at hw; cases hw
    | some hs' => rw [h] at hw; cases hw; intro i; rfl
  · refine ⟨?_, ?_, hC2, ?_⟩
    · intro k hk
      obtain ⟨h1, -, h3⟩ := hbod k
      simp only [h1] at hk ⊢
      exact hc.mass _ _ h3 hk
    · intro k
      obtain ⟨h1, -, h3⟩ := hbod k
      obtain ⟨-, -, h4, -⟩ := hs.eng.bodies k.1 k.2
      simp only [h1]
      exact h4
    · simp only [hint]
      exact Dict.mem_iff_get?.1 hs.eng.default_exists

/-- **C124.** The program from start to end: the scene is set up, its bodies get their distance fields and hierarchies, and 50 steps of a
hundredth of a second are made without an exception; the ground has not moved, and the bodies keep their shapes, masses and forces. -/
theorem C124_main {eig : Eig} (heig : EigSpec eig) {sd : SignedDistance} (hsd : OnePerNode sd) {P : GeoParams} (hP : GoodGeo P)
    (gen : ℕ → String → String) :
    ∃ s w C s', setup_scene eig ⟨Engine.create_engine, Dict.empty, gen⟩ = .ok ((), s) ∧ CmdScene s ∧ s.eng.toWorld = some w ∧
      (∀ i, s.collider sd P (w.bodies i) = .ok (C i)) ∧ (∀ i, w.bodies i = (s.eng.bodyAt i).body) ∧
      cmdSimulate P.toCDParams (w, C) = .ok s' ∧ fullRun P.toCDParams (List.replicate 50 0.01) (w, C) = .ok s' ∧
      SameWorld (w, C) s' ∧ Simulable s' := by
  obtain ⟨s, h1, h2, -, h3, h4⟩ := C124_scene heig gen
  obtain ⟨ball, -, -, -, hpar, -⟩ := id h2
  have hts0 : s.eng.params.time_step = 0.01 := by rw [hpar]; rfl
  obtain ⟨w, C, g1, g2, g3, g4, g5⟩ := scene_simulable hsd hP h4 h3
  have hw : w.params.time_step = 0.01 := by rw [g4, hts0]
  obtain ⟨s', n, r1, r2, r3, r4, r5⟩ := C124_simulate hP.K (le_trans (by norm_num) hP.envelope : (0 : ℝ) ≤ P.toCDParams.envelope) g5
    (by rw [hw]; norm_num)
  rw [hw] at r2 r3
  have hn : n = 50 := by
    rw [show (0.01 : ℝ) = 1 / 100 by norm_num, abs_le] at r3
    have a : (n : ℝ) < 51 := by linarith [r3.2]
    have b : (49 : ℝ) < n := by linarith [r3.1]
    have a' : n < 51 := by exact_mod_cast a
    have b' : 49 < n := by exact_mod_cast b
    omega
  rw [hn] at r2
  exact ⟨s, w, C, s', h1, h2, g1, g2, g3, r1, r2, r5, r4⟩

end Verif
