import Verif.Props.Profile
import Verif.Props.RigidCmdRun

/-! C126: the log over several calls of `simulate`, and the log of the command line program. -/

namespace Verif

open Rigid ProxSolver

variable {N : ℕ}

/-- **C126.** Whenever `simulate` succeeds it also succeeds with profiling, and leaves the same engine. -/
theorem C126_total {P : Collision.CDParams} {s s' : Sim N} {T : ℝ} (h : fullSimulate P s T = .ok s') (b : Bool) (log : List Entry) :
    ∃ log', simulateLogged P b (s, log) T = .ok (s', log') := by
  rw [← C126_unchanged P b s log T] at h
  cases hl : simulateLogged P b (s, log) T with
  | error e => rw [hl] at h; cases h
  | ok sl =>
    rw [hl] at h
    refine ⟨sl.2, ?_⟩
    rw [← Except.ok.inj h]

theorem loggedRun_time_step {P : Collision.CDParams} (run : List (Entry × Sim N)) : ∀ {s s' : Sim N}, LoggedRun P s run s' →
    s'.1.params.time_step = s.1.params.time_step ∧ ∀ x ∈ run, EntryDescribes x.1 x.1.dt x.2.1 := by
  induction run with
  | nil => intro s s' h; exact ⟨by rw [h], by simp⟩
  | cons x run ih =>
    intro s s' h
    obtain ⟨h1, h2, h3⟩ := h
    obtain ⟨i1, i2⟩ := ih h3
    refine ⟨i1.trans (fullStep_time_step h1), ?_⟩
    intro y hy
    rcases List.mem_cons.1 hy with rfl | hy
    · exact h2
    · exact i2 y hy

/-- **C126.** Over any sequence of calls of `simulate`, some with profiling and some without, the log grows by the entries of the profiled
calls only: ⌈T / time step⌉ for each, and the sizes of the logged steps add up to the time simulated with profiling.  Each entry describes the engine
as it was after some step. -/
theorem C126_history {P : Collision.CDParams} (L : List (ℝ × Bool)) : ∀ {s s' : Sim N} {log log' : List Entry}, 0 < s.1.params.time_step →
    simulateAll P L (s, log) = .ok (s', log') →
    ∃ es : List Entry, log' = log ++ es ∧ es.length = (L.map fun c => if c.2 then ⌈c.1 / s.1.params.time_step⌉₊ else 0).sum ∧
      (es.map Entry.dt).sum = (L.map fun c => if c.2 then c.1 else 0).sum ∧
      ∀ e ∈ es, 0 < e.dt ∧ e.dt ≤ s.1.params.time_step ∧ ∃ v : Sim N, EntryDescribes e e.dt v.1 := by
  induction L with
  | nil =>
    intro s s' log log' _ h
    have h := Except.ok.inj h
    rw [Prod.mk.injEq] at h
    exact ⟨[], by simp [h.2], by simp, by simp, by simp⟩
  | cons c L ih =>
    obtain ⟨T, b⟩ := c
    intro s s' log log' hts h
    unfold simulateAll at h
    cases h1 : simulateLogged P b (s, log) T with
    | error e => rw [h1] at h; cases h
    | ok sl =>
      obtain ⟨s1, log1⟩ := sl
      rw [h1] at h
      replace h : simulateAll P L (s1, log1) = .ok (s', log') := h
      cases b with
      | false =>
        have hl := C126_off h1
        have hst : s1.1.params.time_step = s.1.params.time_step := by
          have h2 := C126_unchanged P false s log T
          rw [h1] at h2
          obtain ⟨log2, h3⟩ := C126_total h2.symm true log
          obtain ⟨run, -, r2, -⟩ := C126_log hts h3
          exact (loggedRun_time_step run r2).1
        obtain ⟨es, e1, e2, e3, e4⟩ := ih (by rw [hst]; exact hts) h
        rw [hst] at e2 e4
        exact ⟨es, by rw [e1, hl], by simpa using e2, by simpa using e3, e4⟩
      | true =>
        obtain ⟨run, r1, r2, r3, r4, r5, -⟩ := C126_log hts h1
        obtain ⟨hst, hdesc⟩ := loggedRun_time_step run r2
        obtain ⟨es, e1, e2, e3, e4⟩ := ih (by rw [hst]; exact hts) h
        rw [hst] at e2 e4
        refine ⟨run.map Prod.fst ++ es, by rw [e1, r1, List.append_assoc], ?_, ?_, ?_⟩
        · simp only [List.length_append, List.length_map, r3, e2, List.map_cons, List.sum_cons, if_true]
        · simp only [List.map_append, List.map_map, List.sum_append, e3, List.map_cons, List.sum_cons, if_true]
          congr 1
        · intro e he
          rcases List.mem_append.1 he with he | he
          · obtain ⟨x, hx, rfl⟩ := List.mem_map.1 he
            exact ⟨(r5 x hx).1, (r5 x hx).2, x.2, hdesc x hx⟩
          · exact e4 e he

theorem logged_cmdLoop {P : Collision.CDParams} {dt : ℝ} (n : ℕ) : ∀ {s s' : Sim N} (log : List Entry), cmdLoop P dt n s = .ok s' →
    ∃ log', simulateAll P (List.replicate n (dt, true)) (s, log) = .ok (s', log') := by
  induction n with
  | zero => intro s s' log h; exact ⟨log, by rw [← Except.ok.inj h]; rfl⟩
  | succ n ih =>
    intro s s' log h
    unfold cmdLoop at h
    cases h1 : fullSimulate P s dt with
    | error e => rw [h1] at h; cases h
    | ok s1 =>
      rw [h1] at h
      obtain ⟨log1, h2⟩ := C126_total h1 true log
      obtain ⟨log2, h3⟩ := ih log1 h
      refine ⟨log2, ?_⟩
      rw [List.replicate_succ]
      unfold simulateAll
      rw [h2]
      exact h3

theorem npRound_int (k : ℤ) : SoftApp.npRound (k : ℝ) = k := by
  unfold SoftApp.npRound
  rw [if_pos]
  · simp
  · simp

theorem toWorld_params {e : Engine} {w : World e.bodies.len} (h : e.toWorld = some w) : w.params = e.params := by
  unfold Engine.toWorld at h
  simp only [Option.bind_eq_bind, Option.bind_eq_some_iff] at h
  obtain ⟨hs, -, h⟩ := h
  rw [← Option.some.inj h]

/-- **C126.** The command line program, which simulates with profiling and then plots the log, finds 50 entries in it, each of a step of a
hundredth of a second. -/
theorem C126_main {eig : Eig} (heig : EigSpec eig) {sd : SignedDistance} (hsd : OnePerNode sd) {P : GeoParams} (hP : GoodGeo P)
    (gen : ℕ → String → String) :
    ∃ s w C s' log, SceneM.setup_scene eig ⟨Engine.create_engine, Dict.empty, gen⟩ = .ok ((), s) ∧ s.eng.toWorld = some w ∧
      (∀ i, s.collider sd P (w.bodies i) = .ok (C i)) ∧
      simulateAll P.toCDParams (List.replicate 50 (0.01, true)) ((w, C), []) = .ok (s', log) ∧ log.length = 50 ∧
      ∀ e ∈ log, e.dt = 0.01 := by
  obtain ⟨s, w, C, s', h1, h2, h3, h4, -, h5, -⟩ := C124_main heig hsd hP gen
  obtain ⟨ball, -, -, -, hpar, -⟩ := id h2
  have hw : w.params.time_step = 0.01 := by
    rw [toWorld_params h3, hpar]; rfl
  have h6 : cmdLoop P.toCDParams 0.01 50 (w, C) = .ok s' := by
    unfold cmdSimulate at h5
    simp only [hw] at h5
    rw [if_neg (by norm_num), show (0.5 : ℝ) * (1.0 / 0.01) = ((50 : ℤ) : ℝ) by norm_num, npRound_int] at h5
    exact h5
  obtain ⟨log, h7⟩ := logged_cmdLoop 50 [] h6
  obtain ⟨es, e1, e2, e3, e4⟩ := C126_history _ (by simp only [hw]; norm_num) h7
  simp only [hw] at e2 e4
  have hc : ⌈(0.01 : ℝ) / 0.01⌉₊ = 1 := by
    rw [div_self (by norm_num)]; simp
  have hlen : es.length = 50 := by
    rw [e2]
    simp [List.map_replicate, hc]
  rw [List.nil_append] at e1
  subst e1
  refine ⟨s, w, C, s', log, h1, h3, h4, h7, hlen, ?_⟩
  have hsum : (log.map Entry.dt).sum = 50 * 0.01 := by
    rw [e3]; simp only [List.map_replicate, if_true, List.sum_replicate, nsmul_eq_mul]; norm_num
  have key : ∀ l : List Entry, (∀ e ∈ l, e.dt ≤ 0.01) → (l.map Entry.dt).sum ≤ l.length * 0.01 ∧
      ((l.map Entry.dt).sum = l.length * 0.01 → ∀ e ∈ l, e.dt = 0.01) := by
    intro l
    induction l with
    | nil => intro _; simp
    | cons e l ih =>
      intro hl
      obtain ⟨i1, i2⟩ := ih (fun e he => hl e (List.mem_cons_of_mem _ he))
      have h0 := hl e List.mem_cons_self
      simp only [List.map_cons, List.sum_cons, List.length_cons, Nat.cast_add, Nat.cast_one]
      generalize (0.01 : ℝ) = t at *
      refine ⟨by linarith, fun h => ?_⟩
      intro x hx
      rcases List.mem_cons.1 hx with rfl | hx
      · linarith
      · exact i2 (by linarith) x hx
  refine (key log fun e he => (e4 e he).2.1).2 ?_
  rw [hsum, hlen]
  norm_num

end Verif
