import Verif.Model.Heap
import Mathlib.Data.List.Perm.Basic

/-! C14: the heap is a priority queue with updatable keys. C15: timer accounting. -/

namespace Verif
open Heap

/-! ## C14 -/

/-- Specification: a priority queue is a partial map from indices to their current value object. -/
abbrev PQ (α ι : Type) := ι → Option α

/-- Calls a client can make. -/
inductive HeapCall (α ι : Type)
  | push (idx : ι) (value : α)
  | update (idx : ι) (value : α)
  | pop

/-- What the specification allows: `PQRun val q calls outs q'` says that running `calls` from `q`
may return `outs` (one entry per `pop`) and leave `q'`. `pop` returns None exactly on the empty
queue and otherwise removes and returns the live index with the least (current value, index). -/
inductive PQRun {α ι : Type} [LinearOrder ι] (val : α → ℝ) :
    PQ α ι → List (HeapCall α ι) → List (Option ι) → PQ α ι → Prop
  | nil (q) : PQRun val q [] [] q
  | push {q idx v cs outs q'} :
      PQRun val (Function.update q idx (some v)) cs outs q' →
      PQRun val q (.push idx v :: cs) outs q'
  | update {q idx v cs outs q'} :
      PQRun val (Function.update q idx (some v)) cs outs q' →
      PQRun val q (.update idx v :: cs) outs q'
  | popEmpty {q cs outs q'} : (∀ i, q i = none) → PQRun val q cs outs q' →
      PQRun val q (.pop :: cs) (none :: outs) q'
  | popMin {q i v cs outs q'} : q i = some v →
      (∀ j w, q j = some w → val v < val w ∨ (val v = val w ∧ i ≤ j)) →
      PQRun val (Function.update q i none) cs outs q' →
      PQRun val q (.pop :: cs) (some i :: outs) q'

/-- Running calls on the real heap, collecting what `pop` returns. -/
def heapRun {α ι : Type} [LinearOrder ι] [DecidableEq α] {val : α → ℝ} (hq : HeapQ α ι val) :
    Heap α ι → List (HeapCall α ι) → List (Option ι) × Heap α ι
  | h, [] => ([], h)
  | h, .push i v :: cs => heapRun hq (push hq h i v) cs
  | h, .update i v :: cs => heapRun hq (update hq h i v) cs
  | h, .pop :: cs =>
    let r := pop hq h.heap h.finder
    let s := heapRun hq r.2 cs
    (r.1 :: s.1, s.2)

section
variable {α ι : Type} [LinearOrder ι] [DecidableEq α] {val : α → ℝ} (hq : HeapQ α ι val)

/-- the current value object of each live index -/
def absH (h : Heap α ι) : PQ α ι := fun i => (h.finder.get? i).map HItem.obj

/-- representation invariant -/
def HeapInv (h : Heap α ι) : Prop :=
  (∀ i it, h.finder.get? i = some it → it.idx = i ∧ it ∈ h.heap)

theorem pop_spec (h : Heap α ι) (hinv : HeapInv h) :
    let r := pop hq h.heap h.finder
    HeapInv r.2 ∧ ((r.1 = none ∧ (∀ i, absH h i = none) ∧ absH r.2 = absH h) ∨
      ∃ i v, r.1 = some i ∧ absH h i = some v ∧
        (∀ j w, absH h j = some w → val v < val w ∨ (val v = val w ∧ i ≤ j)) ∧
        absH r.2 = Function.update (absH h) i none) := by
  obtain ⟨heap, finder⟩ := h
  simp only
  induction hn : heap.length using Nat.strong_induction_on generalizing heap with
  | _ n ih =>
    rw [pop]
    by_cases hne : heap = []
    · rw [dif_pos hne]
      refine ⟨hinv, Or.inl ⟨rfl, ?_, rfl⟩⟩
      intro i
      unfold absH
      cases hf : finder.get? i with
      | none => simp [hf]
      | some it =>
        have := (hinv i it hf).2
        rw [show (⟨heap, finder⟩ : Heap α ι).heap = heap from rfl, hne] at this
        simp at this
    · rw [dif_neg hne]
      have hp := hq.pop_perm heap hne
      have hmin := hq.pop_le heap hne
      have hlt : (hq.heappop heap).2.length < n := by
        have := hp.length_eq; simp at this; omega
      generalize (hq.heappop heap).1 = item at *
      generalize (hq.heappop heap).2 = rest at *
      have keep : (∀ it, finder.get? item.idx = some it → it ≠ item) → HeapInv ⟨rest, finder⟩ := by
        intro hk i it hit
        obtain ⟨h1, h2⟩ := hinv i it hit
        refine ⟨h1, ?_⟩
        have : it ∈ item :: rest := hp.mem_iff.mpr h2
        rcases List.mem_cons.mp this with h | h
        · subst h; subst h1; exact absurd rfl (hk it hit)
        · exact h
      simp only
      cases hf : finder.get? item.idx with
      | none =>
        exact ih _ hlt rest (keep (by rw [hf]; simp)) rfl
      | some last =>
        simp only
        by_cases he : item.obj = last.obj
        · rw [if_neg (by simpa using he)]
          have hlast := hinv _ _ hf
          refine ⟨?_, Or.inr ⟨item.idx, last.obj, rfl, by simp [absH, hf], ?_, ?_⟩⟩
          · intro i it hit
            simp only [Dict.get?_delItem] at hit
            split_ifs at hit with hii
            obtain ⟨h1, h2⟩ := hinv i it hit
            refine ⟨h1, ?_⟩
            have : it ∈ item :: rest := hp.mem_iff.mpr h2
            rcases List.mem_cons.mp this with h | h
            · subst h; exact absurd h1.symm hii
            · exact h
          · intro j w hj
            unfold absH at hj
            cases hfj : finder.get? j with
            | none => simp [hfj] at hj
            | some it =>
              simp [hfj] at hj
              obtain ⟨h1, h2⟩ := hinv j it hfj
              have := hmin it h2
              unfold HItem.le at this
              rw [he, hj, h1] at this
              exact this
          · funext i
            unfold absH
            simp only [Dict.get?_delItem, Function.update_apply]
            split_ifs <;> simp
        · rw [if_pos (by simpa using he)]
          refine ih _ hlt rest (keep ?_) rfl
          intro it hit
          rw [hf] at hit
          simp at hit
          subst hit
          intro h; subst h; exact he rfl

theorem push_spec (h : Heap α ι) (hinv : HeapInv h) (i : ι) (v : α) :
    HeapInv (push hq h i v) ∧ absH (push hq h i v) = Function.update (absH h) i (some v) := by
  constructor
  · intro j it hit
    simp only [push, Dict.get?_setItem] at hit
    simp only [push]
    split_ifs at hit with hj
    · simp at hit; subst hit
      exact ⟨hj.symm, (hq.push_perm _ _).mem_iff.mpr (by simp)⟩
    · obtain ⟨h1, h2⟩ := hinv j it hit
      exact ⟨h1, (hq.push_perm _ _).mem_iff.mpr (by simp [h2])⟩
  · funext j
    simp only [absH, push, Dict.get?_setItem, Function.update_apply]
    split_ifs <;> simp

theorem heapRun_spec (cs : List (HeapCall α ι)) : ∀ (h : Heap α ι), HeapInv h →
    PQRun val (absH h) cs (heapRun hq h cs).1 (absH (heapRun hq h cs).2) ∧
    HeapInv (heapRun hq h cs).2 := by
  induction cs with
  | nil => intro h hinv; exact ⟨PQRun.nil _, hinv⟩
  | cons c cs ih =>
    intro h hinv
    cases c with
    | push i v =>
      have hs := push_spec hq h hinv i v
      have := ih _ hs.1
      rw [hs.2] at this
      exact ⟨PQRun.push this.1, this.2⟩
    | update i v =>
      have hs := push_spec hq h hinv i v
      have := ih _ hs.1
      rw [hs.2] at this
      exact ⟨PQRun.update this.1, this.2⟩
    | pop =>
      have hs := pop_spec hq h hinv
      simp only at hs
      simp only [heapRun]
      generalize pop hq h.heap h.finder = r at *
      obtain ⟨o, h'⟩ := r
      have hi := ih h' hs.1
      refine ⟨?_, hi.2⟩
      rcases hs.2 with ⟨h1, h2, h3⟩ | ⟨i, v, h1, h2, h3, h4⟩
      · simp only at h1 h3
        subst h1
        rw [h3] at hi
        exact PQRun.popEmpty h2 hi.1
      · simp only at h1 h4
        subst h1
        rw [h4] at hi
        exact PQRun.popMin h2 h3 hi.1

/-- C14: every history of push, update and pop calls from an empty heap behaves as the priority
queue of the specification - whatever layout `heapq` uses, however value objects are shared, and
however many stale entries are around - and the heap is truthy exactly when some index is live. -/
theorem C14_heap_refines_priority_queue (cs : List (HeapCall α ι)) :
    ∃ q : PQ α ι, PQRun val (fun _ => none) cs (heapRun hq Heap.init cs).1 q ∧
      ((heapRun hq Heap.init cs).2.truthy = true ↔ ∃ i, q i ≠ none) := by
  have hinv : HeapInv (Heap.init : Heap α ι) := by
    intro i it h; simp [Heap.init] at h
  have := heapRun_spec hq cs Heap.init hinv
  refine ⟨_, this.1, ?_⟩
  unfold truthy
  rw [decide_eq_true_iff, gt_iff_lt, Dict.len_pos]
  unfold absH
  simp

/-- keys present after a history: each pop returning i needs a push of i since the last pop of i -/
def liveCount [DecidableEq ι] (i : ι) : List (HeapCall α ι) → ℕ
  | [] => 0
  | .push j _ :: cs => (if j = i then 1 else 0) + liveCount i cs
  | .update j _ :: cs => (if j = i then 1 else 0) + liveCount i cs
  | .pop :: cs => liveCount i cs

/-- C14: an index is returned at most as often as it was pushed or updated. -/
theorem C14_pop_count (cs : List (HeapCall α ι)) (i : ι) :
    (heapRun hq Heap.init cs).1.count (some i) ≤ liveCount i cs := by
  obtain ⟨q, hq', -⟩ := C14_heap_refines_priority_queue hq cs
  have key : ∀ (q0 : PQ α ι) cs outs q1, PQRun val q0 cs outs q1 →
      outs.count (some i) ≤ liveCount i cs + (if q0 i = none then 0 else 1) := by
    intro q0 cs outs q1 hr
    induction hr with
    | nil => simp
    | @push q idx v cs outs q' _ ih =>
      simp only [liveCount, Function.update_apply] at *
      by_cases h : idx = i
      · subst h; simp at *; omega
      · have : ¬ i = idx := fun e => h e.symm
        simp [h, this] at *; omega
    | @update q idx v cs outs q' _ ih =>
      simp only [liveCount, Function.update_apply] at *
      by_cases h : idx = i
      · subst h; simp at *; omega
      · have : ¬ i = idx := fun e => h e.symm
        simp [h, this] at *; omega
    | popEmpty h _ ih => simp [liveCount] at *; exact ih
    | @popMin q j v cs outs q' hj hm _ ih =>
      simp only [liveCount, Function.update_apply] at *
      by_cases h : j = i
      · subst h; simp [hj] at *; omega
      · have : ¬ i = j := fun e => h e.symm
        simp [h, this] at *; omega
  have := key _ _ _ _ hq'
  simpa using this

end

/-- C14: draining. Popping n times from any reachable state returns live indices in nondecreasing
order of (value, index): consecutive pops never go down. -/
theorem C14_consecutive_pops_sorted {α ι : Type} [LinearOrder ι] (val : α → ℝ) (q q' : PQ α ι) (i j : ι)
    (h : PQRun val q [.pop, .pop] [some i, some j] q') :
    ∃ v w, q i = some v ∧ q j = some w ∧ i ≠ j ∧ (val v < val w ∨ (val v = val w ∧ i < j)) := by
  cases h with
  | popMin hi hmin hr =>
    cases hr with
    | popMin hj hmin2 hr2 =>
      rename_i v w
      rw [Function.update_apply] at hj
      split_ifs at hj with hij
      refine ⟨v, w, hi, hj, fun e => hij e.symm, ?_⟩
      rcases hmin j w hj with h | ⟨h1, h2⟩
      · exact Or.inl h
      · exact Or.inr ⟨h1, lt_of_le_of_ne h2 (fun e => hij e.symm)⟩

/-- A concrete heapq (insertion into a sorted list) meets the contract, so the theorems are not
vacuous: here with value objects = numbers. -/
noncomputable def sortedHeapQ : HeapQ ℝ ℕ id where
  heappush l x := x :: l
  heappop l := by
    classical
    exact if h : ∃ x ∈ l, ∀ y ∈ l, HItem.le id x y then
      (h.choose, l.erase h.choose) else (⟨0, 0⟩, l)
  push_perm l x := List.Perm.refl _
  pop_perm l hl := by
    classical
    have h : ∃ x ∈ l, ∀ y ∈ l, HItem.le id x y := exists_least l hl
    rw [dif_pos h]
    exact (List.perm_cons_erase h.choose_spec.1).symm
  pop_le l hl := by
    classical
    have h : ∃ x ∈ l, ∀ y ∈ l, HItem.le id x y := exists_least l hl
    rw [dif_pos h]
    exact h.choose_spec.2
where
  exists_least (l : List (HItem ℝ ℕ)) (hl : l ≠ []) : ∃ x ∈ l, ∀ y ∈ l, HItem.le id x y := by
    induction l with
    | nil => exact absurd rfl hl
    | cons a l ih =>
      rcases eq_or_ne l [] with rfl | hne
      · refine ⟨a, by simp, ?_⟩
        intro y hy
        simp at hy; subst hy
        exact Or.inr ⟨rfl, le_refl _⟩
      · obtain ⟨x, hx, hmin⟩ := ih hne
        by_cases hxa : HItem.le id x a
        · exact ⟨x, by simp [hx], by
            intro y hy
            rcases List.mem_cons.mp hy with rfl | h
            · exact hxa
            · exact hmin y h⟩
        · refine ⟨a, by simp, ?_⟩
          intro y hy
          rcases List.mem_cons.mp hy with rfl | h
          · exact Or.inr ⟨rfl, le_refl _⟩
          · have h1 := hmin y h
            unfold HItem.le at *
            simp only [id] at *
            push Not at hxa
            obtain ⟨h2, h3⟩ := hxa
            rcases h1 with h1 | ⟨h1, h4⟩
            · left; linarith
            · rcases h2.lt_or_eq with h5 | h5
              · left; linarith
              · right
                have := h3 h5.symm
                exact ⟨by linarith, by omega⟩

/-! ## C15 -/

/-- A history: each call with the clock reading it makes. -/
inductive TimerCall
  | start (now : ℝ)
  | stop (now : ℝ)

/-- Specification: durations of the completed intervals of a history. `pending` is the reading of
the latest start not yet ended. An `end` with nothing pending does not count. -/
def intervals : Option ℝ → List TimerCall → List ℝ
  | _, [] => []
  | _, .start t :: cs => intervals (some t) cs
  | some t0, .stop t :: cs => (t - t0) :: intervals none cs
  | none, .stop _ :: cs => intervals none cs

/-- Whether an interval is running after a history. -/
def running : Option ℝ → List TimerCall → Option ℝ
  | p, [] => p
  | _, .start t :: cs => running (some t) cs
  | _, .stop _ :: cs => running none cs

/-- Running a history on the timer; a raising `end` leaves the object as it is. -/
def timerRun (t : Timer) : List TimerCall → Timer
  | [] => t
  | .start now :: cs => timerRun (t.start now) cs
  | .stop now :: cs =>
    match t.end now with
    | .ok t' => timerRun t' cs
    | .error _ => timerRun t cs

theorem timerRun_spec (cs : List TimerCall) : ∀ t : Timer,
    (timerRun t cs).total = t.total + (intervals t.tic cs).sum ∧
    (timerRun t cs).elapsed = (intervals t.tic cs).getLastD t.elapsed ∧
    (timerRun t cs).tic = running t.tic cs := by
  induction cs with
  | nil => intro t; simp [timerRun, intervals, running]
  | cons c cs ih =>
    intro t
    cases c with
    | start now =>
      have := ih (t.start now)
      simpa [timerRun, intervals, running, Timer.start, Timer.total, Timer.elapsed] using this
    | stop now =>
      obtain ⟨value, acc, tic, toc⟩ := t
      cases tic with
      | none =>
        have := ih ⟨value, acc, none, toc⟩
        simpa [timerRun, intervals, running, Timer.end, Timer.total, Timer.elapsed] using this
      | some t0 =>
        have := ih ⟨now - t0, acc + (now - t0), none, some now⟩
        simp only [timerRun, intervals, running, Timer.end, Timer.total, Timer.elapsed] at this ⊢
        refine ⟨?_, ?_, this.2.2⟩
        · rw [this.1, List.sum_cons]; ring
        · rw [this.2.1, List.getLastD_cons]

/-- C15: after every history `total` is the sum of the durations of the completed intervals,
`elapsed` the last one (0 before the first), and a further `end` raises RuntimeError exactly when no
interval is running. -/
theorem C15_timer (cs : List TimerCall) :
    (timerRun Timer.init cs).total = (intervals none cs).sum ∧
    (timerRun Timer.init cs).elapsed = (intervals none cs).getLastD 0 ∧
    (∀ now, (timerRun Timer.init cs).end now = .error .runtimeError ↔ running none cs = none) := by
  have h := timerRun_spec cs Timer.init
  refine ⟨by simpa [Timer.init, Timer.total] using h.1, h.2.1, ?_⟩
  intro now
  have h3 := h.2.2
  simp only [Timer.init] at h3
  unfold Timer.end
  rw [← h3]
  simp only [Timer.init]
  cases (timerRun ⟨0, 0, none, none⟩ cs).tic <;> simp

/-- The reading of a call. -/
def TimerCall.now : TimerCall → ℝ
  | start t => t
  | stop t => t

theorem intervals_nonneg (cs : List TimerCall) : ∀ p : Option ℝ,
    (∀ t, p = some t → ∀ c ∈ cs, t ≤ c.now) → cs.Pairwise (fun a b => a.now ≤ b.now) →
    ∀ d ∈ intervals p cs, 0 ≤ d := by
  induction cs with
  | nil => intro p _ _ d hd; simp [intervals] at hd
  | cons c cs ih =>
    intro p hp hmono d hd
    rw [List.pairwise_cons] at hmono
    cases c with
    | start t =>
      simp only [intervals] at hd
      refine ih (some t) ?_ hmono.2 d hd
      intro t' ht' c hc
      simp at ht'; subst ht'
      exact hmono.1 c hc
    | stop t =>
      cases p with
      | none =>
        simp only [intervals] at hd
        exact ih none (by simp) hmono.2 d hd
      | some t0 =>
        simp only [intervals, List.mem_cons] at hd
        rcases hd with rfl | hd
        · have := hp t0 rfl (.stop t) (by simp)
          simp [TimerCall.now] at this
          linarith
        · exact ih none (by simp) hmono.2 d hd

/-- C15: with a monotone clock all elapsed values are non-negative and `total` never decreases as a
history is extended. -/
theorem C15_timer_monotone (cs cs' : List TimerCall)
    (hmono : (cs ++ cs').Pairwise (fun a b => a.now ≤ b.now)) :
    0 ≤ (timerRun Timer.init cs).elapsed ∧ 0 ≤ (timerRun Timer.init cs).total ∧
    (timerRun Timer.init cs).total ≤ (timerRun Timer.init (cs ++ cs')).total := by
  have hm1 := (List.pairwise_append.mp hmono).1
  obtain ⟨h1, h2, -⟩ := C15_timer cs
  have hn := intervals_nonneg cs none (by simp) hm1
  have hsplit : ∀ (cs cs' : List TimerCall) p, intervals p (cs ++ cs') = intervals p cs ++ intervals (running p cs) cs' := by
    intro cs cs'
    induction cs with
    | nil => intro p; simp [intervals, running]
    | cons c cs ih =>
      intro p
      cases c with
      | start t => simp [intervals, running, ih]
      | stop t => cases p <;> simp [intervals, running, ih]
  have hall := intervals_nonneg (cs ++ cs') none (by simp) hmono
  rw [hsplit] at hall
  refine ⟨?_, ?_, ?_⟩
  · rw [h2]
    rcases eq_or_ne (intervals none cs) [] with h | h
    · rw [h]; simp
    · apply hn
      rw [List.getLastD_eq_getLast?, List.getLast?_eq_some_getLast h]
      exact List.getLast_mem h
  · rw [h1]; exact List.sum_nonneg hn
  · rw [h1, (C15_timer (cs ++ cs')).1, hsplit, List.sum_append]
    have : 0 ≤ (intervals (running none cs) cs').sum :=
      List.sum_nonneg (fun d hd => hall d (by simp [hd]))
    linarith

example : ([.start 1, .stop 3, .stop 4, .start 5, .start 6, .stop 9] : List TimerCall).Pairwise
    (fun a b => a.now ≤ b.now) ∧
    intervals none [.start 1, .stop 3, .stop 4, .start 5, .start 6, .stop 9] = [3 - 1, 9 - 6] := by
  constructor
  · simp [TimerCall.now]; norm_num
  · rfl

end Verif
