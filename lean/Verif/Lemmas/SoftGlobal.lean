import Verif.Props.SoftHistory

/-! Global arrays of the soft body stepper: gathering, scattering and boundary conditions. -/

namespace Verif

open Soft

/-- The global ranges of two bodies do not overlap. -/
def Apart (b c : SoftBody) : Prop := b.offset + b.n ≤ c.offset ∨ c.offset + c.n ≤ b.offset

theorem bodyList_entries {e : Soft.Engine} {B : List SoftBody} (h : bodyList e = .ok B) :
    e.bodies.values = B.map Slot.ready := by
  unfold bodyList at h
  have := mapM_ok h
  clear h
  generalize e.bodies.values = L at this
  induction this with
  | nil => rfl
  | @cons s b L B hs _ ih =>
    rw [List.map_cons, ← ih]
    cases s with
    | ready b' => simp only [Except.ok.injEq] at hs; rw [hs]
    | broken => cases hs

theorem mem_bodyList {e : Soft.Engine} (hn : e.bodies.keys.Nodup) {B : List SoftBody} (h : bodyList e = .ok B) (b : SoftBody) :
    b ∈ B ↔ ∃ k, HasBody e k b := by
  have hv := bodyList_entries h
  constructor
  · intro hb
    have : Slot.ready b ∈ e.bodies.values := by rw [hv]; exact List.mem_map_of_mem hb
    unfold Dict.values at this
    obtain ⟨kv, hkv, hs⟩ := List.mem_map.1 this
    obtain ⟨i, hi, he⟩ := List.getElem_of_mem hkv
    refine ⟨kv.1, ?_⟩
    have := Dict.get?_entry hn hi
    rw [he, hs] at this
    exact this
  · rintro ⟨k, hb⟩
    obtain ⟨i, hi, he⟩ := Dict.get?_some hb
    have : Slot.ready b ∈ e.bodies.values := List.mem_map.2 ⟨(k, .ready b), he ▸ List.getElem_mem _, rfl⟩
    rw [hv] at this
    obtain ⟨b', hb', hbb⟩ := List.mem_map.1 this
    injection hbb with hbb
    rwa [← hbb]

theorem bodyList_apart {e : Soft.Engine} (hok : SoftOk e) {B : List SoftBody} (h : bodyList e = .ok B) : B.Pairwise Apart := by
  have hv := bodyList_entries h
  rw [List.pairwise_iff_getElem]
  intro i j hi hj hij
  have hlen : B.length = e.bodies.entries.length := by
    have := congrArg List.length hv
    simpa [Dict.values] using this.symm
  have hget : ∀ i (hi : i < B.length), HasBody e (e.bodies.entries[i]'(hlen ▸ hi)).1 B[i] := by
    intro i hi
    have h1 := Dict.get?_entry hok.nodup (hlen ▸ hi)
    have h2 : (e.bodies.entries[i]'(hlen ▸ hi)).2 = .ready B[i] := by
      have h3 : e.bodies.values[i]'(by rw [hv]; simpa using hi) = .ready B[i] := by
        simp only [hv, List.getElem_map]
      simpa [Dict.values] using h3
    rw [h2] at h1
    exact h1
  refine hok.disjoint _ _ _ _ (hget i hi) (hget j hj) ?_
  have hnd := hok.nodup
  unfold Dict.keys at hnd
  intro heq
  have := (List.Nodup.getElem_inj_iff hnd (i := i) (j := j) (hi := by simpa using hlen ▸ hi) (hj := by simpa using hlen ▸ hj)).1
    (by simpa using heq)
  omega

/-- q is a global node number of b. -/
def InRange (b : SoftBody) (q : ℕ) : Prop := b.offset ≤ q ∧ q < b.offset + b.n

theorem writeSlice_in {n : ℕ} (y : ℕ → V3) (o : ℕ) (f : Fin n → V3) (i : Fin n) : writeSlice y o f (o + i) = f i := by
  unfold writeSlice
  rw [dif_pos ⟨by omega, by have := i.2; omega⟩]
  congr
  simp

theorem writeSlice_out {n : ℕ} (y : ℕ → V3) (o : ℕ) (f : Fin n → V3) (q : ℕ) (h : ¬ (o ≤ q ∧ q < o + n)) : writeSlice y o f q = y q := by
  unfold writeSlice
  rw [dif_neg]
  intro h'
  exact h ⟨h'.1, by omega⟩

/-- Scattering one array per body (disjoint ranges): each body finds its array at its range. -/
theorem gather {B : List SoftBody} (hB : B.Pairwise Apart) (g : (b : SoftBody) → Except PyErr (Fin b.n → V3)) {y0 R : ℕ → V3}
    (h : B.foldlM (fun y b => do
      let f ← g b
      return writeSlice y b.offset f) y0 = .ok R) :
    (∀ b ∈ B, ∃ f, g b = .ok f ∧ ∀ i : Fin b.n, R (b.offset + i) = f i) ∧ ∀ q, (∀ b ∈ B, ¬ InRange b q) → R q = y0 q := by
  induction B generalizing y0 with
  | nil =>
    simp only [List.foldlM_nil, pure, Except.pure, Except.ok.injEq] at h
    subst h
    exact ⟨by simp, fun _ _ => rfl⟩
  | cons b B ih =>
    rw [List.pairwise_cons] at hB
    simp only [List.foldlM_cons, bind, Except.bind] at h
    cases hg : g b with
    | error err => rw [hg] at h; cases h
    | ok f =>
      rw [hg] at h
      simp only [pure, Except.pure] at h
      obtain ⟨h1, h2⟩ := ih hB.2 (y0 := writeSlice y0 b.offset f) h
      constructor
      · intro c hc
        rcases List.mem_cons.1 hc with rfl | hc
        · refine ⟨f, hg, fun i => ?_⟩
          rw [h2, writeSlice_in]
          intro d hd hr
          have := hB.1 d hd
          unfold Apart at this
          unfold InRange at hr
          have := i.2
          omega
        · exact h1 c hc
      · intro q hq
        rw [h2 q fun d hd => hq d (List.mem_cons_of_mem _ hd)]
        exact writeSlice_out _ _ _ _ (hq b (List.mem_cons_self ..))

theorem gather_pure {B : List SoftBody} (hB : B.Pairwise Apart) (g : (b : SoftBody) → (Fin b.n → V3)) (y0 : ℕ → V3) :
    (∀ b ∈ B, ∀ i : Fin b.n, B.foldl (fun y b => writeSlice y b.offset (g b)) y0 (b.offset + i) = g b i) ∧
      ∀ q, (∀ b ∈ B, ¬ InRange b q) → B.foldl (fun y b => writeSlice y b.offset (g b)) y0 q = y0 q := by
  have h : B.foldlM (fun y b => do
      let f ← (fun b => Except.ok (g b) : (b : SoftBody) → Except PyErr (Fin b.n → V3)) b
      return writeSlice y b.offset f) y0 = .ok (B.foldl (fun y b => writeSlice y b.offset (g b)) y0) := by
    simp only [bind, Except.bind, pure, Except.pure]
    exact List.foldlM_pure (m := Except PyErr) (f := fun y b => writeSlice y b.offset (g b))
  obtain ⟨h1, h2⟩ := gather hB _ h
  refine ⟨fun b hb i => ?_, h2⟩
  obtain ⟨f, hf, hi⟩ := h1 b hb
  injection hf with hf
  rw [hi, hf]

/-- Node q carries a Dirichlet condition of body b. -/
def PinnedAt (b : SoftBody) (q : ℕ) : Prop := ∃ d ∈ b.dirichlet_conditions, (d.1 : ℕ) + b.offset = q

/-- Node i of b carries a Dirichlet condition. -/
def Pinned (b : SoftBody) (i : Fin b.n) : Prop := ∃ d ∈ b.dirichlet_conditions, d.1 = i

theorem pinnedAt_iff {b : SoftBody} {i : Fin b.n} : PinnedAt b (b.offset + i) ↔ Pinned b i := by
  constructor
  · rintro ⟨d, hd, h⟩
    exact ⟨d, hd, Fin.ext (by omega)⟩
  · rintro ⟨d, hd, rfl⟩
    exact ⟨d, hd, by omega⟩

theorem PinnedAt.inRange {b : SoftBody} {q : ℕ} (h : PinnedAt b q) : InRange b q := by
  obtain ⟨d, -, rfl⟩ := h
  have := d.1.2
  exact ⟨by omega, by omega⟩

theorem updates_apply {b : SoftBody} (ds : List (Fin b.n × V3)) (val : Fin b.n × V3 → V3) (w : Fin b.n → V3)
    (hw : ∀ d ∈ ds, val d = w d.1) (y : ℕ → V3) :
    (∀ q, (∀ d ∈ ds, (d.1 : ℕ) + b.offset ≠ q) → ds.foldl (fun y d => Function.update y (d.1 + b.offset) (val d)) y q = y q) ∧
    ∀ d ∈ ds, ds.foldl (fun y d => Function.update y (d.1 + b.offset) (val d)) y (d.1 + b.offset) = w d.1 := by
  induction ds generalizing y with
  | nil => simp
  | cons d ds ih =>
    obtain ⟨h1, h2⟩ := ih (fun c hc => hw c (List.mem_cons_of_mem _ hc)) (Function.update y (d.1 + b.offset) (val d))
    simp only [List.foldl_cons]
    constructor
    · intro q hq
      rw [h1 q fun c hc => hq c (List.mem_cons_of_mem _ hc), Function.update_of_ne]
      exact (hq d (List.mem_cons_self ..)).symm
    · intro c hc
      by_cases hex : ∃ d' ∈ ds, (d'.1 : ℕ) + b.offset = c.1 + b.offset
      · obtain ⟨d', hd', he⟩ := hex
        have : d'.1 = c.1 := Fin.ext (by omega)
        rw [← this]
        exact h2 d' hd'
      · push Not at hex
        rw [h1 _ hex]
        rcases List.mem_cons.1 hc with rfl | hc
        · rw [Function.update_self]
          exact hw _ (List.mem_cons_self ..)
        · exact absurd rfl (hex c hc)

/-- Boundary conditions with values w: pinned nodes get their value, all others keep theirs. -/
theorem bc_apply {B : List SoftBody} (hB : B.Pairwise Apart) (val : (b : SoftBody) → Fin b.n × V3 → V3) (w : (b : SoftBody) → Fin b.n → V3)
    (hw : ∀ b ∈ B, ∀ d ∈ b.dirichlet_conditions, val b d = w b d.1) (y : ℕ → V3) :
    (∀ q, (∀ b ∈ B, ¬ PinnedAt b q) →
      B.foldl (fun y b => b.dirichlet_conditions.foldl (fun y d => Function.update y (d.1 + b.offset) (val b d)) y) y q = y q) ∧
    ∀ b ∈ B, ∀ i, Pinned b i →
      B.foldl (fun y b => b.dirichlet_conditions.foldl (fun y d => Function.update y (d.1 + b.offset) (val b d)) y) y (b.offset + i) = w b i := by
  induction B generalizing y with
  | nil => simp
  | cons b B ih =>
    rw [List.pairwise_cons] at hB
    simp only [List.foldl_cons]
    have hu := updates_apply (b := b) b.dirichlet_conditions (val b) (w b) (hw b (List.mem_cons_self ..)) y
    obtain ⟨h1, h2⟩ := ih hB.2 (fun c hc => hw c (List.mem_cons_of_mem _ hc))
      (b.dirichlet_conditions.foldl (fun y d => Function.update y (d.1 + b.offset) (val b d)) y)
    constructor
    · intro q hq
      rw [h1 q fun c hc => hq c (List.mem_cons_of_mem _ hc)]
      refine hu.1 q fun d hd he => hq b (List.mem_cons_self ..) ⟨d, hd, he⟩
    · intro c hc i hi
      rcases List.mem_cons.1 hc with rfl | hc
      · rw [h1]
        · obtain ⟨d, hd, rfl⟩ := hi
          rw [Nat.add_comm]
          exact hu.2 d hd
        · intro d hd hp
          have hr := hp.inRange
          have h3 := hB.1 d hd
          have := i.2
          unfold InRange at hr
          unfold Apart at h3
          omega
      · exact h2 c hc i hi

theorem bc_velocity {B : List SoftBody} (hB : B.Pairwise Apart) (u : ℕ → V3) :
    (∀ b ∈ B, ∀ i, Pinned b i → apply_boundary_conditions_on_velocities u B (b.offset + i) = 0) ∧
    ∀ q, (∀ b ∈ B, ¬ PinnedAt b q) → apply_boundary_conditions_on_velocities u B q = u q := by
  have := bc_apply hB (fun _ _ => V3.zero) (fun _ _ => V3.zero) (fun _ _ _ _ => rfl) u
  exact ⟨this.2, this.1⟩

theorem bc_position {B : List SoftBody} (hB : B.Pairwise Apart) (hd : ∀ b ∈ B, ∀ d ∈ b.dirichlet_conditions, d.2 = b.x0 d.1) (x : ℕ → V3) :
    (∀ b ∈ B, ∀ i, Pinned b i → apply_boundary_conditions_on_positions x B (b.offset + i) = b.x0 i) ∧
    ∀ q, (∀ b ∈ B, ¬ PinnedAt b q) → apply_boundary_conditions_on_positions x B q = x q := by
  have := bc_apply hB (fun _ d => d.2) (fun b => b.x0) hd x
  exact ⟨this.2, this.1⟩

theorem apart_unique {B : List SoftBody} (hB : B.Pairwise Apart) {b c : SoftBody} (hb : b ∈ B) (hc : c ∈ B) {q : ℕ} (h1 : InRange b q)
    (h2 : InRange c q) : b = c := by
  induction B with
  | nil => cases hb
  | cons a B ih =>
    rw [List.pairwise_cons] at hB
    unfold InRange at *
    rcases List.mem_cons.1 hb with e1 | hb1 <;> rcases List.mem_cons.1 hc with e2 | hc1
    · rw [e1, e2]
    · have := hB.1 c hc1
      unfold Apart at this
      rw [← e1] at this
      omega
    · have := hB.1 b hb1
      unfold Apart at this
      rw [← e2] at this
      omega
    · exact ih hB.2 hb1 hc1

/-- At a free node of a body no boundary condition applies. -/
theorem free_node {B : List SoftBody} (hB : B.Pairwise Apart) {b : SoftBody} (hb : b ∈ B) {i : Fin b.n} (hi : ¬ Pinned b i) :
    ∀ c ∈ B, ¬ PinnedAt c (b.offset + i) := by
  intro c hc hp
  have h1 : InRange b (b.offset + i) := ⟨by omega, by have := i.2; omega⟩
  have := apart_unique hB hb hc h1 hp.inRange
  subst this
  exact hi (pinnedAt_iff.1 hp)

end Verif
