import Verif.Model.MeshTopology
import Mathlib.Data.List.Sort
import Mathlib.Tactic.Linarith

/-! C61: the vertex-tetrahedron circulator lists exactly the incident tetrahedra. -/

namespace Verif

open VMesh

/-! ### sorted lists -/

theorem sorted_idx {α : Type*} (p : α → Bool) : ∀ {L : List α}, L.Pairwise (fun a b => p b = true → p a = true) →
    ∀ {idx : ℕ} {x : α}, L[idx]? = some x → (p x = true ↔ idx < L.countP p)
  | [], _, idx, x, h => by simp at h
  | a :: L, hp, idx, x, h => by
    rw [List.pairwise_cons] at hp
    cases idx with
    | zero =>
      simp only [List.getElem?_cons_zero, Option.some.injEq] at h
      subst h
      constructor
      · intro hx
        rw [List.countP_cons_of_pos hx]
        omega
      · intro hlt
        by_contra hx
        rw [List.countP_cons_of_neg hx] at hlt
        obtain ⟨y, hy, hpy⟩ := List.countP_pos_iff.1 hlt
        exact hx (hp.1 y hy hpy)
    | succ n =>
      rw [List.getElem?_cons_succ] at h
      have ih := sorted_idx p hp.2 h
      by_cases ha : p a = true
      · rw [List.countP_cons_of_pos ha, ih]
        omega
      · rw [List.countP_cons_of_neg ha]
        have h0 : L.countP p = 0 := by
          rw [List.countP_eq_zero]
          intro y hy hpy
          exact ha (hp.1 y hy hpy)
        have hx : ¬ p x = true := by
          rw [ih, h0]
          omega
        rw [h0]
        simp [hx]

theorem take_countP {α : Type*} (p : α → Bool) : ∀ {L : List α},
    L.Pairwise (fun a b => p b = true → p a = true) → L.take (L.countP p) = L.filter p
  | [], _ => rfl
  | a :: L, hp => by
    rw [List.pairwise_cons] at hp
    by_cases ha : p a = true
    · rw [List.countP_cons_of_pos ha, List.filter_cons_of_pos ha, List.take_succ_cons, take_countP p hp.2]
    · have h0 : L.countP p = 0 := by
        rw [List.countP_eq_zero]
        intro y hy hpy
        exact ha (hp.1 y hy hpy)
      rw [List.countP_cons_of_neg ha, List.filter_cons_of_neg ha, h0, List.take_zero]
      exact (List.filter_eq_nil_iff.2 (List.countP_eq_zero.1 h0)).symm

theorem drop_countP {α : Type*} (p : α → Bool) : ∀ {L : List α},
    L.Pairwise (fun a b => p b = true → p a = true) → L.drop (L.countP p) = L.filter (fun x => !p x)
  | [], _ => rfl
  | a :: L, hp => by
    rw [List.pairwise_cons] at hp
    by_cases ha : p a = true
    · rw [List.countP_cons_of_pos ha, List.filter_cons_of_neg (by simp [ha]), List.drop_succ_cons,
        drop_countP p hp.2]
    · have h0 : L.countP p = 0 := by
        rw [List.countP_eq_zero]
        intro y hy hpy
        exact ha (hp.1 y hy hpy)
      rw [List.countP_cons_of_neg ha, List.filter_cons_of_pos (by simp [ha]), h0, List.drop_zero]
      congr 1
      refine (List.filter_eq_self.2 ?_).symm
      intro y hy
      have := List.countP_eq_zero.1 h0 y hy
      simp [this]

/-! ### the table -/

/-- number of rows with vertex below v -/
def cLo (L : List (ℕ × ℕ)) (v : ℕ) : ℕ := L.countP fun r => decide (r.1 < v)
/-- number of rows with vertex at most v -/
def cHi (L : List (ℕ × ℕ)) (v : ℕ) : ℕ := L.countP fun r => decide (r.1 ≤ v)

/-- rows in order of the vertex -/
def VSorted (L : List (ℕ × ℕ)) : Prop := L.Pairwise fun a b => a.1 ≤ b.1

theorem vsorted_lt {L : List (ℕ × ℕ)} (h : VSorted L) (v : ℕ) :
    L.Pairwise (fun a b => decide (b.1 < v) = true → decide (a.1 < v) = true) :=
  h.imp (fun hab hb => by simp only [decide_eq_true_eq] at hb ⊢; omega)

theorem vsorted_le {L : List (ℕ × ℕ)} (h : VSorted L) (v : ℕ) :
    L.Pairwise (fun a b => decide (b.1 ≤ v) = true → decide (a.1 ≤ v) = true) :=
  h.imp (fun hab hb => by simp only [decide_eq_true_eq] at hb ⊢; omega)

theorem row_iff {L : List (ℕ × ℕ)} (h : VSorted L) {idx : ℕ} {x : ℕ × ℕ} (hx : L[idx]? = some x) (v : ℕ) :
    x.1 = v ↔ cLo L v ≤ idx ∧ idx < cHi L v := by
  have h1 := sorted_idx _ (vsorted_lt h v) hx
  have h2 := sorted_idx _ (vsorted_le h v) hx
  simp only [decide_eq_true_eq] at h1 h2
  unfold cLo cHi
  omega

theorem cLo_le_cHi (L : List (ℕ × ℕ)) (v : ℕ) : cLo L v ≤ cHi L v :=
  List.countP_mono_left (fun x _ hx => by simp only [decide_eq_true_eq] at hx ⊢; omega)

theorem cHi_le (L : List (ℕ × ℕ)) (v : ℕ) : cHi L v ≤ L.length := List.countP_le_length

/-- contents of the two arrays after n passes -/
def CircInv (L : List (ℕ × ℕ)) (nV n : ℕ) (a : List ℤ × List ℤ) : Prop :=
  a.1.length = nV ∧ a.2.length = nV ∧ ∀ v < nV,
    a.1[v]? = some (if cLo L v < n ∧ cLo L v < cHi L v then (cLo L v : ℤ) else -1) ∧
    a.2[v]? = some (if cHi L v ≤ n ∧ cLo L v < cHi L v then (cHi L v : ℤ) else -1)

theorem circ_step {L : List (ℕ × ℕ)} (h : VSorted L) {nV n : ℕ} (hn : n < L.length)
    (hv : ∀ r ∈ L, r.1 < nV) {a : List ℤ × List ℤ} (ha : CircInv L nV n a) :
    ∃ a', circStep L a n = .ok a' ∧ CircInv L nV (n + 1) a' := by
  obtain ⟨l1, l2, hc⟩ := ha
  have hx : L[n]? = some L[n] := List.getElem?_eq_getElem hn
  generalize hj : L[n] = x at hx
  obtain ⟨j, f⟩ := x
  have hjV : j < nV := hv (j, f) (List.mem_of_getElem? hx)
  have hrow := fun v => row_iff h hx v
  simp only at hrow
  have hjr := (hrow j).1 rfl
  have hi : ((if n > 0 then (L[n - 1]?).map Prod.fst else none) ≠ some j) ↔ n = cLo L j := by
    by_cases h0 : n > 0
    · rw [if_pos h0]
      have hlt : n - 1 < L.length := by omega
      have hx' : L[n - 1]? = some L[n - 1] := List.getElem?_eq_getElem hlt
      have := row_iff h hx' j
      rw [hx']
      simp only [Option.map_some, ne_eq, Option.some.injEq, this]
      omega
    · rw [if_neg h0]
      simp only [ne_eq, reduceCtorEq, not_false_eq_true, true_iff]
      omega
  have hk : (some j ≠ (if n + 1 < L.length then (L[n + 1]?).map Prod.fst else none)) ↔ n + 1 = cHi L j := by
    have := cHi_le L j
    by_cases h0 : n + 1 < L.length
    · rw [if_pos h0]
      have hx' : L[n + 1]? = some L[n + 1] := List.getElem?_eq_getElem h0
      have := row_iff h hx' j
      rw [hx']
      simp only [Option.map_some, ne_eq, Option.some.injEq, eq_comm (a := j), this]
      omega
    · rw [if_neg h0]
      simp only [ne_eq, reduceCtorEq, not_false_eq_true, true_iff]
      omega
  refine ⟨(if n = cLo L j then a.1.set j n else a.1, if n + 1 = cHi L j then a.2.set j (n + 1) else a.2), ?_, ?_, ?_, ?_⟩
  · unfold circStep
    rw [hx]
    simp only [hi, hk, setAt, l1, l2, hjV, if_true, bind, Except.bind]
    split <;> split <;> rfl
  · simp only
    split <;> simp [l1]
  · simp only
    split <;> simp [l2]
  · intro v hvV
    have hcv := hc v hvV
    have hrv := hrow v
    have hle := cLo_le_cHi L v
    constructor
    · simp only
      by_cases hvj : j = v
      · subst hvj
        split
        · rename_i e
          rw [List.getElem?_set_self (by omega), if_pos (by omega), e]
        · rename_i e
          rw [hcv.1]
          congr 1
          have : (cLo L j < n ∧ cLo L j < cHi L j) ↔ (cLo L j < n + 1 ∧ cLo L j < cHi L j) := by omega
          simp only [this]
      · have hset : (if n = cLo L j then a.1.set j n else a.1)[v]? = a.1[v]? := by
          split
          · exact List.getElem?_set_ne hvj
          · rfl
        rw [hset, hcv.1]
        have : (cLo L v < n ∧ cLo L v < cHi L v) ↔ (cLo L v < n + 1 ∧ cLo L v < cHi L v) := by
          have : ¬ (cLo L v ≤ n ∧ n < cHi L v) := fun hh => hvj (hrv.2 hh)
          omega
        simp only [this]
    · simp only
      by_cases hvj : j = v
      · subst hvj
        split
        · rename_i e
          rw [List.getElem?_set_self (by omega), if_pos (by omega), ← e]
          push_cast
          rfl
        · rename_i e
          rw [hcv.2]
          have : (cHi L j ≤ n ∧ cLo L j < cHi L j) ↔ (cHi L j ≤ n + 1 ∧ cLo L j < cHi L j) := by omega
          simp only [this]
      · have hset : (if n + 1 = cHi L j then a.2.set j (n + 1) else a.2)[v]? = a.2[v]? := by
          split
          · exact List.getElem?_set_ne hvj
          · rfl
        rw [hset, hcv.2]
        have : (cHi L v ≤ n ∧ cLo L v < cHi L v) ↔ (cHi L v ≤ n + 1 ∧ cLo L v < cHi L v) := by
          have : ¬ (cLo L v ≤ n ∧ n < cHi L v) := fun hh => hvj (hrv.2 hh)
          omega
        simp only [this]

theorem circ_loop {L : List (ℕ × ℕ)} (h : VSorted L) {nV : ℕ} (hv : ∀ r ∈ L, r.1 < nV) :
    ∀ n ≤ L.length, ∃ a, (List.range n).foldlM (circStep L) (List.replicate nV (-1), List.replicate nV (-1)) = .ok a ∧
      CircInv L nV n a
  | 0, _ => by
    refine ⟨_, rfl, by simp, by simp, fun v hvV => ?_⟩
    have := cLo_le_cHi L v
    have h1 : ¬ (cLo L v < 0 ∧ cLo L v < cHi L v) := by omega
    have h2 : ¬ (cHi L v ≤ 0 ∧ cLo L v < cHi L v) := by omega
    rw [if_neg h1, if_neg h2]
    simp [List.getElem?_replicate, hvV]
  | n + 1, hn => by
    obtain ⟨a, ha, hinv⟩ := circ_loop h hv n (by omega)
    obtain ⟨a', ha', hinv'⟩ := circ_step h (by omega) hv hinv
    refine ⟨a', ?_, hinv'⟩
    rw [List.range_succ, List.foldlM_append, ha]
    simp only [bind, Except.bind, List.foldlM_cons, List.foldlM_nil, ha']
    rfl

theorem slice_eq {L : List (ℕ × ℕ)} (h : VSorted L) (v : ℕ) :
    slice L (if cLo L v < cHi L v then (cLo L v : ℤ) else -1) (if cLo L v < cHi L v then (cHi L v : ℤ) else -1) =
      L.filter (fun r => decide (r.1 = v)) := by
  have hle := cLo_le_cHi L v
  have hhi := cHi_le L v
  have hmain : (L.take (cHi L v)).drop (cLo L v) = L.filter (fun r => decide (r.1 = v)) := by
    unfold cHi
    rw [take_countP _ (vsorted_le h v)]
    have hlo : cLo L v = (L.filter fun r => decide (r.1 ≤ v)).countP fun r => decide (r.1 < v) := by
      unfold cLo
      rw [List.countP_filter]
      refine List.countP_congr fun x _ => ?_
      simp only [decide_eq_true_eq, Bool.and_eq_true]
      omega
    rw [hlo, drop_countP _ ((vsorted_lt h v).sublist List.filter_sublist), List.filter_filter]
    refine List.filter_congr fun x _ => ?_
    rw [Bool.eq_iff_iff]
    simp only [decide_eq_true_eq, Bool.and_eq_true, Bool.not_eq_true', decide_eq_false_iff_not]
    omega
  by_cases hlt : cLo L v < cHi L v
  · rw [if_pos hlt, if_pos hlt, ← hmain]
    unfold slice sliceBound
    rw [if_neg (by omega), if_neg (by omega)]
    simp only [Int.toNat_natCast]
    rw [Nat.min_eq_left hhi, Nat.min_eq_left (by omega)]
  · rw [if_neg hlt, if_neg hlt, ← hmain]
    have e : cLo L v = cHi L v := by omega
    rw [e]
    unfold slice
    rw [List.drop_take_self, List.drop_take_self]

/-! ### the specification -/

/-- How many corners of t are vertex v. -/
def cornersAt (t : Tet) (v : ℕ) : ℕ := [t.i, t.j, t.k, t.m].count v

theorem count_rows (T : List Tet) (v e : ℕ) : ∀ n, List.count (v, e) ((T.zipIdx n).flatMap vertexRows) =
    if n ≤ e then (match T[e - n]? with | some t => cornersAt t v | none => 0) else 0 := by
  induction T with
  | nil => intro n; simp
  | cons t T ih =>
    intro n
    rw [List.zipIdx_cons, List.flatMap_cons, List.count_append, ih (n + 1)]
    have hc : List.count (v, e) (vertexRows (t, n)) = if n = e then cornersAt t v else 0 := by
      unfold vertexRows cornersAt
      by_cases hne : n = e
      · subst hne
        simp [List.count_cons]
      · simp [List.count_cons, hne]
    rw [hc]
    by_cases h1 : n = e
    · subst h1
      simp
    · by_cases h2 : n ≤ e
      · have h3 : n + 1 ≤ e := by omega
        have h4 : e - n = (e - (n + 1)) + 1 := by omega
        rw [if_neg h1, if_pos h3, if_pos h2, h4, List.getElem?_cons_succ, zero_add]
      · have h3 : ¬ n + 1 ≤ e := by omega
        rw [if_neg h1, if_neg h3, if_neg h2]

theorem vertexLe_trans (a b c : ℕ × ℕ) : vertexLe a b = true → vertexLe b c = true → vertexLe a c = true := by
  simp only [vertexLe, Bool.or_eq_true, Bool.and_eq_true, decide_eq_true_eq]
  omega

theorem vertexLe_total (a b : ℕ × ℕ) : (vertexLe a b || vertexLe b a) = true := by
  simp only [vertexLe, Bool.or_eq_true, Bool.and_eq_true, decide_eq_true_eq]
  omega

/-- **C61.** For a mesh whose tetrahedra only use vertices below the number of vertices, the circulator
can be built; asked for a vertex it lists, in increasing order, each tetrahedron as often as the vertex is
one of its corners (so once for a proper tetrahedron that has it, and not at all for the others; an
isolated vertex gives the empty list); for an index beyond the vertices it raises IndexError. -/
theorem C61_circulator (nV : ℕ) (T : List Tet)
    (hT : ∀ t ∈ T, t.i < nV ∧ t.j < nV ∧ t.k < nV ∧ t.m < nV) :
    ∃ c, Circulator.init nV T = .ok c ∧
      (∀ v < nV, ∃ L, c.tetrahedra v = .ok L ∧ L.Pairwise (· ≤ ·) ∧
        (∀ (e : ℕ) t, T[e]? = some t → L.count e = [t.i, t.j, t.k, t.m].count v) ∧
        ∀ e ∈ L, e < T.length) ∧
      ∀ v, nV ≤ v → c.tetrahedra v = .error .indexError := by
  have hperm := List.mergeSort_perm (T.zipIdx.flatMap vertexRows) vertexLe
  have hsorted := List.pairwise_mergeSort vertexLe_trans vertexLe_total (T.zipIdx.flatMap vertexRows)
  generalize hL : (T.zipIdx.flatMap vertexRows).mergeSort vertexLe = L at hperm hsorted
  have hvs : VSorted L := hsorted.imp (fun h => by
    simp only [vertexLe, Bool.or_eq_true, Bool.and_eq_true, decide_eq_true_eq] at h
    omega)
  have hmem : ∀ r ∈ L, ∃ t ∈ T, r.1 = t.i ∨ r.1 = t.j ∨ r.1 = t.k ∨ r.1 = t.m := by
    intro r hr
    obtain ⟨⟨t, e⟩, hte, hr⟩ := List.mem_flatMap.1 (hperm.mem_iff.1 hr)
    refine ⟨t, List.fst_mem_of_mem_zipIdx hte, ?_⟩
    simp only [vertexRows, List.mem_cons, List.not_mem_nil, or_false] at hr
    rcases hr with rfl | rfl | rfl | rfl <;> simp
  have hv : ∀ r ∈ L, r.1 < nV := by
    intro r hr
    obtain ⟨t, ht, h⟩ := hmem r hr
    have := hT t ht
    omega
  obtain ⟨a, ha, l1, l2, hinv⟩ := circ_loop hvs hv L.length le_rfl
  refine ⟨⟨L, a.1, a.2⟩, ?_, ?_, ?_⟩
  · unfold Circulator.init
    rw [hL]
    simp only [bind, Except.bind, ha]
  · intro v hvV
    obtain ⟨h1, h2⟩ := hinv v hvV
    have hhi := cHi_le L v
    have hlo := cLo_le_cHi L v
    have e1 : (cLo L v < L.length ∧ cLo L v < cHi L v) ↔ cLo L v < cHi L v := by omega
    have e2 : (cHi L v ≤ L.length ∧ cLo L v < cHi L v) ↔ cLo L v < cHi L v := by omega
    simp only [e1] at h1
    simp only [e2] at h2
    refine ⟨(L.filter fun r => decide (r.1 = v)).map Prod.snd, ?_, ?_, ?_, ?_⟩
    · unfold Circulator.tetrahedra
      simp only [h1, h2]
      rw [slice_eq hvs v]
    · rw [List.pairwise_map]
      refine List.Pairwise.imp_of_mem ?_ (hsorted.sublist List.filter_sublist)
      intro x y hx hy h
      have hx' := List.of_mem_filter hx
      have hy' := List.of_mem_filter hy
      simp only [decide_eq_true_eq] at hx' hy'
      simp only [vertexLe, Bool.or_eq_true, Bool.and_eq_true, decide_eq_true_eq] at h
      omega
    · intro e t ht
      have hcount := count_rows T v e 0
      rw [if_pos (Nat.zero_le _), Nat.sub_zero, ht] at hcount
      simp only at hcount
      rw [← hperm.count_eq] at hcount
      rw [show [t.i, t.j, t.k, t.m].count v = cornersAt t v from rfl, ← hcount, List.count_eq_countP,
        List.count_eq_countP, List.countP_map, List.countP_filter]
      refine List.countP_congr fun x _ => ?_
      obtain ⟨x1, x2⟩ := x
      simp [and_comm]
    · intro e he
      obtain ⟨r, hr, rfl⟩ := List.mem_map.1 he
      have hr' := hperm.mem_iff.1 (List.mem_of_mem_filter hr)
      obtain ⟨⟨t, e⟩, hte, hr''⟩ := List.mem_flatMap.1 hr'
      rw [List.mk_mem_zipIdx_iff_getElem?] at hte
      obtain ⟨hl, _⟩ := List.getElem?_eq_some_iff.1 hte
      simp only [vertexRows, List.mem_cons, List.not_mem_nil, or_false] at hr''
      rcases hr'' with rfl | rfl | rfl | rfl <;> exact hl
  · intro v hvV
    unfold Circulator.tetrahedra
    have : a.1[v]? = none := List.getElem?_eq_none (by omega)
    simp only [this]

/-- The hypothesis is met by two tetrahedra sharing a face among six vertices (one isolated). -/
example : ∀ t ∈ [(⟨0, 1, 2, 3⟩ : Tet), ⟨1, 2, 3, 4⟩], t.i < 6 ∧ t.j < 6 ∧ t.k < 6 ∧ t.m < 6 := by
  decide

end Verif
