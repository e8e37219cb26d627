import Verif.Model.SpatialHash
import Verif.Props.AABB
import Mathlib.Data.List.Pairwise
import Mathlib.Tactic.NormNum

/-! C21: the hash grid. -/

namespace Verif
open SpatialHash

/-- One `insert` call. -/
structure Ins (α : Type*) where
  i : ℤ
  j : ℤ
  k : ℤ
  obj : α
  stamp : ℤ

/-- Perform a list of insert calls. -/
def runInserts {α : Type*} (g : HashGrid α) (h : List (Ins α)) : HashGrid α :=
  h.foldl (fun g e => (g.insert e.i e.j e.k e.obj e.stamp).1) g

/-- The calls of h whose cell falls into bucket hv. -/
def hits {α : Type*} (g : HashGrid α) (h : List (Ins α)) (hv : ℤ) : List (Ins α) :=
  h.filter fun e => g.get_hash_value e.i e.j e.k = hv

section
variable {α : Type*}

theorem insert_hash (g : HashGrid α) (i j k : ℤ) (o : α) (t : ℤ) (a b c : ℤ) :
    (g.insert i j k o t).1.get_hash_value a b c = g.get_hash_value a b c := by
  unfold HashGrid.insert
  simp only
  split <;> rfl

theorem insert_table (g : HashGrid α) (i j k : ℤ) (o : α) (t : ℤ) (hv : ℤ) :
    (g.insert i j k o t).1.hash_table.get? hv =
      if g.get_hash_value i j k = hv then
        some (((g.hash_table.get? hv).getD HashCell.init).add o t)
      else g.hash_table.get? hv := by
  unfold HashGrid.insert
  simp only
  cases hg : g.hash_table.get? (g.get_hash_value i j k) with
  | none =>
    simp only [Dict.get?_setItem]
    by_cases h : g.get_hash_value i j k = hv
    · subst h; simp [hg]
    · rw [if_neg h, if_neg (Ne.symm h)]
  | some c =>
    simp only [Dict.get?_setItem]
    by_cases h : g.get_hash_value i j k = hv
    · subst h; simp [hg]
    · rw [if_neg h, if_neg (Ne.symm h)]

theorem runInserts_hash (g : HashGrid α) (h : List (Ins α)) (a b c : ℤ) :
    (runInserts g h).get_hash_value a b c = g.get_hash_value a b c := by
  induction h using List.reverseRecOn with
  | nil => rfl
  | append_singleton h e ih =>
    unfold runInserts at *
    rw [List.foldl_append]
    simp only [List.foldl_cons, List.foldl_nil]
    rw [insert_hash, ih]

/-- What the table holds after a history with non-decreasing, non-negative time stamps. -/
theorem table_spec (g : HashGrid α) (h0 : ∀ v, g.hash_table.get? v = none) (h : List (Ins α))
    (hm : h.Pairwise (fun a b => a.stamp ≤ b.stamp)) (hp : ∀ e ∈ h, 0 ≤ e.stamp) (hv : ℤ) :
    (runInserts g h).hash_table.get? hv = match (hits g h hv).getLast? with
      | none => none
      | some l => some ⟨l.stamp, ((hits g h hv).filter fun e => e.stamp = l.stamp).length,
          ((hits g h hv).filter fun e => e.stamp = l.stamp).map Ins.obj⟩ := by
  induction h using List.reverseRecOn with
  | nil => simp [runInserts, hits, h0]
  | append_singleton h e ih =>
    have hm' := (List.pairwise_append.mp hm)
    specialize ih hm'.1 (fun x hx => hp x (by simp [hx]))
    have hrun : runInserts g (h ++ [e]) = ((runInserts g h).insert e.i e.j e.k e.obj e.stamp).1 := by
      simp [runInserts]
    rw [hrun, insert_table, runInserts_hash]
    unfold hits at *
    rw [List.filter_append]
    by_cases hh : g.get_hash_value e.i e.j e.k = hv
    · rw [if_pos hh, ih]
      simp only [List.filter_cons, List.filter_nil, hh, decide_true, if_true, List.getLast?_append,
        List.getLast?_singleton, Option.some_or]
      generalize hL : h.filter (fun e => decide (g.get_hash_value e.i e.j e.k = hv)) = L
      have hLs : ∀ x ∈ L, x.stamp ≤ e.stamp := by
        intro x hx
        rw [← hL] at hx
        exact hm'.2.2 x (List.mem_filter.mp hx).1 e (by simp)
      have hLm : L.Pairwise (fun a b => a.stamp ≤ b.stamp) := by
        rw [← hL]; exact hm'.1.filter _
      have he := hp e (by simp)
      cases hl : L.getLast? with
      | none =>
        rw [List.getLast?_eq_none_iff] at hl
        subst hl
        simp only [Option.getD_none, HashCell.add, HashCell.init, List.filter_nil, List.nil_append,
          List.filter_cons, decide_true, if_true, List.length_singleton, List.map_cons, List.map_nil]
        rcases he.lt_or_eq with h1 | h1
        · simp [h1]
        · simp [← h1]
      | some l =>
        have hlm : l ∈ L := List.mem_of_getLast? hl
        have hall : ∀ x ∈ L, x.stamp ≤ l.stamp := by
          obtain ⟨L', rfl⟩ := List.getLast?_eq_some_iff.mp hl
          intro x hx
          rcases List.mem_append.mp hx with h1 | h1
          · exact (List.pairwise_append.mp hLm).2.2 x h1 l (by simp)
          · simp at h1; rw [h1]
        have hle := hLs l hlm
        simp only [Option.getD_some, HashCell.add]
        rcases hle.lt_or_eq with h1 | h1
        · rw [if_pos h1]
          have : L.filter (fun x => decide (x.stamp = e.stamp)) = [] := by
            rw [List.filter_eq_nil_iff]
            intro x hx
            have := hall x hx
            simp; omega
          simp [List.filter_append, this]
        · rw [if_neg (by omega), h1]
          simp [List.filter_append]
    · rw [if_neg hh, ih]
      simp [hh]

/-- C21: what `insert` returns, for every history of inserts into an empty grid with non-decreasing
time stamps. Nothing when the bucket was never used; when the bucket was last used at the current
time stamp, all objects inserted into it at this time stamp, in order, and finally the new object
itself; when it was last used at an older time stamp, the objects of that older time stamp. -/
theorem C21_insert_returns (g : HashGrid α) (h0 : ∀ v, g.hash_table.get? v = none)
    (h : List (Ins α)) (e : Ins α)
    (hm : (h ++ [e]).Pairwise (fun a b => a.stamp ≤ b.stamp)) (hp : ∀ x ∈ h, 0 ≤ x.stamp) :
    ((runInserts g h).insert e.i e.j e.k e.obj e.stamp).2 =
      match (hits g h (g.get_hash_value e.i e.j e.k)).getLast? with
      | none => []
      | some l =>
        let old := ((hits g h (g.get_hash_value e.i e.j e.k)).filter
          fun x => x.stamp = l.stamp).map Ins.obj
        if l.stamp = e.stamp then old ++ [e.obj] else old := by
  have hm' := (List.pairwise_append.mp hm)
  have ht := table_spec g h0 h hm'.1 hp (g.get_hash_value e.i e.j e.k)
  unfold HashGrid.insert
  simp only [runInserts_hash, ht]
  cases hl : (hits g h (g.get_hash_value e.i e.j e.k)).getLast? with
  | none => rfl
  | some l =>
    have hle : l.stamp ≤ e.stamp := by
      have := List.mem_of_getLast? hl
      exact hm'.2.2 l (List.mem_filter.mp this).1 e (by simp)
    simp only [HashCell.add]
    rcases hle.lt_or_eq with h1 | h1
    · rw [if_pos h1, if_neg (by omega)]
    · rw [if_neg (by omega), if_neg (by omega), if_pos h1]

/-- C21, first half: every object inserted earlier into the same cell at the same time stamp is
returned. -/
theorem C21_reports_same_stamp (g : HashGrid α) (h0 : ∀ v, g.hash_table.get? v = none)
    (h : List (Ins α)) (e : Ins α)
    (hm : (h ++ [e]).Pairwise (fun a b => a.stamp ≤ b.stamp)) (hp : ∀ x ∈ h, 0 ≤ x.stamp) :
    ∀ x ∈ h, x.i = e.i → x.j = e.j → x.k = e.k → x.stamp = e.stamp →
      x.obj ∈ ((runInserts g h).insert e.i e.j e.k e.obj e.stamp).2 := by
  intro x hx hi hj hk hs
  rw [C21_insert_returns g h0 h e hm hp]
  have hm' := (List.pairwise_append.mp hm)
  have hxh : x ∈ hits g h (g.get_hash_value e.i e.j e.k) := by
    simp [hits, hx, hi, hj, hk]
  have hpw : (hits g h (g.get_hash_value e.i e.j e.k)).Pairwise (fun a b => a.stamp ≤ b.stamp) :=
    hm'.1.filter _
  have hub : ∀ y ∈ hits g h (g.get_hash_value e.i e.j e.k), y.stamp ≤ e.stamp :=
    fun y hy => hm'.2.2 y (List.mem_filter.mp hy).1 e (by simp)
  generalize hits g h (g.get_hash_value e.i e.j e.k) = L at *
  cases hl : L.getLast? with
  | none => rw [List.getLast?_eq_none_iff] at hl; subst hl; simp at hxh
  | some l =>
    have h1 := hub l (List.mem_of_getLast? hl)
    have h2 : x.stamp ≤ l.stamp := by
      obtain ⟨L', rfl⟩ := List.getLast?_eq_some_iff.mp hl
      rcases List.mem_append.mp hxh with h1 | h1
      · exact (List.pairwise_append.mp hpw).2.2 x h1 l (by simp)
      · simp at h1; rw [h1]
    have h3 : l.stamp = e.stamp := by omega
    simp only
    rw [if_pos h3]
    refine List.mem_append_left _ (List.mem_map.mpr ⟨x, ?_, rfl⟩)
    simp [hxh, hs, h3]

/-- C21, second half, as far as it holds: once a bucket has been used at the current time stamp,
insertions return objects of the current time stamp only. Missing: the first insertion into a bucket
after the time stamp moved on, see `C21_first_insert_reports_stale`. -/
theorem C21_no_stale_partial (g : HashGrid α) (h0 : ∀ v, g.hash_table.get? v = none)
    (h : List (Ins α)) (e : Ins α)
    (hm : (h ++ [e]).Pairwise (fun a b => a.stamp ≤ b.stamp)) (hp : ∀ x ∈ h, 0 ≤ x.stamp)
    (hused : ∃ x ∈ h, g.get_hash_value x.i x.j x.k = g.get_hash_value e.i e.j e.k ∧
      x.stamp = e.stamp) :
    ∀ o ∈ ((runInserts g h).insert e.i e.j e.k e.obj e.stamp).2,
      o = e.obj ∨ ∃ x ∈ h, x.obj = o ∧ x.stamp = e.stamp := by
  obtain ⟨x, hx, hhash, hs⟩ := hused
  have hm' := (List.pairwise_append.mp hm)
  rw [C21_insert_returns g h0 h e hm hp]
  have hxh : x ∈ hits g h (g.get_hash_value e.i e.j e.k) := by simp [hits, hx, hhash]
  have hpw : (hits g h (g.get_hash_value e.i e.j e.k)).Pairwise (fun a b => a.stamp ≤ b.stamp) :=
    hm'.1.filter _
  have hub : ∀ y ∈ hits g h (g.get_hash_value e.i e.j e.k), y ∈ h ∧ y.stamp ≤ e.stamp :=
    fun y hy => ⟨(List.mem_filter.mp hy).1, hm'.2.2 y (List.mem_filter.mp hy).1 e (by simp)⟩
  generalize hits g h (g.get_hash_value e.i e.j e.k) = L at *
  cases hl : L.getLast? with
  | none => simp
  | some l =>
    have h1 := hub l (List.mem_of_getLast? hl)
    have h2 : x.stamp ≤ l.stamp := by
      obtain ⟨L', rfl⟩ := List.getLast?_eq_some_iff.mp hl
      rcases List.mem_append.mp hxh with h1 | h1
      · exact (List.pairwise_append.mp hpw).2.2 x h1 l (by simp)
      · simp at h1; rw [h1]
    have h3 : l.stamp = e.stamp := by omega
    simp only
    rw [if_pos h3]
    intro o ho
    rcases List.mem_append.mp ho with h4 | h4
    · obtain ⟨y, hy, rfl⟩ := List.mem_map.mp h4
      obtain ⟨hy1, hy2⟩ := List.mem_filter.mp hy
      refine Or.inr ⟨y, (hub y hy1).1, rfl, ?_⟩
      simp at hy2; omega
    · simp at h4; exact Or.inl h4

/-- C21 fails for the first insertion into a bucket after the time stamp moved on: in *every* grid,
for every cell, objects and time stamps 0 ≤ s < t, inserting a at time s and then b at time t into the
same cell returns the old object a (and not b itself). -/
theorem C21_first_insert_reports_stale (g : HashGrid α) (h0 : ∀ v, g.hash_table.get? v = none)
    (i j k : ℤ) (a b : α) (s t : ℤ) (hs : 0 ≤ s) (hst : s < t) :
    ((g.insert i j k a s).1.insert i j k b t).2 = [a] := by
  have := C21_insert_returns g h0 [⟨i, j, k, a, s⟩] ⟨i, j, k, b, t⟩ (by simp; omega) (by simp [hs])
  simp [hits, runInserts] at this
  rw [if_neg (by omega)] at this
  exact this

/-- C21: `insert` never changes the buckets of other cells; the stored size is the list length. -/
theorem C21_insert_frame (g : HashGrid α) (h : List (Ins α))
    (e : Ins α) (hv : ℤ) (hne : g.get_hash_value e.i e.j e.k ≠ hv) :
    ((runInserts g h).insert e.i e.j e.k e.obj e.stamp).1.hash_table.get? hv =
      (runInserts g h).hash_table.get? hv := by
  rw [insert_table, runInserts_hash, if_neg hne]

/-- C21: the hash value looks at all three indices: two cells with the same offset that differ in one index (and not by a multiple of the table size) have
different hash values, as long as the table has at most a third of 1e9+7 entries. -/
theorem C21_hash_spreads (g : HashGrid α) (hs : 0 < g.hash_table_size) (hb : 3 * g.hash_table_size ≤ 1000000007) (i j k d : ℤ)
    (hd : ¬ g.hash_table_size ∣ d) :
    (g.Phi ((i + d) % g.offset_table_size) (j % g.offset_table_size) (k % g.offset_table_size) =
      g.Phi (i % g.offset_table_size) (j % g.offset_table_size) (k % g.offset_table_size) → g.get_hash_value (i + d) j k ≠ g.get_hash_value i j k) ∧
    (g.Phi (i % g.offset_table_size) ((j + d) % g.offset_table_size) (k % g.offset_table_size) =
      g.Phi (i % g.offset_table_size) (j % g.offset_table_size) (k % g.offset_table_size) → g.get_hash_value i (j + d) k ≠ g.get_hash_value i j k) ∧
    (g.Phi (i % g.offset_table_size) (j % g.offset_table_size) ((k + d) % g.offset_table_size) =
      g.Phi (i % g.offset_table_size) (j % g.offset_table_size) (k % g.offset_table_size) → g.get_hash_value i j (k + d) ≠ g.get_hash_value i j k) := by
  have h1 := fun p : ℤ => Int.emod_nonneg p hs.ne'
  have h2 := fun p : ℤ => Int.emod_lt_of_pos p hs
  have hne : ∀ p phi : ℤ, ((p + d) % g.hash_table_size + phi) % g.hash_table_size ≠ (p % g.hash_table_size + phi) % g.hash_table_size := by
    intro p phi h
    rw [Int.emod_add_emod, Int.emod_add_emod] at h
    apply hd
    have h3 := Int.emod_eq_emod_iff_emod_sub_eq_zero.1 h
    rw [show p + d + phi - (p + phi) = d by ring] at h3
    exact Int.dvd_of_emod_eq_zero h3
  have hmod : ∀ a b c : ℤ, (a % g.hash_table_size + b % g.hash_table_size + c % g.hash_table_size) % 1000000007 =
      a % g.hash_table_size + b % g.hash_table_size + c % g.hash_table_size := by
    intro a b c
    have := h1 a; have := h1 b; have := h1 c; have := h2 a; have := h2 b; have := h2 c
    exact Int.emod_eq_of_lt (by omega) (by omega)
  refine ⟨?_, ?_, ?_⟩ <;> intro hphi h <;> unfold HashGrid.get_hash_value at h <;> simp only [hphi, hmod] at h
  · have := hne i (g.Phi (i % g.offset_table_size) (j % g.offset_table_size) (k % g.offset_table_size))
    omega
  · have := hne j (g.Phi (i % g.offset_table_size) (j % g.offset_table_size) (k % g.offset_table_size))
    omega
  · have := hne k (g.Phi (i % g.offset_table_size) (j % g.offset_table_size) (k % g.offset_table_size))
    omega

/-- C21: in spite of its name the hash is not perfect: whatever the offset table, infinitely many cells share every hash value. -/
theorem C21_hash_not_perfect (g : HashGrid α) (i j k m : ℤ) :
    g.get_hash_value (i + m * (g.hash_table_size * g.offset_table_size)) j k = g.get_hash_value i j k := by
  unfold HashGrid.get_hash_value
  simp only
  rw [show (i + m * (g.hash_table_size * g.offset_table_size)) % g.offset_table_size = i % g.offset_table_size by
      rw [← mul_assoc]; exact Int.add_mul_emod_self_right _ _ _,
    show (i + m * (g.hash_table_size * g.offset_table_size)) % g.hash_table_size = i % g.hash_table_size by
      rw [mul_comm g.hash_table_size, ← mul_assoc]; exact Int.add_mul_emod_self_right _ _ _]

/-- C21: hash values of all cells (also with negative indices) are in a bounded range, for a positive
table size. -/
theorem C21_hash_range (g : HashGrid α) (hs : 0 < g.hash_table_size) (i j k : ℤ) :
    0 ≤ g.get_hash_value i j k ∧ g.get_hash_value i j k < 1000000007 ∧
      g.get_hash_value i j k ≤ 3 * (g.hash_table_size - 1) := by
  unfold HashGrid.get_hash_value
  simp only
  set phi := g.Phi _ _ _
  have h1 := fun p : ℤ => Int.emod_nonneg (p % g.hash_table_size + phi) hs.ne'
  have h2 := fun p : ℤ => Int.emod_lt_of_pos (p % g.hash_table_size + phi) hs
  have a1 := h1 i; have a2 := h1 j; have a3 := h1 k
  have b1 := h2 i; have b2 := h2 j; have b3 := h2 k
  set A := (i % g.hash_table_size + phi) % g.hash_table_size
  set B := (j % g.hash_table_size + phi) % g.hash_table_size
  set C := (k % g.hash_table_size + phi) % g.hash_table_size
  refine ⟨Int.emod_nonneg _ (by norm_num), Int.emod_lt_of_pos _ (by norm_num), ?_⟩
  omega

end

/-- The hypotheses of the theorems above are met by a fresh grid and a concrete history. -/
example : (∀ v, (⟨1000, Dict.empty, 1, 1000, fun _ _ _ => 7⟩ : HashGrid ℕ).hash_table.get? v = none) ∧
    ([⟨0, 0, 0, 1, 0⟩, ⟨1, -1, 0, 2, 0⟩, ⟨0, 0, 0, 3, 4⟩] ++ [⟨0, 0, 0, 5, 4⟩] : List (Ins ℕ)).Pairwise
      (fun a b => a.stamp ≤ b.stamp) := by
  constructor
  · intro v; rfl
  · simp

end Verif
