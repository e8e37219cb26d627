import Verif.Model.TestTools
import Mathlib.Tactic.Linarith
import Mathlib.Tactic.Positivity
import Mathlib.Tactic.Ring
import Mathlib.Tactic.FieldSimp

/-! C130: the helpers of the unit tests. -/

namespace Verif

open TestTools

/-- Every entry of `a` is as close to that of `b` as `dec` decimals ask for, relative to `b`. -/
def Close (dec : ℤ) (a b : Arr) : Prop := a.shape = b.shape ∧ ∀ i, IsIndex a.shape i → |a.get i - b.get i| ≤ (1 + |b.get i|) / (10 : ℝ) ^ dec

private theorem at_eq (a : Arr) {i : List ℕ} (h : IsIndex a.shape i) : a.at i = a.get i := by
  unfold Arr.at
  split_ifs with h0
  · unfold IsIndex at h
    rw [h0] at h
    cases h
    rfl
  · rfl

private theorem tol_eq (dec : ℤ) (x : ℝ) : (10 : ℝ) ^ (-dec) + (10 : ℝ) ^ (-dec) * x = (1 + x) / (10 : ℝ) ^ dec := by
  rw [zpow_neg]; field_simp

/-- **C130.** For arrays of one shape `is_array_equal` returns True exactly when all entries are close; otherwise it raises AssertionError.  It never returns False, which its
documentation promises, so "assertFalse" of it cannot pass. -/
theorem C130_equal_partial (a b : Arr) (dec : ℤ) (hs : a.shape = b.shape) :
    (is_array_equal a b dec = .ok true ↔ Close dec a b) ∧ (is_array_equal a b dec = .error .assertionError ↔ ¬ Close dec a b) := by
  have hc : (∀ i, IsIndex a.shape i → |a.at i - b.at i| ≤ (10 : ℝ) ^ (-dec) + (10 : ℝ) ^ (-dec) * |b.at i|) ↔ Close dec a b := by
    unfold Close
    refine ⟨fun h => ⟨hs, fun i hi => ?_⟩, fun h i hi => ?_⟩
    · have := h i hi
      rwa [at_eq a hi, at_eq b (hs ▸ hi), tol_eq] at this
    · rw [at_eq a hi, at_eq b (hs ▸ hi), tol_eq]
      exact h.2 i hi
  have hsh : (if a.shape = [] then b.shape else a.shape) = a.shape := by
    split_ifs with h
    · exact hs.symm
    · rfl
  unfold is_array_equal
  rw [if_pos (Or.inl hs)]
  dsimp only
  rw [hsh]
  by_cases h : Close dec a b
  · rw [if_pos (hc.2 h)]
    simp [h]
  · rw [if_neg (fun h' => h (hc.1 h'))]
    simp [h]

/-- **C130** fails: False is never returned, whatever the arrays. -/
theorem C130_never_false (a b : Arr) (dec : ℤ) : is_array_equal a b dec ≠ .ok false := by
  unfold is_array_equal
  dsimp only
  generalize (if a.shape = [] then b.shape else a.shape) = shape
  split_ifs <;> simp

/-- **C130.** The comparison depends on the order of its arguments: for a positive number of decimals there are arrays that are equal one way and not the other. -/
theorem C130_not_symmetric (dec : ℤ) (hd : 1 ≤ dec) :
    ∃ a b : Arr, a.shape = b.shape ∧ is_array_equal a b dec = .ok true ∧ is_array_equal b a dec = .error .assertionError := by
  have hT : (10 : ℝ) ≤ (10 : ℝ) ^ dec := by
    calc (10 : ℝ) = (10 : ℝ) ^ (1 : ℤ) := by norm_num
      _ ≤ _ := zpow_le_zpow_right₀ (by norm_num) hd
  set T := (10 : ℝ) ^ dec with hTdef
  have hT0 : 0 < T := by linarith
  -- entries 0 and x with x = (1 + x) / T
  have hT1 : 0 < T - 1 := by linarith
  refine ⟨⟨[], fun _ => 0⟩, ⟨[], fun _ => 1 / (T - 1)⟩, rfl, ?_, ?_⟩
  · refine (C130_equal_partial ⟨[], fun _ => 0⟩ ⟨[], fun _ => 1 / (T - 1)⟩ dec rfl).1.2 ⟨rfl, fun i _ => ?_⟩
    have h0 : (0 : ℝ) < 1 / (T - 1) := by positivity
    dsimp only
    rw [zero_sub, abs_neg, abs_of_pos h0, ← hTdef]
    apply le_of_eq
    field_simp
    ring
  · refine (C130_equal_partial ⟨[], fun _ => 1 / (T - 1)⟩ ⟨[], fun _ => 0⟩ dec rfl).2.2 ?_
    rintro ⟨-, h⟩
    have h1 := h [] List.Forall₂.nil
    have h0 : (0 : ℝ) < 1 / (T - 1) := by positivity
    dsimp only at h1
    rw [sub_zero, abs_of_pos h0, abs_zero, add_zero, ← hTdef, div_le_div_iff₀ hT1 hT0] at h1
    linarith

/-- **C130.** `is_array_not_equal` of arrays of one shape says whether some entry differs, exactly. -/
theorem C130_not_equal (a b : Arr) (hs : a.shape = b.shape) :
    (is_array_not_equal a b = .ok true ↔ ∃ i, IsIndex a.shape i ∧ a.get i ≠ b.get i) ∧
    (is_array_not_equal a b = .ok false ↔ ∀ i, IsIndex a.shape i → a.get i = b.get i) := by
  have hsh : (if a.shape = [] then b.shape else a.shape) = a.shape := by
    split_ifs with h
    · exact hs.symm
    · rfl
  have he : (∃ i, IsIndex a.shape i ∧ a.at i ≠ b.at i) ↔ ∃ i, IsIndex a.shape i ∧ a.get i ≠ b.get i := by
    refine exists_congr fun i => and_congr_right fun hi => ?_
    rw [at_eq a hi, at_eq b (hs ▸ hi)]
  unfold is_array_not_equal
  rw [if_pos (Or.inl hs)]
  dsimp only
  rw [hsh]
  constructor
  · simp only [Except.ok.injEq, decide_eq_true_eq]
    exact he
  · simp only [Except.ok.injEq, decide_eq_false_iff_not]
    rw [he]
    push Not
    rfl

/-- **C130.** The random array has rows times columns entries, none of them negative. -/
theorem C130_random_size {r1 r2 : ℝ} (h1 : 0 ≤ r1 ∧ r1 < 1) (h2 : 0 ≤ r2 ∧ r2 < 1) {shuffle : List ℝ → List ℝ} (hp : ∀ L, (shuffle L).Perm L)
    (size : ℕ × ℕ) (lo hi : ℝ) :
    (psu_rand_array_gen r1 r2 shuffle size lo hi).length = size.1 * size.2 ∧ ∀ x ∈ psu_rand_array_gen r1 r2 shuffle size lo hi, 0 ≤ x ∧ x < 10 := by
  unfold psu_rand_array_gen
  dsimp only
  constructor
  · rw [(hp _).length_eq]; simp [linspace]
  · intro x hx
    rw [(hp _).mem_iff] at hx
    unfold linspace at hx
    rw [List.mem_map] at hx
    obtain ⟨i, hi, rfl⟩ := hx
    rw [List.mem_range] at hi
    have ha : 0 ≤ 10 * r1 := by linarith [h1.1]
    split_ifs with hn
    · exact ⟨ha, by linarith [h1.2]⟩
    · have hN : (0 : ℝ) < ((size.1 * size.2 : ℕ) : ℝ) - 1 := by
        have : (2 : ℝ) ≤ ((size.1 * size.2 : ℕ) : ℝ) := by exact_mod_cast (show 2 ≤ size.1 * size.2 by omega)
        linarith
      set n := ((size.1 * size.2 : ℕ) : ℝ) - 1
      have hi' : (i : ℝ) ≤ n := by
        have : ((i + 1 : ℕ) : ℝ) ≤ ((size.1 * size.2 : ℕ) : ℝ) := by exact_mod_cast hi
        push_cast at this
        have hnd : n = ((size.1 * size.2 : ℕ) : ℝ) - 1 := rfl
        push_cast at hnd
        linarith
      have ht0 : 0 ≤ (i : ℝ) / n := by positivity
      have ht1 : (i : ℝ) / n ≤ 1 := (div_le_one hN).2 hi'
      have e : 10 * r1 + (i : ℝ) * ((10 * r1 * r2 - 10 * r1) / n) = 10 * r1 * (1 - (i : ℝ) / n * (1 - r2)) := by
        field_simp; ring
      rw [e]
      have hq0 : 0 ≤ (i : ℝ) / n * (1 - r2) := mul_nonneg ht0 (by linarith [h2.2])
      have hq1 : (i : ℝ) / n * (1 - r2) ≤ 1 := by
        calc (i : ℝ) / n * (1 - r2) ≤ 1 * 1 := mul_le_mul ht1 (by linarith [h2.1]) (by linarith [h2.2]) (by norm_num)
          _ = 1 := by norm_num
      refine ⟨mul_nonneg ha (by linarith), ?_⟩
      calc 10 * r1 * (1 - (i : ℝ) / n * (1 - r2)) ≤ 10 * r1 * 1 := mul_le_mul_of_nonneg_left (by linarith) ha
        _ < 10 := by linarith [h1.2]

/-- **C130** fails: not one entry of a random array is ever between the default limits 10 and 100. -/
theorem C130_limits_ignored {r1 r2 : ℝ} (h1 : 0 ≤ r1 ∧ r1 < 1) (h2 : 0 ≤ r2 ∧ r2 < 1) {shuffle : List ℝ → List ℝ} (hp : ∀ L, (shuffle L).Perm L)
    (size : ℕ × ℕ) : ∀ x ∈ psu_rand_array_gen r1 r2 shuffle size 10 100, ¬ (10 ≤ x ∧ x ≤ 100) :=
  fun x hx h => absurd ((C130_random_size h1 h2 hp size 10 100).2 x hx).2 (not_lt.2 h.1)

/-- a 2 by 3 array of such numbers -/
example : (psu_rand_array_gen (1 / 2) (1 / 4) List.reverse (2, 3) 10 100).length = 6 :=
  (C130_random_size (by norm_num) (by norm_num) (fun L => L.reverse_perm) (2, 3) 10 100).1

end Verif
