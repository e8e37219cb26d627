import Verif.Props.SoftElastic
import Verif.Lemmas.Dict
import Mathlib.Tactic.IntervalCases

/-! C55: element arrays, their matrix-free product and their assembly. -/

namespace Verif

open Soft M3

variable {n K : ℕ}

/-! ### Specification -/

/-- Entry (i, j) of the block (a, b) of the global matrix: the sum over all tetrahedra that have a and b among their nodes. -/
noncomputable def blockEntry (T : Fin K → Fin 4 → Fin n) (A : Fin K → Fin 4 → Fin 4 → M3) (a b : Fin n) (i j : Fin 3) : ℝ :=
  ∑ e, ∑ p, ∑ q, if T e p = a ∧ T e q = b then entry (A e p q) i j else 0

/-! ### Proofs -/

theorem foldl_obs {ι J S A : Type*} [AddCommGroup A] (obs : S → J → A) (step : S → ι → S) (c : ι → J → A)
    (h : ∀ s e v, obs (step s e) v = obs s v + c e v) (L : List ι) (s : S) (v : J) :
    obs (L.foldl step s) v = obs s v + (L.map fun e => c e v).sum := by
  induction L generalizing s with
  | nil => simp
  | cons e L ih => rw [List.foldl_cons, ih, h, List.map_cons, List.sum_cons, add_assoc]

theorem foldl_obs_fin {m : ℕ} {J S A : Type*} [AddCommGroup A] (obs : S → J → A) (step : S → Fin m → S) (c : Fin m → J → A)
    (h : ∀ s e v, obs (step s e) v = obs s v + c e v) (s : S) (v : J) :
    obs ((List.finRange m).foldl step s) v = obs s v + ∑ e, c e v := by
  rw [foldl_obs obs step c h, Fin.sum_univ_def]

/-- The value stored under a key, zero when there is none. -/
def dictVal {κ : Type*} [DecidableEq κ] (d : Dict κ M3) (k : κ) : M3 := (d.get? k).getD 0

theorem coo_step (d : Dict (Fin n × Fin n) M3) (k k' : Fin n × Fin n) (A : M3) :
    dictVal (match d.get? k with | some v => d.setItem k (v + A) | none => d.setItem k A) k' = dictVal d k' + if k = k' then A else 0 := by
  unfold dictVal
  cases h : d.get? k with
  | some v =>
    simp only [Dict.get?_setItem]
    by_cases hk : k = k'
    · subst hk; simp [h]
    · simp [hk, Ne.symm hk]
  | none =>
    simp only [Dict.get?_setItem]
    by_cases hk : k = k'
    · subst hk; rw [h]; simp
    · simp [hk, Ne.symm hk]

theorem cooTable_val (T : Fin K → Fin 4 → Fin n) (A : Fin K → Fin 4 → Fin 4 → M3) (k : Fin n × Fin n) :
    dictVal (cooTable T A) k = ∑ e, ∑ p, ∑ q, if (T e p, T e q) = k then A e p q else 0 := by
  unfold cooTable
  rw [foldl_obs_fin dictVal _ (fun e k => ∑ p, ∑ q, if (T e p, T e q) = k then A e p q else 0)]
  · simp [dictVal]
  · intro s e v
    rw [foldl_obs_fin dictVal _ (fun p k => ∑ q, if (T e p, T e q) = k then A e p q else 0)]
    intro s p v
    rw [foldl_obs_fin dictVal _ (fun q k => if (T e p, T e q) = k then A e p q else 0)]
    intro s q v
    exact coo_step s _ _ _

theorem cooTable_nodup (T : Fin K → Fin 4 → Fin n) (A : Fin K → Fin 4 → Fin 4 → M3) : (cooTable T A).keys.Nodup := by
  have hstep : ∀ (d : Dict (Fin n × Fin n) M3) (k : Fin n × Fin n) (B : M3), d.keys.Nodup →
      (match d.get? k with | some v => d.setItem k (v + B) | none => d.setItem k B).keys.Nodup := by
    intro d k B h
    cases d.get? k with
    | some v => exact Dict.nodup_setItem _ _ _ h
    | none => exact Dict.nodup_setItem _ _ _ h
  have hf : ∀ {ι : Type} (L : List ι) (step : Dict (Fin n × Fin n) M3 → ι → Dict (Fin n × Fin n) M3),
      (∀ d e, d.keys.Nodup → (step d e).keys.Nodup) → ∀ d, d.keys.Nodup → (L.foldl step d).keys.Nodup := by
    intro ι L step hs
    induction L with
    | nil => intro d h; exact h
    | cons a L ih => intro d h; exact ih _ (hs _ _ h)
  unfold cooTable
  refine hf _ _ (fun d e h => hf _ _ (fun d p h => hf _ _ (fun d q h => hstep _ _ _ h) _ h) _ h) _ ?_
  simp [Dict.keys, Dict.empty]

theorem entries_sum {κ : Type*} [Fintype κ] [DecidableEq κ] (L : List (κ × M3)) (hn : (L.map Prod.fst).Nodup) (g : κ → M3 → ℝ)
    (hg : ∀ k, g k 0 = 0) : (L.map fun kv => g kv.1 kv.2).sum = ∑ k, g k (dictVal ⟨L⟩ k) := by
  induction L with
  | nil => simp [-M3.zero_def, dictVal, Dict.get?, hg]
  | cons a L ih =>
    rw [List.map_cons, List.nodup_cons] at hn
    rw [List.map_cons, List.sum_cons, ih hn.2]
    have h1 : ∀ k, g k (dictVal ⟨a :: L⟩ k) = g k (dictVal ⟨L⟩ k) + if a.1 = k then g a.1 a.2 else 0 := by
      intro k
      by_cases hk : a.1 = k
      · subst hk
        have h2 : dictVal ⟨L⟩ a.1 = 0 := by
          unfold dictVal
          have : (Dict.mk L).get? a.1 = none := by
            rw [Dict.get?_eq_none, ← Bool.not_eq_true, Dict.mem_iff_keys]; exact hn.1
          rw [this]; rfl
        rw [h2, hg, if_pos rfl, zero_add]
        simp [dictVal, Dict.get?]
      · rw [if_neg hk, add_zero]
        simp [dictVal, Dict.get?, hk]
    simp only [h1, Finset.sum_add_distrib, Finset.sum_ite_eq, Finset.mem_univ, if_true]
    ring

theorem csr_eq (L : List (ℕ × ℕ × ℝ)) (r c : ℕ) : csr L r c = (L.map fun t => if t.1 = r ∧ t.2.1 = c then t.2.2 else 0).sum := by
  unfold csr
  induction L with
  | nil => rfl
  | cons a L ih =>
    rw [List.filter_cons, List.map_cons, List.sum_cons, ← ih]
    by_cases h : a.1 = r ∧ a.2.1 = c
    · rw [if_pos (by simpa using h), if_pos h, List.map_cons, List.sum_cons]
    · rw [if_neg (by simpa using h), if_neg h, zero_add]

theorem sum_flatMap {α β : Type*} (L : List α) (f : α → List β) (g : β → ℝ) :
    ((L.flatMap f).map g).sum = (L.map fun a => ((f a).map g).sum).sum := by
  induction L with
  | nil => rfl
  | cons a L ih => simp [ih]

theorem csr_append (L M : List (ℕ × ℕ × ℝ)) (r c : ℕ) : csr (L ++ M) r c = csr L r c + csr M r c := by
  simp [csr_eq]

theorem entry_zero (i j : Fin 3) : entry 0 i j = 0 := by fin_cases i <;> fin_cases j <;> rfl
theorem entry_add (A B : M3) (i j : Fin 3) : entry (A + B) i j = entry A i j + entry B i j := by
  fin_cases i <;> fin_cases j <;> rfl

theorem entry_sum {ι : Type*} (s : Finset ι) (f : ι → M3) (i j : Fin 3) : entry (∑ a ∈ s, f a) i j = ∑ a ∈ s, entry (f a) i j :=
  map_sum (⟨⟨fun A => entry A i j, entry_zero i j⟩, fun A B => entry_add A B i j⟩ : M3 →+ ℝ) f s

theorem csr_table (T : Fin K → Fin 4 → Fin n) (A : Fin K → Fin 4 → Fin 4 → M3) (r c : ℕ) :
    assembly_csr T A r c = ∑ k : Fin n × Fin n, ∑ i : Fin 3, ∑ j : Fin 3,
      if (k.1 : ℕ) * 3 + i = r ∧ (k.2 : ℕ) * 3 + j = c then entry (dictVal (cooTable T A) k) i j else 0 := by
  unfold assembly_csr assembly_coo
  rw [csr_eq, sum_flatMap]
  have h1 : ∀ kv : (Fin n × Fin n) × M3, (((List.finRange 3).flatMap fun (i : Fin 3) => (List.finRange 3).map fun (j : Fin 3) =>
      ((kv.1.1 : ℕ) * 3 + (i : ℕ), (kv.1.2 : ℕ) * 3 + (j : ℕ), entry kv.2 i j)).map
        fun t => if t.1 = r ∧ t.2.1 = c then t.2.2 else 0).sum =
      ∑ i : Fin 3, ∑ j : Fin 3, if (kv.1.1 : ℕ) * 3 + i = r ∧ (kv.1.2 : ℕ) * 3 + j = c then entry kv.2 i j else 0 := by
    intro kv
    rw [sum_flatMap, Fin.sum_univ_def]
    simp only [Fin.sum_univ_def, List.map_map]
    rfl
  simp only [h1]
  exact entries_sum (cooTable T A).entries (cooTable_nodup T A) (fun k M => ∑ i : Fin 3, ∑ j : Fin 3,
    if (k.1 : ℕ) * 3 + i = r ∧ (k.2 : ℕ) * 3 + j = c then entry M i j else 0) (fun k => by simp [-M3.zero_def, entry_zero])

theorem index_eq {a b : ℕ} {i j : Fin 3} : a * 3 + (i : ℕ) = b * 3 + j ↔ a = b ∧ i = j := by
  have := i.2; have := j.2
  rw [Fin.ext_iff]; omega

theorem assembly_entry (T : Fin K → Fin 4 → Fin n) (A : Fin K → Fin 4 → Fin 4 → M3) (a b : Fin n) (i j : Fin 3) :
    assembly_csr T A ((a : ℕ) * 3 + i) ((b : ℕ) * 3 + j) = blockEntry T A a b i j := by
  rw [csr_table, Finset.sum_eq_single (a, b), Finset.sum_eq_single i, Finset.sum_eq_single j, if_pos ⟨rfl, rfl⟩, cooTable_val]
  · simp only [entry_sum, blockEntry]
    refine Finset.sum_congr rfl fun e _ => Finset.sum_congr rfl fun p _ => Finset.sum_congr rfl fun q _ => ?_
    simp only [Prod.mk.injEq]
    split_ifs <;> simp [-M3.zero_def, entry_zero]
  · intro j' _ hj
    rw [if_neg fun h => hj (index_eq.1 h.2).2]
  · simp
  · intro i' _ hi
    exact Finset.sum_eq_zero fun j' _ => if_neg fun h => hi (index_eq.1 h.1).2
  · simp
  · intro k _ hk
    refine Finset.sum_eq_zero fun i' _ => Finset.sum_eq_zero fun j' _ => if_neg fun h => hk ?_
    exact Prod.ext (Fin.ext (index_eq.1 h.1).1) (Fin.ext (index_eq.1 h.2).1)
  · simp

theorem assembly_outside (T : Fin K → Fin 4 → Fin n) (A : Fin K → Fin 4 → Fin 4 → M3) (r c : ℕ) (h : 3 * n ≤ r ∨ 3 * n ≤ c) :
    assembly_csr T A r c = 0 := by
  rw [csr_table]
  refine Finset.sum_eq_zero fun k _ => Finset.sum_eq_zero fun i _ => Finset.sum_eq_zero fun j _ => if_neg ?_
  have h1 := k.1.2; have h2 := k.2.2; have := i.2; have := j.2
  omega

/-- **C55** (assembly). The assembled matrix has, in row 3a+i and column 3b+j, the sum of the element contributions of the node pair
(a, b), each counted once, and nothing outside the first 3N rows and columns. -/
theorem C55_assembly (T : Fin K → Fin 4 → Fin n) (A_array : Fin K → Fin 4 → Fin 4 → M3) :
    (∀ (a b : Fin n) (i j : Fin 3), assembly_csr T A_array ((a : ℕ) * 3 + i) ((b : ℕ) * 3 + j) = blockEntry T A_array a b i j) ∧
    ∀ r c, 3 * n ≤ r ∨ 3 * n ≤ c → assembly_csr T A_array r c = 0 :=
  ⟨assembly_entry T A_array, assembly_outside T A_array⟩

/-- **C55** (COO). No position occurs twice among the triplets of `assembly_coo`, and each triplet carries the full entry of the matrix. -/
theorem C55_coo_unique (T : Fin K → Fin 4 → Fin n) (A_array : Fin K → Fin 4 → Fin 4 → M3) :
    ((assembly_coo T A_array).map fun t => (t.1, t.2.1)).Nodup ∧
    ∀ t ∈ assembly_coo T A_array, t.2.2 = assembly_csr T A_array t.1 t.2.1 := by
  have hnd : ((assembly_coo T A_array).map fun t => (t.1, t.2.1)).Nodup := by
    unfold assembly_coo
    rw [List.map_flatMap, List.nodup_flatMap]
    constructor
    · intro kv _
      rw [List.map_flatMap, List.nodup_flatMap]
      constructor
      · intro i _
        rw [List.map_map]
        refine (List.nodup_finRange 3).map fun j j' h => ?_
        simp only [Function.comp_apply, Prod.mk.injEq, true_and] at h
        exact Fin.ext (by omega)
      · refine (List.nodup_finRange 3).imp fun {i i'} h => ?_
        intro p hp hp'
        simp only [List.mem_map, Function.comp_apply, exists_exists_and_eq_and] at hp hp'
        obtain ⟨j, -, rfl⟩ := hp
        obtain ⟨j', -, h'⟩ := hp'
        simp only [Prod.mk.injEq] at h'
        exact h (Fin.ext (by omega))
    · have hk := cooTable_nodup T A_array
      unfold Dict.keys at hk
      rw [List.Nodup, List.pairwise_map] at hk
      refine hk.imp fun {k k'} h => ?_
      intro p hp hp'
      simp only [List.mem_map, List.mem_flatMap, Function.comp_apply] at hp hp'
      obtain ⟨t, ⟨i, -, j, -, rfl⟩, rfl⟩ := hp
      obtain ⟨t', ⟨i', -, j', -, rfl⟩, h'⟩ := hp'
      simp only [Prod.mk.injEq] at h'
      refine h (Prod.ext (Fin.ext ?_) (Fin.ext ?_))
      · have := i.2; have := i'.2; omega
      · have := j.2; have := j'.2; omega
  refine ⟨hnd, fun t ht => ?_⟩
  unfold assembly_csr csr
  have hf : (assembly_coo T A_array).filter (fun s => decide (s.1 = t.1 ∧ s.2.1 = t.2.1)) = [t] := by
    generalize assembly_coo T A_array = L at *
    induction L with
    | nil => simp at ht
    | cons a L ih =>
      rw [List.map_cons, List.nodup_cons] at hnd
      rcases List.mem_cons.1 ht with rfl | ht
      · rw [List.filter_cons_of_pos (by simp)]
        congr 1
        rw [List.filter_eq_nil_iff]
        intro s hs h
        simp only [decide_eq_true_eq] at h
        exact hnd.1 (List.mem_map.2 ⟨s, hs, by rw [h.1, h.2]⟩)
      · rw [List.filter_cons_of_neg]
        · exact ih hnd.2 ht
        · intro h
          simp only [decide_eq_true_eq] at h
          exact hnd.1 (List.mem_map.2 ⟨t, ht, by rw [h.1, h.2]⟩)
  rw [hf]; simp

theorem comp_sum {ι : Type*} (s : Finset ι) (f : ι → V3) (i : Fin 3) : Soft.comp (∑ a ∈ s, f a) i = ∑ a ∈ s, Soft.comp (f a) i := by
  refine map_sum (⟨⟨fun v => Soft.comp v i, ?_⟩, ?_⟩ : V3 →+ ℝ) f s
  · fin_cases i <;> rfl
  · intro a b; fin_cases i <;> rfl

theorem comp_mulVec (A : M3) (v : V3) (i : Fin 3) : Soft.comp (A.mulVec v) i = ∑ j, entry A i j * Soft.comp v j := by
  fin_cases i <;> simp [Fin.sum_univ_three, Soft.comp, entry, mulVec]

theorem comp_zero (i : Fin 3) : Soft.comp 0 i = 0 := by fin_cases i <;> rfl

theorem blockEntry_mul (T : Fin K → Fin 4 → Fin n) (A : Fin K → Fin 4 → Fin 4 → M3) (x : Fin n → Fin 3 → ℝ) (a : Fin n) (i : Fin 3) :
    ∑ b, ∑ j, blockEntry T A a b i j * x b j =
      ∑ e, ∑ p, ∑ q, if T e p = a then ∑ j, entry (A e p q) i j * x (T e q) j else 0 := by
  simp only [blockEntry, Finset.sum_mul]
  have h1 : ∀ b : Fin n, ∑ j : Fin 3, ∑ e, ∑ p, ∑ q, (if T e p = a ∧ T e q = b then entry (A e p q) i j else 0) * x b j =
      ∑ e, ∑ p, ∑ q, ∑ j : Fin 3, (if T e p = a ∧ T e q = b then entry (A e p q) i j else 0) * x b j := by
    intro b
    rw [Finset.sum_comm]
    refine Finset.sum_congr rfl fun e _ => ?_
    rw [Finset.sum_comm]
    refine Finset.sum_congr rfl fun p _ => ?_
    rw [Finset.sum_comm]
  simp only [h1]
  rw [Finset.sum_comm]
  refine Finset.sum_congr rfl fun e _ => ?_
  rw [Finset.sum_comm]
  refine Finset.sum_congr rfl fun p _ => ?_
  rw [Finset.sum_comm]
  refine Finset.sum_congr rfl fun q _ => ?_
  rw [Finset.sum_eq_single (T e q)]
  · by_cases h : T e p = a <;> simp [h]
  · intro b _ hb
    refine Finset.sum_eq_zero fun j _ => ?_
    rw [if_neg fun h => hb h.2.symm, zero_mul]
  · simp

/-- **C55** (matrix-free product). On every N-by-3 array x the element-wise product returns the assembled matrix times x. -/
theorem C55_product (T : Fin K → Fin 4 → Fin n) (A_array : Fin K → Fin 4 → Fin 4 → M3) (x : Fin n → V3) (a : Fin n) (i : Fin 3) :
    Soft.comp (prod_mat_vec T A_array x a) i =
      ∑ b : Fin n, ∑ j : Fin 3, assembly_csr T A_array ((a : ℕ) * 3 + i) ((b : ℕ) * 3 + j) * Soft.comp (x b) j := by
  simp only [assembly_entry]
  rw [blockEntry_mul T A_array (fun b j => Soft.comp (x b) j), prod_mat_vec_apply]
  simp only [comp_sum]
  refine Finset.sum_congr rfl fun e _ => Finset.sum_congr rfl fun p _ => Finset.sum_congr rfl fun q _ => ?_
  split_ifs
  · rw [comp_mulVec]
  · rw [comp_zero]

/-- What `addSlice` adds at position q. -/
noncomputable def sliceVal (o : ℕ) (v : V3) (q : ℕ) : ℝ :=
  if q = o then v.x else if q = o + 1 then v.y else if q = o + 2 then v.z else 0

theorem addSlice_apply (y : ℕ → ℝ) (o : ℕ) (v : V3) (q : ℕ) : addSlice y o v q = y q + sliceVal o v q := by
  unfold addSlice sliceVal
  split_ifs <;> simp

theorem sliceVal_index (a b : ℕ) (v : V3) (i : Fin 3) : sliceVal (a * 3) v (b * 3 + i) = if a = b then Soft.comp v i else 0 := by
  unfold sliceVal
  fin_cases i <;> simp [Soft.comp] <;> split_ifs <;> first | rfl | omega

theorem flat_apply (T : Fin K → Fin 4 → Fin n) (A : Fin K → Fin 4 → Fin 4 → M3) (x : ℕ → ℝ) (v : ℕ) :
    prod_mat_vec_flat T A x v = ∑ e, ∑ i, ∑ j, sliceVal ((T e i : ℕ) * 3) ((A e i j).mulVec (slice x ((T e j : ℕ) * 3))) v := by
  unfold prod_mat_vec_flat
  rw [foldl_finRange_add _ (fun e v => ∑ i, ∑ j, sliceVal ((T e i : ℕ) * 3) ((A e i j).mulVec (slice x ((T e j : ℕ) * 3))) v)]
  · simp
  · intro y e v
    rw [foldl_finRange_add _ (fun i v => ∑ j, sliceVal ((T e i : ℕ) * 3) ((A e i j).mulVec (slice x ((T e j : ℕ) * 3))) v)]
    intro y i v
    rw [foldl_finRange_add _ (fun j v => sliceVal ((T e i : ℕ) * 3) ((A e i j).mulVec (slice x ((T e j : ℕ) * 3))) v)]
    intro y j v
    exact addSlice_apply _ _ _ _

theorem slice_comp (x : ℕ → ℝ) (o : ℕ) (j : Fin 3) : Soft.comp (slice x o) j = x (o + j) := by
  fin_cases j <;> rfl

/-- **C55** (matrix-free product, flat). On every array x of 3N numbers the element-wise product returns the assembled matrix times x. -/
theorem C55_product_flat (T : Fin K → Fin 4 → Fin n) (A_array : Fin K → Fin 4 → Fin 4 → M3) (x : ℕ → ℝ) (r : ℕ) (hr : r < 3 * n) :
    prod_mat_vec_flat T A_array x r = ∑ c ∈ Finset.range (3 * n), assembly_csr T A_array r c * x c := by
  obtain ⟨a, i, rfl⟩ : ∃ (a : Fin n) (i : Fin 3), r = (a : ℕ) * 3 + i :=
    ⟨⟨r / 3, by omega⟩, ⟨r % 3, by omega⟩, by simp; omega⟩
  have hs : ∀ f : ℕ → ℝ, ∑ c ∈ Finset.range (3 * n), f c = ∑ b : Fin n, ∑ j : Fin 3, f ((b : ℕ) * 3 + j) := by
    intro f
    clear hr i a
    clear T A_array
    induction n with
    | zero => simp
    | succ n ih =>
      rw [show 3 * (n + 1) = 3 * n + 1 + 1 + 1 by ring, Finset.sum_range_succ, Finset.sum_range_succ, Finset.sum_range_succ, ih,
        Fin.sum_univ_castSucc]
      simp only [Fin.sum_univ_three, Fin.val_castSucc, Fin.val_last, mul_comm 3 n]
      simp [add_assoc]
  rw [hs, flat_apply]
  simp only [assembly_entry]
  rw [blockEntry_mul T A_array (fun b j => x ((b : ℕ) * 3 + j))]
  refine Finset.sum_congr rfl fun e _ => Finset.sum_congr rfl fun p _ => Finset.sum_congr rfl fun q _ => ?_
  rw [sliceVal_index]
  simp only [Fin.val_inj]
  split_ifs
  · rw [comp_mulVec]
    simp only [slice_comp]
  · rfl

/-! ### A concrete instance: two tetrahedra sharing a face -/

/-- Two tetrahedra on five nodes; the shared pair (1, 2) collects both contributions. -/
theorem ex_assembly : blockEntry (![![0, 1, 2, 3], ![4, 2, 1, 3]] : Fin 2 → Fin 4 → Fin 5) (fun _ _ _ => M3.identity) 1 2 0 0 = 2 ∧
    blockEntry (![![0, 1, 2, 3], ![4, 2, 1, 3]] : Fin 2 → Fin 4 → Fin 5) (fun _ _ _ => M3.identity) 0 4 0 0 = 0 := by
  constructor
  · simp only [blockEntry, Fin.sum_univ_two, Fin.sum_univ_four, Matrix.cons_val]
    norm_num [entry, M3.identity, Fin.ext_iff]
  · simp only [blockEntry, Fin.sum_univ_two, Fin.sum_univ_four, Matrix.cons_val]
    norm_num [entry, M3.identity, Fin.ext_iff]

end Verif
