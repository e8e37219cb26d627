import Verif.Model.Dict

/-! Facts about dicts used for the API histories. -/

namespace Verif.Dict

variable {κ υ : Type*} [DecidableEq κ]

/-- P holds for every entry, given its position, key and value. -/
def All (d : Dict κ υ) (P : ℕ → κ → υ → Prop) : Prop :=
  ∀ i (h : i < d.entries.length), P i (d.entries[i]).1 (d.entries[i]).2

theorem All.mono {d : Dict κ υ} {P Q : ℕ → κ → υ → Prop} (h : d.All P) (hPQ : ∀ i k v, P i k v → Q i k v) : d.All Q :=
  fun i hi => hPQ _ _ _ (h i hi)

theorem all_empty (P : ℕ → κ → υ → Prop) : (empty : Dict κ υ).All P := by
  intro i hi
  simp [empty] at hi

theorem get?_entry {d : Dict κ υ} (hn : d.keys.Nodup) {i : ℕ} (hi : i < d.entries.length) :
    d.get? (d.entries[i]).1 = some (d.entries[i]).2 := by
  unfold get? keys at *
  generalize d.entries = L at *
  induction L generalizing i with
  | nil => simp at hi
  | cons a L ih =>
    rw [List.map_cons, List.nodup_cons] at hn
    cases i with
    | zero => simp
    | succ i =>
      simp only [List.getElem_cons_succ]
      have hi' : i < L.length := by simpa using hi
      rw [List.find?_cons_of_neg]
      · exact ih hn.2 hi'
      · simp only [decide_eq_true_eq]
        intro he
        exact hn.1 (he ▸ List.mem_map.2 ⟨L[i], List.getElem_mem _, rfl⟩)

theorem get?_some {d : Dict κ υ} {k : κ} {v : υ} (h : d.get? k = some v) :
    ∃ (i : ℕ) (hi : i < d.entries.length), d.entries[i] = (k, v) := by
  unfold get? at h
  rw [Option.map_eq_some_iff] at h
  obtain ⟨⟨a, b⟩, h1, h2⟩ := h
  have hm := List.mem_of_find?_eq_some h1
  have hk := List.find?_some h1
  simp only [decide_eq_true_eq] at hk h2
  obtain ⟨i, hi, he⟩ := List.getElem_of_mem hm
  exact ⟨i, hi, by rw [he, hk, h2]⟩

theorem All.get? {d : Dict κ υ} {P : ℕ → κ → υ → Prop} (h : d.All P) {k : κ} {v : υ} (hg : d.get? k = some v) :
    ∃ i, i < d.entries.length ∧ P i k v := by
  obtain ⟨i, hi, he⟩ := get?_some hg
  have := h i hi
  rw [he] at this
  exact ⟨i, hi, this⟩

theorem mem_of_get? {d : Dict κ υ} {k : κ} {v : υ} (h : d.get? k = some v) : d.mem k = true := by
  rw [← get?_isSome, h]; rfl

theorem getItem_ok {d : Dict κ υ} {k : κ} {v : υ} (h : d.getItem k = .ok v) : d.get? k = some v := by
  unfold getItem at h
  split at h
  · rename_i w hw
    rw [hw]
    injection h with h
    rw [h]
  · cases h

/-- Adding a new key. -/
theorem All.insert {d : Dict κ υ} {P : ℕ → κ → υ → Prop} (h : d.All P) {k : κ} {v : υ} (hk : d.mem k = false)
    (hv : P d.len k v) : (d.setItem k v).All P := by
  unfold setItem
  rw [if_neg (by simp [hk])]
  intro i hi
  by_cases hlt : i < d.entries.length
  · simp only [List.getElem_append_left hlt]
    exact h i hlt
  · have : i = d.entries.length := by
      simp only [List.length_append, List.length_singleton] at hi
      omega
    subst this
    simpa [len] using hv

/-- Replacing the value of an existing key. -/
theorem All.replace {d : Dict κ υ} {P : ℕ → κ → υ → Prop} (h : d.All P) (hn : d.keys.Nodup) {k : κ} {v v' : υ}
    (hk : d.get? k = some v) (hv : ∀ i, P i k v → P i k v') : (d.setItem k v').All P := by
  unfold setItem
  rw [if_pos (mem_of_get? hk)]
  intro i hi
  simp only [List.getElem_map]
  have hi' : i < d.entries.length := by simpa using hi
  split_ifs with he
  · have hg := get?_entry hn hi'
    rw [he, hk] at hg
    injection hg with hg
    have := h i hi'
    rw [he, ← hg] at this
    simp only [he]
    exact hv i this
  · exact h i hi'

theorem keys_replace {d : Dict κ υ} {k : κ} {v v' : υ} (hk : d.get? k = some v) : (d.setItem k v').keys = d.keys := by
  rw [keys_setItem, if_pos (mem_of_get? hk)]

theorem len_replace {d : Dict κ υ} {k : κ} {v v' : υ} (hk : d.get? k = some v) : (d.setItem k v').len = d.len := by
  have := congrArg List.length (keys_replace (v' := v') hk)
  simpa [keys, len] using this

theorem get?_insert_of_some {d : Dict κ υ} {k k' : κ} {v v' : υ} (hk : d.mem k = false) (h : d.get? k' = some v') :
    (d.setItem k v).get? k' = some v' := by
  rw [get?_setItem, if_neg]
  · exact h
  · intro e
    have := mem_of_get? h
    rw [e, hk] at this
    cases this

theorem mem_iff_get? {d : Dict κ υ} {k : κ} : d.mem k = true ↔ ∃ v, d.get? k = some v := by
  rw [← get?_isSome, Option.isSome_iff_exists]

end Verif.Dict
