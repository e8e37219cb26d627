import Verif.Model.Vec
import Mathlib.Data.List.Nodup

/-! Python `dict` as an association list in insertion order. -/

namespace Verif

/-- A Python dict (insertion ordered; keys are kept unique by the operations below). -/
structure Dict (κ υ : Type*) where
  entries : List (κ × υ)

namespace Dict
variable {κ υ : Type*} [DecidableEq κ]

/-- `{}` -/
def empty : Dict κ υ := ⟨[]⟩

/-- `d.get(k)` -/
def get? (d : Dict κ υ) (k : κ) : Option υ := (d.entries.find? (fun e => e.1 = k)).map Prod.snd

/-- `k in d` -/
def mem (d : Dict κ υ) (k : κ) : Bool := d.entries.any (fun e => e.1 = k)

/-- `d[k]` (KeyError when absent). -/
def getItem (d : Dict κ υ) (k : κ) : Except PyErr υ :=
  match d.get? k with
  | some v => .ok v
  | none => .error .keyError

/-- `d[k] = v`: replaces in place when the key exists, else appends. -/
def setItem (d : Dict κ υ) (k : κ) (v : υ) : Dict κ υ :=
  if d.mem k then ⟨d.entries.map (fun e => if e.1 = k then (e.1, v) else e)⟩
  else ⟨d.entries ++ [(k, v)]⟩

/-- `del d[k]` for a present key. -/
def delItem (d : Dict κ υ) (k : κ) : Dict κ υ := ⟨d.entries.filter (fun e => e.1 ≠ k)⟩

/-- `d.keys()` -/
def keys (d : Dict κ υ) : List κ := d.entries.map Prod.fst
/-- `d.values()` -/
def values (d : Dict κ υ) : List υ := d.entries.map Prod.snd
/-- `len(d)` -/
def len (d : Dict κ υ) : ℕ := d.entries.length

@[simp] theorem get?_empty (k : κ) : (empty : Dict κ υ).get? k = none := rfl

theorem mem_iff_keys (d : Dict κ υ) (k : κ) : d.mem k = true ↔ k ∈ d.keys := by
  simp [mem, keys]

theorem get?_isSome (d : Dict κ υ) (k : κ) : (d.get? k).isSome = d.mem k := by
  unfold get? mem
  rw [Option.isSome_map, Bool.eq_iff_iff, List.find?_isSome, List.any_eq_true]

theorem get?_eq_none (d : Dict κ υ) (k : κ) : d.get? k = none ↔ d.mem k = false := by
  rw [← get?_isSome]; cases d.get? k <;> simp

theorem find_map_ne (L : List (κ × υ)) (k k' : κ) (v : υ) (h : k' ≠ k) :
    ((L.map (fun e => if e.1 = k then (e.1, v) else e)).find? (fun e => e.1 = k')).map Prod.snd =
      (L.find? (fun e => e.1 = k')).map Prod.snd := by
  induction L with
  | nil => simp
  | cons e L ih =>
    obtain ⟨a, b⟩ := e
    rw [List.map_cons]
    by_cases h1 : a = k
    · subst h1
      rw [if_pos rfl, List.find?_cons_of_neg (by simpa using h.symm),
        List.find?_cons_of_neg (by simpa using h.symm), ih]
    · rw [if_neg h1]
      by_cases h2 : a = k'
      · rw [List.find?_cons_of_pos (by simpa using h2), List.find?_cons_of_pos (by simpa using h2)]
      · rw [List.find?_cons_of_neg (by simpa using h2), List.find?_cons_of_neg (by simpa using h2), ih]

theorem find_map_eq (L : List (κ × υ)) (k : κ) (v : υ) (h : ∃ e ∈ L, e.1 = k) :
    ((L.map (fun e => if e.1 = k then (e.1, v) else e)).find? (fun e => e.1 = k)).map Prod.snd =
      some v := by
  induction L with
  | nil => simp at h
  | cons e L ih =>
    obtain ⟨a, b⟩ := e
    rw [List.map_cons]
    by_cases h1 : a = k
    · rw [if_pos h1, List.find?_cons_of_pos (by simpa using h1)]; rfl
    · rw [if_neg h1, List.find?_cons_of_neg (by simpa using h1)]
      apply ih
      obtain ⟨e, he, hek⟩ := h
      rcases List.mem_cons.mp he with rfl | he
      · exact absurd hek h1
      · exact ⟨e, he, hek⟩

theorem get?_setItem (d : Dict κ υ) (k k' : κ) (v : υ) :
    (d.setItem k v).get? k' = if k' = k then some v else d.get? k' := by
  unfold setItem
  split_ifs with h1 h2 h2
  · unfold get?
    subst h2
    apply find_map_eq
    simpa [mem] using h1
  · unfold get?
    exact find_map_ne _ _ _ _ h2
  · subst h2
    have hn : d.get? k' = none := by rw [get?_eq_none]; simpa using h1
    unfold get? at hn ⊢
    simp only [List.find?_append, Option.map_or]
    rw [hn]; simp
  · unfold get?
    simp only [List.find?_append]
    have : ¬ k = k' := fun h => h2 h.symm
    simp [this]

theorem get?_setItem_self (d : Dict κ υ) (k : κ) (v : υ) : (d.setItem k v).get? k = some v := by
  rw [get?_setItem, if_pos rfl]

theorem get?_setItem_ne (d : Dict κ υ) {k k' : κ} (v : υ) (h : k' ≠ k) :
    (d.setItem k v).get? k' = d.get? k' := by
  rw [get?_setItem, if_neg h]

theorem get?_delItem (d : Dict κ υ) (k k' : κ) :
    (d.delItem k).get? k' = if k' = k then none else d.get? k' := by
  unfold delItem get?
  simp only [List.find?_filter]
  split_ifs with h
  · subst h
    rw [Option.map_eq_none_iff, List.find?_eq_none]
    intro x _
    simp
  · congr 2
    funext e
    by_cases he : e.1 = k'
    · simp [he, h]
    · simp [he]

theorem keys_setItem (d : Dict κ υ) (k : κ) (v : υ) :
    (d.setItem k v).keys = if d.mem k then d.keys else d.keys ++ [k] := by
  unfold setItem keys
  split_ifs
  · rw [List.map_map]
    apply List.map_congr_left
    intro e _
    simp only [Function.comp]
    split_ifs <;> rfl
  · simp

theorem nodup_setItem (d : Dict κ υ) (k : κ) (v : υ) (h : d.keys.Nodup) :
    (d.setItem k v).keys.Nodup := by
  rw [keys_setItem]
  split_ifs with hm
  · exact h
  · rw [mem_iff_keys] at hm
    exact List.nodup_append.mpr ⟨h, by simp, by
      intro a ha b hb
      simp at hb; subst hb
      intro e; subst e; exact hm ha⟩

theorem nodup_delItem (d : Dict κ υ) (k : κ) (h : d.keys.Nodup) : (d.delItem k).keys.Nodup :=
  h.sublist (List.Sublist.map _ List.filter_sublist)

theorem len_pos (d : Dict κ υ) : 0 < d.len ↔ ∃ k, d.get? k ≠ none := by
  constructor
  · intro h
    unfold len at h
    obtain ⟨e, he⟩ := List.exists_mem_of_length_pos h
    refine ⟨e.1, ?_⟩
    rw [Ne, get?_eq_none, Bool.not_eq_false, mem_iff_keys]
    exact List.mem_map_of_mem he
  · rintro ⟨k, hk⟩
    rw [Ne, get?_eq_none, Bool.not_eq_false, mem_iff_keys] at hk
    unfold keys at hk
    obtain ⟨e, he, -⟩ := List.mem_map.mp hk
    exact List.length_pos_of_mem he

end Dict
end Verif
