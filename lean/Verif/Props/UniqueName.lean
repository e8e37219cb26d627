import Verif.Model.UniqueName
import Mathlib.Tactic.IntervalCases

namespace Verif

namespace Naming

/-- The text of a number between 0 and 1: digits, with `.`, or with an exponent `e-`; a minus sign stands after each e and nowhere else. -/
def NumberText (t : List Char) : Prop :=
  (∀ c ∈ t, c.isDigit = true ∨ c = '.' ∨ c = 'e' ∨ c = '-') ∧ t.head? ≠ some '-' ∧ ∀ i, t[i + 1]? = some '-' ↔ (t[i]? = some 'e' ∧ i + 1 < t.length)

/-- The separators of `2026-11-18 15:20:31.123456`, by position; the other positions hold digits. -/
def separator : ℕ → Option Char
  | 4 => some '-'
  | 7 => some '-'
  | 10 => some ' '
  | 13 => some ':'
  | 16 => some ':'
  | 19 => some '.'
  | _ => none

/-- The text of a date and time; the microseconds are left out when they are zero. -/
def ClockText (t : List Char) : Prop :=
  (t.length = 26 ∨ t.length = 19) ∧ ∀ i c, t[i]? = some c → match separator i with
    | some s => c = s
    | none => c.isDigit = true

/-- A legal identifier of the USD format: a letter or underscore, followed by letters, digits and underscores. -/
def Identifier (t : List Char) : Prop :=
  (∃ c, t.head? = some c ∧ (c.isAlpha = true ∨ c = '_')) ∧ ∀ c ∈ t, c.isAlpha = true ∨ c.isDigit = true ∨ c = '_'

/-- The four characters that are replaced. -/
def Odd (c : Char) : Prop := c = ' ' ∨ c = '.' ∨ c = ':' ∨ c = '-'

instance (c : Char) : Decidable (Odd c) := by unfold Odd; infer_instance

def cleanChar (c : Char) : Char := if Odd c then '_' else c

theorem cleanName_eq (t : List Char) : cleanName t = t.map cleanChar := by
  unfold cleanName
  simp only [List.foldl_cons, List.foldl_nil, List.map_map]
  refine List.map_congr_left fun c _ => ?_
  simp only [Function.comp]
  unfold cleanChar Odd
  by_cases h1 : c = ' '
  · subst h1; decide
  by_cases h2 : c = '.'
  · subst h2; decide
  by_cases h3 : c = ':'
  · subst h3; decide
  by_cases h4 : c = '-'
  · subst h4; decide
  simp [h1, h2, h3, h4]

theorem digit_clean {c : Char} (h : c.isDigit = true) : cleanChar c = c := by
  unfold cleanChar
  rw [if_neg]
  rintro (rfl | rfl | rfl | rfl) <;> exact absurd h (by decide)

theorem clock_inj {s t : List Char} (hs : ClockText s) (ht : ClockText t) (h : s.map cleanChar = t.map cleanChar) : s = t := by
  refine List.ext_getElem? fun i => ?_
  have hi := congrArg (fun l => l[i]?) h
  simp only [List.getElem?_map] at hi
  cases e1 : s[i]? with
  | none => rw [e1] at hi; cases e2 : t[i]? with
    | none => rfl
    | some d => rw [e2] at hi; cases hi
  | some c => cases e2 : t[i]? with
    | none => rw [e1, e2] at hi; cases hi
    | some d =>
      rw [e1, e2] at hi
      simp only [Option.map_some, Option.some.injEq] at hi
      have h1 := hs.2 i c e1
      have h2 := ht.2 i d e2
      cases hsep : separator i with
      | some x => rw [hsep] at h1 h2; rw [h1, h2]
      | none => rw [hsep] at h1 h2; rw [digit_clean h1, digit_clean h2] at hi; rw [hi]

theorem number_inj {s t : List Char} (hs : NumberText s) (ht : NumberText t) (h : s.map cleanChar = t.map cleanChar) : s = t := by
  have hl : s.length = t.length := by simpa using congrArg List.length h
  have key : ∀ i : ℕ, s[i]? = t[i]? := by
    intro i
    induction i with
    | zero =>
      have hi := congrArg (fun l => l[0]?) h
      simp only [List.getElem?_map] at hi
      cases e1 : s[0]? with
      | none => rw [e1] at hi; cases e2 : t[0]? with
        | none => rfl
        | some d => rw [e2] at hi; cases hi
      | some c => cases e2 : t[0]? with
        | none => rw [e1, e2] at hi; cases hi
        | some d =>
          rw [e1, e2] at hi
          simp only [Option.map_some, Option.some.injEq] at hi
          have a1 := hs.1 c (List.mem_of_getElem? e1)
          have a2 := ht.1 d (List.mem_of_getElem? e2)
          have b1 : c ≠ '-' := fun e => hs.2.1 (by rw [List.head?_eq_getElem?, e1, e])
          have b2 : d ≠ '-' := fun e => ht.2.1 (by rw [List.head?_eq_getElem?, e2, e])
          rcases a1 with a1 | rfl | rfl | rfl <;> rcases a2 with a2 | rfl | rfl | rfl <;> first
            | rfl
            | exact absurd rfl b1
            | exact absurd rfl b2
            | (rw [digit_clean a1, digit_clean a2] at hi; rw [hi])
            | (rw [digit_clean a1] at hi; subst hi; exact absurd a1 (by decide))
            | (rw [digit_clean a2] at hi; subst hi; exact absurd a2 (by decide))
            | exact absurd hi (by decide)
    | succ i ih =>
      have hi := congrArg (fun l => l[i + 1]?) h
      simp only [List.getElem?_map] at hi
      cases e1 : s[i + 1]? with
      | none => rw [e1] at hi; cases e2 : t[i + 1]? with
        | none => rfl
        | some d => rw [e2] at hi; cases hi
      | some c => cases e2 : t[i + 1]? with
        | none => rw [e1, e2] at hi; cases hi
        | some d =>
          have m1 := hs.2.2 i
          have m2 := ht.2.2 i
          rw [ih, hl, ← m2] at m1
          rw [e1, e2] at hi m1
          simp only [Option.map_some, Option.some.injEq] at hi m1
          have a1 := hs.1 c (List.mem_of_getElem? e1)
          have a2 := ht.1 d (List.mem_of_getElem? e2)
          rcases a1 with a1 | rfl | rfl | rfl <;> rcases a2 with a2 | rfl | rfl | rfl <;> first
            | rfl
            | exact congrArg some (m1.2 rfl)
            | exact congrArg some (m1.1 rfl).symm
            | (rw [digit_clean a1, digit_clean a2] at hi; rw [hi])
            | (rw [digit_clean a1] at hi; subst hi; exact absurd a1 (by decide))
            | (rw [digit_clean a2] at hi; subst hi; exact absurd a2 (by decide))
            | exact absurd hi (by decide)
  exact List.ext_getElem? key

/-- The third character from the end tells whether the microseconds are there. -/
theorem clock_third {t : List Char} (h : ClockText t) : ∃ c, (t.map cleanChar)[t.length - 3]? = some c ∧ (c = '_' ↔ t.length = 19) := by
  have hlt : t.length - 3 < t.length := by rcases h.1 with e | e <;> omega
  refine ⟨cleanChar t[t.length - 3], by simp [hlt], ?_⟩
  have := h.2 (t.length - 3) t[t.length - 3] (List.getElem?_eq_getElem hlt)
  rcases h.1 with e | e
  · generalize t[t.length - 3] = c at *
    rw [e] at this
    replace this : c.isDigit = true := this
    rw [digit_clean this]
    exact ⟨fun e' => absurd this (by rw [e']; decide), fun e' => absurd (e.symm.trans e') (by decide)⟩
  · generalize t[t.length - 3] = c at *
    rw [e] at this
    replace this : c = ':' := this
    subst this
    exact ⟨fun _ => e, fun _ => by decide⟩

end Naming

open Naming

/-- Two names made from the same base, at calls whose random number or time differ, differ. -/
theorem C122_unique (name n m now later : List Char) (hn : NumberText n) (hm : NumberText m) (h1 : ClockText now) (h2 : ClockText later)
    (h : (n, now) ≠ (m, later)) : uniqueName n now name ≠ uniqueName m later name := by
  intro e
  apply h
  unfold uniqueName at e
  rw [cleanName_eq, cleanName_eq] at e
  simp only [List.map_append, List.append_assoc, List.append_cancel_left_eq] at e
  have key : now.length = later.length := by
    obtain ⟨c, c1, c2⟩ := clock_third h1
    obtain ⟨d, d1, d2⟩ := clock_third h2
    have l1 : 3 ≤ now.length := by rcases h1.1 with e | e <;> omega
    have l2 : 3 ≤ later.length := by rcases h2.1 with e | e <;> omega
    have hlen := congrArg List.length e
    simp only [List.length_append, List.length_map, List.length_cons, List.length_nil] at hlen
    have e3 := congrArg (fun l => l[n.length + 1 + (now.length - 3)]?) e
    have x1 : (n.map cleanChar ++ ([cleanChar '_'] ++ now.map cleanChar))[n.length + 1 + (now.length - 3)]? = some c := by
      rw [← List.append_assoc, List.getElem?_append_right (by simp)]
      rw [← c1]
      congr 1
      simp
    have x2 : (m.map cleanChar ++ ([cleanChar '_'] ++ later.map cleanChar))[n.length + 1 + (now.length - 3)]? = some d := by
      have : n.length + 1 + (now.length - 3) = m.length + 1 + (later.length - 3) := by omega
      rw [this, ← List.append_assoc, List.getElem?_append_right (by simp)]
      rw [← d1]
      congr 1
      simp
    simp only [List.map_cons, List.map_nil] at e3
    rw [x1, x2, Option.some.injEq] at e3
    subst e3
    have := c2.symm.trans d2
    rcases h1.1 with e | e <;> rcases h2.1 with e' | e' <;> omega
  have e1 := List.append_inj' e (by simp [key])
  obtain ⟨e1, e2⟩ := e1
  rw [number_inj hn hm e1, clock_inj h1 h2 (List.append_cancel_left e2)]

/-- The name is a legal identifier of the USD format exactly when the wanted name has no characters but letters, digits, underscores and the
four that are replaced, and does not begin with a digit. -/
theorem C122_identifier (name n now : List Char) (hn : NumberText n) (h : ClockText now) :
    Identifier (uniqueName n now name) ↔
      (∀ c ∈ name, c.isAlpha = true ∨ c.isDigit = true ∨ c = '_' ∨ c = ' ' ∨ c = '.' ∨ c = ':' ∨ c = '-') ∧
      ∀ c, name.head? = some c → c.isDigit = false := by
  have hodd : ∀ c, (c = ' ' ∨ c = '.' ∨ c = ':' ∨ c = '-') → cleanChar c = '_' := fun c hc => if_pos hc
  have hev : ∀ c, ¬ (c = ' ' ∨ c = '.' ∨ c = ':' ∨ c = '-') → cleanChar c = c := fun c hc => if_neg hc
  have hcl : ∀ c, (c.isAlpha = true ∨ c.isDigit = true ∨ c = '_' ∨ c = ' ' ∨ c = '.' ∨ c = ':' ∨ c = '-') ↔
      ((cleanChar c).isAlpha = true ∨ (cleanChar c).isDigit = true ∨ cleanChar c = '_') := by
    intro c
    by_cases ho : c = ' ' ∨ c = '.' ∨ c = ':' ∨ c = '-'
    · rw [hodd c ho]
      exact ⟨fun _ => Or.inr (Or.inr rfl), fun _ => Or.inr (Or.inr (Or.inr ho))⟩
    · rw [hev c ho]
      tauto
  have hnum : ∀ c ∈ n, (cleanChar c).isAlpha = true ∨ (cleanChar c).isDigit = true ∨ cleanChar c = '_' := by
    intro c hc
    rcases hn.1 c hc with hd | rfl | rfl | rfl
    · rw [digit_clean hd]; exact Or.inr (Or.inl hd)
    · decide
    · decide
    · decide
  have hclk : ∀ c ∈ now, (cleanChar c).isAlpha = true ∨ (cleanChar c).isDigit = true ∨ cleanChar c = '_' := by
    intro c hc
    obtain ⟨i, hi⟩ := List.mem_iff_getElem?.1 hc
    have := h.2 i c hi
    unfold separator at this
    split at this <;> rename_i x hx
    · rename_i s
      subst this
      split at hx <;> first
        | (cases hx; decide)
        | (simp at hx)
    · rw [digit_clean this]; exact Or.inr (Or.inl this)
  unfold uniqueName Identifier
  rw [cleanName_eq]
  simp only [List.map_append, List.append_assoc, List.mem_append, List.map_cons, List.map_nil]
  constructor
  · rintro ⟨⟨c, e, hc⟩, hall⟩
    refine ⟨fun a ha => (hcl a).2 (hall _ (Or.inl (List.mem_map_of_mem ha))), fun a ha => ?_⟩
    cases name with
    | nil => cases ha
    | cons b name =>
      simp only [List.head?_cons, Option.some.injEq] at ha
      subst ha
      simp only [List.map_cons, List.cons_append, List.head?_cons, Option.some.injEq] at e
      by_contra hd
      rw [Bool.not_eq_false] at hd
      rw [digit_clean hd] at e
      subst e
      rcases hc with hc | rfl
      · simp only [Char.isDigit, Char.isAlpha, Char.isUpper, Char.isLower, Bool.and_eq_true, Bool.or_eq_true, decide_eq_true_eq] at hd hc
        rcases hc with hc | hc
        · exact absurd (Nat.le_trans hc.1 hd.2) (by decide)
        · exact absurd (Nat.le_trans hc.1 hd.2) (by decide)
      · exact absurd hd (by decide)
  · rintro ⟨h1, h2⟩
    refine ⟨?_, ?_⟩
    · cases name with
      | nil => exact ⟨cleanChar '_', rfl, Or.inr (by decide)⟩
      | cons b name =>
        refine ⟨cleanChar b, rfl, ?_⟩
        rcases (hcl b).1 (h1 b List.mem_cons_self) with x | x | x
        · exact Or.inl x
        · exfalso
          have hb := h2 b rfl
          by_cases ho : b = ' ' ∨ b = '.' ∨ b = ':' ∨ b = '-'
          · rw [hodd b ho] at x; exact absurd x (by decide)
          · rw [hev b ho, hb] at x; cases x
        · exact Or.inr x
    · intro c hc
      rcases hc with hc | hc | hc | hc | hc
      · obtain ⟨a, ha, rfl⟩ := List.mem_map.1 hc
        exact (hcl a).1 (h1 a ha)
      · rw [List.mem_singleton.1 hc]; decide
      · obtain ⟨a, ha, rfl⟩ := List.mem_map.1 hc
        exact hnum a ha
      · rw [List.mem_singleton.1 hc]; decide
      · obtain ⟨a, ha, rfl⟩ := List.mem_map.1 hc
        exact hclk a ha

/-- Two calls with the same random number, a microsecond apart. -/
example : uniqueName "0.25".toList "2026-11-18 15:20:31.123456".toList "box".toList ≠ uniqueName "0.25".toList "2026-11-18 15:20:31.123457".toList "box".toList := by
  have hn : NumberText "0.25".toList := ⟨by decide, by decide, fun i => by
    rcases i with _ | _ | _ | i <;> simp⟩
  refine C122_unique _ _ _ _ _ hn hn ?_ ?_ (by decide) <;>
  · refine ⟨by decide, fun i c hc => ?_⟩
    have hi : i < 26 := (List.getElem?_eq_some_iff.1 hc).1
    interval_cases i <;> (simp at hc; subst hc; first | rfl | decide)

/-- A name with a slash is not cleaned. -/
example : ¬ Identifier (uniqueName "0.5".toList "2026-11-18 15:20:31".toList "a/b".toList) := fun h => absurd (h.2 '/' (by decide)) (by decide)

end Verif
