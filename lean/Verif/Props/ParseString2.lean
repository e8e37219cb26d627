import Verif.Props.ParseString

/-! Reading back what is written (C113): lists, `strip`, `split`, `lower`. -/

namespace Verif

open Parse NumSpec

/-- Every numeral of the list after a comma. -/
def tailText (l : List Numeral) : List Char := l.flatMap fun x => ',' :: x.text

theorem commas_cons (x : Numeral) (l : List Numeral) : commas (x :: l) = x.text ++ tailText l := by
  induction l generalizing x with
  | nil => simp [commas, tailText]
  | cons y l ih =>
    rw [commas, ih y]
    simp [tailText]

theorem comma_ends (r : List Char) : EndsE (',' :: r) := ends_cons _ _ (by decide)
theorem close_ends (r : List Char) : EndsE (']' :: r) := ends_cons _ _ (by decide)
theorem colon_ends (r : List Char) : EndsE (':' :: r) := ends_cons _ _ (by decide)

theorem tailText_ends (l : List Numeral) {r : List Char} (h : EndsE r) : EndsE (tailText l ++ r) := by
  cases l with
  | nil => exact h
  | cons x l => exact comma_ends _

theorem more_tail (l : List Numeral) (r : List Char) : more (tailText l ++ ']' :: r) = ']' :: r := by
  induction l with
  | nil =>
    rw [more]
    simp only [tailText, List.flatMap_nil, List.nil_append, seq, lit_miss_cons ',' ']' r (by decide) (by decide), Option.bind_none]
  | cons x l ih =>
    have e : tailText (x :: l) ++ ']' :: r = ',' :: (x.text ++ (tailText l ++ ']' :: r)) := by simp [tailText]
    rw [e, more]
    simp only [seq, lit_hit ',' _ (show isWhite ',' = false by decide), Option.bind_some, number_text x (tailText_ends l (close_ends r))]
    rw [if_pos (by simp), ih]

/-- Where a list is written, the grammar reads a list. -/
theorem list_text {l : List Numeral} (hl : l ≠ []) (r : List Char) : list (listText l ++ r) = some r := by
  obtain ⟨x, l, rfl⟩ := List.exists_cons_of_ne_nil hl
  have e : listText (x :: l) ++ r = '[' :: (x.text ++ (tailText l ++ ']' :: r)) := by simp [listText, commas_cons]
  simp only [e, list, seq, lit_hit '[' _ (show isWhite '[' = false by decide), Option.bind_some, number_text x (tailText_ends l (close_ends r)),
    more_tail, lit_hit ']' _ (show isWhite ']' = false by decide)]

/-- What `np.fromstring` makes of a list: the values up to and with the first numeral whose exponent is not whole. -/
noncomputable def readList : List Numeral → List ℝ
  | [] => []
  | x :: l => open Classical in if x.Sound then x.value :: readList l else [x.value]

theorem fromstring_commas (l : List Numeral) : fromstring (commas l) = readList l := by
  induction l with
  | nil => rw [commas, fromstring]; rfl
  | cons x l ih =>
    have hs := strtod_text x (tailText_ends l ends_nil)
    rw [List.append_nil] at hs
    rw [commas_cons, fromstring, hs]
    simp only
    by_cases hx : x.Sound
    · rw [expRest_sound hx, List.nil_append]
      cases l with
      | nil => simp [tailText, skip, readList, hx]
      | cons y l =>
        have e : tailText (y :: l) = ',' :: commas (y :: l) := by rw [commas_cons]; simp [tailText]
        rw [e, skip_cons _ (show isWhite ',' = false by decide)]
        simp only [beq_self_eq_true, if_true]
        rw [if_pos (by simp only [List.length_append, List.length_cons]; omega), ih]
        conv_rhs => rw [readList, if_pos hx]
    · obtain ⟨s, e⟩ := expRest_unsound hx
      rw [e, List.cons_append, skip_cons _ (show isWhite '.' = false by decide)]
      simp [readList, hx]

/-- The characters numerals are made of. -/
def NumeralChar (c : Char) : Prop := c.isDigit = true ∨ c = '-' ∨ c = '+' ∨ c = '.' ∨ c = 'e'

theorem decimal_chars (d : Decimal) : ∀ c ∈ d.text, NumeralChar c := by
  intro c hc
  obtain ⟨n, _ | m⟩ := d
  · simp only [Decimal.text, List.append_nil] at hc
    exact Or.inl (digits_digit hc)
  · simp only [Decimal.text, List.mem_append, List.mem_cons] at hc
    rcases hc with hc | rfl | hc
    · exact Or.inl (digits_digit hc)
    · simp [NumeralChar]
    · exact Or.inl (digits_digit hc)

theorem numeral_chars (x : Numeral) : ∀ c ∈ x.text, NumeralChar c := by
  intro c hc
  rw [text_eq, signed, List.mem_append, List.mem_append] at hc
  rcases hc with (hc | hc) | hc
  · split at hc
    · simp at hc; subst hc; simp [NumeralChar]
    · simp at hc
  · exact decimal_chars _ c hc
  · unfold expText at hc
    split at hc
    · simp at hc
    · rename_i minus d _
      simp only [List.mem_cons] at hc
      rcases hc with rfl | rfl | hc
      · simp [NumeralChar]
      · cases minus <;> simp [NumeralChar]
      · exact decimal_chars _ c hc

/-- A numeral begins with a digit or a minus. -/
theorem numeral_head (x : Numeral) : ∃ c s, x.text = c :: s ∧ (c.isDigit = true ∨ c = '-') := by
  obtain ⟨c, s, e, hc⟩ := decimal_head x.mant
  rw [text_eq, signed, e]
  cases x.neg
  · exact ⟨c, _, rfl, Or.inl hc⟩
  · exact ⟨'-', _, rfl, Or.inr rfl⟩

theorem decimal_last (d : Decimal) : ∃ s c, d.text = s ++ [c] ∧ c.isDigit = true := by
  have hd : ∀ n, ∃ s c, digits n = s ++ [c] ∧ c.isDigit = true := by
    intro n
    obtain ⟨s, c, e⟩ := (List.eq_nil_or_concat' (digits n)).resolve_left (digits_ne_nil n)
    exact ⟨s, c, e, digits_digit (n := n) (by rw [e]; simp)⟩
  obtain ⟨n, _ | m⟩ := d
  · obtain ⟨s, c, e, hc⟩ := hd n
    exact ⟨s, c, by simp [Decimal.text, e], hc⟩
  · obtain ⟨s, c, e, hc⟩ := hd m
    exact ⟨digits n ++ '.' :: s, c, by simp [Decimal.text, e], hc⟩

/-- A numeral ends with a digit. -/
theorem numeral_last (x : Numeral) : ∃ s c, x.text = s ++ [c] ∧ c.isDigit = true := by
  rw [text_eq]
  cases hx : x.exp with
  | none =>
    obtain ⟨s, c, e, hc⟩ := decimal_last x.mant
    exact ⟨(if x.neg then ['-'] else []) ++ s, c, by simp [signed, e, expText, hx], hc⟩
  | some p =>
    obtain ⟨b, d⟩ := p
    obtain ⟨s, c, e, hc⟩ := decimal_last d
    exact ⟨signed x ++ 'e' :: (if b then '-' else '+') :: s, c, by simp [e, expText, hx], hc⟩

theorem commas_head {l : List Numeral} (hl : l ≠ []) : ∃ c s, commas l = c :: s ∧ (c.isDigit = true ∨ c = '-') := by
  obtain ⟨x, l, rfl⟩ := List.exists_cons_of_ne_nil hl
  obtain ⟨c, s, e, hc⟩ := numeral_head x
  exact ⟨c, s ++ tailText l, by rw [commas_cons, e]; rfl, hc⟩

theorem commas_last {l : List Numeral} (hl : l ≠ []) : ∃ s c, commas l = s ++ [c] ∧ c.isDigit = true := by
  induction l with
  | nil => exact absurd rfl hl
  | cons x l ih =>
    cases l with
    | nil => exact numeral_last x
    | cons y l =>
      obtain ⟨s, c, e, hc⟩ := ih (by simp)
      exact ⟨x.text ++ ',' :: s, c, by rw [commas, e]; simp, hc⟩

theorem dropWhile_all {f : Char → Bool} {p : List Char} (t : List Char) (h : ∀ c ∈ p, f c = true) : (p ++ t).dropWhile f = t.dropWhile f := by
  induction p with
  | nil => rfl
  | cons a p ih => simp [h a (by simp), ih fun c hc => h c (by simp [hc])]

theorem rdropWhile_all {f : Char → Bool} {q : List Char} (t : List Char) (h : ∀ c ∈ q, f c = true) : (t ++ q).rdropWhile f = t.rdropWhile f := by
  simp only [List.rdropWhile, List.reverse_append]
  rw [dropWhile_all _ fun c hc => h c (by simpa using hc)]

/-- `strip` takes away what is before and behind. -/
theorem strip_mid (chars p t q : List Char) (hp : ∀ c ∈ p, c ∈ chars) (hq : ∀ c ∈ q, c ∈ chars) (hh : ∃ c s, t = c :: s ∧ c ∉ chars)
    (hl : ∃ s c, t = s ++ [c] ∧ c ∉ chars) : strip chars (p ++ (t ++ q)) = t := by
  obtain ⟨c, s, e, hc⟩ := hh
  obtain ⟨s', c', e', hc'⟩ := hl
  rw [strip, dropWhile_all _ fun a ha => by simpa using hp a ha]
  have : (t ++ q).dropWhile chars.contains = t ++ q := by rw [e]; simp [hc]
  rw [this, rdropWhile_all _ fun a ha => by simpa using hq a ha, e', List.rdropWhile_concat_neg _ _ _ (by simpa using hc')]

theorem split_none {sep : Char} {t : List Char} (h : sep ∉ t) : split sep t = [t] := by
  induction t with
  | nil => rfl
  | cons c t ih =>
    simp only [List.mem_cons, not_or] at h
    simp [split, ih h.2, Ne.symm h.1]

theorem split_one {sep : Char} {a b : List Char} (ha : sep ∉ a) (hb : sep ∉ b) : split sep (a ++ sep :: b) = [a, b] := by
  induction a with
  | nil => simp [split, split_none hb]
  | cons c a ih =>
    simp only [List.mem_cons, not_or] at ha
    simp [split, ih ha.2, Ne.symm ha.1]

theorem numeral_no_colon (x : Numeral) : ':' ∉ x.text := by
  intro h
  rcases numeral_chars x _ h with h | h | h | h | h <;> revert h <;> decide

theorem list_chars (l : List Numeral) : ∀ c ∈ listText l, NumeralChar c ∨ c = '[' ∨ c = ',' ∨ c = ']' := by
  have hc : ∀ c ∈ commas l, NumeralChar c ∨ c = ',' := by
    cases l with
    | nil => simp [commas]
    | cons x l =>
      intro c hc
      rw [commas_cons, List.mem_append] at hc
      rcases hc with hc | hc
      · exact Or.inl (numeral_chars x c hc)
      · simp only [tailText, List.mem_flatMap, List.mem_cons] at hc
        obtain ⟨y, -, rfl | hc⟩ := hc
        · exact Or.inr rfl
        · exact Or.inl (numeral_chars y c hc)
  intro c h
  simp only [listText, List.cons_append, List.mem_cons, List.mem_append, List.not_mem_nil, or_false] at h
  rcases h with rfl | h | rfl
  · simp
  · rcases hc c h with h | h <;> simp [h]
  · simp

theorem list_no_colon (l : List Numeral) : ':' ∉ listText l := by
  intro h
  rcases list_chars l _ h with (h | h | h | h | h) | h | h | h <;> revert h <;> decide

theorem digit_lower {c : Char} (h : c.isDigit = true) : c.toLower = c := by
  simp only [Char.isDigit, Bool.and_eq_true, decide_eq_true_eq] at h
  unfold Char.toLower
  rw [dif_neg]
  rintro ⟨h1, -⟩
  have h2 := h.2
  rw [ge_iff_le, UInt32.le_iff_toNat_le] at h1
  rw [UInt32.le_iff_toNat_le] at h2
  have e1 : 'A'.val.toNat = 65 := rfl
  have e2 : '9'.val.toNat = 57 := rfl
  omega

theorem numeralChar_lower {c : Char} (h : NumeralChar c) : c.toLower = c := by
  rcases h with h | rfl | rfl | rfl | rfl
  · exact digit_lower h
  all_goals decide

theorem lower_of {t : List Char} (h : ∀ c ∈ t, c.toLower = c) : lower t = t := by
  rw [lower]
  conv_rhs => rw [← List.map_id t]
  exact List.map_congr_left h

theorem lower_numeral (x : Numeral) : lower x.text = x.text := lower_of fun c hc => numeralChar_lower (numeral_chars x c hc)

theorem lower_list (l : List Numeral) : lower (listText l) = listText l := lower_of fun c hc => by
  rcases list_chars l c hc with h | rfl | rfl | rfl
  · exact numeralChar_lower h
  all_goals decide

theorem lower_append (a b : List Char) : lower (a ++ b) = lower a ++ lower b := List.map_append ..

end Verif
