import Verif.Model.ParseString
import Verif.Spec.Numeral
import Mathlib.Tactic.Ring
import Mathlib.Tactic.IntervalCases
import Mathlib.Tactic.NormNum
import Mathlib.Tactic.FieldSimp

/-! Reading back what is written (C113): the lexical lemmas. -/

namespace Verif

open Parse NumSpec

theorem digit_not_white {c : Char} (h : c.isDigit = true) : isWhite c = false := by
  simp only [Char.isDigit, Bool.and_eq_true, decide_eq_true_eq] at h
  simp only [isWhite, Bool.or_eq_false_iff, beq_eq_false_iff_ne]
  refine ⟨⟨⟨?_, ?_⟩, ?_⟩, ?_⟩ <;> rintro rfl <;> revert h <;> decide

theorem digits_digit {n : ℕ} {c : Char} (h : c ∈ digits n) : c.isDigit = true := Nat.isDigit_of_mem_toDigits (by norm_num) (by norm_num) h

theorem digitChar_zero {d : ℕ} (h : d < 10) (h0 : d.digitChar = '0') : d = 0 := by
  interval_cases d <;> simp_all

/-- The notation of a positive whole number begins with a digit that is not 0. -/
theorem digits_pos (n : ℕ) (h : 0 < n) : ∃ c r, digits n = c :: r ∧ c ≠ '0' ∧ c.isDigit = true ∧ ∀ d ∈ r, d.isDigit = true := by
  induction n using Nat.strongRecOn with
  | ind n ih =>
    have hd : ∀ c ∈ digits n, c.isDigit = true := fun c hc => digits_digit hc
    by_cases hn : n < 10
    · have e : digits n = [n.digitChar] := Nat.toDigits_of_lt_base hn
      refine ⟨n.digitChar, [], e, fun h0 => ?_, hd _ (by rw [e]; simp), by simp⟩
      exact absurd (digitChar_zero hn h0) (by omega)
    · have e : digits n = digits (n / 10) ++ [(n % 10).digitChar] := by
        rw [digits, Nat.toDigits_eq_if (by norm_num), if_neg hn]
      obtain ⟨c, r, e', hc, hc', -⟩ := ih (n / 10) (by omega) (by omega)
      rw [e, e'] at hd
      exact ⟨c, r ++ [(n % 10).digitChar], by rw [e, e']; rfl, hc, hc', fun d hd' => hd d (by simp only [List.cons_append, List.mem_cons]; exact Or.inr hd')⟩

theorem digits_zero : digits 0 = ['0'] := rfl

theorem digits_ne_nil (n : ℕ) : digits n ≠ [] := by
  intro h
  have := Nat.length_toDigits_pos (b := 10) (n := n)
  rw [show Nat.toDigits 10 n = [] from h] at this
  simp at this

/-- The text does not begin with a digit. -/
def NoDigit (r : List Char) : Prop := ∀ c s, r = c :: s → c.isDigit = false
/-- The text begins with something that ends a decimal: not with white space, a digit or a point. -/
def Ends (r : List Char) : Prop := ∀ c s, r = c :: s → c.isDigit = false ∧ isWhite c = false ∧ c ≠ '.'
/-- … and not with an e either. -/
def EndsE (r : List Char) : Prop := ∀ c s, r = c :: s → c.isDigit = false ∧ isWhite c = false ∧ c ≠ '.' ∧ c ≠ 'e'

theorem ends_nil : EndsE [] := by intro c s h; cases h
theorem ends_cons (c : Char) (s : List Char) (h : c.isDigit = false ∧ isWhite c = false ∧ c ≠ '.' ∧ c ≠ 'e') : EndsE (c :: s) := by
  intro d t e
  cases e
  exact h

theorem EndsE.ends {r : List Char} (h : EndsE r) : Ends r := fun c s e => ⟨(h c s e).1, (h c s e).2.1, (h c s e).2.2.1⟩
theorem Ends.noDigit {r : List Char} (h : Ends r) : NoDigit r := fun c s e => (h c s e).1

theorem skip_cons {c : Char} (r : List Char) (h : isWhite c = false) : skip (c :: r) = c :: r := by
  simp [skip, h]

theorem skip_ends {r : List Char} (h : Ends r) : skip r = r := by
  cases r with
  | nil => rfl
  | cons c s => exact skip_cons s (h c s rfl).2.1

theorem takeWhile_digits {ds r : List Char} (hd : ∀ c ∈ ds, c.isDigit = true) (h : NoDigit r) :
    (ds ++ r).takeWhile Char.isDigit = ds ∧ (ds ++ r).dropWhile Char.isDigit = r := by
  induction ds with
  | nil =>
    cases r with
    | nil => exact ⟨rfl, rfl⟩
    | cons c s => simp [h c s rfl]
  | cons d ds ih =>
    obtain ⟨h1, h2⟩ := ih fun c hc => hd c (List.mem_cons_of_mem _ hc)
    have := hd d (List.mem_cons_self ..)
    simp [this, h1, h2]

theorem integer_digits (n : ℕ) {r : List Char} (h : NoDigit r) : integer (digits n ++ r) = some r := by
  rcases Nat.eq_zero_or_pos n with rfl | hn
  · rw [digits_zero]
    rfl
  · obtain ⟨c, s, e, hc, hc', hs⟩ := digits_pos n hn
    rw [e, List.cons_append]
    simp only [integer, skip_cons _ (digit_not_white hc')]
    rw [if_neg (by simpa using hc), if_pos hc', (takeWhile_digits hs h).2]

theorem lit_hit (c : Char) (r : List Char) (h : isWhite c = false) : lit [c] (c :: r) = some r := by
  simp [lit, skip_cons r h]

theorem lit_miss (c : Char) (r : List Char) (h : ∀ d s, skip r = d :: s → d ≠ c) : lit [c] r = none := by
  simp only [lit]
  rw [if_neg]
  intro hp
  cases hr : skip r with
  | nil => rw [hr] at hp; simp at hp
  | cons d s =>
    rw [hr] at hp
    simp at hp
    exact h d s hr hp.symm

theorem lit_miss_cons (c d : Char) (r : List Char) (hw : isWhite d = false) (h : d ≠ c) : lit [c] (d :: r) = none :=
  lit_miss c _ fun e s hs => by rw [skip_cons r hw] at hs; cases hs; exact h

theorem lit_miss_ends (c : Char) {r : List Char} (hr : Ends r) (h : ∀ d s, r = d :: s → d ≠ c) : lit [c] r = none :=
  lit_miss c _ fun e s hs => h e s (by rwa [skip_ends hr] at hs)

theorem point_noDigit (r : List Char) : NoDigit ('.' :: r) := by
  intro c s e
  cases e
  decide

theorem number_unsigned_text (d : Decimal) {r : List Char} (h : Ends r) : number_unsigned (d.text ++ r) = some r := by
  obtain ⟨n, _ | m⟩ := d
  · simp only [Decimal.text, List.append_nil, number_unsigned, alt, Parse.float, seq]
    rw [integer_digits n h.noDigit, Option.bind_some, lit_miss_ends '.' h fun d s e => (h d s e).2.2]
    rfl
  · simp only [Decimal.text, List.append_assoc, List.cons_append, number_unsigned, alt, Parse.float, seq]
    rw [integer_digits n (point_noDigit _), Option.bind_some, lit_hit '.' _ (by decide), Option.bind_some, integer_digits m h.noDigit]

/-- A decimal begins with a digit. -/
theorem decimal_head (d : Decimal) : ∃ c s, d.text = c :: s ∧ c.isDigit = true := by
  cases hd : digits d.whole with
  | nil => exact absurd hd (digits_ne_nil _)
  | cons c s =>
    have hc : c.isDigit = true := digits_digit (n := d.whole) (by rw [hd]; exact List.mem_cons_self ..)
    unfold Decimal.text
    rw [hd]
    exact ⟨c, s ++ _, rfl, hc⟩

theorem digit_ne {c e : Char} (h : c.isDigit = true) (he : e.isDigit = false) : c ≠ e := by
  rintro rfl
  rw [h] at he
  cases he

/-- The part of a numeral before its exponent. -/
def signed (x : Numeral) : List Char := (if x.neg then ['-'] else []) ++ x.mant.text
/-- The exponent of a numeral. -/
def expText (x : Numeral) : List Char := match x.exp with
  | none => []
  | some (minus, d) => 'e' :: (if minus then '-' else '+') :: d.text

theorem text_eq (x : Numeral) : x.text = signed x ++ expText x := rfl

theorem number_signed_text (x : Numeral) {r : List Char} (h : Ends r) : number_signed (signed x ++ r) = some r := by
  obtain ⟨neg, d, e⟩ := x
  cases neg with
  | false =>
    simp only [signed, Bool.false_eq_true, if_false, List.nil_append, number_signed, alt, seq]
    obtain ⟨c, s, ec, hc⟩ := decimal_head d
    rw [lit_miss '-' _ fun d' s' hs => by
      rw [ec, List.cons_append, skip_cons _ (digit_not_white hc)] at hs
      cases hs
      exact digit_ne hc (by decide)]
    exact number_unsigned_text d h
  | true =>
    simp only [signed, if_true, List.cons_append, List.nil_append, number_signed, alt, seq]
    rw [lit_hit '-' _ (by decide), Option.bind_some, number_unsigned_text d h]

theorem e_ends (r : List Char) : Ends ('e' :: r) := by
  intro c s e
  cases e
  decide

/-- Where a numeral is written, the grammar reads a number. -/
theorem number_text (x : Numeral) {r : List Char} (h : EndsE r) : number (x.text ++ r) = some r := by
  rw [text_eq, List.append_assoc]
  cases hx : x.exp with
  | none =>
    have e : expText x = [] := by simp [expText, hx]
    have hl : lit ['e'] r = none := lit_miss_ends 'e' h.ends fun d s e => (h d s e).2.2.2
    simp only [e, List.nil_append, number, alt, number_scientific, number_pos_scientific, number_neg_scientific, seq, number_signed_text x h.ends,
      Option.bind_some, hl, Option.bind_none]
  | some p =>
    obtain ⟨minus, d⟩ := p
    cases minus with
    | false =>
      have e : expText x = 'e' :: '+' :: d.text := by simp [expText, hx]
      simp only [e, List.cons_append, number, alt, number_scientific, number_pos_scientific, seq, number_signed_text x (e_ends _), Option.bind_some,
        lit_hit 'e' _ (show isWhite 'e' = false by decide), lit_hit '+' _ (show isWhite '+' = false by decide), number_unsigned_text d h.ends]
    | true =>
      have e : expText x = 'e' :: '-' :: d.text := by simp [expText, hx]
      simp only [e, List.cons_append, number, alt, number_scientific, number_pos_scientific, number_neg_scientific, seq,
        number_signed_text x (e_ends _), Option.bind_some, lit_hit 'e' _ (show isWhite 'e' = false by decide),
        lit_miss_cons '+' '-' _ (show isWhite '-' = false by decide) (by decide), Option.bind_none,
        lit_hit '-' _ (show isWhite '-' = false by decide), number_unsigned_text d h.ends]

/-! Reading the value. -/

theorem ofDigitChars_digits (n : ℕ) : Nat.ofDigitChars 10 (digits n) 0 = n := Nat.ofDigitChars_ten_toDigits

theorem ofDigitChars_init (l : List Char) (a : ℕ) : Nat.ofDigitChars 10 l a = a * 10 ^ l.length + Nat.ofDigitChars 10 l 0 := by
  induction l generalizing a with
  | nil => simp [Nat.ofDigitChars]
  | cons c l ih =>
    simp only [Nat.ofDigitChars, List.foldl_cons] at ih ⊢
    rw [ih, ih (10 * 0 + _), List.length_cons, pow_succ]
    ring

theorem ofDigitChars_append (l m : List Char) :
    Nat.ofDigitChars 10 (l ++ m) 0 = Nat.ofDigitChars 10 l 0 * 10 ^ m.length + Nat.ofDigitChars 10 m 0 := by
  rw [← ofDigitChars_init]
  simp [Nat.ofDigitChars]

/-- What `strtod` makes of an exponent. -/
def expPart (x : Numeral) : ℤ := match x.exp with
  | none => 0
  | some (true, d) => -(d.whole : ℤ)
  | some (false, d) => d.whole
/-- What `strtod` leaves of an exponent that is not whole. -/
def expRest (x : Numeral) : List Char := match x.exp with
  | none => []
  | some (_, d) => match d.frac with
    | none => []
    | some m => '.' :: digits m

theorem decimal_take (d : Decimal) {r : List Char} (h : NoDigit r) :
    (d.text ++ r).takeWhile Char.isDigit = digits d.whole ∧
      (d.text ++ r).dropWhile Char.isDigit = (match d.frac with | none => [] | some m => '.' :: digits m) ++ r := by
  obtain ⟨n, _ | m⟩ := d
  · simpa [Decimal.text] using takeWhile_digits (fun c hc => digits_digit (n := n) hc) h
  · simpa [Decimal.text] using takeWhile_digits (fun c hc => digits_digit (n := n) hc) (point_noDigit (digits m ++ r))

theorem exponent_text (x : Numeral) {r : List Char} (h : EndsE r) : exponent (expText x ++ r) = (expPart x, expRest x ++ r) := by
  cases hx : x.exp with
  | none =>
    have e : expText x = [] := by simp [expText, hx]
    have e1 : expPart x = 0 := by simp [expPart, hx]
    have e2 : expRest x = [] := by simp [expRest, hx]
    rw [e, e1, e2, List.nil_append]
    cases r with
    | nil => rfl
    | cons c s =>
      simp only [exponent]
      rw [if_neg (by simpa using (h c s rfl).2.2.2)]
  | some p =>
    obtain ⟨minus, d⟩ := p
    have e : expText x = 'e' :: (if minus then '-' else '+') :: d.text := by simp [expText, hx]
    have e2 : expRest x = match d.frac with | none => [] | some m => '.' :: digits m := by simp only [expRest, hx]
    obtain ⟨h1, h2⟩ := decimal_take d h.ends.noDigit
    have e3 : expPart x = if minus then -(d.whole : ℤ) else d.whole := by cases minus <;> simp [expPart, hx]
    rw [e, e2, e3, List.cons_append, List.cons_append]
    cases minus <;>
      simp only [exponent, Bool.false_eq_true, if_false, if_true, beq_self_eq_true, Bool.or_true, Bool.true_or, h1, h2, digits_ne_nil,
        ofDigitChars_digits] <;> simp

theorem fraction_text (o : Option ℕ) {r : List Char} (h : Ends r) :
    fraction ((match o with | none => [] | some m => '.' :: digits m) ++ r) = ((match o with | none => [] | some m => digits m), r) := by
  cases o with
  | none =>
    cases r with
    | nil => rfl
    | cons c s =>
      simp only [List.nil_append, fraction]
      rw [if_neg (by simpa using (h c s rfl).2.2)]
  | some m =>
    obtain ⟨h1, h2⟩ := takeWhile_digits (fun c hc => digits_digit (n := m) hc) h.noDigit
    simp [fraction, h1, h2]

theorem expText_ends (x : Numeral) {r : List Char} (h : EndsE r) : Ends (expText x ++ r) := by
  cases hx : x.exp with
  | none => simpa [expText, hx] using h.ends
  | some p => simpa [expText, hx] using e_ends _

theorem magnitude_text (x : Numeral) {r : List Char} (h : EndsE r) :
    magnitude (x.mant.text ++ (expText x ++ r)) = some (x.mant.value * (10 : ℝ) ^ expPart x, expRest x ++ r) := by
  have he := expText_ends x h
  obtain ⟨h1, h2⟩ := decimal_take x.mant he.noDigit
  simp only [magnitude, h1, h2, fraction_text _ he, exponent_text x h]
  rw [if_neg (by simp [digits_ne_nil])]
  congr 3
  rw [ofDigitChars_append, ofDigitChars_digits, Decimal.value]
  cases x.mant.frac with
  | none => simp [Nat.ofDigitChars]
  | some m =>
    simp only [ofDigitChars_digits]
    push_cast
    field_simp

theorem value_eq (x : Numeral) : x.value = (if x.neg then -1 else 1) * (x.mant.value * (10 : ℝ) ^ expPart x) := by
  obtain ⟨neg, d, _ | ⟨_ | _, e⟩⟩ := x <;> simp [Numeral.value, expPart] <;> ring

/-- Where a numeral is written, `strtod` reads its value; of an exponent that is not whole it leaves the fraction. -/
theorem strtod_text (x : Numeral) {r : List Char} (h : EndsE r) : strtod (x.text ++ r) = some (x.value, expRest x ++ r) := by
  rw [text_eq, List.append_assoc, signed, value_eq]
  cases hn : x.neg with
  | true =>
    simp only [if_true, List.cons_append, List.nil_append, List.append_assoc, strtod, skip_cons _ (show isWhite '-' = false by decide),
      beq_self_eq_true, magnitude_text x h, Option.map_some]
    simp
  | false =>
    obtain ⟨c, s, ec, hc⟩ := decimal_head x.mant
    have hm := magnitude_text x h
    simp only [Bool.false_eq_true, if_false, List.nil_append, List.append_assoc]
    rw [ec, List.cons_append] at hm ⊢
    simp only [strtod, skip_cons _ (digit_not_white hc)]
    rw [if_neg (by simpa using digit_ne hc (by decide)), if_neg (by simpa using digit_ne hc (by decide)), hm]
    simp

theorem expRest_sound {x : Numeral} (h : x.Sound) : expRest x = [] := by
  cases hx : x.exp with
  | none => simp [expRest, hx]
  | some p =>
    obtain ⟨b, d⟩ := p
    have := h _ hx
    simp only [expRest, hx]
    simp only at this
    rw [this]

theorem expRest_unsound {x : Numeral} (h : ¬ x.Sound) : ∃ s, expRest x = '.' :: s := by
  cases hx : x.exp with
  | none => exact absurd (fun e he => by rw [hx] at he; cases he) h
  | some p =>
    obtain ⟨b, d⟩ := p
    cases hd : d.frac with
    | none => exact absurd (fun e he => by rw [hx] at he; cases he; exact hd) h
    | some m => exact ⟨digits m, by simp only [expRest, hx, hd]⟩

/-- `float` of a numeral is its value. -/
theorem pyFloat_text {x : Numeral} (h : x.Sound) : pyFloat x.text = .ok x.value := by
  have := strtod_text x ends_nil
  rw [List.append_nil, List.append_nil, expRest_sound h] at this
  simp [pyFloat, this]

/-- `float` of a numeral whose exponent is not whole is a ValueError. -/
theorem pyFloat_unsound {x : Numeral} (h : ¬ x.Sound) : pyFloat x.text = .error .valueError := by
  have := strtod_text x ends_nil
  obtain ⟨s, e⟩ := expRest_unsound h
  rw [List.append_nil, List.append_nil, e] at this
  simp only [pyFloat, this]
  rw [if_neg (by simp [isWhite])]

end Verif
