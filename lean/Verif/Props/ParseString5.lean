import Verif.Props.ParseString4

/-! C114 and C115: what is refused, what is misread, and which numbers can be written. -/

namespace Verif

open Parse NumSpec

theorem assertion_of_check {draw : V3} {s : List Char} (h : QuatS.check_string (lower s) = false) :
    QuatS.from_string draw s = .error .assertionError := by
  simp [QuatS.from_string, h, check, bind, Except.bind]

/-- Without white space nothing outside the grammar is read: `from_string` gives the quaternion the text denotes, or raises.  Missing from the full
claim: with white space, or where an exponent is not a whole number, a text may be read as something else (C114_misread, C114_trailing). -/
theorem C114_reads_partial (draw : V3) (s : List Char) (hw : WhiteFree (lower s)) (q : Quat) (h : QuatS.from_string draw s = .ok q) :
    (lower s = "identity".toList ∧ q = ⟨1, 0, 0, 0⟩) ∨
    (∃ x : Numeral, x.Sound ∧
      ((lower s = "rx:".toList ++ x.text ∧ q = ⟨Real.cos (x.value * Real.pi / 360), Real.sin (x.value * Real.pi / 360), 0, 0⟩) ∨
       (lower s = "ry:".toList ++ x.text ∧ q = ⟨Real.cos (x.value * Real.pi / 360), 0, Real.sin (x.value * Real.pi / 360), 0⟩) ∨
       (lower s = "rz:".toList ++ x.text ∧ q = ⟨Real.cos (x.value * Real.pi / 360), 0, 0, Real.sin (x.value * Real.pi / 360)⟩))) ∨
    (∃ x a b c : Numeral, ∃ rest, x.Sound ∧ a.Sound ∧ b.Sound ∧ lower s = "ru:".toList ++ x.text ++ ":".toList ++ listText (a :: b :: c :: rest) ∧
      q = Quat.Ru (x.value * Real.pi / 180) ⟨a.value, b.value, c.value⟩) ∨
    (∃ a b c d : Numeral, ∃ rest, a.Sound ∧ b.Sound ∧ c.Sound ∧ lower s = listText (a :: b :: c :: d :: rest) ∧
      q = ⟨a.value, b.value, c.value, d.value⟩) := by
  have hc : QuatS.check_string (lower s) = true := by
    by_contra hn
    rw [assertion_of_check (by simpa using hn)] at h
    cases h
  have hq := (C114_language _ hw).1.1 hc
  generalize he : lower s = t at hq
  cases hq with
  | identity =>
    rw [C113_identity draw s he] at h
    cases h
    exact Or.inl ⟨rfl, rfl⟩
  | rx x =>
    refine Or.inr (Or.inl ⟨x, ?_⟩)
    by_cases hx : x.Sound
    · rw [(C113_rotation draw s x hx).1 he] at h
      cases h
      exact ⟨hx, Or.inl ⟨rfl, rfl⟩⟩
    · rw [from_string_rotation draw 'x' (by simp) s x he, pyFloat_unsound hx] at h
      cases h
  | ry x =>
    refine Or.inr (Or.inl ⟨x, ?_⟩)
    by_cases hx : x.Sound
    · rw [(C113_rotation draw s x hx).2.1 he] at h
      cases h
      exact ⟨hx, Or.inr (Or.inl ⟨rfl, rfl⟩)⟩
    · rw [from_string_rotation draw 'y' (by simp) s x he, pyFloat_unsound hx] at h
      cases h
  | rz x =>
    refine Or.inr (Or.inl ⟨x, ?_⟩)
    by_cases hx : x.Sound
    · rw [(C113_rotation draw s x hx).2.2 he] at h
      cases h
      exact ⟨hx, Or.inr (Or.inr ⟨rfl, rfl⟩)⟩
    · rw [from_string_rotation draw 'z' (by simp) s x he, pyFloat_unsound hx] at h
      cases h
  | ru x l hl =>
    refine Or.inr (Or.inr (Or.inl ?_))
    have he' : lower s = ['r', 'u', ':'] ++ (x.text ++ ':' :: listText l) := by rw [he]; simp
    rw [from_string_ru draw s x hl he'] at h
    by_cases hx : x.Sound
    · rw [pyFloat_text hx] at h
      rcases l with _ | ⟨a, _ | ⟨b, _ | ⟨c, rest⟩⟩⟩
      · exact absurd rfl hl
      · rw [first3_short (lt_of_le_of_lt (readList_length _) (by simp))] at h
        cases h
      · rw [first3_short (lt_of_le_of_lt (readList_length _) (by simp))] at h
        cases h
      · by_cases ha : a.Sound
        · by_cases hb : b.Sound
          · refine ⟨x, a, b, c, rest, hx, ha, hb, rfl, ?_⟩
            by_cases hc' : c.Sound
            all_goals
              simp [readList, ha, hb, hc', V3S.first3, bind, Except.bind, pure, Except.pure] at h
              rw [← h]
              rfl
          · simp [readList, ha, hb, V3S.first3, bind, Except.bind] at h
        · simp [readList, ha, V3S.first3, bind, Except.bind] at h
    · rw [pyFloat_unsound hx] at h
      cases h
  | array l hl =>
    refine Or.inr (Or.inr (Or.inr ?_))
    rw [from_string_list draw s hl he] at h
    rcases l with _ | ⟨a, _ | ⟨b, _ | ⟨c, _ | ⟨d, rest⟩⟩⟩⟩
    · exact absurd rfl hl
    · rw [first4_short (lt_of_le_of_lt (readList_length _) (by simp))] at h
      cases h
    · rw [first4_short (lt_of_le_of_lt (readList_length _) (by simp))] at h
      cases h
    · rw [first4_short (lt_of_le_of_lt (readList_length _) (by simp))] at h
      cases h
    · by_cases ha : a.Sound
      · by_cases hb : b.Sound
        · by_cases hc' : c.Sound
          · refine ⟨a, b, c, d, rest, ha, hb, hc', rfl, ?_⟩
            by_cases hd : d.Sound
            all_goals
              simp [readList, ha, hb, hc', hd, QuatS.first4] at h
              rw [← h]
          · simp [readList, ha, hb, hc', QuatS.first4] at h
        · simp [readList, ha, hb, QuatS.first4] at h
      · simp [readList, ha, QuatS.first4] at h

/-- The whole claim fails: "[0,0,0,1e+2.5]" is accepted and read as (0, 0, 0, 100); the fraction of the exponent is dropped without an error. -/
theorem C114_misread (draw : V3) :
    QuatS.check_string "[0,0,0,1e+2.5]".toList = true ∧ QuatS.from_string draw "[0,0,0,1e+2.5]".toList = .ok ⟨0, 0, 0, 100⟩ := by
  have e : "[0,0,0,1e+2.5]".toList = listText [nat 0, nat 0, nat 0, ⟨false, ⟨1, none⟩, some (false, ⟨2, some 5⟩)⟩] := by decide
  have h0 : (nat 0).Sound := by intro e he; simp [nat] at he
  have h1 : ¬ (⟨false, ⟨1, none⟩, some (false, ⟨2, some 5⟩)⟩ : Numeral).Sound := by
    intro h
    have := h _ rfl
    simp at this
  rw [e]
  refine ⟨?_, ?_⟩
  · rw [QuatS.check_string, array_check_text (by simp)]
    simp
  · rw [from_string_list draw _ (by simp) (lower_list _)]
    simp only [readList, h0, h1, if_true, if_false, QuatS.first4]
    simp [nat, Numeral.value, Decimal.value]
    norm_num

theorem fromstring_step {x : Numeral} (hx : x.Sound) (t : List Char) : fromstring (x.text ++ ',' :: t) = x.value :: fromstring t := by
  have hs := strtod_text x (comma_ends t)
  rw [expRest_sound hx, List.nil_append] at hs
  rw [fromstring, hs]
  simp only [skip_cons t (show isWhite ',' = false by decide), beq_self_eq_true, if_true]
  rw [if_pos (by simp only [List.length_append, List.length_cons]; omega)]

/-- A list is read even if anything at all follows on the next line: nothing after the first newline is looked at. -/
theorem C114_trailing (draw : V3) (s junk : List Char) (a b c d : Numeral) (ha : a.Sound) (hb : b.Sound) (hc : c.Sound) (hd : d.Sound)
    (hs : lower s = listText [a, b, c, d] ++ '\n' :: junk) : QuatS.from_string draw s = .ok ⟨a.value, b.value, c.value, d.value⟩ := by
  have hl := list_text (l := [a, b, c, d]) (by simp) ('\n' :: junk)
  have harr : array_check (listText [a, b, c, d] ++ '\n' :: junk) = true := by
    simp only [array_check, seq, hl, Option.bind_some]
    rfl
  have hck : QuatS.check_string (listText [a, b, c, d] ++ '\n' :: junk) = true := by
    rw [QuatS.check_string, harr]
    simp
  obtain ⟨j, hj⟩ : ∃ j, strip ['[', ']'] (listText [a, b, c, d] ++ '\n' :: junk) = commas [a, b, c, d] ++ ']' :: j := by
    obtain ⟨ch, t, e, hch⟩ := commas_head (l := [a, b, c, d]) (by simp)
    have hn : ch ∉ ['[', ']'] := notin_of_digit hch (by decide)
    have e1 : (listText [a, b, c, d] ++ '\n' :: junk).dropWhile (['[', ']'] : List Char).contains = commas [a, b, c, d] ++ ']' :: '\n' :: junk := by
      have : listText [a, b, c, d] ++ '\n' :: junk = ['['] ++ (commas [a, b, c, d] ++ ']' :: '\n' :: junk) := by simp [listText]
      rw [this, dropWhile_all _ (by simp), e]
      rw [List.cons_append, List.dropWhile_cons_of_neg (by simpa using hn)]
    rw [strip, e1]
    have key : ∀ j : List Char, ∃ j', (commas [a, b, c, d] ++ ']' :: '\n' :: j).rdropWhile (['[', ']'] : List Char).contains =
        commas [a, b, c, d] ++ ']' :: j' := by
      intro j
      induction j using List.reverseRecOn with
      | nil =>
        refine ⟨['\n'], ?_⟩
        have : commas [a, b, c, d] ++ [']', '\n'] = (commas [a, b, c, d] ++ [']']) ++ ['\n'] := by simp
        rw [this, List.rdropWhile_concat_neg _ _ _ (by decide)]
      | append_singleton j ch ih =>
        have e2 : commas [a, b, c, d] ++ ']' :: '\n' :: (j ++ [ch]) = (commas [a, b, c, d] ++ ']' :: '\n' :: j) ++ [ch] := by simp
        rw [e2]
        by_cases hch : (['[', ']'] : List Char).contains ch = true
        · rw [List.rdropWhile_concat_pos _ _ _ hch]
          exact ih
        · rw [List.rdropWhile_concat_neg _ _ _ hch]
          exact ⟨'\n' :: (j ++ [ch]), by simp⟩
    exact key junk
  have hf : fromstring (commas [a, b, c, d] ++ ']' :: j) = [a.value, b.value, c.value, d.value] := by
    have e : commas [a, b, c, d] ++ ']' :: j = a.text ++ ',' :: (b.text ++ ',' :: (c.text ++ ',' :: (d.text ++ ']' :: j))) := by simp [commas]
    rw [e, fromstring_step ha, fromstring_step hb, fromstring_step hc]
    have hsd := strtod_text d (close_ends j)
    rw [expRest_sound hd, List.nil_append] at hsd
    rw [fromstring, hsd]
    simp only [skip_cons j (show isWhite ']' = false by decide)]
    simp
  have hb' : ∀ x t, (['r', x, ':'] : List Char).isPrefixOf ('[' :: t) = false := fun x t => rfl
  simp only [QuatS.from_string, hs, hck, check, if_true, hj, hf]
  simp only [listText_cons, List.cons_append, hb', Bool.false_eq_true, if_false]
  simp [bind, Except.bind, QuatS.first4]

/-- White space inside a numeral passes the check; a list that has it is read up to there, here as (0, 0, 0, 1). -/
theorem C114_blank (draw : V3) :
    QuatS.check_string "[0,0,0,1 . 5]".toList = true ∧ QuatS.from_string draw "[0,0,0,1 . 5]".toList = .ok ⟨0, 0, 0, 1⟩ := by
  have h0 : (nat 0).Sound := by intro e he; simp [nat] at he
  have t0 : (nat 0).text = ['0'] := rfl
  have hn : ∀ r, number (['0'] ++ ',' :: r) = some (',' :: r) := fun r => number_text (nat 0) (comma_ends r)
  have hlast : number ['1', ' ', '.', ' ', '5', ']'] = some [']'] := by decide
  have hmore : more [',', '0', ',', '0', ',', '1', ' ', '.', ' ', '5', ']'] = [']'] := by
    have step : ∀ r, more (',' :: '0' :: ',' :: r) = more (',' :: r) := by
      intro r
      conv_lhs => rw [more]
      have : (lit [','] >+ number) (',' :: '0' :: ',' :: r) = some (',' :: r) := by
        simp only [seq, lit_hit ',' _ (show isWhite ',' = false by decide), Option.bind_some]
        exact hn r
      rw [this]
      simp only
      rw [if_pos (by simp)]
    rw [step, step, more]
    have : (lit [','] >+ number) [',', '1', ' ', '.', ' ', '5', ']'] = some [']'] := by
      simp only [seq, lit_hit ',' _ (show isWhite ',' = false by decide), Option.bind_some]
      exact hlast
    rw [this]
    simp only
    rw [if_pos (by simp)]
    exact more_tail [] []
  have hs : "[0,0,0,1 . 5]".toList = ['[', '0', ',', '0', ',', '0', ',', '1', ' ', '.', ' ', '5', ']'] := rfl
  have hlow : lower ['[', '0', ',', '0', ',', '0', ',', '1', ' ', '.', ' ', '5', ']'] =
      ['[', '0', ',', '0', ',', '0', ',', '1', ' ', '.', ' ', '5', ']'] := rfl
  have harr : array_check ['[', '0', ',', '0', ',', '0', ',', '1', ' ', '.', ' ', '5', ']'] = true := by
    have h1 : number ['0', ',', '0', ',', '0', ',', '1', ' ', '.', ' ', '5', ']'] = some [',', '0', ',', '0', ',', '1', ' ', '.', ' ', '5', ']'] :=
      hn _
    simp only [array_check, list, seq, lit_hit '[' _ (show isWhite '[' = false by decide), Option.bind_some, h1, hmore]
    rfl
  have hck : QuatS.check_string ['[', '0', ',', '0', ',', '0', ',', '1', ' ', '.', ' ', '5', ']'] = true := by
    rw [QuatS.check_string, harr]
    simp
  rw [hs]
  refine ⟨hck, ?_⟩
  have hst : strip ['[', ']'] ['[', '0', ',', '0', ',', '0', ',', '1', ' ', '.', ' ', '5', ']'] = ['0', ',', '0', ',', '0', ',', '1', ' ', '.', ' ', '5'] := rfl
  have hf : fromstring ['0', ',', '0', ',', '0', ',', '1', ' ', '.', ' ', '5'] = [0, 0, 0, 1] := by
    have step : ∀ r, fromstring ('0' :: ',' :: r) = 0 :: fromstring r := by
      intro r
      have := fromstring_step h0 r
      rw [t0] at this
      simpa [nat, Numeral.value, Decimal.value] using this
    rw [step, step, step]
    have hl : strtod ['1', ' ', '.', ' ', '5'] = some (1, [' ', '.', ' ', '5']) := by
      have h1 : Nat.ofDigitChars 10 ['1'] 0 = 1 := rfl
      simp [strtod, skip, isWhite, magnitude, fraction, exponent, h1, List.takeWhile, List.dropWhile, Char.isDigit]
    rw [fromstring, hl]
    simp [skip, isWhite]
  simp only [QuatS.from_string, hlow, hck, check, if_true, hst, hf]
  simp [bind, Except.bind, QuatS.first4]

/-- Every whole number times a power of ten can be written so that `from_string` reads it: what is missing from "the notation `str` gives a number is
accepted" is shown by C115_not_str. -/
theorem C115_writable_partial (draw : V3) (m k : ℤ) :
    ∃ text : List Char, QuatS.from_string draw ("rx:".toList ++ text) = .ok (Quat.Rx ((m * (10 : ℝ) ^ k) * Real.pi / 180)) := by
  refine ⟨Numeral.text ⟨decide (m < 0), ⟨m.natAbs, none⟩, some (decide (k < 0), ⟨k.natAbs, none⟩)⟩, ?_⟩
  have hx : (⟨decide (m < 0), ⟨m.natAbs, none⟩, some (decide (k < 0), ⟨k.natAbs, none⟩)⟩ : Numeral).Sound := by
    intro e he
    cases he
    rfl
  rw [(C113_rotation draw _ _ hx).1 (by rw [lower_append, lower_numeral]; rfl)]
  have hv : (⟨decide (m < 0), ⟨m.natAbs, none⟩, some (decide (k < 0), ⟨k.natAbs, none⟩)⟩ : Numeral).value = m * (10 : ℝ) ^ k := by
    rw [value_eq]
    have h1 : (if decide (m < 0) = true then (-1 : ℝ) else 1) * (m.natAbs : ℝ) = m := by
      rcases lt_or_ge m 0 with h | h
      · simp only [h, decide_true, if_true]
        have : (m.natAbs : ℤ) = -m := Int.ofNat_natAbs_of_nonpos h.le
        have h' : (m.natAbs : ℝ) = -(m : ℝ) := by
          have := congrArg (Int.cast : ℤ → ℝ) this
          rwa [Int.cast_natCast, Int.cast_neg] at this
        rw [h']
        ring
      · simp only [not_lt.2 h, decide_false, Bool.false_eq_true, if_false, one_mul]
        have := congrArg (Int.cast : ℤ → ℝ) (Int.natAbs_of_nonneg h)
        rwa [Int.cast_natCast] at this
    have h2 : expPart ⟨decide (m < 0), ⟨m.natAbs, none⟩, some (decide (k < 0), ⟨k.natAbs, none⟩)⟩ = k := by
      unfold expPart
      rcases lt_or_ge k 0 with h | h
      · simp only [h, decide_true]
        rw [Int.ofNat_natAbs_of_nonpos h.le]
        ring
      · simp only [not_lt.2 h, decide_false]
        exact Int.natAbs_of_nonneg h
    rw [h2]
    simp only [Decimal.value, add_zero]
    rw [← mul_assoc, h1]
  rw [hv]
  simp only [Quat.Rx]
  congr 2 <;> ring_nf

/-- What `str` and `repr` write for 1.05, 1e+05 (as `1e5` by hand) and 0.00001 is refused: a fraction or an exponent that begins with 0, and an
exponent without sign. -/
theorem C115_not_str (draw : V3) : QuatS.from_string draw "rx:1.05".toList = .error .assertionError ∧
    QuatS.from_string draw "rx:1e5".toList = .error .assertionError ∧ QuatS.from_string draw "rx:1e-05".toList = .error .assertionError ∧
    QuatS.from_string draw "rx:+5".toList = .error .assertionError := by
  refine ⟨assertion_of_check ?_, assertion_of_check ?_, assertion_of_check ?_, assertion_of_check ?_⟩ <;> decide

/-- The hypotheses are met: a text without white space that is read, and a list with something behind it. -/
theorem C114_example (draw : V3) : WhiteFree (lower "RY:30".toList) ∧ (∃ q, QuatS.from_string draw "RY:30".toList = .ok q) ∧
    QuatS.from_string draw "[1,0,0,0]\nRZ:90 or whatever".toList = .ok ⟨1, 0, 0, 0⟩ := by
  have hn : ∀ n, (nat n).Sound := by
    intro n e he
    simp [nat] at he
  refine ⟨by unfold WhiteFree; decide, ⟨_, (C113_rotation draw _ (nat 30) (hn 30)).2.1 (by decide)⟩, ?_⟩
  have := C114_trailing draw "[1,0,0,0]\nRZ:90 or whatever".toList "rz:90 or whatever".toList (nat 1) (nat 0) (nat 0) (nat 0) (hn 1) (hn 0) (hn 0) (hn 0)
    (by decide)
  simpa [nat, Numeral.value, Decimal.value] using this

end Verif
