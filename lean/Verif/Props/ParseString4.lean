import Verif.Props.ParseString3

/-! C114: which strings `check_string` and `from_string` accept. -/

namespace Verif

open Parse NumSpec

/-- No white space. -/
def WhiteFree (s : List Char) : Prop := ∀ c ∈ s, isWhite c = false

theorem WhiteFree.skip {s : List Char} (h : WhiteFree s) : skip s = s := by
  cases s with
  | nil => rfl
  | cons c s => exact skip_cons s (h c (by simp))

theorem WhiteFree.suffix {a b : List Char} (h : WhiteFree (a ++ b)) : WhiteFree b := fun c hc => h c (by simp [hc])

/-- A string of digits that does not begin with 0 is the notation of a number. -/
theorem exists_digits (c : Char) (ds : List Char) (hc : c.isDigit = true) (h0 : c ≠ '0') (hd : ∀ d ∈ ds, d.isDigit = true) :
    ∃ n, 0 < n ∧ c :: ds = digits n := by
  have key : ∀ d : Char, d.isDigit = true → ∃ m, m < 10 ∧ [d] = digits m ∧ (d ≠ '0' → 0 < m) := by
    intro d hd
    simp only [Char.isDigit, Bool.and_eq_true, decide_eq_true_eq] at hd
    have h1 := hd.1
    have h2 := hd.2
    rw [ge_iff_le, UInt32.le_iff_toNat_le] at h1
    rw [UInt32.le_iff_toNat_le] at h2
    have e1 : '0'.val.toNat = 48 := rfl
    have e2 : '9'.val.toNat = 57 := rfl
    rw [e1] at h1
    rw [e2] at h2
    obtain ⟨m, hm⟩ : ∃ m, d.val.toNat = 48 + m := ⟨d.val.toNat - 48, by omega⟩
    have hm10 : m < 10 := by omega
    have hd' : d = Char.ofNat (48 + m) := by
      rw [← hm]
      exact (Char.ofNat_toNat d).symm
    refine ⟨m, hm10, ?_, fun h => ?_⟩
    · rw [hd']
      interval_cases m <;> rfl
    · rcases Nat.eq_zero_or_pos m with rfl | h'
      · exact absurd hd' h
      · exact h'
  induction ds using List.reverseRecOn with
  | nil =>
    obtain ⟨m, -, e, h⟩ := key c hc
    exact ⟨m, h h0, e⟩
  | append_singleton ds d ih =>
    obtain ⟨n, hn, e⟩ := ih fun d hd' => hd d (by simp [hd'])
    obtain ⟨m, hm, e', -⟩ := key d (hd d (by simp))
    refine ⟨10 * n + m, by omega, ?_⟩
    rw [← List.cons_append, e, e']
    exact Nat.toDigits_append_toDigits (by norm_num) hn hm

theorem integer_sound {t r : List Char} (hw : WhiteFree t) (h : integer t = some r) : ∃ n, t = digits n ++ r := by
  rw [integer, hw.skip] at h
  cases t with
  | nil => cases h
  | cons c t =>
    simp only at h
    split_ifs at h with h0 hc
    · cases h
      exact ⟨0, by rw [digits_zero]; simp at h0; rw [h0]; rfl⟩
    · cases h
      obtain ⟨n, -, e⟩ := exists_digits c (t.takeWhile Char.isDigit) hc (by simpa using h0) fun d hd => List.mem_takeWhile_imp hd
      exact ⟨n, by rw [← e, List.cons_append, List.takeWhile_append_dropWhile]⟩

theorem lit_sound {c : Char} {t r : List Char} (hw : WhiteFree t) (h : lit [c] t = some r) : t = c :: r := by
  rw [lit, hw.skip] at h
  split_ifs at h with hp
  obtain ⟨s, rfl⟩ := List.isPrefixOf_iff_prefix.1 hp
  cases h
  simp

theorem seq_some {a b : Parser} {t r : List Char} (h : seq a b t = some r) : ∃ m, a t = some m ∧ b m = some r := Option.bind_eq_some_iff.1 h

theorem alt_some {a b : Parser} {t r : List Char} (h : alt a b t = some r) : a t = some r ∨ b t = some r := by
  unfold alt at h
  split at h
  · rename_i m hm
    cases h
    exact Or.inl hm
  · exact Or.inr h

theorem number_unsigned_sound {t r : List Char} (hw : WhiteFree t) (h : number_unsigned t = some r) : ∃ d : Decimal, t = d.text ++ r := by
  rcases alt_some h with h | h
  · obtain ⟨m1, h1, h3⟩ := seq_some h
    obtain ⟨m2, h1, h2⟩ := seq_some h1
    obtain ⟨n, rfl⟩ := integer_sound hw h1
    have e := lit_sound hw.suffix h2
    subst e
    have hw2 : WhiteFree (['.'] ++ m1) := hw.suffix
    obtain ⟨m, rfl⟩ := integer_sound hw2.suffix h3
    exact ⟨⟨n, some m⟩, by simp [Decimal.text]⟩
  · obtain ⟨n, rfl⟩ := integer_sound hw h
    exact ⟨⟨n, none⟩, by simp [Decimal.text]⟩

theorem number_signed_sound {t r : List Char} (hw : WhiteFree t) (h : number_signed t = some r) :
    ∃ (neg : Bool) (d : Decimal), t = (if neg then ['-'] else []) ++ d.text ++ r := by
  rcases alt_some h with h | h
  · obtain ⟨m, h1, h2⟩ := seq_some h
    have e := lit_sound hw h1
    subst e
    have hw' : WhiteFree (['-'] ++ m) := hw
    obtain ⟨d, rfl⟩ := number_unsigned_sound hw'.suffix h2
    exact ⟨true, d, by simp⟩
  · obtain ⟨d, rfl⟩ := number_unsigned_sound hw h
    exact ⟨false, d, by simp⟩

/-- What the grammar reads as a number is a numeral. -/
theorem number_sound {t r : List Char} (hw : WhiteFree t) (h : number t = some r) : ∃ x : Numeral, t = x.text ++ r := by
  have sci : ∀ (sign : Char), (number_signed >+ lit ['e'] >+ lit [sign] >+ number_unsigned) t = some r →
      ∃ (neg : Bool) (d e : Decimal), t = (if neg then ['-'] else []) ++ d.text ++ 'e' :: sign :: e.text ++ r := by
    intro sign h
    obtain ⟨m1, h, h4⟩ := seq_some h
    obtain ⟨m2, h, h3⟩ := seq_some h
    obtain ⟨m3, h1, h2⟩ := seq_some h
    obtain ⟨neg, d, rfl⟩ := number_signed_sound hw h1
    have e2 := lit_sound hw.suffix h2
    subst e2
    have hw2 : WhiteFree (['e'] ++ m2) := hw.suffix
    have e3 := lit_sound hw2.suffix h3
    subst e3
    have hw3 : WhiteFree ([sign] ++ m1) := hw2.suffix
    obtain ⟨e, rfl⟩ := number_unsigned_sound hw3.suffix h4
    exact ⟨neg, d, e, by simp⟩
  rcases alt_some h with h | h
  · rcases alt_some h with h | h
    · obtain ⟨neg, d, e, rfl⟩ := sci '+' h
      exact ⟨⟨neg, d, some (false, e)⟩, by simp [Numeral.text]⟩
    · obtain ⟨neg, d, e, rfl⟩ := sci '-' h
      exact ⟨⟨neg, d, some (true, e)⟩, by simp [Numeral.text]⟩
  · obtain ⟨neg, d, rfl⟩ := number_signed_sound hw h
    exact ⟨⟨neg, d, none⟩, by simp [Numeral.text]⟩

theorem more_sound (k : ℕ) : ∀ {t : List Char}, t.length ≤ k → WhiteFree t → ∃ l : List Numeral, t = tailText l ++ more t := by
  induction k with
  | zero =>
    intro t hk _
    refine ⟨[], ?_⟩
    have : t = [] := by simpa using hk
    subst this
    rw [more]
    rfl
  | succ k ih =>
    intro t hk hw
    rw [more]
    cases hm : (lit [','] >+ number) t with
    | none => exact ⟨[], by simp [tailText]⟩
    | some r =>
      simp only
      by_cases hl : r.length < t.length
      · rw [if_pos hl]
        obtain ⟨m, h1, h2⟩ := seq_some hm
        have e := lit_sound hw h1
        subst e
        have hw1 : WhiteFree ([','] ++ m) := hw
        obtain ⟨x, rfl⟩ := number_sound hw1.suffix h2
        have hw2 : WhiteFree ((',' :: x.text) ++ r) := hw
        obtain ⟨l, e⟩ := ih (t := r) (by omega) hw2.suffix
        exact ⟨x :: l, by conv_lhs => rw [e]
                          simp [tailText]⟩
      · rw [if_neg hl]
        exact ⟨[], by simp [tailText]⟩

theorem list_sound {t r : List Char} (hw : WhiteFree t) (h : list t = some r) : ∃ l : List Numeral, l ≠ [] ∧ t = listText l ++ r := by
  obtain ⟨m1, h, h4⟩ := seq_some h
  obtain ⟨m2, h, h3⟩ := seq_some h
  obtain ⟨m3, h1, h2⟩ := seq_some h
  have e := lit_sound hw h1
  subst e
  have hw1 : WhiteFree (['['] ++ m3) := hw
  obtain ⟨x, rfl⟩ := number_sound hw1.suffix h2
  have hw2 : WhiteFree m2 := hw1.suffix.suffix
  obtain ⟨l, e⟩ := more_sound _ le_rfl hw2
  simp only [Option.some.injEq] at h3
  rw [h3] at e
  subst e
  have e4 := lit_sound hw2.suffix h4
  subst e4
  exact ⟨x :: l, by simp, by simp [listText, commas_cons]⟩

theorem lineEnd_sound {t r : List Char} (hw : WhiteFree t) (h : lineEnd t = some r) : t = [] := by
  cases t with
  | nil => rfl
  | cons c t =>
    exfalso
    have hc := hw c (by simp)
    simp only [isWhite, Bool.or_eq_false_iff, beq_eq_false_iff_ne] at hc
    have : isBlank c = false := by simp [isBlank, hc]
    simp [lineEnd, this, hc] at h

theorem word_sound {w t r : List Char} (hw : WhiteFree t) (h : lit w t = some r) : t = w ++ r := by
  rw [lit, hw.skip] at h
  split_ifs at h with hp
  obtain ⟨s, rfl⟩ := List.isPrefixOf_iff_prefix.1 hp
  cases h
  simp

theorem array_check_sound {t : List Char} (hw : WhiteFree t) (h : array_check t = true) : ∃ l : List Numeral, l ≠ [] ∧ t = listText l := by
  obtain ⟨r, h⟩ := Option.isSome_iff_exists.1 h
  obtain ⟨m, h1, h2⟩ := seq_some h
  obtain ⟨l, hl, rfl⟩ := list_sound hw h1
  have := lineEnd_sound hw.suffix h2
  subst this
  exact ⟨l, hl, by simp⟩

theorem rotation_check_sound {t : List Char} (hw : WhiteFree t) (h : rotation_check t = true) :
    ∃ (a : Char) (x : Numeral), (a = 'x' ∨ a = 'y' ∨ a = 'z') ∧ t = ['r', a, ':'] ++ x.text := by
  unfold rotation_check at h
  split at h
  · cases h
  · rename_i word s hl
    rw [letters, hw.skip] at hl
    split_ifs at hl
    simp only [Option.some.injEq, Prod.mk.injEq] at hl
    obtain ⟨e1, e2⟩ := hl
    have et : t = word ++ s := by rw [← e1, ← e2, List.takeWhile_append_dropWhile]
    subst et
    rw [Bool.and_eq_true] at h
    obtain ⟨r, h1⟩ := Option.isSome_iff_exists.1 h.1
    obtain ⟨m1, h1, h4⟩ := seq_some h1
    obtain ⟨m2, h2, h3⟩ := seq_some h1
    have e := lit_sound hw.suffix h2
    subst e
    have hw1 : WhiteFree ([':'] ++ m2) := hw.suffix
    obtain ⟨x, rfl⟩ := number_sound hw1.suffix h3
    have := lineEnd_sound hw1.suffix.suffix h4
    subst this
    have hk := h.2
    simp only [Bool.or_eq_true, beq_iff_eq] at hk
    rcases hk with (rfl | rfl) | rfl
    · exact ⟨'x', x, by simp, by simp⟩
    · exact ⟨'y', x, by simp, by simp⟩
    · exact ⟨'z', x, by simp, by simp⟩

theorem ru_check_sound {t : List Char} (hw : WhiteFree t) (h : ru_check t = true) :
    ∃ (x : Numeral) (l : List Numeral), l ≠ [] ∧ t = ['r', 'u', ':'] ++ (x.text ++ ':' :: listText l) := by
  obtain ⟨r, h⟩ := Option.isSome_iff_exists.1 h
  obtain ⟨m1, h, h5⟩ := seq_some h
  obtain ⟨m2, h, h4⟩ := seq_some h
  obtain ⟨m3, h, h3⟩ := seq_some h
  obtain ⟨m4, h1, h2⟩ := seq_some h
  have e := word_sound hw h1
  subst e
  obtain ⟨x, rfl⟩ := number_sound hw.suffix h2
  have e := lit_sound hw.suffix.suffix h3
  subst e
  have hw1 : WhiteFree ([':'] ++ m2) := hw.suffix.suffix
  obtain ⟨l, hl, rfl⟩ := list_sound hw1.suffix h4
  have := lineEnd_sound hw1.suffix.suffix h5
  subst this
  exact ⟨x, l, hl, by simp⟩

theorem rand_check_sound {t : List Char} (hw : WhiteFree t) (h : random_range_check t = true) :
    ∃ lo hi : Numeral, t = ['r', 'a', 'n', 'd', ':'] ++ (lo.text ++ ':' :: hi.text) := by
  obtain ⟨r, h⟩ := Option.isSome_iff_exists.1 h
  obtain ⟨m1, h, h5⟩ := seq_some h
  obtain ⟨m2, h, h4⟩ := seq_some h
  obtain ⟨m3, h, h3⟩ := seq_some h
  obtain ⟨m4, h1, h2⟩ := seq_some h
  have e := word_sound hw h1
  subst e
  obtain ⟨x, rfl⟩ := number_sound hw.suffix h2
  have e := lit_sound hw.suffix.suffix h3
  subst e
  have hw1 : WhiteFree ([':'] ++ m2) := hw.suffix.suffix
  obtain ⟨y, rfl⟩ := number_sound hw1.suffix h4
  have := lineEnd_sound hw1.suffix.suffix h5
  subst this
  exact ⟨x, y, by simp⟩

/-- The strings `quaternion.check_string` is meant to accept. -/
inductive QuatText : List Char → Prop
  | identity : QuatText "identity".toList
  | rx (x : Numeral) : QuatText ("rx:".toList ++ x.text)
  | ry (x : Numeral) : QuatText ("ry:".toList ++ x.text)
  | rz (x : Numeral) : QuatText ("rz:".toList ++ x.text)
  | ru (x : Numeral) (l : List Numeral) : l ≠ [] → QuatText ("ru:".toList ++ x.text ++ ":".toList ++ listText l)
  | array (l : List Numeral) : l ≠ [] → QuatText (listText l)

/-- The strings `vector3.check_string` is meant to accept. -/
inductive VecText : List Char → Prop
  | rand (lo hi : Numeral) : VecText ("rand:".toList ++ lo.text ++ ":".toList ++ hi.text)
  | array (l : List Numeral) : l ≠ [] → VecText (listText l)

/-- Among the strings without white space, `check_string` accepts exactly those of the grammar. -/
theorem C114_language (s : List Char) (hw : WhiteFree s) :
    (QuatS.check_string s = true ↔ QuatText s) ∧ (V3S.check_string s = true ↔ VecText s) := by
  refine ⟨⟨fun h => ?_, fun h => ?_⟩, fun h => ?_, fun h => ?_⟩
  · unfold QuatS.check_string at h
    split_ifs at h with h1 h2 h3
    · obtain ⟨a, x, ha, rfl⟩ := rotation_check_sound hw h1
      rcases ha with rfl | rfl | rfl
      · exact .rx x
      · exact .ry x
      · exact .rz x
    · obtain ⟨l, hl, rfl⟩ := array_check_sound hw h2
      exact .array l hl
    · obtain ⟨x, l, hl, rfl⟩ := ru_check_sound hw h3
      have := QuatText.ru x l hl
      simpa using this
    · simp only [keywords_check, beq_iff_eq] at h
      subst h
      exact .identity
  · cases h with
    | identity => decide
    | rx x =>
      show QuatS.check_string (['r', 'x', ':'] ++ x.text) = true
      rw [QuatS.check_string, if_pos (rotation_check_text 'x' (by simp) x)]
    | ry x =>
      show QuatS.check_string (['r', 'y', ':'] ++ x.text) = true
      rw [QuatS.check_string, if_pos (rotation_check_text 'y' (by simp) x)]
    | rz x =>
      show QuatS.check_string (['r', 'z', ':'] ++ x.text) = true
      rw [QuatS.check_string, if_pos (rotation_check_text 'z' (by simp) x)]
    | ru x l hl =>
      have := ru_check_text x hl
      have e : "ru:".toList ++ x.text ++ ":".toList ++ listText l = ['r', 'u', ':'] ++ (x.text ++ ':' :: listText l) := by simp
      rw [e, QuatS.check_string, this]
      simp
    | array l hl => rw [QuatS.check_string, array_check_text hl]; simp
  · unfold V3S.check_string at h
    split_ifs at h with h1
    · obtain ⟨l, hl, rfl⟩ := array_check_sound hw h1
      exact .array l hl
    · obtain ⟨x, y, rfl⟩ := rand_check_sound hw h
      have := VecText.rand x y
      simpa using this
  · cases h with
    | rand x y =>
      have := rand_check_text x y
      have e : "rand:".toList ++ x.text ++ ":".toList ++ y.text = ['r', 'a', 'n', 'd', ':'] ++ (x.text ++ ':' :: y.text) := by simp
      rw [e, V3S.check_string, this]
      simp
    | array l hl => rw [V3S.check_string, array_check_text hl]; simp

end Verif
