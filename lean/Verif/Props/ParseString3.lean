import Verif.Props.ParseString2

/-! C113: `from_string` reads what is written. -/

namespace Verif

open Parse NumSpec

theorem notin_of_digit {c : Char} {chars : List Char} (hc : c.isDigit = true ∨ c = '-') (h : ∀ d ∈ chars, d.isDigit = false ∧ d ≠ '-') : c ∉ chars := by
  intro hm
  obtain ⟨h1, h2⟩ := h c hm
  rcases hc with hc | hc
  · rw [hc] at h1; cases h1
  · exact h2 hc

/-- What is left of a prefix and a numeral when the characters of the prefix are stripped. -/
theorem strip_numeral (chars : List Char) (x : Numeral) (h : ∀ d ∈ chars, d.isDigit = false ∧ d ≠ '-') : strip chars (chars ++ x.text) = x.text := by
  obtain ⟨c, s, e, hc⟩ := numeral_head x
  obtain ⟨s', c', e', hc'⟩ := numeral_last x
  have := strip_mid chars chars x.text [] (fun _ h => h) (by simp) ⟨c, s, e, notin_of_digit hc h⟩ ⟨s', c', e', notin_of_digit (Or.inl hc') h⟩
  rwa [List.append_nil] at this

theorem rotation_check_text (a : Char) (ha : a = 'x' ∨ a = 'y' ∨ a = 'z') (x : Numeral) : rotation_check (['r', a, ':'] ++ x.text) = true := by
  have hn := number_text x ends_nil
  rw [List.append_nil] at hn
  have hl : letters (['r', a, ':'] ++ x.text) = some (['r', a], ':' :: x.text) := by
    rcases ha with rfl | rfl | rfl <;> rfl
  simp only [rotation_check, hl, seq, lit_hit ':' _ (show isWhite ':' = false by decide), Option.bind_some, hn, lineEnd, List.dropWhile_nil,
    Option.isSome_some, Bool.true_and]
  rcases ha with rfl | rfl | rfl <;> rfl

theorem chars_rx (a : Char) (ha : a = 'x' ∨ a = 'y' ∨ a = 'z') : ∀ d ∈ ['r', a, ':'], d.isDigit = false ∧ d ≠ '-' := by
  rcases ha with rfl | rfl | rfl <;> decide

/-- `rx:`, `ry:` and `rz:` followed by a numeral: the rotation about that axis if `float` can read the numeral. -/
theorem from_string_rotation (draw : V3) (a : Char) (ha : a = 'x' ∨ a = 'y' ∨ a = 'z') (s : List Char) (x : Numeral)
    (hs : lower s = ['r', a, ':'] ++ x.text) :
    QuatS.from_string draw s = (pyFloat x.text).map fun d =>
      if a = 'x' then Quat.Rx (degrees_to_radians d) else if a = 'y' then Quat.Ry (degrees_to_radians d) else Quat.Rz (degrees_to_radians d) := by
  have hc : QuatS.check_string (['r', a, ':'] ++ x.text) = true := by rw [QuatS.check_string, if_pos (rotation_check_text a ha x)]
  have hst := strip_numeral ['r', a, ':'] x (chars_rx a ha)
  simp only [QuatS.from_string, hs, hc, check, if_true]
  rcases ha with rfl | rfl | rfl <;> simp only [hst] <;> cases pyFloat x.text <;> simp [bind, Except.bind, pure, Except.pure, Except.map]

theorem half_degrees (d : ℝ) : degrees_to_radians d / 2 = d * Real.pi / 360 := by
  unfold degrees_to_radians
  ring

/-- "rx:d", "ry:d" and "rz:d" (in any mixture of capital and small letters) give the unit quaternion that turns by d degrees about that axis. -/
theorem C113_rotation (draw : V3) (s : List Char) (x : Numeral) (hx : x.Sound) :
    (lower s = "rx:".toList ++ x.text →
        QuatS.from_string draw s = .ok ⟨Real.cos (x.value * Real.pi / 360), Real.sin (x.value * Real.pi / 360), 0, 0⟩) ∧
      (lower s = "ry:".toList ++ x.text →
        QuatS.from_string draw s = .ok ⟨Real.cos (x.value * Real.pi / 360), 0, Real.sin (x.value * Real.pi / 360), 0⟩) ∧
      (lower s = "rz:".toList ++ x.text →
        QuatS.from_string draw s = .ok ⟨Real.cos (x.value * Real.pi / 360), 0, 0, Real.sin (x.value * Real.pi / 360)⟩) := by
  refine ⟨fun hs => ?_, fun hs => ?_, fun hs => ?_⟩
  · rw [from_string_rotation draw 'x' (by simp) s x hs, pyFloat_text hx]
    simp [Except.map, Quat.Rx, half_degrees]
  · rw [from_string_rotation draw 'y' (by simp) s x hs, pyFloat_text hx]
    simp [Except.map, Quat.Ry, half_degrees]
  · rw [from_string_rotation draw 'z' (by simp) s x hs, pyFloat_text hx]
    simp [Except.map, Quat.Rz, half_degrees]

theorem rotation_check_bracket (t : List Char) : rotation_check ('[' :: t) = false := by
  have : letters ('[' :: t) = none := by simp [letters, skip_cons t (show isWhite '[' = false by decide)]
  simp [rotation_check, this]

theorem array_check_text {l : List Numeral} (hl : l ≠ []) : array_check (listText l) = true := by
  have := list_text hl []
  rw [List.append_nil] at this
  simp [array_check, seq, this, lineEnd]

theorem strip_list {l : List Numeral} (hl : l ≠ []) : strip ['[', ']'] (listText l) = commas l := by
  obtain ⟨c, s, e, hc⟩ := commas_head hl
  obtain ⟨s', c', e', hc'⟩ := commas_last hl
  have h : ∀ d ∈ ['[', ']'], d.isDigit = false ∧ d ≠ '-' := by decide
  exact strip_mid ['[', ']'] ['['] (commas l) [']'] (by simp) (by simp) ⟨c, s, e, notin_of_digit hc h⟩ ⟨s', c', e', notin_of_digit (Or.inl hc') h⟩

theorem listText_cons (l : List Numeral) : listText l = '[' :: (commas l ++ [']']) := rfl

/-- A list: the first four of the numbers `np.fromstring` can read. -/
theorem from_string_list (draw : V3) (s : List Char) {l : List Numeral} (hl : l ≠ []) (hs : lower s = listText l) :
    QuatS.from_string draw s = QuatS.first4 (readList l) := by
  have hc : QuatS.check_string (listText l) = true := by
    rw [QuatS.check_string, listText_cons, rotation_check_bracket, ← listText_cons, array_check_text hl]
    rfl
  have hst : fromstring (strip ['[', ']'] (listText l)) = readList l := by rw [strip_list hl, fromstring_commas]
  have hb : ∀ a t, (['r', a, ':'] : List Char).isPrefixOf ('[' :: t) = false := fun a t => rfl
  simp only [QuatS.from_string, hs, hc, check, if_true, hst]
  simp only [listText_cons, hb, Bool.false_eq_true, if_false]
  simp [bind, Except.bind]

theorem first4_short {l : List ℝ} (h : l.length < 4) : QuatS.first4 l = .error .assertionError := by
  rcases l with _ | ⟨a, _ | ⟨b, _ | ⟨c, _ | ⟨d, l⟩⟩⟩⟩ <;> first | rfl | (simp at h; omega)

theorem first3_short {l : List ℝ} (h : l.length < 3) : V3S.first3 l = .error .assertionError := by
  rcases l with _ | ⟨a, _ | ⟨b, _ | ⟨c, l⟩⟩⟩ <;> first | rfl | (simp at h; omega)

theorem readList_length (l : List Numeral) : (readList l).length ≤ l.length := by
  induction l with
  | nil => simp [readList]
  | cons x l ih =>
    rw [readList]
    split_ifs <;> simp
    omega

/-- "[a,b,c,d]" gives the quaternion with these four components; what follows them is ignored, and fewer than four are an AssertionError. -/
theorem C113_array (draw : V3) (s : List Char) (l : List Numeral) (hl : l ≠ []) (hs : lower s = listText l) :
    (∀ a b c d rest, l = a :: b :: c :: d :: rest → a.Sound → b.Sound → c.Sound → d.Sound →
        QuatS.from_string draw s = .ok ⟨a.value, b.value, c.value, d.value⟩) ∧
      (l.length < 4 → QuatS.from_string draw s = .error .assertionError) := by
  rw [from_string_list draw s hl hs]
  refine ⟨?_, fun h => first4_short ((readList_length l).trans_lt h)⟩
  rintro a b c d rest rfl ha hb hc hd
  simp [readList, ha, hb, hc, hd, QuatS.first4]

/-- A list as a vector. -/
theorem vec_from_list (draw : V3) (s : List Char) {l : List Numeral} (hl : l ≠ []) (hs : lower s = listText l) :
    V3S.from_string draw s = V3S.first3 (readList l) := by
  have hc : V3S.check_string (listText l) = true := by rw [V3S.check_string, if_pos (array_check_text hl)]
  have hst : fromstring (strip ['[', ']'] (listText l)) = readList l := by rw [strip_list hl, fromstring_commas]
  have hb : ∀ t, (['r', 'a', 'n', 'd', ':'] : List Char).isPrefixOf ('[' :: t) = false := fun t => rfl
  simp only [V3S.from_string, hs, hc, check, if_true, hst]
  simp only [listText_cons, hb, Bool.false_eq_true, if_false]
  simp [bind, Except.bind]

/-- `vector3.from_string`: the five names and lists. -/
theorem C113_vector (draw : V3) (s : List Char) :
    (lower s = "zero".toList → V3S.from_string draw s = .ok ⟨0, 0, 0⟩) ∧ (lower s = "ones".toList → V3S.from_string draw s = .ok ⟨1, 1, 1⟩) ∧
      (lower s = "i".toList → V3S.from_string draw s = .ok ⟨1, 0, 0⟩) ∧ (lower s = "j".toList → V3S.from_string draw s = .ok ⟨0, 1, 0⟩) ∧
      (lower s = "k".toList → V3S.from_string draw s = .ok ⟨0, 0, 1⟩) ∧
      (∀ a b c rest, lower s = listText (a :: b :: c :: rest) → a.Sound → b.Sound → c.Sound →
        V3S.from_string draw s = .ok ⟨a.value, b.value, c.value⟩) ∧
      (∀ l, l ≠ [] → l.length < 3 → lower s = listText l → V3S.from_string draw s = .error .assertionError) := by
  refine ⟨?_, ?_, ?_, ?_, ?_, ?_, ?_⟩
  · intro hs; simp [V3S.from_string, hs, V3.zero]
  · intro hs; simp [V3S.from_string, hs, V3.ones]
  · intro hs; simp [V3S.from_string, hs, V3.i]
  · intro hs; simp [V3S.from_string, hs, V3.j]
  · intro hs; simp [V3S.from_string, hs, V3.k]
  · intro a b c rest hs ha hb hc
    rw [vec_from_list draw s (by simp) hs]
    simp [readList, ha, hb, hc, V3S.first3]
  · intro l hl h hs
    rw [vec_from_list draw s hl hs]
    exact first3_short ((readList_length l).trans_lt h)

theorem lit_word (w t : List Char) (hw : ∀ c r, w = c :: r → isWhite c = false) (hn : w ≠ []) : lit w (w ++ t) = some t := by
  obtain ⟨c, r, rfl⟩ := List.exists_cons_of_ne_nil hn
  have h := hw c r rfl
  simp only [lit, List.cons_append, skip_cons _ h]
  rw [if_pos (by simp)]
  simp

theorem rand_check_text (lo hi : Numeral) : random_range_check (['r', 'a', 'n', 'd', ':'] ++ (lo.text ++ ':' :: hi.text)) = true := by
  have hn := number_text hi ends_nil
  rw [List.append_nil] at hn
  simp only [random_range_check, seq, lit_word ['r', 'a', 'n', 'd', ':'] _ (by rintro c r h; cases h; decide) (by simp), Option.bind_some,
    number_text lo (colon_ends _), lit_hit ':' _ (show isWhite ':' = false by decide), hn, lineEnd, List.dropWhile_nil, Option.isSome_some]

theorem array_check_r (t : List Char) : array_check ('r' :: t) = false := by
  simp [array_check, list, seq, lit_miss_cons '[' 'r' t (by decide) (by decide)]

/-- `rand:lo:hi`: the draw if `float` can read both. -/
theorem from_string_rand (draw : V3) (s : List Char) (lo hi : Numeral) (hs : lower s = ['r', 'a', 'n', 'd', ':'] ++ (lo.text ++ ':' :: hi.text)) :
    V3S.from_string draw s = (do let a ← pyFloat lo.text; let b ← pyFloat hi.text; return V3S.rand draw a b) := by
  have hc : V3S.check_string (['r', 'a', 'n', 'd', ':'] ++ (lo.text ++ ':' :: hi.text)) = true := by
    have := rand_check_text lo hi
    simp only [List.cons_append, List.nil_append] at this ⊢
    rw [V3S.check_string, array_check_r, this]
    rfl
  have hst : strip ['r', 'a', 'n', 'd', ':'] (['r', 'a', 'n', 'd', ':'] ++ (lo.text ++ ':' :: hi.text)) = lo.text ++ ':' :: hi.text := by
    obtain ⟨c, t, e, h⟩ := numeral_head lo
    obtain ⟨t', c', e', h'⟩ := numeral_last hi
    have hr : ∀ d ∈ ['r', 'a', 'n', 'd', ':'], d.isDigit = false ∧ d ≠ '-' := by decide
    have := strip_mid ['r', 'a', 'n', 'd', ':'] ['r', 'a', 'n', 'd', ':'] (lo.text ++ ':' :: hi.text) [] (fun _ h => h) (by simp)
      ⟨c, t ++ ':' :: hi.text, by rw [e]; rfl, notin_of_digit h hr⟩ ⟨lo.text ++ ':' :: t', c', by rw [e']; simp, notin_of_digit (Or.inl h') hr⟩
    rwa [List.append_nil] at this
  simp only [V3S.from_string, hs, hc, check, if_true, hst, split_one (numeral_no_colon lo) (numeral_no_colon hi), unpack2]
  simp [bind, Except.bind]

/-- "rand:lo:hi" gives a vector whose components all lie in [lo, hi), whatever is drawn from [0, 1). -/
theorem C113_rand (draw : V3) (s : List Char) (lo hi : Numeral) (hlo : lo.Sound) (hhi : hi.Sound) (h : lo.value < hi.value)
    (hs : lower s = "rand:".toList ++ lo.text ++ ":".toList ++ hi.text)
    (hd : (0 ≤ draw.x ∧ draw.x < 1) ∧ (0 ≤ draw.y ∧ draw.y < 1) ∧ (0 ≤ draw.z ∧ draw.z < 1)) :
    ∃ v, V3S.from_string draw s = .ok v ∧ (lo.value ≤ v.x ∧ v.x < hi.value) ∧ (lo.value ≤ v.y ∧ v.y < hi.value) ∧
      (lo.value ≤ v.z ∧ v.z < hi.value) := by
  have hs' : lower s = ['r', 'a', 'n', 'd', ':'] ++ (lo.text ++ ':' :: hi.text) := by rw [hs]; simp
  have key : ∀ u : ℝ, 0 ≤ u ∧ u < 1 → lo.value ≤ lo.value + (hi.value - lo.value) * u ∧ lo.value + (hi.value - lo.value) * u < hi.value := by
    rintro u ⟨h0, h1⟩
    have hp : 0 < hi.value - lo.value := sub_pos.2 h
    have := mul_nonneg hp.le h0
    have h2 := mul_lt_mul_of_pos_left h1 hp
    constructor <;> linarith
  refine ⟨V3S.rand draw lo.value hi.value, ?_, key _ hd.1, key _ hd.2.1, key _ hd.2.2⟩
  rw [from_string_rand draw s lo hi hs', pyFloat_text hlo, pyFloat_text hhi]
  rfl

theorem ru_check_text (x : Numeral) {l : List Numeral} (hl : l ≠ []) : ru_check (['r', 'u', ':'] ++ (x.text ++ ':' :: listText l)) = true := by
  have hn := list_text hl []
  rw [List.append_nil] at hn
  simp only [ru_check, seq, lit_word ['r', 'u', ':'] _ (by rintro c r h; cases h; decide) (by simp), Option.bind_some,
    number_text x (colon_ends _), lit_hit ':' _ (show isWhite ':' = false by decide), hn, lineEnd, List.dropWhile_nil, Option.isSome_some]

theorem rotation_check_ru (t : List Char) : rotation_check ('r' :: 'u' :: ':' :: t) = false := by
  have hl : letters ('r' :: 'u' :: ':' :: t) = some (['r', 'u'], ':' :: t) := rfl
  simp [rotation_check, hl]

/-- `ru:x:[…]`: the rotation about the vector if `float` can read the angle. -/
theorem from_string_ru (draw : V3) (s : List Char) (x : Numeral) {l : List Numeral} (hl : l ≠ [])
    (hs : lower s = ['r', 'u', ':'] ++ (x.text ++ ':' :: listText l)) :
    QuatS.from_string draw s = (do
      let d ← pyFloat x.text
      let v ← V3S.first3 (readList l)
      return Quat.Ru (degrees_to_radians d) v) := by
  have hc : QuatS.check_string (['r', 'u', ':'] ++ (x.text ++ ':' :: listText l)) = true := by
    have := ru_check_text x hl
    simp only [List.cons_append, List.nil_append] at this ⊢
    rw [QuatS.check_string, rotation_check_ru, array_check_r, this]
    rfl
  have hst : strip ['r', 'u', ':'] (['r', 'u', ':'] ++ (x.text ++ ':' :: listText l)) = x.text ++ ':' :: listText l := by
    obtain ⟨c, t, e, h⟩ := numeral_head x
    have hr : ∀ d ∈ ['r', 'u', ':'], d.isDigit = false ∧ d ≠ '-' := by decide
    have := strip_mid ['r', 'u', ':'] ['r', 'u', ':'] (x.text ++ ':' :: listText l) [] (fun _ h => h) (by simp)
      ⟨c, t ++ ':' :: listText l, by rw [e]; rfl, notin_of_digit h hr⟩ ⟨x.text ++ ':' :: '[' :: commas l, ']', by simp [listText], by decide⟩
    rwa [List.append_nil] at this
  have hv := vec_from_list draw (listText l) hl (lower_list l)
  simp only [QuatS.from_string, hs, hc, check, if_true, hst, split_one (numeral_no_colon x) (list_no_colon l), unpack2]
  simp [bind, Except.bind, hv]

/-- "ru:d:[a,b,c]" gives the unit quaternion that turns by d degrees about the direction (a, b, c). -/
theorem C113_axis (draw : V3) (s : List Char) (x a b c : Numeral) (rest : List Numeral) (hx : x.Sound) (ha : a.Sound) (hb : b.Sound) (hc : c.Sound)
    (hs : lower s = "ru:".toList ++ x.text ++ ":".toList ++ listText (a :: b :: c :: rest)) :
    QuatS.from_string draw s = .ok ⟨Real.cos (x.value * Real.pi / 360),
      Real.sin (x.value * Real.pi / 360) * (a.value / Real.sqrt (a.value * a.value + b.value * b.value + c.value * c.value)),
      Real.sin (x.value * Real.pi / 360) * (b.value / Real.sqrt (a.value * a.value + b.value * b.value + c.value * c.value)),
      Real.sin (x.value * Real.pi / 360) * (c.value / Real.sqrt (a.value * a.value + b.value * b.value + c.value * c.value))⟩ := by
  have hs' : lower s = ['r', 'u', ':'] ++ (x.text ++ ':' :: listText (a :: b :: c :: rest)) := by rw [hs]; simp
  rw [from_string_ru draw s x (by simp) hs', pyFloat_text hx]
  simp [readList, ha, hb, hc, V3S.first3, bind, Except.bind, pure, Except.pure, Quat.Ru, half_degrees, V3.divs, V3.norm, V3.dot]

/-- "identity" gives the identity. -/
theorem C113_identity (draw : V3) (s : List Char) (hs : lower s = "identity".toList) : QuatS.from_string draw s = .ok ⟨1, 0, 0, 0⟩ := by
  have hs' : lower s = ['i', 'd', 'e', 'n', 't', 'i', 't', 'y'] := hs
  have hc : QuatS.check_string ['i', 'd', 'e', 'n', 't', 'i', 't', 'y'] = true := by decide
  simp only [QuatS.from_string, hs', hc, check, if_true]
  rfl

/-- The hypotheses are met: "Rx:90", "RU:-4.5e-1:[1,0,0]" … -/
theorem C113_example : (∃ x : Numeral, x.Sound ∧ x.value = 90 ∧ lower "Rx:90".toList = "rx:".toList ++ x.text) ∧
    (∃ x a b c : Numeral, x.Sound ∧ a.Sound ∧ b.Sound ∧ c.Sound ∧ x.value = -0.45 ∧ a.value = 1 ∧ b.value = 0 ∧ c.value = 2 ∧
      lower "RU:-4.5e-1:[1,0,2]".toList = "ru:".toList ++ x.text ++ ":".toList ++ listText [a, b, c]) := by
  refine ⟨⟨nat 90, ?_, ?_, by decide⟩, ⟨⟨true, ⟨4, some 5⟩, some (true, ⟨1, none⟩)⟩, nat 1, nat 0, nat 2, ?_, ?_, ?_, ?_, ?_, ?_, ?_, ?_, by decide⟩⟩
  any_goals intro e he; simp [nat] at he
  any_goals simp [Numeral.value, Decimal.value, nat]
  · subst he; rfl
  · have : (digits 5).length = 1 := rfl
    rw [this]
    norm_num

end Verif
