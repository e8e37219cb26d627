import Verif.Model.PolyText
import Verif.Spec.PolyText
import Mathlib.Tactic.Ring
import Mathlib.Tactic.NormNum
import Mathlib.Tactic.Linarith

namespace Verif

open PyPoly PolySpec

namespace PolyText

/-- Words with single spaces between them. -/
def joinWords : List (List Char) → List Char
  | [] => []
  | [w] => w
  | w :: v :: l => w ++ ' ' :: joinWords (v :: l)

theorem words_single {w : List Char} (h : ' ' ∉ w) : words w = [w] := by
  induction w with
  | nil => rfl
  | cons c w ih =>
    rw [List.mem_cons, not_or] at h
    rw [words, if_neg (Ne.symm h.1), ih h.2]

theorem words_append {w t : List Char} (h : ' ' ∉ w) : words (w ++ ' ' :: t) = w :: words t := by
  induction w with
  | nil => simp [words]
  | cons c w ih =>
    rw [List.mem_cons, not_or] at h
    rw [List.cons_append, words, if_neg (Ne.symm h.1), ih h.2]

theorem words_join {W : List (List Char)} (hW : W ≠ []) (h : ∀ w ∈ W, ' ' ∉ w) : words (joinWords W) = W := by
  induction W with
  | nil => exact absurd rfl hW
  | cons w W ih =>
    cases W with
    | nil => exact words_single (h w List.mem_cons_self)
    | cons v l =>
      rw [joinWords, words_append (h w List.mem_cons_self), ih (by simp) fun u hu => h u (List.mem_cons_of_mem _ hu)]

theorem join_append {U V : List (List Char)} (hU : U ≠ []) (hV : V ≠ []) : joinWords (U ++ V) = joinWords U ++ ' ' :: joinWords V := by
  induction U with
  | nil => exact absurd rfl hU
  | cons w U ih =>
    cases U with
    | nil =>
      cases V with
      | nil => exact absurd rfl hV
      | cons v V => rfl
    | cons u U =>
      have := ih (by simp)
      rw [List.cons_append] at this ⊢
      rw [List.cons_append, joinWords, ← List.cons_append, List.cons_append, this, joinWords, List.append_assoc, List.cons_append]

theorem join_ne {W : List (List Char)} (hW : W ≠ []) (h : ∀ w ∈ W, w ≠ []) : joinWords W ≠ [] := by
  match W, hW with
  | [w], _ => exact h w List.mem_cons_self
  | w :: v :: l, _ => simp [joinWords]

/-- The word of a power of a variable. -/
def facWord (v : Char) (k : ℕ) : List Char := if k = 1 then [v] else v :: '^' :: Nat.toDigits 10 k

/-- The words of a monomial. -/
def monoWords (p : ℕ × ℕ) : List (List Char) :=
  (if p.1 = 0 then [] else [facWord 'x' p.1]) ++ (if p.2 = 0 then [] else [facWord 'y' p.2])

theorem powersText_eq (p : ℕ × ℕ) : powersText p = joinWords (monoWords p) := by
  obtain ⟨i, j⟩ := p
  have hr : List.range 2 = [0, 1] := rfl
  unfold powersText monoWords
  rw [hr]
  simp only [List.foldl_cons, List.foldl_nil, powersStep, col, var, facWord]
  by_cases hi : i = 0 <;> by_cases hj : j = 0
  · simp [hi, hj, joinWords]
  · by_cases hj1 : j = 1 <;> simp [hi, hj, hj1, joinWords]
  · by_cases hi1 : i = 1 <;> simp [hi, hj, hi1, joinWords]
  · by_cases hi1 : i = 1 <;> by_cases hj1 : j = 1 <;> simp [hi, hj, hi1, hj1, joinWords]

theorem digit_whole (k : ℕ) : whole (Nat.toDigits 10 k) = some k := by
  unfold whole
  rw [if_pos, Nat.ofDigitChars_ten_toDigits]
  refine ⟨Nat.toDigits_ne_nil, ?_⟩
  rw [List.all_eq_true]
  intro c hc
  exact Nat.isDigit_of_mem_toDigits (by norm_num) (by norm_num) hc

theorem digits_noSpace {k : ℕ} {a : Char} (ha : a.isDigit = false) : a ∉ Nat.toDigits 10 k := fun h => by
  have := Nat.isDigit_of_mem_toDigits (by norm_num) (by norm_num) h
  rw [ha] at this
  cases this

/-- A word that is neither a sign nor contains a space. -/
structure Good (w : List Char) : Prop where
  ne : w ≠ []
  space : ' ' ∉ w
  plus : w ≠ ['+']
  minus : w ≠ ['-']

theorem facWord_good {v : Char} (hv : v = 'x' ∨ v = 'y') (k : ℕ) : Good (facWord v k) := by
  unfold facWord
  rcases hv with rfl | rfl <;> split_ifs <;>
    exact ⟨by simp, by simp [digits_noSpace (k := k) (a := ' ') (by decide)], by simp, by simp⟩

theorem facWord_x (num : List Char → Option ℝ) (x y : ℝ) (k : ℕ) : wordValue num x y (facWord 'x' k) = some (x ^ k) := by
  unfold facWord
  split_ifs with h
  · subst h; simp [wordValue]
  · simp [wordValue, digit_whole]

theorem facWord_y (num : List Char → Option ℝ) (x y : ℝ) (k : ℕ) : wordValue num x y (facWord 'y' k) = some (y ^ k) := by
  unfold facWord
  split_ifs with h
  · subst h; simp [wordValue]
  · simp [wordValue, digit_whole]

theorem value_step {num : List Char → Option ℝ} {x y s g p v : ℝ} {w : List Char} {ws : List (List Char)} (hw : Good w)
    (hv : wordValue num x y w = some v) : wordsValue num x y s g p (w :: ws) = wordsValue num x y s g (p * v) ws := by
  rw [wordsValue, if_neg hw.plus, if_neg hw.minus, hv]

theorem value_mono (num : List Char → Option ℝ) (x y s g p : ℝ) (q : ℕ × ℕ) (ws : List (List Char)) :
    wordsValue num x y s g p (monoWords q ++ ws) = wordsValue num x y s g (p * (x ^ q.1 * y ^ q.2)) ws := by
  unfold monoWords
  by_cases h1 : q.1 = 0 <;> by_cases h2 : q.2 = 0
  · simp [h1, h2]
  · rw [if_pos h1, if_neg h2, List.nil_append, List.singleton_append, value_step (facWord_good (Or.inr rfl) _) (facWord_y _ _ _ _), h1]
    simp
  · rw [if_neg h1, if_pos h2, List.append_nil, List.singleton_append, value_step (facWord_good (Or.inl rfl) _) (facWord_x _ _ _ _), h2]
    simp
  · rw [if_neg h1, if_neg h2, List.singleton_append, List.cons_append, List.singleton_append, value_step (facWord_good (Or.inl rfl) _) (facWord_x _ _ _ _),
      value_step (facWord_good (Or.inr rfl) _) (facWord_y _ _ _ _), mul_assoc]

theorem mono_good {q : ℕ × ℕ} {w : List Char} (h : w ∈ monoWords q) : Good w := by
  unfold monoWords at h
  rw [List.mem_append] at h
  rcases h with h | h <;> split_ifs at h
  · cases h
  · rw [List.mem_singleton.1 h]; exact facWord_good (Or.inl rfl) _
  · cases h
  · rw [List.mem_singleton.1 h]; exact facWord_good (Or.inr rfl) _

end PolyText

open PolyText

/-- `num` reads whole numbers, and what `str` writes for the coefficients in `l` that are not whole; and that text is one word that begins
with a digit. -/
structure ReadsNumbers (num : List Char → Option ℝ) (str : ℝ → List Char) (l : List ℝ) : Prop where
  whole : ∀ n : ℕ, num (Nat.toDigits 10 n) = some (n : ℝ)
  float : ∀ c ∈ l, |c| ≠ ⌊|c|⌋ → num (str |c|) = some |c| ∧ ' ' ∉ str |c| ∧ ∃ d t, d.isDigit = true ∧ str |c| = d :: t

namespace PolyText

theorem digit_head {num : List Char → Option ℝ} {x y : ℝ} {d : Char} {t : List Char} (hd : d.isDigit = true) (hs : ' ' ∉ d :: t) :
    Good (d :: t) ∧ wordValue num x y (d :: t) = num (d :: t) := by
  have hp : d ≠ '+' := by rintro rfl; exact absurd hd (by decide)
  have hm : d ≠ '-' := by rintro rfl; exact absurd hd (by decide)
  have hx : d ≠ 'x' := by rintro rfl; exact absurd hd (by decide)
  have hy : d ≠ 'y' := by rintro rfl; exact absurd hd (by decide)
  refine ⟨⟨by simp, hs, by simp [hp], by simp [hm]⟩, ?_⟩
  unfold wordValue
  split
  · rename_i h; exact absurd (List.cons.inj h).1 hx
  · rename_i h; exact absurd (List.cons.inj h).1 hy
  · rename_i h; exact absurd (List.cons.inj h).1 hx
  · rename_i h; exact absurd (List.cons.inj h).1 hy
  · rfl

theorem coef_word {num : List Char → Option ℝ} {str : ℝ → List Char} {l : List ℝ} (h : ReadsNumbers num str l) (x y : ℝ) {c : ℝ} (hm : c ∈ l)
    (hc : 0 < |c|) : Good (coefText str |c|) ∧ wordValue num x y (coefText str |c|) = some |c| := by
  unfold coefText
  split_ifs with hi
  · obtain ⟨d, t, e⟩ := List.exists_cons_of_ne_nil (Nat.toDigits_ne_nil (n := ⌊|c|⌋.toNat) (b := 10))
    have hd : d.isDigit = true := Nat.isDigit_of_mem_toDigits (b := 10) (n := ⌊|c|⌋.toNat) (by norm_num) (by norm_num) (by rw [e]; exact List.mem_cons_self)
    have hs : ' ' ∉ d :: t := by rw [← e]; exact digits_noSpace (by decide)
    obtain ⟨g, v⟩ := digit_head (num := num) (x := x) (y := y) hd hs
    rw [e]
    refine ⟨g, v.trans ?_⟩
    rw [← e, h.whole]
    have : (0 : ℤ) ≤ ⌊|c|⌋ := Int.floor_nonneg.2 hc.le
    rw [hi, Int.floor_intCast, Option.some.injEq]
    have e2 : ((⌊|c|⌋.toNat : ℤ) : ℝ) = (⌊|c|⌋ : ℝ) := by rw [Int.toNat_of_nonneg this]
    exact_mod_cast e2
  · obtain ⟨h1, h2, d, t, hd, e⟩ := h.float c hm hi
    rw [e] at h1 h2 ⊢
    obtain ⟨g, v⟩ := digit_head (num := num) (x := x) (y := y) hd h2
    exact ⟨g, v.trans h1⟩

/-- The words of a term. -/
noncomputable def termWords (str : ℝ → List Char) (q : ℕ × ℕ) (c : ℝ) : List (List Char) :=
  open Classical in if |c| = 1 ∧ monoWords q ≠ [] then monoWords q else coefText str |c| :: monoWords q

theorem term_words {num : List Char → Option ℝ} {str : ℝ → List Char} {l : List ℝ} (h : ReadsNumbers num str l) (q : ℕ × ℕ) {c : ℝ} (hl : c ∈ l)
    (hc : c ≠ 0) :
    termText str q c = joinWords (termWords str q c) ∧ termWords str q c ≠ [] ∧ (∀ w ∈ termWords str q c, Good w) ∧
    ∀ (x y s g p : ℝ) ws, wordsValue num x y s g p (termWords str q c ++ ws) = wordsValue num x y s g (p * (|c| * (x ^ q.1 * y ^ q.2))) ws := by
  have hc' : 0 < |c| := abs_pos.2 hc
  have hj : (powersText q).length = 0 ↔ monoWords q = [] := by
    rw [List.length_eq_zero_iff, powersText_eq]
    constructor
    · intro e
      by_contra hne
      exact join_ne hne (fun w hw => (mono_good hw).ne) e
    · intro e; rw [e]; rfl
  unfold termText termWords
  dsimp only
  rw [if_pos hc']
  by_cases hm : monoWords q = []
  · rw [if_pos (hj.2 hm), if_neg (fun h => h.2 hm), hm]
    refine ⟨rfl, by simp, fun w hw => ?_, fun x y s g p ws => ?_⟩
    · rw [List.mem_singleton.1 hw]; exact (coef_word h 0 0 hl hc').1
    · have := value_mono num x y s g (p * |c|) q ws
      rw [hm, List.nil_append] at this
      rw [List.singleton_append, value_step (coef_word h x y hl hc').1 (coef_word h x y hl hc').2, this, mul_assoc]
  · rw [if_neg (fun e => hm (hj.1 e))]
    by_cases h1 : |c| = 1
    · rw [if_pos h1, if_pos ⟨h1, hm⟩]
      refine ⟨powersText_eq q, hm, fun w hw => mono_good hw, fun x y s g p ws => ?_⟩
      rw [value_mono, h1, one_mul]
    · rw [if_neg h1, if_neg (fun h => h1 h.1), powersText_eq]
      refine ⟨?_, by simp, fun w hw => ?_, fun x y s g p ws => ?_⟩
      · obtain ⟨v, l, e⟩ := List.exists_cons_of_ne_nil hm
        rw [e, joinWords, List.append_assoc, List.singleton_append]
      · rcases List.mem_cons.1 hw with rfl | hw
        · exact (coef_word h 0 0 hl hc').1
        · exact mono_good hw
      · rw [List.cons_append, value_step (coef_word h x y hl hc').1 (coef_word h x y hl hc').2, value_mono, mul_assoc]

/-- The value of a list of terms. -/
noncomputable def termsValue (x y : ℝ) (L : List ((ℕ × ℕ) × ℝ)) : ℝ := (L.map fun t => t.2 * (x ^ t.1.1 * y ^ t.1.2)).sum

theorem fold_zero (str : ℝ → List Char) (L : List ((ℕ × ℕ) × ℝ)) (h : ∀ t ∈ L, t.2 = 0) : L.foldl (strStep str) [] = [] := by
  induction L with
  | nil => rfl
  | cons t L ih =>
    have : strStep str [] t = [] := by simp [strStep, termText, h t List.mem_cons_self]
    rw [List.foldl_cons, this]
    exact ih fun u hu => h u (List.mem_cons_of_mem _ hu)

end PolyText

/-- The first coefficient that is not zero, if there is one, is positive. -/
def LeadPositive (l : List ℝ) : Prop := ∀ pre c post, l = pre ++ c :: post → (∀ a ∈ pre, a = 0) → c ≠ 0 → 0 < c

namespace PolyText

/-- What the text of a list of terms is: words whose value is that of the terms. -/
def Reads (num : List Char → Option ℝ) (T : List Char) (L : List ((ℕ × ℕ) × ℝ)) : Prop :=
  ∃ W, W ≠ [] ∧ T = joinWords W ∧ (∀ w ∈ W, w ≠ [] ∧ ' ' ∉ w) ∧ (∀ l, W ≠ ['-'] :: l) ∧
    ∀ x y, ∃ s g p, s + g * p = termsValue x y L ∧ ∀ ws, wordsValue num x y 0 1 1 (W ++ ws) = wordsValue num x y s g p ws

theorem fold_reads {num : List Char → Option ℝ} {str : ℝ → List Char} {l : List ℝ} (h : ReadsNumbers num str l) (L : List ((ℕ × ℕ) × ℝ))
    (hl : ∀ t ∈ L, t.2 ∈ l) (hp : LeadPositive (L.map Prod.snd)) : (∀ t ∈ L, t.2 = 0) ∨ Reads num (L.foldl (strStep str) []) L := by
  induction L using List.reverseRecOn with
  | nil => exact Or.inl fun t ht => absurd ht List.not_mem_nil
  | append_singleton L t ih =>
    have hpL : LeadPositive (L.map Prod.snd) := fun pre c post e h1 h2 => hp pre c (post ++ [t.2]) (by simp [e]) h1 h2
    rw [List.foldl_append, List.foldl_cons, List.foldl_nil]
    by_cases ht : t.2 = 0
    · have e0 : ∀ T, strStep str T t = T := fun T => by
        unfold strStep termText
        simp only [ht, abs_zero, lt_irrefl, if_false, List.length_nil]
        split_ifs with c
        · rfl
        · exact (List.length_eq_zero_iff.1 (by omega)).symm
      rw [e0]
      rcases ih (fun u hu => hl u (List.mem_append_left _ hu)) hpL with hz | ⟨W, w1, w2, w3, w4, w5⟩
      · left
        intro u hu
        rcases List.mem_append.1 hu with hu | hu
        · exact hz u hu
        · rw [List.mem_singleton.1 hu]; exact ht
      · right
        refine ⟨W, w1, w2, w3, w4, fun x y => ?_⟩
        obtain ⟨s, g, p, e, hw⟩ := w5 x y
        refine ⟨s, g, p, ?_, hw⟩
        rw [e]
        simp [termsValue, ht]
    · right
      obtain ⟨t1, t2, t3, t4⟩ := term_words h t.1 (hl t (List.mem_append_right _ List.mem_cons_self)) ht
      have tne : joinWords (termWords str t.1 t.2) ≠ [] := join_ne t2 fun w hw => (t3 w hw).ne
      rcases ih (fun u hu => hl u (List.mem_append_left _ hu)) hpL with hz | ⟨W, w1, w2, w3, w4, w5⟩
      · have hpos : 0 < t.2 := hp (L.map Prod.snd) t.2 [] (by simp) (by
          intro a ha
          obtain ⟨u, hu, rfl⟩ := List.mem_map.1 ha
          exact hz u hu) ht
        rw [fold_zero str L hz]
        refine ⟨termWords str t.1 t.2, t2, ?_, fun w hw => ⟨(t3 w hw).ne, (t3 w hw).space⟩, fun l e => ?_, fun x y => ?_⟩
        · rw [← t1]; simp [strStep]
        · exact (t3 ['-'] (by rw [e]; exact List.mem_cons_self)).minus rfl
        · refine ⟨0, 1, t.2 * (x ^ t.1.1 * y ^ t.1.2), ?_, fun ws => ?_⟩
          · have : (L.map fun t => t.2 * (x ^ t.1.1 * y ^ t.1.2)).sum = 0 := by
              refine List.sum_eq_zero fun a ha => ?_
              obtain ⟨u, hu, rfl⟩ := List.mem_map.1 ha
              rw [hz u hu, zero_mul]
            simp [termsValue, this]
          · rw [t4, abs_of_pos hpos, one_mul]
      · have wne : joinWords W ≠ [] := join_ne w1 fun w hw => (w3 w hw).1
        have key : ∀ S : List Char, (S ≠ [] ∧ ' ' ∉ S) → (∀ l, S :: l ≠ ['-'] :: l ∨ True) →
            joinWords W ++ ([' '] ++ S ++ [' '] ++ joinWords (termWords str t.1 t.2)) = joinWords (W ++ S :: termWords str t.1 t.2) := by
          intro S _ _
          rw [join_append w1 (by simp)]
          obtain ⟨v, l, e⟩ := List.exists_cons_of_ne_nil t2
          rw [e, joinWords]
          simp
        have hstep : strStep str (joinWords W) t = joinWords (W ++ (if t.2 < 0 then ['-'] else ['+']) :: termWords str t.1 t.2) := by
          unfold strStep
          dsimp only
          rw [t1, if_pos (List.length_pos_iff.2 wne), if_pos (List.length_pos_iff.2 tne)]
          exact key _ (by split_ifs <;> exact ⟨by simp, by simp⟩) fun l => Or.inr trivial
        rw [w2, hstep]
        refine ⟨_, by simp, rfl, fun w hw => ?_, fun l e => ?_, fun x y => ?_⟩
        · rcases List.mem_append.1 hw with hw | hw
          · exact w3 w hw
          · rcases List.mem_cons.1 hw with rfl | hw
            · split_ifs <;> exact ⟨by simp, by simp⟩
            · exact ⟨(t3 w hw).ne, (t3 w hw).space⟩
        · obtain ⟨v, l', e'⟩ := List.exists_cons_of_ne_nil w1
          rw [e', List.cons_append] at e
          exact w4 l' (by rw [e', (List.cons.inj e).1])
        · obtain ⟨s, g, p, e, hw⟩ := w5 x y
          refine ⟨s + g * p, if t.2 < 0 then -1 else 1, |t.2| * (x ^ t.1.1 * y ^ t.1.2), ?_, fun ws => ?_⟩
          · rw [e]
            have : (if t.2 < 0 then (-1 : ℝ) else 1) * |t.2| = t.2 := by
              split_ifs with c
              · rw [abs_of_neg c]; ring
              · rw [abs_of_nonneg (not_lt.1 c), one_mul]
            rw [← mul_assoc, this]
            simp [termsValue]
          · rw [List.append_assoc, hw, List.cons_append]
            split_ifs with c
            · rw [wordsValue, if_neg (by decide), if_pos rfl, t4, one_mul]
            · rw [wordsValue, if_pos rfl, t4, one_mul]

end PolyText

/-- Reading the text of a polynomial whose first nonzero coefficient is positive gives back the polynomial: at every point its value is
the one `evaluate` computes. What is missing is `C121_leading_minus_lost`: the code drops a leading minus sign. -/
theorem C121_text_partial {num : List Char → Option ℝ} {str : ℝ → List Char} (P : PyPoly.Poly)
    (h : ReadsNumbers num str P.coefficients) (hl : P.coefficients.length = P.powers.length) (hp : LeadPositive P.coefficients) :
    ∃ T, to_str str P = .ok T ∧ ∀ x y, ∃ v, evaluate P [x, y] = .ok v ∧ textValue num x y T = some v := by
  have e2 : (P.powers.zip P.coefficients).map Prod.snd = P.coefficients := List.map_snd_zip hl.le
  refine ⟨(P.powers.zip P.coefficients).foldl (strStep str) [], by unfold to_str; rw [if_pos hl.ge], fun x y => ?_⟩
  refine ⟨termsValue x y (P.powers.zip P.coefficients), ?_, ?_⟩
  · unfold evaluate termsValue
    simp only [hl, if_true]
    congr 2
    rw [List.zipWith_comm, List.zip_eq_zipWith, List.map_zipWith]
  rcases fold_reads h (P.powers.zip P.coefficients) (fun t ht => (List.of_mem_zip ht).2) (by rw [e2]; exact hp) with hz | ⟨W, w1, w2, w3, w4, w5⟩
  · rw [fold_zero str _ hz]
    unfold textValue
    rw [if_pos rfl]
    congr 1
    refine (List.sum_eq_zero fun a ha => ?_).symm
    obtain ⟨u, hu, rfl⟩ := List.mem_map.1 ha
    rw [hz u hu, zero_mul]
  · obtain ⟨s, g, p, e, hw⟩ := w5 x y
    rw [w2]
    unfold textValue
    rw [if_neg (join_ne w1 fun w hw => (w3 w hw).1), words_join w1 fun w hw => (w3 w hw).2]
    have := hw []
    rw [List.append_nil, wordsValue, e] at this
    split
    · rename_i l; exact absurd rfl (w4 l)
    · exact this

/-- The code violates the property for every other polynomial: when the first nonzero coefficient c is negative, the text is the one of the
polynomial with |c| instead, so that x - y and -x - y, for instance, are written alike. -/
theorem C121_leading_minus_lost (str : ℝ → List Char) (order : ℤ) (powers : List (ℕ × ℕ)) (pre post : List ℝ) (c : ℝ)
    (hz : ∀ a ∈ pre, a = 0) : to_str str ⟨order, powers, pre ++ c :: post⟩ = to_str str ⟨order, powers, pre ++ -c :: post⟩ := by
  unfold to_str
  simp only [List.length_append, List.length_cons]
  congr 2
  induction pre generalizing powers with
  | nil =>
    cases powers with
    | nil => rfl
    | cons q powers =>
      simp only [List.nil_append, List.zip_cons_cons, List.foldl_cons]
      have : strStep str [] (q, -c) = strStep str [] (q, c) := by simp [strStep, termText]
      rw [this]
  | cons a pre ih =>
    cases powers with
    | nil => rfl
    | cons q powers =>
      simp only [List.cons_append, List.zip_cons_cons, List.foldl_cons]
      have : strStep str [] (q, a) = [] := by simp [strStep, termText, hz a List.mem_cons_self]
      rw [this]
      exact ih powers fun b hb => hz b (List.mem_cons_of_mem _ hb)

/-- So it does not hold: minus x is read as x. -/
theorem C121_text_wrong {num : List Char → Option ℝ} {str : ℝ → List Char} (h : ∀ n : ℕ, num (Nat.toDigits 10 n) = some (n : ℝ)) :
    ¬ ∀ P : PyPoly.Poly, P.coefficients.length = P.powers.length → ∀ T, to_str str P = .ok T → ∀ x y v, evaluate P [x, y] = .ok v →
      textValue num x y T = some v := by
  intro hall
  obtain ⟨T, hT, hv⟩ := C121_text_partial (str := str) ⟨1, [(0, 0), (1, 0), (0, 1)], [0, 1, 0]⟩ ⟨h, fun c hc hi => by
    exfalso
    revert hi
    simp only [List.mem_cons, List.not_mem_nil, or_false] at hc
    rcases hc with rfl | rfl | rfl <;> simp⟩ rfl (by
    intro pre c post e hz hc
    dsimp only at e
    have : c ∈ [(0 : ℝ), 1, 0] := by rw [e]; simp
    simp only [List.mem_cons, List.not_mem_nil, or_false] at this
    rcases this with rfl | rfl | rfl
    · exact absurd rfl hc
    · norm_num
    · exact absurd rfl hc)
  have hT' := hT
  have := C121_leading_minus_lost str 1 [(0, 0), (1, 0), (0, 1)] [0] [0] 1 (by simp)
  rw [List.singleton_append, List.singleton_append, hT] at this
  obtain ⟨v, h1, h2⟩ := hv 1 0
  have h3 := hall ⟨1, [(0, 0), (1, 0), (0, 1)], [0, -1, 0]⟩ rfl T this.symm 1 0 (-1) (by simp [evaluate])
  rw [h2] at h3
  simp [evaluate] at h1
  rw [Option.some.injEq, ← h1] at h3
  norm_num at h3

/-- A reader of whole numbers and of 0.5, for the polynomial 3 + 2x - x²/2 + xy. -/
example : ∃ num, ReadsNumbers num (fun _ => "0.5".toList) [3, 2, 0, -1 / 2, 1, 0] ∧ LeadPositive [3, 2, 0, -1 / 2, 1, 0] := by
  refine ⟨fun w => if w = "0.5".toList then some (1 / 2) else (PolySpec.whole w).map fun n => (n : ℝ), ⟨fun n => ?_, fun c hc hi => ?_⟩, ?_⟩
  · rw [if_neg, digit_whole]
    · rfl
    · intro e
      exact digits_noSpace (k := n) (a := '.') (by decide) (by rw [e]; decide)
  · simp only [List.mem_cons, List.not_mem_nil, or_false] at hc
    have e2 : |(3 : ℝ)| = 3 := by norm_num
    have e3 : |(-1 / 2 : ℝ)| = 1 / 2 := by norm_num [abs_of_neg]
    rcases hc with rfl | rfl | rfl | rfl | rfl | rfl
    · exact absurd (by rw [e2]; exact_mod_cast (Int.floor_natCast (R := ℝ) 3).symm) hi
    · exact absurd (by rw [abs_of_pos (by norm_num : (0 : ℝ) < 2)]; exact_mod_cast (Int.floor_natCast (R := ℝ) 2).symm) hi
    · simp at hi
    · rw [e3]
      exact ⟨by simp, by decide, '0', ['.', '5'], by decide, by decide⟩
    · simp at hi
    · simp at hi
  · intro pre c post e hz hc
    cases pre with
    | nil => rw [← (List.cons.inj e).1]; norm_num
    | cons a pre =>
      have := hz a List.mem_cons_self
      rw [← (List.cons.inj e).1] at this
      norm_num at this

end Verif
