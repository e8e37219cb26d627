import Mathlib.Data.Real.Basic

/-! How a number is written in the strings `from_string` reads. -/

namespace Verif.NumSpec

/-- A decimal without sign, such as `12` or `12.5`: two whole numbers in their usual decimal notation, which has no leading zeros. -/
structure Decimal where
  whole : ℕ
  frac : Option ℕ

/-- The decimal notation of a whole number. -/
abbrev digits (n : ℕ) : List Char := Nat.toDigits 10 n

def Decimal.text (d : Decimal) : List Char :=
  digits d.whole ++ match d.frac with
    | none => []
    | some m => '.' :: digits m

noncomputable def Decimal.value (d : Decimal) : ℝ :=
  d.whole + match d.frac with
    | none => 0
    | some m => (m : ℝ) / 10 ^ (digits m).length

/-- A number, such as `-12.5e+3`: a sign, a decimal and perhaps an exponent with its sign (`true` is minus). -/
structure Numeral where
  neg : Bool
  mant : Decimal
  exp : Option (Bool × Decimal)

def Numeral.text (x : Numeral) : List Char :=
  (if x.neg then ['-'] else []) ++ x.mant.text ++ match x.exp with
    | none => []
    | some (minus, d) => 'e' :: (if minus then '-' else '+') :: d.text

/-- The exponent, if there is one, is a whole number. -/
def Numeral.Sound (x : Numeral) : Prop := ∀ e, x.exp = some e → e.2.frac = none

/-- The number a numeral stands for (of an exponent that is not a whole number only the whole part is used). -/
noncomputable def Numeral.value (x : Numeral) : ℝ :=
  (if x.neg then -1 else 1) * x.mant.value * match x.exp with
    | none => 1
    | some (true, d) => 1 / 10 ^ d.whole
    | some (false, d) => 10 ^ d.whole

/-- Numerals with commas between them. -/
def commas : List Numeral → List Char
  | [] => []
  | [x] => x.text
  | x :: y :: l => x.text ++ ',' :: commas (y :: l)

/-- A list of numbers between square brackets. -/
def listText (l : List Numeral) : List Char := '[' :: commas l ++ [']']

/-- `12` -/
def nat (n : ℕ) : Numeral := ⟨false, ⟨n, none⟩, none⟩

end Verif.NumSpec
