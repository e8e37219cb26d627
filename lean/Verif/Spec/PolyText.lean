import Mathlib.Data.Real.Basic

/-! How a reader understands a polynomial written in canonical form, such as `3 + 2 x - 0.5 x^2 y`. -/

namespace Verif.PolySpec

/-- The words of a text, which are separated by single spaces. -/
def words : List Char → List (List Char)
  | [] => [[]]
  | c :: t => if c = ' ' then [] :: words t else
    match words t with
    | [] => [[c]]
    | w :: ws => (c :: w) :: ws

/-- A whole number in decimal notation. -/
def whole (w : List Char) : Option ℕ := if w ≠ [] ∧ w.all Char.isDigit then some (Nat.ofDigitChars 10 w 0) else none

/-- The value of one word at (x, y): a variable, a power of a variable, or a number, which `num` reads. -/
noncomputable def wordValue (num : List Char → Option ℝ) (x y : ℝ) : List Char → Option ℝ
  | ['x'] => some x
  | ['y'] => some y
  | 'x' :: '^' :: w => (whole w).map fun k => x ^ k
  | 'y' :: '^' :: w => (whole w).map fun k => y ^ k
  | w => num w

/-- The value of a sequence of words: signs begin a new term, the other words of a term are multiplied. `sum` is the value of the terms
before the current one, whose sign is `sign` and whose words so far have the product `prod`. -/
noncomputable def wordsValue (num : List Char → Option ℝ) (x y sum sign prod : ℝ) : List (List Char) → Option ℝ
  | [] => some (sum + sign * prod)
  | w :: ws =>
    if w = ['+'] then wordsValue num x y (sum + sign * prod) 1 1 ws
    else if w = ['-'] then wordsValue num x y (sum + sign * prod) (-1) 1 ws
    else match wordValue num x y w with
      | none => none
      | some v => wordsValue num x y sum sign (prod * v) ws

/-- The value of a text at (x, y); the empty text is zero. A leading minus sign is understood too: "- x" is minus x. -/
noncomputable def textValue (num : List Char → Option ℝ) (x y : ℝ) (t : List Char) : Option ℝ :=
  if t = [] then some 0
  else match words t with
    | ['-'] :: ws => wordsValue num x y 0 (-1) 1 ws
    | ws => wordsValue num x y 0 1 1 ws

end Verif.PolySpec
