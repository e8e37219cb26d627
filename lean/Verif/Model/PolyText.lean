import Verif.Model.Polynomial

/-! Model of `to_str` in `rainbow/math/polynomial.py` (`Poly.__str__`). Texts are lists of characters. `str` stands for Python's `str` on
positive floats that are not whole numbers. -/

namespace Verif.PyPoly

/-- polynomial.py:279: `var[d]`. -/
def var (d : ℕ) : Char := if d = 0 then 'x' else if d = 1 then 'y' else 'z'

/-- polynomial.py:299-307: the loop body over the columns d of one row of powers. -/
def powersStep (p : ℕ × ℕ) (powers : List Char) (d : ℕ) : List Char :=
  let k := col d p
  if k ≠ 0 then
    let powers := if d > 0 ∧ powers.length > 0 then powers ++ [' '] else powers
    if k = 1 then powers ++ [var d] else powers ++ ([var d] ++ ['^'] ++ Nat.toDigits 10 k)
  else powers

/-- polynomial.py:298-307: the text of one row of powers, for dimension 2. -/
def powersText (p : ℕ × ℕ) : List Char := (List.range 2).foldl (powersStep p) []

open Classical in
/-- polynomial.py:291-295: the text of the absolute value c of a coefficient. -/
noncomputable def coefText (str : ℝ → List Char) (c : ℝ) : List Char :=
  if c = ⌊c⌋ then Nat.toDigits 10 ⌊c⌋.toNat else str c

open Classical in
/-- polynomial.py:282-315: the text of one term, empty for a zero coefficient. -/
noncomputable def termText (str : ℝ → List Char) (p : ℕ × ℕ) (coef : ℝ) : List Char :=
  let c := |coef|
  if c > 0 then
    let c_str := coefText str c
    let powers := powersText p
    if powers.length = 0 then c_str
    else if c = 1 then powers
    else c_str ++ [' '] ++ powers
  else []

open Classical in
/-- polynomial.py:281-320: the loop body over the terms. -/
noncomputable def strStep (str : ℝ → List Char) (polynomial : List Char) (t : (ℕ × ℕ) × ℝ) : List Char :=
  let sign := if t.2 < 0 then ['-'] else ['+']
  let term := termText str t.1 t.2
  if polynomial.length > 0 then
    if term.length > 0 then polynomial ++ ([' '] ++ sign ++ [' '] ++ term) else polynomial
  else term

/-- polynomial.py:272-321 `to_str`; IndexError when there are fewer coefficients than terms. -/
noncomputable def to_str (str : ℝ → List Char) (P : Poly) : Except PyErr (List Char) :=
  if P.powers.length ≤ P.coefficients.length then .ok ((P.powers.zip P.coefficients).foldl (strStep str) [])
  else .error .indexError

end Verif.PyPoly
