import Verif.Model.Quaternion
import Verif.Model.CoordSys
import Mathlib.Data.List.DropRight

/-! Model of `rainbow/util/parse_string.py`, of `from_string`, `check_string` and `rand` in `rainbow/math/vector3.py` and of `from_string` and
`check_string` in `rainbow/math/quaternion.py`, with the parts of pyparsing, `float`, `str` and `np.fromstring` they use.  A Python string is the list of
its characters.  Simplifications: only ASCII letters have lower case and only ASCII digits are digits, and a number is a real (no rounding, no overflow
to infinity). -/

namespace Verif.Parse

/-- What pyparsing skips before every token (its default white characters). -/
def isWhite (c : Char) : Bool := c == ' ' || c == '\t' || c == '\n' || c == '\r'
/-- What pyparsing skips before the end of a line. -/
def isBlank (c : Char) : Bool := c == ' ' || c == '\t' || c == '\r'
/-- pyparsing, `preParse`. -/
def skip (t : List Char) : List Char := t.dropWhile isWhite

/-- A parser takes the text from where it stands and gives the text after what it read, or `none` if it raises ParseException. -/
abbrev Parser := List Char → Option (List Char)

/-- pyparsing, `Literal(s)`. -/
def lit (s : List Char) : Parser := fun t => if s.isPrefixOf (skip t) then some ((skip t).drop s.length) else none
/-- pyparsing, `a + b`. -/
def seq (a b : Parser) : Parser := fun t => (a t).bind b
/-- pyparsing, `a | b`: the first that matches, with no way back. -/
def alt (a b : Parser) : Parser := fun t => match a t with
  | some r => some r
  | none => b t
@[inherit_doc] infixl:65 " >+ " => seq
@[inherit_doc] infixl:60 " >| " => alt

/-- parse_string.py:10 `Integer`, the regular expression `([1-9]\d*|0)`. -/
def integer : Parser := fun t => match skip t with
  | [] => none
  | c :: r => if c == '0' then some r else if c.isDigit then some (r.dropWhile Char.isDigit) else none
/-- parse_string.py:11 `Float`. -/
def float : Parser := integer >+ lit ['.'] >+ integer
/-- parse_string.py:12 `Number_unsigned`. -/
def number_unsigned : Parser := float >| integer
/-- parse_string.py:13 `Number_signed`. -/
def number_signed : Parser := (lit ['-'] >+ number_unsigned) >| number_unsigned
/-- parse_string.py:14 `Number_pos_scientific`. -/
def number_pos_scientific : Parser := number_signed >+ lit ['e'] >+ lit ['+'] >+ number_unsigned
/-- parse_string.py:15 `Number_neg_scientific`. -/
def number_neg_scientific : Parser := number_signed >+ lit ['e'] >+ lit ['-'] >+ number_unsigned
/-- parse_string.py:16 `Number_scientific`. -/
def number_scientific : Parser := number_pos_scientific >| number_neg_scientific
/-- parse_string.py:17 `Number`. -/
def number : Parser := number_scientific >| number_signed
/-- parse_string.py:18 `Letters`: the word and the text after it. -/
def letters (t : List Char) : Option (List Char × List Char) :=
  if (skip t).takeWhile Char.isAlpha = [] then none else some ((skip t).takeWhile Char.isAlpha, (skip t).dropWhile Char.isAlpha)

/-- pyparsing, the part of `delimitedList(Number, delim=",")` after the first element: as long as a comma and a number follow, read on. -/
def more (t : List Char) : List Char :=
  match (lit [','] >+ number) t with
  | none => t
  | some r => if r.length < t.length then more r else t
termination_by t.length
/-- parse_string.py:19 `List`. -/
def list : Parser := lit ['['] >+ number >+ (fun t => some (more t)) >+ lit [']']

/-- pyparsing, `LineEnd()`: skips blanks but not a newline. -/
def lineEnd : Parser := fun t => match t.dropWhile isBlank with
  | [] => some []
  | c :: r => if c == '\n' then some r else none

/-- parse_string.py:21-27 `parse_string_to_random_range_check`; `"rand" + ":"` is evaluated by Python to `"rand:"`. -/
def random_range_check (input : List Char) : Bool :=
  ((lit ['r', 'a', 'n', 'd', ':'] >+ number >+ lit [':'] >+ number >+ lineEnd) input).isSome
/-- parse_string.py:29-35 `parse_string_to_ru_check`. -/
def ru_check (input : List Char) : Bool := ((lit ['r', 'u', ':'] >+ number >+ lit [':'] >+ list >+ lineEnd) input).isSome
/-- parse_string.py:37-43 `parse_string_to_array_check`. -/
def array_check (input : List Char) : Bool := ((list >+ lineEnd) input).isSome
/-- parse_string.py:45-53 `parse_string_to_rotation_check` (None, which is falsy, for another keyword). -/
def rotation_check (input : List Char) : Bool := match letters input with
  | none => false
  | some (word, t) => ((lit [':'] >+ number >+ lineEnd) t).isSome && (word == ['r', 'x'] || word == ['r', 'y'] || word == ['r', 'z'])
/-- parse_string.py:55-57 `parse_string_to_keywords_check`. -/
def keywords_check (input : List Char) : Bool := input == ['i', 'd', 'e', 'n', 't', 'i', 't', 'y']

/-- The exponent of a number: the letter e, a sign that may be left out, and digits; otherwise nothing is read. -/
def exponent (t : List Char) : ℤ × List Char := match t with
  | [] => (0, [])
  | c :: r =>
    if c == 'e' then
      match r with
      | [] => (0, t)
      | d :: r' =>
        let body := if d == '-' || d == '+' then r' else r
        if body.takeWhile Char.isDigit = [] then (0, t)
        else
          let n : ℤ := Nat.ofDigitChars 10 (body.takeWhile Char.isDigit) 0
          (if d == '-' then -n else n, body.dropWhile Char.isDigit)
    else (0, t)

/-- The digits after the point, if there is one. -/
def fraction (t : List Char) : List Char × List Char := match t with
  | [] => ([], [])
  | c :: r => if c == '.' then (r.takeWhile Char.isDigit, r.dropWhile Char.isDigit) else ([], t)

/-- A number without sign: digits, perhaps a point and digits, at least one digit altogether, perhaps an exponent. -/
noncomputable def magnitude (t : List Char) : Option (ℝ × List Char) :=
  let ds := t.takeWhile Char.isDigit
  let fs := fraction (t.dropWhile Char.isDigit)
  if ds ++ fs.1 = [] then none
  else
    let e := exponent fs.2
    some ((Nat.ofDigitChars 10 (ds ++ fs.1) 0 : ℝ) / 10 ^ fs.1.length * (10 : ℝ) ^ e.1, e.2)

/-- The C function strtod as CPython and NumPy use it (`PyOS_string_to_double`): white space, a sign, a number; the value and the text after it.
Simplification: `inf`, `nan` and a capital E are not modelled; no text that reaches this has them where a number is read. -/
noncomputable def strtod (t : List Char) : Option (ℝ × List Char) := match skip t with
  | [] => none
  | c :: r =>
    if c == '-' then (magnitude r).map fun p => (-p.1, p.2)
    else if c == '+' then magnitude r
    else magnitude (c :: r)

/-- `float(t)`: white space around the number is allowed, everything else is a ValueError. -/
noncomputable def pyFloat (t : List Char) : Except PyErr ℝ := match strtod t with
  | none => .error .valueError
  | some (v, r) => if r.all isWhite then .ok v else .error .valueError

/-- `np.fromstring(t, dtype=np.float64, sep=",")`: reads numbers with commas between them and stops (with a DeprecationWarning) where the text does not
go on like that. -/
noncomputable def fromstring (t : List Char) : List ℝ := match strtod t with
  | none => []
  | some (v, r) => match skip r with
    | [] => [v]
    | c :: r' => if c == ',' then (if r'.length < t.length then v :: fromstring r' else [v]) else [v]
termination_by t.length

/-- `t.strip(chars)` -/
def strip (chars t : List Char) : List Char := (t.dropWhile chars.contains).rdropWhile chars.contains

/-- `t.split(sep)` for a separator of one character. -/
def split (sep : Char) : List Char → List (List Char)
  | [] => [[]]
  | c :: r => if c == sep then [] :: split sep r else match split sep r with
    | [] => [[c]]
    | h :: tl => (c :: h) :: tl

/-- `(a, b) = l`: ValueError unless there are exactly two. -/
def unpack2 (l : List (List Char)) : Except PyErr (List Char × List Char) := match l with
  | [a, b] => .ok (a, b)
  | _ => .error .valueError

/-- `t.lower()` -/
def lower (t : List Char) : List Char := t.map Char.toLower

/-- `assert b` -/
def check (b : Bool) : Except PyErr Unit := if b then .ok () else .error .assertionError

namespace V3S

/-- vector3.py:136-137 `rand`: `np.random.uniform` gives `lower + (upper - lower) u` for draws `u` from [0, 1), which are the parameter here. -/
def rand (draw : V3) (lo hi : ℝ) : V3 := ⟨lo + (hi - lo) * draw.x, lo + (hi - lo) * draw.y, lo + (hi - lo) * draw.z⟩

/-- vector3.py:20-30 `check_string`. -/
def check_string (lower_value : List Char) : Bool := if array_check lower_value then true else random_range_check lower_value

/-- vector3.py:53-60: the first three numbers of a list. -/
def first3 (l : List ℝ) : Except PyErr V3 := match l with
  | a :: b :: c :: _ => .ok ⟨a, b, c⟩
  | _ => .error .assertionError

/-- vector3.py:32-60 `from_string`. -/
noncomputable def from_string (draw : V3) (value : List Char) : Except PyErr V3 :=
  let value_lower := lower value
  if value_lower = ['o', 'n', 'e', 's'] then .ok V3.ones
  else if value_lower = ['z', 'e', 'r', 'o'] then .ok V3.zero
  else if value_lower = ['i'] then .ok V3.i
  else if value_lower = ['j'] then .ok V3.j
  else if value_lower = ['k'] then .ok V3.k
  else do
    check (check_string value_lower)
    if ['r', 'a', 'n', 'd', ':'].isPrefixOf value_lower then
      let (lower_str, upper_str) ← unpack2 (split ':' (strip ['r', 'a', 'n', 'd', ':'] value_lower))
      let lo ← pyFloat lower_str
      let hi ← pyFloat upper_str
      return rand draw lo hi
    first3 (fromstring (strip ['[', ']'] value_lower))

end V3S

namespace QuatS

/-- quaternion.py:14-28 `check_string`. -/
def check_string (lower_value : List Char) : Bool :=
  if rotation_check lower_value then true
  else if array_check lower_value then true
  else if ru_check lower_value then true
  else keywords_check lower_value

/-- quaternion.py:61-65: the first four numbers of a list. -/
def first4 (l : List ℝ) : Except PyErr Quat := match l with
  | a :: b :: c :: d :: _ => .ok ⟨a, b, c, d⟩
  | _ => .error .assertionError

/-- quaternion.py:30-65 `from_string`. -/
noncomputable def from_string (draw : V3) (value : List Char) : Except PyErr Quat := do
  let value_lower := lower value
  check (check_string value_lower)
  if value_lower = ['i', 'd', 'e', 'n', 't', 'i', 't', 'y'] then return Quat.identity
  if ['r', 'x', ':'].isPrefixOf value_lower then
    let degrees ← pyFloat (strip ['r', 'x', ':'] value_lower)
    return Quat.Rx (degrees_to_radians degrees)
  if ['r', 'y', ':'].isPrefixOf value_lower then
    let degrees ← pyFloat (strip ['r', 'y', ':'] value_lower)
    return Quat.Ry (degrees_to_radians degrees)
  if ['r', 'z', ':'].isPrefixOf value_lower then
    let degrees ← pyFloat (strip ['r', 'z', ':'] value_lower)
    return Quat.Rz (degrees_to_radians degrees)
  if ['r', 'u', ':'].isPrefixOf value_lower then
    let (degrees_str, axis_str) ← unpack2 (split ':' (strip ['r', 'u', ':'] value_lower))
    let degrees ← pyFloat degrees_str
    let axis ← V3S.from_string draw axis_str
    return Quat.Ru (degrees_to_radians degrees) axis
  first4 (fromstring (strip ['[', ']'] value_lower))

end QuatS

end Verif.Parse
