import Mathlib.Data.List.Basic

/-! The part of the grammar of XML 1.0 that the files of `write_xml` use. -/

namespace Verif.XmlSpec

/-- XML 1.0 [2] Char. -/
def Legal (c : Char) : Prop :=
  c.toNat = 0x9 ∨ c.toNat = 0xA ∨ c.toNat = 0xD ∨ (0x20 ≤ c.toNat ∧ c.toNat ≤ 0xD7FF) ∨ (0xE000 ≤ c.toNat ∧ c.toNat ≤ 0xFFFD) ∨
    (0x10000 ≤ c.toNat ∧ c.toNat ≤ 0x10FFFF)

/-- XML 1.0 [67] Reference: one of the five entities every document knows, or a decimal character reference. -/
inductive Reference : List Char → Prop
  | entity (name : String) (h : name ∈ ["amp", "lt", "gt", "quot", "apos"]) : Reference (['&'] ++ name.toList ++ [';'])
  | decimal (ds : List Char) (h : ds ≠ []) (hd : ∀ c ∈ ds, '0' ≤ c ∧ c ≤ '9') : Reference (['&', '#'] ++ ds ++ [';'])

/-- XML 1.0 [10] AttValue between double quotes: legal characters other than the less-than sign, the ampersand and the quote, and references. -/
inductive AttValue : List Char → Prop
  | nil : AttValue []
  | char (c : Char) (v : List Char) (h : Legal c) (h1 : c ≠ '<') (h2 : c ≠ '&') (h3 : c ≠ '"') : AttValue v → AttValue (c :: v)
  | ref (r v : List Char) : Reference r → AttValue v → AttValue (r ++ v)

/-- XML 1.0 [5] Name (ASCII only, without the colon). -/
def IsName (n : List Char) : Prop :=
  ∃ c cs, n = c :: cs ∧ (c.isAlpha ∨ c = '_') ∧ ∀ x ∈ cs, x.isAlphanum ∨ x = '_' ∨ x = '-' ∨ x = '.'

/-- XML 1.0 [41] Attribute with the space before it. -/
inductive Attribute : List Char → Prop
  | mk (n v : List Char) : IsName n → AttValue v → Attribute ([' '] ++ n ++ ['=', '"'] ++ v ++ ['"'])

/-- A list of attributes. -/
inductive Attributes : List Char → Prop
  | nil : Attributes []
  | cons (a t : List Char) : Attribute a → Attributes t → Attributes (a ++ t)

mutual
/-- XML 1.0 [39] element. -/
inductive Element : List Char → Prop
  | empty (n a : List Char) : IsName n → Attributes a → Element (['<'] ++ n ++ a ++ [' ', '/', '>'])
  | full (n a c : List Char) : IsName n → Attributes a → Content c → Element (['<'] ++ n ++ a ++ ['>'] ++ c ++ ['<', '/'] ++ n ++ ['>'])
/-- XML 1.0 [43] content (elements only). -/
inductive Content : List Char → Prop
  | nil : Content []
  | cons (e c : List Char) : Element e → Content c → Content (e ++ c)
end

/-- What a reader makes of the text of an attribute value: the entities and decimal references are replaced by the characters they stand for. -/
def decode : List Char → List Char
  | '&' :: 'a' :: 'm' :: 'p' :: ';' :: t => '&' :: decode t
  | '&' :: 'l' :: 't' :: ';' :: t => '<' :: decode t
  | '&' :: 'g' :: 't' :: ';' :: t => '>' :: decode t
  | '&' :: 'q' :: 'u' :: 'o' :: 't' :: ';' :: t => '"' :: decode t
  | '&' :: '#' :: '1' :: '3' :: ';' :: t => '\r' :: decode t
  | '&' :: '#' :: '1' :: '0' :: ';' :: t => '\n' :: decode t
  | '&' :: '#' :: '0' :: '9' :: ';' :: t => '\t' :: decode t
  | c :: t => c :: decode t
  | [] => []

end Verif.XmlSpec
