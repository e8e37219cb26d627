import Verif.Spec.Xml
import Verif.Props.WriteXml3

/-! C112: the text that `write_xml` writes. -/

namespace Verif

open Rigid Rigid.Xml XmlSpec

/-! ### Strings -/

/-- What becomes of a character. -/
def escapeChar (c : Char) : List Char :=
  if c = '&' then "&amp;".toList else if c = '<' then "&lt;".toList else if c = '>' then "&gt;".toList
  else if c = '"' then "&quot;".toList else if c = '\r' then "&#13;".toList else if c = '\n' then "&#10;".toList
  else if c = '\t' then "&#09;".toList else [c]

theorem escape_cons (c : Char) (s : List Char) : escape (c :: s) = escapeChar c ++ escape s := rfl

theorem decode_plain {c : Char} (h : c ≠ '&') (t : List Char) : decode (c :: t) = c :: decode t := by
  rw [decode.eq_8]
  all_goals (intro t' h'; exact absurd h' h)

/-- **C112.**  A name is read back from the file as it was: the text of a string attribute stands for that string. -/
theorem C112_string_read_back (s : List Char) : decode (escape s) = s := by
  induction s with
  | nil => rfl
  | cons c s ih =>
    rw [escape_cons]
    by_cases h1 : c = '&'
    · subst h1; show decode ('&' :: 'a' :: 'm' :: 'p' :: ';' :: escape s) = _; rw [decode, ih]
    by_cases h2 : c = '<'
    · subst h2; show decode ('&' :: 'l' :: 't' :: ';' :: escape s) = _; rw [decode, ih]
    by_cases h3 : c = '>'
    · subst h3; show decode ('&' :: 'g' :: 't' :: ';' :: escape s) = _; rw [decode, ih]
    by_cases h4 : c = '"'
    · subst h4; show decode ('&' :: 'q' :: 'u' :: 'o' :: 't' :: ';' :: escape s) = _; rw [decode, ih]
    by_cases h5 : c = '\r'
    · subst h5; show decode ('&' :: '#' :: '1' :: '3' :: ';' :: escape s) = _; rw [decode, ih]
    by_cases h6 : c = '\n'
    · subst h6; show decode ('&' :: '#' :: '1' :: '0' :: ';' :: escape s) = _; rw [decode, ih]
    by_cases h7 : c = '\t'
    · subst h7; show decode ('&' :: '#' :: '0' :: '9' :: ';' :: escape s) = _; rw [decode, ih]
    · unfold escapeChar
      rw [if_neg h1, if_neg h2, if_neg h3, if_neg h4, if_neg h5, if_neg h6, if_neg h7]
      show decode (c :: escape s) = _
      rw [decode_plain h1, ih]

/-- **C112.**  The text of a string attribute is an attribute value of XML, if the string has only characters that XML allows. -/
theorem C112_string_safe {s : List Char} (hs : ∀ c ∈ s, Legal c) : AttValue (escape s) := by
  induction s with
  | nil => exact .nil
  | cons c s ih =>
    have ih := ih fun x hx => hs x (by simp [hx])
    rw [escape_cons]
    by_cases h1 : c = '&'
    · subst h1; exact .ref _ _ (.entity "amp" (by simp)) ih
    by_cases h2 : c = '<'
    · subst h2; exact .ref _ _ (.entity "lt" (by simp)) ih
    by_cases h3 : c = '>'
    · subst h3; exact .ref _ _ (.entity "gt" (by simp)) ih
    by_cases h4 : c = '"'
    · subst h4; exact .ref _ _ (.entity "quot" (by simp)) ih
    by_cases h5 : c = '\r'
    · subst h5; exact .ref _ _ (.decimal ['1', '3'] (by simp) (by decide)) ih
    by_cases h6 : c = '\n'
    · subst h6; exact .ref _ _ (.decimal ['1', '0'] (by simp) (by decide)) ih
    by_cases h7 : c = '\t'
    · subst h7; exact .ref _ _ (.decimal ['0', '9'] (by simp) (by decide)) ih
    · unfold escapeChar
      rw [if_neg h1, if_neg h2, if_neg h3, if_neg h4, if_neg h5, if_neg h6, if_neg h7]
      exact .char c _ (hs c (by simp)) h2 h1 h4 ih

/-- A pair of names is written as it is. -/
theorem attValue_of_plain {v : List Char} (h : ∀ c ∈ v, Legal c ∧ c ≠ '<' ∧ c ≠ '&' ∧ c ≠ '"') : AttValue v := by
  induction v with
  | nil => exact .nil
  | cons c v ih =>
    obtain ⟨h0, h1, h2, h3⟩ := h c (by simp)
    exact .char c v h0 h1 h2 h3 (ih fun x hx => h x (by simp [hx]))

/-- A material name that does no harm: legal characters, no less-than sign, no ampersand, no quotes, and not a single
greater-than sign, tab or line end. -/
def Harmless (s : String) : Prop := s ∉ special ∧ ∀ c ∈ s.toList, Legal c ∧ c ≠ '<' ∧ c ≠ '&' ∧ c ≠ '"' ∧ c ≠ '\''

theorem legal_ascii {c : Char} (h1 : 0x20 ≤ c.toNat) (h2 : c.toNat ≤ 0x7f) : Legal c := by
  unfold Legal; omega

theorem repr_plain {s : List Char} (h : ∀ c ∈ s, Legal c ∧ c ≠ '<' ∧ c ≠ '&' ∧ c ≠ '"' ∧ c ≠ '\'') :
    ∀ c ∈ Xml.repr s, Legal c ∧ c ≠ '<' ∧ c ≠ '&' ∧ c ≠ '"' := by
  have hq : '\'' ∉ s := fun hm => (h _ hm).2.2.2.2 rfl
  intro c hc
  unfold Xml.repr at hc
  simp only [hq, false_and, if_false, List.mem_append, List.mem_singleton, List.mem_flatMap] at hc
  have hlit : ∀ x ∈ ['\'', '\\', 'n', 'r', 't'], Legal x ∧ x ≠ '<' ∧ x ≠ '&' ∧ x ≠ '"' := by
    intro x hx
    refine ⟨?_, ?_, ?_, ?_⟩ <;> fin_cases hx <;> first | exact legal_ascii (by decide) (by decide) | decide
  rcases hc with (rfl | ⟨a, ha, hc⟩) | rfl
  · exact hlit _ (by simp)
  · obtain ⟨a0, a1, a2, a3, -⟩ := h a ha
    split_ifs at hc <;> simp only [List.mem_cons, List.not_mem_nil, or_false] at hc
    · rcases hc with rfl | rfl
      · exact hlit _ (by simp)
      · exact ⟨a0, a1, a2, a3⟩
    · rcases hc with rfl | rfl <;> exact hlit _ (by simp)
    · rcases hc with rfl | rfl <;> exact hlit _ (by simp)
    · rcases hc with rfl | rfl <;> exact hlit _ (by simp)
    · subst hc; exact ⟨a0, a1, a2, a3⟩
  · exact hlit _ (by simp)

/-! ### Elements -/

/-- The element is written, as an element of XML. -/
def Renders (fmt : Val → List Char) (el : Elem) : Prop := ∃ t, render fmt el = .ok t ∧ XmlSpec.Element t

/-- The attribute is written, as an attribute of XML. -/
def WritesAttr (fmt : Val → List Char) (kv : String × Val) : Prop := IsName kv.1.toList ∧ ∃ v, valText fmt kv.2 = .ok v ∧ AttValue v

theorem attrs_render {fmt : Val → List Char} {A : List (String × Val)} (h : ∀ kv ∈ A, WritesAttr fmt kv) :
    ∃ ts, A.mapM (attrText fmt) = .ok ts ∧ Attributes ts.flatten := by
  induction A with
  | nil => exact ⟨[], rfl, .nil⟩
  | cons kv A ih =>
    obtain ⟨ts, h1, h2⟩ := ih fun x hx => h x (by simp [hx])
    obtain ⟨hn, v, hv, ha⟩ := h kv (by simp)
    refine ⟨([' '] ++ kv.1.toList ++ ['=', '"'] ++ v ++ ['"']) :: ts, ?_, ?_⟩
    · have he : attrText fmt kv = .ok ([' '] ++ kv.1.toList ++ ['=', '"'] ++ v ++ ['"']) := by
        unfold attrText; rw [hv]; rfl
      rw [List.mapM_cons, he, h1]; rfl
    · rw [List.flatten_cons]
      exact .cons _ _ (.mk _ _ hn ha) h2

theorem children_render {fmt : Val → List Char} {L : List Elem} (h : ∀ c ∈ L, Renders fmt c) : ∃ t, renderAll fmt L = .ok t ∧ Content t := by
  induction L with
  | nil => exact ⟨[], by rw [renderAll]; rfl, .nil⟩
  | cons c L ih =>
    obtain ⟨t, h1, h2⟩ := ih fun x hx => h x (by simp [hx])
    obtain ⟨u, h3, h4⟩ := h c (by simp)
    refine ⟨u ++ t, ?_, .cons _ _ h4 h2⟩
    rw [renderAll, h3, h1]; rfl

theorem renders_mk {fmt : Val → List Char} {tag : String} {A : List (String × Val)} {L : List Elem} (ht : IsName tag.toList)
    (hA : ∀ kv ∈ A, WritesAttr fmt kv) (hL : ∀ c ∈ L, Renders fmt c) : Renders fmt (.mk tag A L) := by
  obtain ⟨ts, h1, h2⟩ := attrs_render hA
  obtain ⟨t, h3, h4⟩ := children_render hL
  unfold Renders
  rw [render, h1]
  simp only [bind, Except.bind, h3]
  by_cases hc : L.isEmpty
  · rw [if_pos hc]
    exact ⟨_, rfl, .empty _ _ ht h2⟩
  · rw [if_neg hc]
    exact ⟨_, rfl, .full _ _ _ ht h2 h4⟩

theorem isName_of {n : List Char} (h : ∃ c cs, n = c :: cs ∧ (c.isAlpha ∨ c = '_') ∧ ∀ x ∈ cs, x.isAlphanum ∨ x = '_' ∨ x = '-' ∨ x = '.') : IsName n := h

/-- Every name has only characters that XML allows, and the material names are harmless. -/
structure Nameable (s : Scene) : Prop where
  bodies : ∀ b ∈ s.eng.bodies.values, (∀ c ∈ b.body.name.toList, Legal c) ∧ (∀ c ∈ b.body.material.toList, Legal c) ∧
    (∀ sh, b.body.shape = some sh → ∀ c ∈ sh.name.toList, Legal c) ∧ ∀ f ∈ b.body.forces, ∀ c ∈ f.name.toList, Legal c
  forces : ∀ f ∈ s.eng.forces.values, ∀ c ∈ f.name.toList, Legal c
  shapes : ∀ f ∈ s.eng.shapes.values, ∀ c ∈ f.name.toList, Legal c
  hinges : ∀ f ∈ s.eng.hinges.values, ∀ c ∈ f.name.toList, Legal c
  materials : ∀ kv ∈ s.eng.surfaces_interactions.storage.entries, Harmless kv.1.1 ∧ Harmless kv.1.2

theorem str_attr {fmt : Val → List Char} {k : String} (hk : IsName k.toList) {s : String} (h : ∀ c ∈ s.toList, Legal c) : WritesAttr fmt (k, .str s) :=
  ⟨hk, _, rfl, C112_string_safe h⟩

macro "name!" : tactic => `(tactic| exact ⟨_, _, rfl, by decide, by decide⟩)

theorem pair_attr {fmt : Val → List Char} {k : String} (hk : IsName k.toList) {a b : String} (ha : Harmless a) (hb : Harmless b) :
    WritesAttr fmt (k, .pair a b) := by
  refine ⟨hk, ['('] ++ Xml.repr a.toList ++ [',', ' '] ++ Xml.repr b.toList ++ [')'], ?_, ?_⟩
  · show (if a ∈ special ∨ b ∈ special then _ else _) = _
    rw [if_neg]
    rintro (h | h)
    · exact ha.1 h
    · exact hb.1 h
  · refine attValue_of_plain ?_
    intro c hc
    have hlit : ∀ x ∈ ['(', ',', ' ', ')'], Legal x ∧ x ≠ '<' ∧ x ≠ '&' ∧ x ≠ '"' := by
      intro x hx
      refine ⟨?_, ?_, ?_, ?_⟩ <;> fin_cases hx <;> first | exact legal_ascii (by decide) (by decide) | decide
    simp only [List.mem_append, List.mem_cons, List.not_mem_nil, or_false] at hc
    rcases hc with (((rfl | hc) | (rfl | rfl)) | hc) | rfl
    · exact hlit _ (by simp)
    · exact repr_plain ha.2 c hc
    · exact hlit _ (by simp)
    · exact hlit _ (by simp)
    · exact repr_plain hb.2 c hc
    · exact hlit _ (by simp)

/-- Numbers and arrays are written with characters that XML allows. -/
def LegalFormat (fmt : Val → List Char) : Prop := ∀ v, ∀ c ∈ fmt v, Legal c

theorem fmt_attr {fmt : Val → List Char} (hf : LegalFormat fmt) {k : String} (hk : IsName k.toList) {v : Val} (hv : ∀ s, v ≠ .str s)
    (hp : ∀ a b, v ≠ .pair a b) : WritesAttr fmt (k, v) := by
  cases v with
  | str s => exact absurd rfl (hv s)
  | pair a b => exact absurd rfl (hp a b)
  | _ => exact ⟨hk, _, rfl, C112_string_safe (hf _)⟩

macro "fmt!" h:term : tactic => `(tactic| exact fmt_attr $h (by name!) (by intro s hs; cases hs) (by intro a b hs; cases hs))

theorem all_cons {α : Type} {P : α → Prop} {a : α} {L : List α} (h : P a) (hL : ∀ x ∈ L, P x) : ∀ x ∈ a :: L, P x := by
  intro x hx
  rcases List.mem_cons.1 hx with rfl | hx
  · exact h
  · exact hL x hx

theorem all_nil {α : Type} {P : α → Prop} : ∀ x ∈ ([] : List α), P x := by
  intro x hx; cases hx

theorem all_map {α β : Type} {P : β → Prop} {f : α → β} {L : List α} (h : ∀ a ∈ L, P (f a)) : ∀ x ∈ L.map f, P x := by
  intro x hx
  obtain ⟨a, ha, rfl⟩ := List.mem_map.1 hx
  exact h a ha

theorem exists_left {α β : Type} {R : α → β → Prop} {L : List α} {L' : List β} (h : List.Forall₂ R L L') {b : β} (hb : b ∈ L') :
    ∃ a, a ∈ L ∧ R a b := by
  induction h with
  | nil => cases hb
  | cons h1 _ ih =>
    rcases List.mem_cons.1 hb with rfl | hb
    · exact ⟨_, by simp, h1⟩
    · obtain ⟨a, ha, hr⟩ := ih hb
      exact ⟨a, by simp [ha], hr⟩

theorem params_render {fmt : Val → List Char} (hf : LegalFormat fmt) (p : Params) :
    Renders fmt (.mk "params" [] ((settings p).map paramNode)) := by
  refine renders_mk (by name!) all_nil (all_map ?_)
  intro kv hkv
  have hk : ∀ c ∈ kv.1.toList, Legal c := by
    have : ∀ kv ∈ settings p, (kv.1.toList.all fun c => 0x20 ≤ c.toNat && c.toNat ≤ 0x7f) = true := by
      intro kv hkv
      unfold settings at hkv
      fin_cases hkv <;> (dsimp only; decide)
    intro c hc
    have := List.all_eq_true.1 (this kv hkv) c hc
    simp only [Bool.and_eq_true, decide_eq_true_eq] at this
    exact legal_ascii this.1 this.2
  have hv : WritesAttr fmt ("value", kv.2) := by
    refine fmt_attr hf (by name!) ?_ ?_
    · intro x hx
      unfold settings at hkv
      fin_cases hkv <;> cases hx
    · intro x y hx
      unfold settings at hkv
      fin_cases hkv <;> cases hx
  exact renders_mk (by name!) (all_cons (str_attr (by name!) hk) (all_cons hv all_nil)) all_nil

/-- **C112** (where it holds).  If every name has only characters that XML allows, and no material name has a less-than sign, an ampersand or a quote (nor
is a single greater-than sign, tab or line end), then `write_xml` writes a well-formed element.  Missing for the full property: the material names. -/
theorem C112_well_formed_partial {fmt : Val → List Char} (hf : LegalFormat fmt) {s : Scene} (hn : Nameable s) {d : Elem}
    (hd : document s = .ok d) : ∃ t, write_xml fmt s = .ok t ∧ XmlSpec.Element t := by
  have hmain : Renders fmt d := by
    obtain ⟨bs, shs, hgs, h1, h2, h3, rfl⟩ := document_ok.1 hd
    refine renders_mk (by name!) all_nil (all_cons ?_ (all_cons ?_ (all_cons ?_ (all_cons ?_ (all_cons ?_ (all_cons ?_ all_nil))))))
    · refine renders_mk (by name!) all_nil ?_
      intro el hel
      obtain ⟨b, hb, hk⟩ := exists_left h1 hel
      obtain ⟨sh, hsh, rfl⟩ := bodyNode_ok hk
      obtain ⟨n1, n2, n3, n4⟩ := hn.bodies b hb
      refine renders_mk (by name!) ?_ (all_map ?_)
      · refine all_cons (str_attr (by name!) n1) (all_cons (by fmt! hf) (all_cons (str_attr (by name!) (n3 sh hsh)) ?_))
        refine all_cons (by fmt! hf) (all_cons (by fmt! hf) (all_cons (by fmt! hf) (all_cons (by fmt! hf) (all_cons (by fmt! hf) ?_))))
        exact all_cons (by fmt! hf) (all_cons (by fmt! hf) (all_cons (str_attr (by name!) n2) all_nil))
      · intro f hff
        exact renders_mk (by name!) (all_cons (str_attr (by name!) (n4 f hff)) all_nil) all_nil
    · refine renders_mk (by name!) all_nil (all_map ?_)
      intro f hff
      have hname := hn.forces f hff
      unfold forceNode
      split
      · exact renders_mk (by name!) (all_cons (str_attr (by name!) hname) (all_cons (by fmt! hf) (all_cons (by fmt! hf) all_nil))) all_nil
      · exact renders_mk (by name!) (all_cons (str_attr (by name!) hname) (all_cons (by fmt! hf) (all_cons (by fmt! hf) all_nil))) all_nil
    · refine renders_mk (by name!) all_nil ?_
      intro el hel
      obtain ⟨sh, hb, hk⟩ := exists_left h2 hel
      obtain ⟨m, hm, rfl⟩ := shapeNode_ok hk
      refine renders_mk (by name!) (all_cons (str_attr (by name!) (hn.shapes sh hb)) all_nil) (all_cons ?_ (all_cons ?_ all_nil))
      · refine renders_mk (by name!) (all_cons (by fmt! hf) all_nil) (all_map ?_)
        intro v _
        exact renders_mk (by name!) (all_cons (by fmt! hf) (all_cons (by fmt! hf) all_nil)) all_nil
      · refine renders_mk (by name!) (all_cons (by fmt! hf) all_nil) (all_map ?_)
        intro v _
        exact renders_mk (by name!) (all_cons (by fmt! hf) (all_cons (by fmt! hf) all_nil)) all_nil
    · refine renders_mk (by name!) all_nil (all_map ?_)
      intro kv hkv
      obtain ⟨ha, hb⟩ := hn.materials kv hkv
      exact renders_mk (by name!) (all_cons (pair_attr (by name!) ha hb) (all_cons (by fmt! hf) (all_cons (by fmt! hf) all_nil))) all_nil
    · refine renders_mk (by name!) all_nil ?_
      intro el hel
      obtain ⟨x, hb, hk⟩ := exists_left h3 hel
      obtain ⟨pn, p, cn, c, arm, axis, a1, a2, a3, a4, a5, a6, rfl⟩ := hingeNode_ok.1 hk
      have hx : x.1 ∈ s.eng.hinges.values := by
        have := List.mem_zipIdx' hb
        exact this.2 ▸ List.getElem_mem _
      have hp := (hn.bodies p (get?_values a2)).1
      have hc := (hn.bodies c (get?_values a4)).1
      refine renders_mk (by name!) ?_ all_nil
      refine all_cons (str_attr (by name!) (hn.hinges _ hx)) (all_cons (by fmt! hf) (all_cons (str_attr (by name!) hp) (all_cons (by fmt! hf) ?_)))
      refine all_cons (str_attr (by name!) hc) (all_cons (by fmt! hf) (all_cons (by fmt! hf) (all_cons (by fmt! hf) ?_)))
      refine all_cons (str_attr (by name!) ?_) all_nil
      intro c hc
      have : c ∈ ['w', 'o', 'r', 'l', 'd'] := hc
      fin_cases this <;> exact legal_ascii (by decide) (by decide)
    · exact params_render hf _
  obtain ⟨t, h1, h2⟩ := hmain
  refine ⟨t, ?_, h2⟩
  unfold write_xml
  rw [hd]
  exact h1

end Verif
