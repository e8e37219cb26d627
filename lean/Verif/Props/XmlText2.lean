import Verif.Props.XmlText

/-! C112: material names that break the file of `write_xml`. -/

namespace Verif

open Rigid Rigid.Xml XmlSpec

/-! ### A scanner -/

/-- Where a scanner of XML is: between tags, in a tag, in an attribute value, or at an error. -/
inductive Scan | out | tag | quote | bad
  deriving DecidableEq

/-- One character. -/
def Scan.step : Scan → Char → Scan
  | .out, c => if c = '<' then .tag else .out
  | .tag, c => if c = '"' then .quote else if c = '>' then .out else if c = '<' then .bad else .tag
  | .quote, c => if c = '"' then .tag else if c = '<' then .bad else .quote
  | .bad, _ => .bad

/-- A text. -/
def Scan.run (q : Scan) (t : List Char) : Scan := t.foldl Scan.step q

theorem Scan.run_append (q : Scan) (a b : List Char) : q.run (a ++ b) = (q.run a).run b := List.foldl_append ..
theorem Scan.run_bad (t : List Char) : Scan.bad.run t = .bad := by
  induction t with
  | nil => rfl
  | cons c t ih => exact ih

theorem Scan.run_quote {v : List Char} (h : '"' ∉ v) : Scan.quote.run v = if '<' ∈ v then .bad else .quote := by
  induction v with
  | nil => rfl
  | cons c v ih =>
    have h1 : c ≠ '"' := fun e => h (by simp [e])
    have h2 : '"' ∉ v := fun e => h (by simp [e])
    show (Scan.step .quote c).run v = _
    simp only [Scan.step]
    rw [if_neg h1]
    by_cases h3 : c = '<'
    · rw [if_pos h3, Scan.run_bad, if_pos (by simp [h3])]
    · rw [if_neg h3, ih h2]
      have : ('<' ∈ c :: v) ↔ '<' ∈ v := by simp [Ne.symm h3]
      simp only [this]

theorem reference_plain {r : List Char} (h : Reference r) : '"' ∉ r ∧ '<' ∉ r := by
  cases h with
  | entity name hm =>
    simp only [List.mem_cons, List.not_mem_nil, or_false] at hm
    rcases hm with rfl | rfl | rfl | rfl | rfl <;> decide
  | decimal ds _ hd =>
    constructor
    · intro hc
      simp only [List.mem_append, List.mem_cons, List.not_mem_nil, or_false] at hc
      rcases hc with (hc | hc) | hc
      · revert hc; decide
      · have := hd _ hc; revert this; decide
      · revert hc; decide
    · intro hc
      simp only [List.mem_append, List.mem_cons, List.not_mem_nil, or_false] at hc
      rcases hc with (hc | hc) | hc
      · revert hc; decide
      · have := hd _ hc; revert this; decide
      · revert hc; decide

theorem attValue_plain {v : List Char} (h : AttValue v) : '"' ∉ v ∧ '<' ∉ v := by
  induction h with
  | nil => simp
  | char c v _ h1 _ h3 _ ih => simp [Ne.symm h1, Ne.symm h3, ih.1, ih.2]
  | ref r v hr _ ih =>
    have := reference_plain hr
    simp [this.1, this.2, ih.1, ih.2]

theorem alpha_plain {c : Char} (h : c.isAlphanum ∨ c = '_' ∨ c = '-' ∨ c = '.') : c ≠ '"' ∧ c ≠ '<' ∧ c ≠ '>' := by
  refine ⟨?_, ?_, ?_⟩ <;> rintro rfl <;> revert h <;> decide

theorem name_plain {n : List Char} (h : IsName n) : ∀ c ∈ n, c ≠ '"' ∧ c ≠ '<' ∧ c ≠ '>' := by
  obtain ⟨c, cs, rfl, h1, h2⟩ := h
  intro x hx
  rcases List.mem_cons.1 hx with rfl | hx
  · rcases h1 with h1 | rfl
    · refine alpha_plain (.inl ?_)
      unfold Char.isAlphanum
      simp [h1]
    · decide
  · exact alpha_plain (h2 x hx)

theorem Scan.run_tag {n : List Char} (h : ∀ c ∈ n, c ≠ '"' ∧ c ≠ '<' ∧ c ≠ '>') : Scan.tag.run n = .tag := by
  induction n with
  | nil => rfl
  | cons c n ih =>
    obtain ⟨h1, h2, h3⟩ := h c (by simp)
    show (Scan.step .tag c).run n = _
    simp only [Scan.step]
    rw [if_neg h1, if_neg h3, if_neg h2]
    exact ih fun x hx => h x (by simp [hx])

theorem attribute_scan {a : List Char} (h : Attribute a) : Scan.tag.run a = .tag := by
  cases h with
  | mk n v hn hv =>
    rw [Scan.run_append, Scan.run_append, Scan.run_append, Scan.run_append]
    have h1 : Scan.tag.run [' '] = .tag := by decide
    have h2 : Scan.tag.run ['=', '"'] = .quote := by decide
    have h3 : Scan.quote.run ['"'] = .tag := by decide
    rw [h1, Scan.run_tag (name_plain hn), h2, Scan.run_quote (attValue_plain hv).1, if_neg (attValue_plain hv).2, h3]

theorem attributes_scan {a : List Char} (h : Attributes a) : Scan.tag.run a = .tag := by
  induction h with
  | nil => rfl
  | cons a t ha _ ih => rw [Scan.run_append, attribute_scan ha, ih]

theorem element_scan {t : List Char} (h : XmlSpec.Element t) : Scan.out.run t = .out := by
  refine XmlSpec.Element.rec (motive_1 := fun t _ => Scan.out.run t = .out) (motive_2 := fun t _ => Scan.out.run t = .out) ?_ ?_ ?_ ?_ h
  · intro n a hn ha
    rw [Scan.run_append, Scan.run_append, Scan.run_append, show Scan.out.run ['<'] = .tag by decide, Scan.run_tag (name_plain hn), attributes_scan ha]
    decide
  · intro n a c hn ha _ hc
    rw [Scan.run_append, Scan.run_append, Scan.run_append, Scan.run_append, Scan.run_append, Scan.run_append, Scan.run_append,
      show Scan.out.run ['<'] = .tag by decide, Scan.run_tag (name_plain hn), attributes_scan ha, show Scan.tag.run ['>'] = .out by decide,
      hc, show Scan.out.run ['<', '/'] = .tag by decide, Scan.run_tag (name_plain hn)]
    decide
  · rfl
  · intro e c _ _ he hc
    rw [Scan.run_append, he, hc]

/-! ### Names that break the file -/

theorem escape_plain (s : List Char) : '"' ∉ escape s ∧ '<' ∉ escape s := by
  induction s with
  | nil => simp [escape]
  | cons c s ih =>
    rw [escape_cons]
    have hc : '"' ∉ escapeChar c ∧ '<' ∉ escapeChar c := by
      unfold escapeChar
      split_ifs with h1 h2 h3 h4 <;> first | decide | (simp [Ne.symm h2, Ne.symm h4])
    simp [hc.1, hc.2, ih.1, ih.2]

theorem repr_keeps {s : List Char} (h1 : '\'' ∉ s) : (∀ c ∈ s, c ≠ '\\' → c ≠ '\n' → c ≠ '\r' → c ≠ '\t' → c ∈ Xml.repr s) ∧
    ('"' ∉ s → '"' ∉ Xml.repr s) := by
  unfold Xml.repr
  simp only [h1, false_and, if_false, List.mem_append, List.mem_flatMap, List.mem_singleton]
  constructor
  · intro c hc n1 n2 n3 n4
    refine .inl (.inr ⟨c, hc, ?_⟩)
    have : c ≠ '\'' := fun e => h1 (e ▸ hc)
    rw [if_neg (by tauto), if_neg n2, if_neg n3, if_neg n4]
    simp
  · rintro h2 ((h | ⟨a, ha, h⟩) | h)
    · revert h; decide
    · have : a ≠ '"' := fun e => h2 (e ▸ ha)
      split_ifs at h <;> simp at h <;> exact this h.symm
    · revert h; decide

/-- The interactions of a new engine in which one has been created. -/
theorem new_storage {A : String} (hA : A ≠ "default") {ep : ℝ} {mu : V3} {e : Engine}
    (h : Engine.create_engine.create_surfaces_interaction A "default" ep mu = .ok e) :
    ∃ a b, ((a, b) = (A, "default") ∨ (a, b) = ("default", A)) ∧
      e = { Engine.create_engine with surfaces_interactions := ⟨⟨[(("default", "default"), SurfacesInteraction.init), ((a, b), ⟨mu, ep⟩)]⟩⟩ } := by
  unfold Engine.create_surfaces_interaction at h
  have hs : ∀ k : String × String, k ≠ ("default", "default") →
      Engine.create_engine.surfaces_interactions.storage.setItem k ⟨mu, ep⟩ =
        ⟨[(("default", "default"), SurfacesInteraction.init), (k, ⟨mu, ep⟩)]⟩ := by
    intro k hk
    unfold Engine.create_engine SurfacesInteractionLibrary.init Dict.setItem Dict.empty Dict.mem
    simp [Ne.symm hk]
  split_ifs at h <;> simp only [Except.ok.injEq] at h <;> subst h
  · rw [hs _ (by simp [hA])]
    exact ⟨"default", A, .inr rfl, rfl⟩
  · rw [hs _ (by simp [hA])]
    exact ⟨A, "default", .inl rfl, rfl⟩

theorem default_ok : "default" ∉ special ∧ '"' ∉ Xml.repr "default".toList ∧ '<' ∉ Xml.repr "default".toList := by
  decide

/-- The element is written, and the scanner stumbles over it. -/
def Spoils (fmt : Val → List Char) (el : Elem) : Prop := ∃ t, render fmt el = .ok t ∧ Scan.out.run t = .bad

theorem children_spoil {fmt : Val → List Char} {L1 L2 : List Elem} {x : Elem} (h1 : ∀ c ∈ L1, Renders fmt c) (hx : Spoils fmt x)
    (h2 : ∀ c ∈ L2, Renders fmt c) : ∃ t, renderAll fmt (L1 ++ x :: L2) = .ok t ∧ Scan.out.run t = .bad := by
  induction L1 with
  | nil =>
    obtain ⟨t, ht, hb⟩ := hx
    obtain ⟨u, hu, -⟩ := children_render h2
    refine ⟨t ++ u, ?_, ?_⟩
    · rw [List.nil_append, renderAll, ht, hu]; rfl
    · rw [Scan.run_append, hb, Scan.run_bad]
  | cons c L ih =>
    obtain ⟨t, ht, hb⟩ := ih fun x hx => h1 x (by simp [hx])
    obtain ⟨u, hu, he⟩ := h1 c (by simp)
    refine ⟨u ++ t, ?_, ?_⟩
    · rw [List.cons_append, renderAll, hu, ht]; rfl
    · rw [Scan.run_append, element_scan he, hb]

theorem spoil_mk {fmt : Val → List Char} {tag : String} {L1 L2 : List Elem} {x : Elem} (ht : IsName tag.toList) (h1 : ∀ c ∈ L1, Renders fmt c)
    (hx : Spoils fmt x) (h2 : ∀ c ∈ L2, Renders fmt c) : Spoils fmt (.mk tag [] (L1 ++ x :: L2)) := by
  obtain ⟨t, hr, hb⟩ := children_spoil h1 hx h2
  unfold Spoils
  rw [render]
  simp only [bind, Except.bind, hr, List.mapM_nil, pure, Except.pure]
  rw [if_neg (by simp)]
  refine ⟨_, rfl, ?_⟩
  rw [Scan.run_append, Scan.run_append, Scan.run_append, Scan.run_append, Scan.run_append, Scan.run_append, Scan.run_append,
    show Scan.out.run ['<'] = .tag by decide, Scan.run_tag (name_plain ht), List.flatten_nil, show Scan.tag.run [] = .tag by rfl,
    show Scan.tag.run ['>'] = .out by decide, hb, Scan.run_bad, Scan.run_bad, Scan.run_bad]

theorem spoil_attr {fmt : Val → List Char} {tag k : String} {v : Val} {A : List (String × Val)} (ht : IsName tag.toList) (hk : IsName k.toList)
    {t : List Char} (hv : valText fmt v = .ok t) (h1 : '"' ∉ t) (h2 : '<' ∈ t) (hA : ∀ kv ∈ A, WritesAttr fmt kv) :
    Spoils fmt (.mk tag ((k, v) :: A) []) := by
  obtain ⟨ts, hts, -⟩ := attrs_render hA
  have he : attrText fmt (k, v) = .ok ([' '] ++ k.toList ++ ['=', '"'] ++ t ++ ['"']) := by
    unfold attrText; rw [hv]; rfl
  unfold Spoils
  rw [render, List.mapM_cons, he, hts]
  simp only [bind, Except.bind, renderAll, pure, Except.pure]
  refine ⟨_, rfl, ?_⟩
  simp only [List.flatten_cons, Scan.run_append]
  rw [show Scan.out.run ['<'] = .tag by decide, Scan.run_tag (name_plain ht), show Scan.tag.run [' '] = .tag by decide,
    Scan.run_tag (name_plain hk), show Scan.tag.run ['=', '"'] = .quote by decide, Scan.run_quote h1, if_pos h2, Scan.run_bad, Scan.run_bad, Scan.run_bad]

theorem harmless_default : Harmless "default" := by
  refine ⟨default_ok.1, ?_⟩
  intro c hc
  have : c ∈ ['d', 'e', 'f', 'a', 'u', 'l', 't'] := hc
  refine ⟨?_, ?_, ?_, ?_, ?_⟩ <;> fin_cases this <;> first | exact legal_ascii (by decide) (by decide) | decide

/-- **C112** (finding).  A material whose name has a less-than sign (but no quotes, and which is not just that sign) is accepted by the API, but the file
written afterwards is not well-formed: the pair of names is put into the attribute "materials" as it is. -/
theorem C112_not_well_formed {fmt : Val → List Char} (hf : LegalFormat fmt) {A : String} (h1 : '<' ∈ A.toList) (h2 : '"' ∉ A.toList) (h3 : '\'' ∉ A.toList) (h4 : A ≠ "<")
    (s : Scene) {ep : ℝ} {mu : V3} {e : Engine} (h : Engine.create_engine.create_surfaces_interaction A "default" ep mu = .ok e) :
    ∃ t, write_xml fmt { s with eng := e } = .ok t ∧ ¬ XmlSpec.Element t := by
  have hAd : A ≠ "default" := by rintro rfl; revert h1; decide
  obtain ⟨a, b, hab, rfl⟩ := new_storage hAd h
  have hAs : A ∉ special := by
    intro hm
    unfold special at hm
    simp only [List.mem_cons, List.not_mem_nil, or_false] at hm
    rcases hm with rfl | hm | rfl | rfl | rfl | rfl | rfl
    · revert h1; decide
    · exact h4 hm
    all_goals (revert h1; decide)
  have hrA : '<' ∈ Xml.repr A.toList ∧ '"' ∉ Xml.repr A.toList :=
    ⟨(repr_keeps h3).1 _ h1 (by decide) (by decide) (by decide) (by decide), (repr_keeps h3).2 h2⟩
  have hmem : ∀ x y : List Char, '"' ∉ x → '"' ∉ y → '"' ∉ (['('] ++ x ++ [',', ' '] ++ y ++ [')']) := by
    intro x y hx hy
    simp [hx, hy]
  have hpair : valText fmt (.pair a b) = .ok (['('] ++ Xml.repr a.toList ++ [',', ' '] ++ Xml.repr b.toList ++ [')']) ∧
      '"' ∉ (['('] ++ Xml.repr a.toList ++ [',', ' '] ++ Xml.repr b.toList ++ [')']) ∧
      '<' ∈ (['('] ++ Xml.repr a.toList ++ [',', ' '] ++ Xml.repr b.toList ++ [')']) := by
    rcases hab with hab | hab <;> cases hab
    · refine ⟨?_, ?_, ?_⟩
      · show (if _ then _ else _) = _
        rw [if_neg (by rintro (h | h); exacts [hAs h, default_ok.1 h])]
      · first | exact hmem _ _ hrA.2 default_ok.2.1 | exact hmem _ _ default_ok.2.1 hrA.2
      · simp [hrA.1]
    · refine ⟨?_, ?_, ?_⟩
      · show (if _ then _ else _) = _
        rw [if_neg (by rintro (h | h); exacts [default_ok.1 h, hAs h])]
      · first | exact hmem _ _ hrA.2 default_ok.2.1 | exact hmem _ _ default_ok.2.1 hrA.2
      · simp [hrA.1]
  have hroot : Spoils fmt (.mk "scene" []
      ([.mk "bodies" [] [], .mk "forces" [] [], .mk "shapes" [] []] ++
        Elem.mk "materials" [] ([interactionNode (("default", "default"), SurfacesInteraction.init)] ++ interactionNode ((a, b), ⟨mu, ep⟩) :: []) ::
        [.mk "hinges" [] [], .mk "params" [] ((settings Params.init).map paramNode)])) := by
    refine spoil_mk (by name!) ?_ (spoil_mk (by name!) ?_ ?_ all_nil) ?_
    · exact all_cons (renders_mk (by name!) all_nil all_nil) (all_cons (renders_mk (by name!) all_nil all_nil)
        (all_cons (renders_mk (by name!) all_nil all_nil) all_nil))
    · exact all_cons (renders_mk (by name!) (all_cons (pair_attr (by name!) harmless_default harmless_default)
        (all_cons (by fmt! hf) (all_cons (by fmt! hf) all_nil))) all_nil) all_nil
    · exact spoil_attr (by name!) (by name!) hpair.1 hpair.2.1 hpair.2.2 (all_cons (by fmt! hf) (all_cons (by fmt! hf) all_nil))
    · exact all_cons (renders_mk (by name!) all_nil all_nil) (all_cons (params_render hf _) all_nil)
  obtain ⟨t, h5, h6⟩ := hroot
  refine ⟨t, ?_, ?_⟩
  · exact h5
  · intro hel
    rw [element_scan hel] at h6
    cases h6

/-- A name that the theorem speaks of, and the call that introduces it. -/
example (s : Scene) {fmt : Val → List Char} (hf : LegalFormat fmt) : ∃ e, Engine.create_engine.create_surfaces_interaction "a<b" "default" 0 ⟨1, 1, 1⟩ = .ok e ∧
    ∃ t, write_xml fmt { s with eng := e } = .ok t ∧ ¬ XmlSpec.Element t := by
  have hex : ∃ e, Engine.create_engine.create_surfaces_interaction "a<b" "default" 0 ⟨1, 1, 1⟩ = .ok e := by
    unfold Engine.create_surfaces_interaction
    rw [if_neg, if_neg (by norm_num), if_neg (by norm_num), if_neg (by norm_num), if_neg (by norm_num)]
    · exact ⟨_, rfl⟩
    · unfold SurfacesInteractionLibrary.exist_interaction SurfacesInteractionLibrary.key Engine.create_engine SurfacesInteractionLibrary.init
        Dict.setItem Dict.empty Dict.mem
      split <;> simp
  obtain ⟨e, he⟩ := hex
  exact ⟨e, he, C112_not_well_formed hf (by decide) (by decide) (by decide) (by decide) s he⟩

/-! ### Names that make the writer raise -/

theorem render_typeError {fmt : Val → List Char} : ∀ (n : ℕ) (el : Elem), sizeOf el ≤ n → ∀ e, render fmt el = .error e → e = .typeError := by
  have hval : ∀ v e, valText fmt v = .error e → e = .typeError := by
    intro v e h
    cases v with
    | pair a b =>
      simp only [valText] at h
      split_ifs at h
      cases h; rfl
    | _ => cases h
  have hattr : ∀ kv e, attrText fmt kv = .error e → e = .typeError := by
    intro kv e h
    unfold attrText at h
    cases hv : valText fmt kv.2 with
    | ok v => rw [hv] at h; cases h
    | error x => rw [hv] at h; cases h; exact hval _ _ hv
  intro n
  induction n with
  | zero => intro el h; cases el; simp at h
  | succ n ih =>
    intro el hsz e he
    cases el with
    | mk tag A L =>
      rw [render] at he
      cases hA : A.mapM (attrText fmt) with
      | error x =>
        rw [hA] at he
        cases he
        obtain ⟨kv, -, hk⟩ := mapM_error hA
        exact hattr _ _ hk
      | ok ts =>
        rw [hA] at he
        have hall : ∀ L' : List Elem, (∀ c ∈ L', sizeOf c ≤ n) → ∀ x, renderAll fmt L' = .error x → x = .typeError := by
          intro L'
          induction L' with
          | nil => intro _ x hx; rw [renderAll] at hx; cases hx
          | cons c L' ihL =>
            intro hL' x hx
            rw [renderAll] at hx
            cases hc : render fmt c with
            | error y => rw [hc] at hx; cases hx; exact ih c (hL' c (by simp)) _ hc
            | ok u =>
              rw [hc] at hx
              cases hr : renderAll fmt L' with
              | error y => simp only [bind, Except.bind, hr] at hx; cases hx; exact ihL (fun c hc => hL' c (by simp [hc])) _ hr
              | ok u' => simp only [bind, Except.bind, hr] at hx; cases hx
        cases hL : renderAll fmt L with
        | error x =>
          simp only [bind, Except.bind, hL] at he
          cases he
          refine hall L ?_ _ hL
          intro c hc
          have := List.sizeOf_lt_of_mem hc
          simp at hsz
          omega
        | ok u =>
          simp only [bind, Except.bind, hL] at he
          split_ifs at he <;> cases he

theorem renderAll_ok {fmt : Val → List Char} {L : List Elem} {t : List Char} (h : renderAll fmt L = .ok t) : ∀ c ∈ L, ∃ u, render fmt c = .ok u := by
  induction L generalizing t with
  | nil => intro c hc; cases hc
  | cons a L ih =>
    rw [renderAll] at h
    cases ha : render fmt a with
    | error e => rw [ha] at h; cases h
    | ok u =>
      rw [ha] at h
      cases hL : renderAll fmt L with
      | error e => simp only [bind, Except.bind, hL] at h; cases h
      | ok v => exact all_cons ⟨u, ha⟩ (ih hL)

theorem render_ok {fmt : Val → List Char} {tag : String} {A : List (String × Val)} {L : List Elem} {t : List Char}
    (h : render fmt (.mk tag A L) = .ok t) : (∀ kv ∈ A, ∃ u, attrText fmt kv = .ok u) ∧ ∀ c ∈ L, ∃ u, render fmt c = .ok u := by
  rw [render] at h
  cases hA : A.mapM (attrText fmt) with
  | error e => rw [hA] at h; cases h
  | ok ts =>
    rw [hA] at h
    cases hL : renderAll fmt L with
    | error e => simp only [bind, Except.bind, hL] at h; cases h
    | ok u =>
      refine ⟨?_, renderAll_ok hL⟩
      intro kv hkv
      obtain ⟨b, -, hb⟩ := exists_right (mapM_forall₂.1 hA) hkv
      exact ⟨b, hb⟩

macro "no_pair" : tactic => `(tactic| (intro kv hkv a b hab; exfalso; fin_cases hkv <;> cases hab))

/-- **C112** (finding).  A material called "&" (or "<", ">", a quote, a tab or a line end) is accepted by the API, but then `write_xml` raises a TypeError,
whatever else is in the scene.  These are the only names that make it raise. -/
theorem C112_type_error (fmt : Val → List Char) {s : Scene} {d : Elem} (hd : document s = .ok d) :
    ((∃ kv ∈ s.eng.surfaces_interactions.storage.entries, kv.1.1 ∈ special ∨ kv.1.2 ∈ special) ↔ ∃ e, write_xml fmt s = .error e) ∧
      ∀ e, write_xml fmt s = .error e → e = .typeError := by
  have hw : write_xml fmt s = render fmt d := by
    unfold write_xml; rw [hd]; rfl
  rw [hw]
  refine ⟨⟨?_, ?_⟩, fun e he => render_typeError _ d le_rfl e he⟩
  · rintro ⟨kv, hkv, hsp⟩
    cases hr : render fmt d with
    | error e => exact ⟨e, rfl⟩
    | ok t =>
      exfalso
      obtain ⟨bs, shs, hgs, -, -, -, rfl⟩ := document_ok.1 hd
      obtain ⟨u, hu⟩ := (render_ok hr).2 (.mk "materials" [] (s.eng.surfaces_interactions.storage.entries.map interactionNode)) (by simp)
      obtain ⟨v, hv⟩ := (render_ok hu).2 (interactionNode kv) (List.mem_map.2 ⟨kv, hkv, rfl⟩)
      obtain ⟨w, hw⟩ := (render_ok hv).1 ("materials", .pair kv.1.1 kv.1.2) (by simp)
      unfold attrText valText at hw
      simp only at hw
      rw [if_pos hsp] at hw
      cases hw
  · rintro ⟨e, he⟩
    by_contra hno
    push_neg at hno
    have hattr : ∀ (kv : String × Val), (∀ a b, kv.2 = .pair a b → a ∉ special ∧ b ∉ special) → ∃ u, attrText fmt kv = .ok u := by
      rintro ⟨k, v⟩ hv
      unfold attrText
      cases v with
      | pair a b =>
        obtain ⟨h1, h2⟩ := hv a b rfl
        simp only [valText]
        rw [if_neg (by tauto)]
        exact ⟨_, rfl⟩
      | _ => exact ⟨_, rfl⟩
    have hmk : ∀ tag A L, (∀ kv ∈ A, ∀ a b, kv.2 = Val.pair a b → a ∉ special ∧ b ∉ special) → (∀ c ∈ L, ∃ u, render fmt c = .ok u) →
        ∃ u, render fmt (.mk tag A L) = .ok u := by
      intro tag A L hA hL
      obtain ⟨ts, hts, -⟩ := mapM_except (L := A) (f := attrText fmt) (P := fun _ _ => True) (fun kv hkv => by
        obtain ⟨u, hu⟩ := hattr kv (hA kv hkv)
        exact ⟨u, hu, trivial⟩)
      have hc : ∃ u, renderAll fmt L = .ok u := by
        clear hts hA
        induction L with
        | nil => exact ⟨[], by rw [renderAll]; rfl⟩
        | cons c L ih =>
          obtain ⟨u, hu⟩ := ih fun x hx => hL x (by simp [hx])
          obtain ⟨v, hv⟩ := hL c (by simp)
          exact ⟨v ++ u, by rw [renderAll, hv, hu]; rfl⟩
      obtain ⟨u, hu⟩ := hc
      rw [render, hts]
      simp only [bind, Except.bind, hu]
      split <;> exact ⟨_, rfl⟩
    have hdone : ∃ u, render fmt d = .ok u := by
      obtain ⟨bs, shs, hgs, h1, h2, h3, rfl⟩ := document_ok.1 hd
      refine hmk _ _ _ all_nil (all_cons ?_ (all_cons ?_ (all_cons ?_ (all_cons ?_ (all_cons ?_ (all_cons ?_ all_nil))))))
      · refine hmk _ _ _ all_nil ?_
        intro el hel
        obtain ⟨b, -, hk⟩ := exists_left h1 hel
        obtain ⟨sh, -, rfl⟩ := bodyNode_ok hk
        refine hmk _ _ _ (by no_pair) (all_map fun f _ => hmk _ _ _ (by no_pair) all_nil)
      · refine hmk _ _ _ all_nil (all_map ?_)
        intro f _
        unfold forceNode
        split
        · exact hmk _ _ _ (by no_pair) all_nil
        · exact hmk _ _ _ (by no_pair) all_nil
      · refine hmk _ _ _ all_nil ?_
        intro el hel
        obtain ⟨b, -, hk⟩ := exists_left h2 hel
        obtain ⟨sh, -, rfl⟩ := shapeNode_ok hk
        refine hmk _ _ _ (by no_pair) (all_cons (hmk _ _ _ (by no_pair) (all_map ?_)) (all_cons (hmk _ _ _ (by no_pair) (all_map ?_)) all_nil))
        · intro v _; exact hmk _ _ _ (by no_pair) all_nil
        · intro v _; exact hmk _ _ _ (by no_pair) all_nil
      · refine hmk _ _ _ all_nil (all_map ?_)
        intro kv hkv
        refine hmk _ _ _ ?_ all_nil
        refine all_cons ?_ (by no_pair)
        intro a b hab
        cases hab
        exact hno kv hkv
      · refine hmk _ _ _ all_nil ?_
        intro el hel
        obtain ⟨b, -, hk⟩ := exists_left h3 hel
        obtain ⟨pn, p, cn, c, arm, axis, -, -, -, -, -, -, rfl⟩ := hingeNode_ok.1 hk
        exact hmk _ _ _ (by no_pair) all_nil
      · refine hmk _ _ _ all_nil (all_map ?_)
        intro kv hkv
        refine hmk _ _ _ (all_cons (by intro a b h; cases h) (all_cons ?_ all_nil)) all_nil
        intro a b hab
        unfold settings at hkv
        fin_cases hkv <;> cases hab
    obtain ⟨u, hu⟩ := hdone
    rw [hu] at he
    cases he

/-- The API accepts the name "&". -/
example (s : Scene) (fmt : Val → List Char) : ∃ e, Engine.create_engine.create_surfaces_interaction "&" "default" 0 ⟨1, 1, 1⟩ = .ok e ∧
    write_xml fmt { s with eng := e } = .error .typeError := by
  have hex : ∃ e, Engine.create_engine.create_surfaces_interaction "&" "default" 0 ⟨1, 1, 1⟩ = .ok e := by
    unfold Engine.create_surfaces_interaction
    rw [if_neg, if_neg (by norm_num), if_neg (by norm_num), if_neg (by norm_num), if_neg (by norm_num)]
    · exact ⟨_, rfl⟩
    · unfold SurfacesInteractionLibrary.exist_interaction SurfacesInteractionLibrary.key Engine.create_engine SurfacesInteractionLibrary.init
        Dict.setItem Dict.empty Dict.mem
      split <;> simp
  obtain ⟨e, he⟩ := hex
  refine ⟨e, he, ?_⟩
  obtain ⟨a, b, hab, rfl⟩ := new_storage (by decide) he
  have h := C112_type_error fmt (s := { s with eng := _ }) (d := _) (rfl : document { s with eng := { Engine.create_engine with
    surfaces_interactions := ⟨⟨[(("default", "default"), SurfacesInteraction.init), ((a, b), ⟨⟨1, 1, 1⟩, 0⟩)]⟩⟩ } } = .ok _)
  obtain ⟨x, hx⟩ := h.1.1 ⟨((a, b), ⟨⟨1, 1, 1⟩, 0⟩), by simp, by
    rcases hab with h | h <;> cases h <;> simp [special]⟩
  rw [hx, h.2 x hx]

/-- A scene with gravity and a second material. -/
noncomputable def iceScene (g : ℝ) (up mu : V3) (ep : ℝ) : Engine :=
  { Engine.create_engine with
    forces := Dict.empty.setItem "earth" ⟨"earth", .gravity g up⟩
    surfaces_interactions := ⟨⟨[(("default", "default"), SurfacesInteraction.init), (("default", "ice"), ⟨mu, ep⟩)]⟩⟩ }

/-- The theorem about well-formed files speaks of it. -/
example (s : Scene) {fmt : Val → List Char} (hf : LegalFormat fmt) (g : ℝ) (up mu : V3) (ep : ℝ) :
    ∃ t, write_xml fmt { s with eng := iceScene g up mu ep } = .ok t ∧ XmlSpec.Element t := by
  have hice : Harmless "ice" := by
    refine ⟨by decide, ?_⟩
    intro c hc
    have : c ∈ ['i', 'c', 'e'] := hc
    refine ⟨?_, ?_, ?_, ?_, ?_⟩ <;> fin_cases this <;> first | exact legal_ascii (by decide) (by decide) | decide
  refine C112_well_formed_partial hf ⟨?_, ?_, ?_, ?_, ?_⟩ rfl
  · intro b hb; cases hb
  · intro f hf'
    have hf'' : f ∈ [(⟨"earth", .gravity g up⟩ : Force)] := hf'
    simp only [List.mem_singleton] at hf''
    subst hf''
    intro c hc
    replace hc : c ∈ "earth".toList := hc
    have : c ∈ ['e', 'a', 'r', 't', 'h'] := hc
    fin_cases this <;> exact legal_ascii (by decide) (by decide)
  · intro b hb; cases hb
  · intro b hb; cases hb
  · intro kv hkv
    replace hkv : kv ∈ [((("default", "default"), SurfacesInteraction.init) : (String × String) × SurfacesInteraction), (("default", "ice"), ⟨mu, ep⟩)] := hkv
    simp only [List.mem_cons, List.not_mem_nil, or_false] at hkv
    rcases hkv with rfl | rfl
    · exact ⟨harmless_default, harmless_default⟩
    · exact ⟨harmless_default, hice⟩

end Verif
