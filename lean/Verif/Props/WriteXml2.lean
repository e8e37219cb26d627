import Verif.Props.WriteXml

/-! C111: nothing but the joint sockets of the child, the frame of the shapes' models and the state of the solver is lost by `write_xml`. -/

namespace Verif

open Rigid Rigid.Xml VMesh SMesh

theorem values_getElem {κ υ : Type} [DecidableEq κ] (d : Dict κ υ) {i : ℕ} (hi : i < d.entries.length) :
    d.values[i]'(by unfold Dict.values; simpa using hi) = (d.entries[i]).2 := by
  unfold Dict.values
  simp

theorem keys_getElem {κ υ : Type} [DecidableEq κ] (d : Dict κ υ) {i : ℕ} (hi : i < d.entries.length) :
    d.keys[i]'(by unfold Dict.keys; simpa using hi) = (d.entries[i]).1 := by
  unfold Dict.keys
  simp

/-- Two dictionaries whose values carry their keys and are related one by one. -/
theorem dict_pair {υ : Type} {d d' : Dict String υ} {nm : υ → String} (hd : d.All fun _ k v => nm v = k) (hd' : d'.All fun _ k v => nm v = k)
    (hn : d'.keys.Nodup) {R : υ → υ → Prop} (hF : List.Forall₂ R d.values d'.values) (hR : ∀ v v', R v v' → nm v = nm v') :
    d.keys = d'.keys ∧ ∀ n v v', d.get? n = some v → d'.get? n = some v' → R v v' := by
  have hlen : d.entries.length = d'.entries.length := by
    have := hF.length_eq
    unfold Dict.values at this
    simpa using this
  have hat : ∀ i (hi : i < d.entries.length), R (d.entries[i]).2 (d'.entries[i]'(hlen ▸ hi)).2 := by
    intro i hi
    have := (List.forall₂_iff_get.1 hF).2 i (by unfold Dict.values; simpa using hi) (by unfold Dict.values; simpa [hlen] using (hlen ▸ hi))
    simp only [List.get_eq_getElem] at this
    rw [values_getElem _ hi, values_getElem _ (hlen ▸ hi)] at this
    exact this
  have hkeys : ∀ i (hi : i < d.entries.length), (d.entries[i]).1 = (d'.entries[i]'(hlen ▸ hi)).1 := by
    intro i hi
    rw [← hd i hi, ← hd' i (hlen ▸ hi)]
    exact hR _ _ (hat i hi)
  constructor
  · refine List.ext_getElem (by unfold Dict.keys; simpa using hlen) ?_
    intro i h1 h2
    rw [keys_getElem _ (by unfold Dict.keys at h1; simpa using h1), keys_getElem _ (by unfold Dict.keys at h2; simpa using h2)]
    exact hkeys i _
  · intro n v v' h1 h2
    obtain ⟨i, hi, he⟩ := Dict.get?_some h1
    obtain ⟨j, hj, he'⟩ := Dict.get?_some h2
    have hij : i = j := by
      have hi' : i < d'.entries.length := hlen ▸ hi
      have hk : d'.keys[i]'(by unfold Dict.keys; simpa using hi') = d'.keys[j]'(by unfold Dict.keys; simpa using hj) := by
        rw [keys_getElem _ hi', keys_getElem _ hj, ← hkeys i hi, he, he']
      exact (List.Nodup.getElem_inj_iff hn).1 hk
    subst hij
    have := hat i hi
    rw [he, he'] at this
    exact this

theorem forall₂_join {α α' β : Type} {P : α → β → Prop} {Q : α' → β → Prop} {L : List α} {L' : List α'} {M : List β}
    (h : List.Forall₂ P L M) (h' : List.Forall₂ Q L' M) : List.Forall₂ (fun a a' => ∃ b, P a b ∧ Q a' b) L L' := by
  induction h generalizing L' with
  | nil => cases h'; exact .nil
  | cons h1 _ ih => cases h' with | cons h2 h3 => exact .cons ⟨_, h1, h2⟩ (ih h3)

theorem names_of_apply {L L' : List Force} (h : L.map applyNode = L'.map applyNode) : L.map (·.name) = L'.map (·.name) := by
  induction L generalizing L' with
  | nil => cases L' with | nil => rfl | cons a L' => cases h
  | cons a L ih =>
    cases L' with
    | nil => cases h
    | cons a' L' =>
      simp only [List.map_cons, List.cons.injEq] at h ⊢
      refine ⟨?_, ih h.2⟩
      have := h.1
      simp only [applyNode, Elem.mk.injEq, List.cons.injEq, Prod.mk.injEq, Val.str.injEq] at this
      tauto

theorem forces_of_names {d : Dict String Force} {L L' : List Force} (h : L.map (·.name) = L'.map (·.name))
    (hL : ∀ f ∈ L, d.get? f.name = some f) (hL' : ∀ f ∈ L', d.get? f.name = some f) : L = L' := by
  induction L generalizing L' with
  | nil => cases L' with | nil => rfl | cons a L' => cases h
  | cons a L ih =>
    cases L' with
    | nil => cases h
    | cons a' L' =>
      simp only [List.map_cons, List.cons.injEq] at h
      have h1 := hL a (by simp)
      have h2 := hL' a' (by simp)
      rw [← h.1, h1] at h2
      cases h2
      rw [ih h.2 (fun f hf => hL f (by simp [hf])) (fun f hf => hL' f (by simp [hf]))]

theorem forceNode_inj : Function.Injective forceNode := by
  intro f f' h
  obtain ⟨n, k⟩ := f
  obtain ⟨n', k'⟩ := f'
  cases k <;> cases k' <;> simp [forceNode] at h ⊢ <;> tauto

theorem interactionNode_inj : Function.Injective interactionNode := by
  rintro ⟨⟨a, b⟩, mu, ep⟩ ⟨⟨a', b'⟩, mu', ep'⟩ h
  simp [interactionNode] at h ⊢
  tauto

theorem vertexNode_inj : Function.Injective vertexNode := by
  rintro ⟨v, i⟩ ⟨v', i'⟩ h
  simp [vertexNode] at h ⊢
  tauto

theorem triangleNode_inj : Function.Injective triangleNode := by
  rintro ⟨v, i⟩ ⟨v', i'⟩ h
  simp [triangleNode] at h ⊢
  tauto

theorem zipIdx_inj {α : Type} {L L' : List α} (h : L.zipIdx = L'.zipIdx) : L = L' := by
  have := congrArg (List.map Prod.fst) h
  rwa [List.zipIdx_map_fst, List.zipIdx_map_fst] at this

theorem settings_inj {p p' : Params} (h : (settings p).map paramNode = (settings p').map paramNode) : p = p' := by
  obtain ⟨⟨⟩⟩ := p
  obtain ⟨⟨⟩⟩ := p'
  simp [settings, paramNode] at h ⊢
  tauto

theorem dict_of_values {υ : Type} {d d' : Dict String υ} {nm : υ → String} (hd : d.All fun _ k v => nm v = k) (hd' : d'.All fun _ k v => nm v = k)
    (h : d.values = d'.values) : d = d' := by
  have he : ∀ e : Dict String υ, (e.All fun _ k v => nm v = k) → e.entries = e.values.map fun v => (nm v, v) := by
    intro e hk
    refine List.ext_getElem (by simp [Dict.values]) ?_
    intro i h1 h2
    rw [List.getElem_map, values_getElem _ h1, hk i h1]
  cases d; cases d'
  congr 1
  exact (he _ hd).trans ((congrArg (List.map fun v => (nm v, v)) h).trans (he _ hd').symm)

/-- What two bodies have in common if they are written in the same way. -/
def SameBody (b b' : BodyObj) : Prop :=
  b'.idx = b.idx ∧ b'.body.name = b.body.name ∧ b'.body.r = b.body.r ∧ b'.body.q = b.body.q ∧ b'.body.v = b.body.v ∧ b'.body.w = b.body.w ∧
    b'.body.mass = b.body.mass ∧ b'.body.inertia = b.body.inertia ∧ b'.body.is_fixed = b.body.is_fixed ∧ b'.body.material = b.body.material ∧
    b'.body.shape.map (·.name) = b.body.shape.map (·.name) ∧ b'.body.forces = b.body.forces

/-- What two hinges have in common if they are written in the same way. -/
def SameHinge (h h' : HingeObj) : Prop :=
  h'.idx = h.idx ∧ h'.name = h.name ∧ h'.parent = h.parent ∧ h'.child = h.child ∧ h'.arm_p = h.arm_p ∧ h'.axis_p = h.axis_p

/-- **C111.**  Two scenes that give the same document are the same scene, as far as the document goes: the same bodies under the same names with the
same state, shape, material and forces, the same forces, the same shapes with the same meshes, the same interactions, the same parameters and the same
hinges with the same links, anchored in the parent at the same point and along the same axis.  (The frame of the child's socket, and mass, inertia and
model frame of the shapes are not in the document.) -/
theorem C111_lossless {s s' : Scene} (hs : EngineOk s.eng) (hs' : EngineOk s'.eng) {d : Elem} (h : document s = .ok d) (h' : document s' = .ok d) :
    (s.eng.bodies.keys = s'.eng.bodies.keys ∧
      ∀ n b b', s.eng.bodies.get? n = some b → s'.eng.bodies.get? n = some b' → SameBody b b') ∧
    s'.eng.forces = s.eng.forces ∧
    (s.eng.shapes.keys = s'.eng.shapes.keys ∧ ∀ n ∈ s.eng.shapes.keys, s'.meshes.get? n = s.meshes.get? n) ∧
    s'.eng.surfaces_interactions = s.eng.surfaces_interactions ∧
    (s.eng.hinges.keys = s'.eng.hinges.keys ∧
      ∀ n g g', s.eng.hinges.get? n = some g → s'.eng.hinges.get? n = some g' → SameHinge g g') ∧
    s'.eng.params = s.eng.params := by
  obtain ⟨bs, shs, hgs, h1, h2, h3, rfl⟩ := document_ok.1 h
  obtain ⟨bs', shs', hgs', h1', h2', h3', he⟩ := document_ok.1 h'
  simp only [Elem.mk.injEq, List.cons.injEq, true_and, and_true] at he
  obtain ⟨rfl, hf, rfl, hi, rfl, hp⟩ := he
  have hforces : s'.eng.forces = s.eng.forces := by
    have hv := List.map_injective_iff.2 forceNode_inj hf
    exact dict_of_values (nm := (·.name)) (hs'.forces.mono fun _ _ _ h => h.1) (hs.forces.mono fun _ _ _ h => h.1) hv.symm
  have hbod := dict_pair (nm := fun b : BodyObj => b.body.name) (hs.bodies.mono fun _ _ _ h => h.2.1) (hs'.bodies.mono fun _ _ _ h => h.2.1)
    hs'.bodies_nodup (forall₂_join h1 h1') (by
      rintro v v' ⟨el, e1, e2⟩
      obtain ⟨sh, -, rfl⟩ := bodyNode_ok e1
      obtain ⟨sh', -, e⟩ := bodyNode_ok e2
      simp only [Elem.mk.injEq, List.cons.injEq, Prod.mk.injEq, Val.str.injEq] at e
      tauto)
  have hbodies : ∀ n b b', s.eng.bodies.get? n = some b → s'.eng.bodies.get? n = some b' → SameBody b b' := by
    intro n b b' hb hb'
    obtain ⟨el, e1, e2⟩ := hbod.2 n b b' hb hb'
    obtain ⟨sh, hsh, rfl⟩ := bodyNode_ok e1
    obtain ⟨sh', hsh', e⟩ := bodyNode_ok e2
    simp only [Elem.mk.injEq, List.cons.injEq, Prod.mk.injEq, Val.str.injEq, Val.int.injEq, Val.vec.injEq, Val.quat.injEq, Val.num.injEq,
      Val.bool.injEq, true_and, and_true] at e
    obtain ⟨⟨a1, a2, a3, a4, a5, a6, a7, a8, a9, a10, a11⟩, a12⟩ := e
    obtain ⟨i, -, -, -, -, hbf, -⟩ := hs.bodies.get? hb
    obtain ⟨i', -, -, -, -, hbf', -⟩ := hs'.bodies.get? hb'
    rw [hforces] at hbf'
    refine ⟨a2.symm, a1.symm, a4.symm, a5.symm, a6.symm, a7.symm, a8.symm, a9.symm, a10.symm, a11.symm, ?_, ?_⟩
    · rw [hsh, hsh', Option.map_some, Option.map_some, a3]
    · exact forces_of_names (names_of_apply a12).symm hbf' hbf
  refine ⟨⟨hbod.1, hbodies⟩, hforces, ?_, ?_, ?_, (settings_inj hp).symm⟩
  · have hsp := dict_pair (nm := fun b : Shape => b.name) (hs.shapes.mono fun _ _ _ h => h.1) (hs'.shapes.mono fun _ _ _ h => h.1)
      hs'.shapes_nodup (forall₂_join h2 h2') (by
        rintro v v' ⟨el, e1, e2⟩
        obtain ⟨sh, -, rfl⟩ := shapeNode_ok e1
        obtain ⟨sh', -, e⟩ := shapeNode_ok e2
        simp only [Elem.mk.injEq, List.cons.injEq, Prod.mk.injEq, Val.str.injEq] at e
        tauto)
    refine ⟨hsp.1, ?_⟩
    intro n hn
    obtain ⟨sh, hsh⟩ := Dict.mem_iff_get?.1 ((Dict.mem_iff_keys _ _).2 hn)
    obtain ⟨sh', hsh'⟩ := Dict.mem_iff_get?.1 ((Dict.mem_iff_keys _ _).2 (hsp.1 ▸ hn))
    obtain ⟨el, e1, e2⟩ := hsp.2 n sh sh' hsh hsh'
    obtain ⟨m, hm, rfl⟩ := shapeNode_ok e1
    obtain ⟨m', hm', e⟩ := shapeNode_ok e2
    simp only [Elem.mk.injEq, List.cons.injEq, Prod.mk.injEq, Val.str.injEq, Val.int.injEq, true_and, and_true] at e
    obtain ⟨e0, ⟨-, eV⟩, -, eT⟩ := e
    obtain ⟨-, -, hname, -⟩ := hs.shapes.get? hsh
    rw [hname] at hm e0
    rw [← e0] at hm'
    rw [hm, hm']
    have hV := zipIdx_inj (List.map_injective_iff.2 vertexNode_inj eV)
    have hT := zipIdx_inj (List.map_injective_iff.2 triangleNode_inj eT)
    cases m; cases m'
    simp only at hV hT
    rw [hV, hT]
  · have := List.map_injective_iff.2 interactionNode_inj hi
    have hst : s'.eng.surfaces_interactions.storage = s.eng.surfaces_interactions.storage := by
      cases hx : s'.eng.surfaces_interactions.storage; cases hy : s.eng.surfaces_interactions.storage
      rw [hx, hy] at this
      simp only at this
      rw [this]
    cases hx : s'.eng.surfaces_interactions; cases hy : s.eng.surfaces_interactions
    rw [hx, hy] at hst
    simp only at hst
    rw [hst]
  · have hz := forall₂_join h3 h3'
    have hF : List.Forall₂ (fun g g' : HingeObj => ∃ i el, hingeNode s.eng.bodies (g, i) = .ok el ∧ hingeNode s'.eng.bodies (g', i) = .ok el)
        s.eng.hinges.values s'.eng.hinges.values := by
      rw [List.forall₂_iff_get] at hz ⊢
      refine ⟨by simpa using hz.1, ?_⟩
      intro i hi1 hi2
      obtain ⟨el, e1, e2⟩ := hz.2 i (by simpa using hi1) (by simpa using hi2)
      simp only [List.get_eq_getElem, List.getElem_zipIdx, Nat.zero_add] at e1 e2 ⊢
      exact ⟨i, el, e1, e2⟩
    have hh := dict_pair (nm := fun b : HingeObj => b.name) (hs.hinges.mono fun _ _ _ h => h.2.1) (hs'.hinges.mono fun _ _ _ h => h.2.1)
      hs'.hinges_nodup hF (by
        rintro v v' ⟨i, el, e1, e2⟩
        obtain ⟨pn, p, cn, c, arm, axis, a1, a2, a3, a4, a5, a6, rfl⟩ := hingeNode_ok.1 e1
        obtain ⟨pn', p', cn', c', arm', axis', a1', a2', a3', a4', a5', a6', e⟩ := hingeNode_ok.1 e2
        simp only [Elem.mk.injEq, List.cons.injEq, Prod.mk.injEq, Val.str.injEq] at e
        tauto)
    refine ⟨hh.1, ?_⟩
    intro n g g' hg hg'
    obtain ⟨i, el, e1, e2⟩ := hh.2 n g g' hg hg'
    obtain ⟨pn, p, cn, c, arm, axis, a1, a2, a3, a4, a5, a6, rfl⟩ := hingeNode_ok.1 e1
    obtain ⟨pn', p', cn', c', arm', axis', a1', a2', a3', a4', a5', a6', e⟩ := hingeNode_ok.1 e2
    simp only [Elem.mk.injEq, List.cons.injEq, Prod.mk.injEq, Val.str.injEq, Val.int.injEq, Val.vec.injEq, true_and, and_true] at e
    obtain ⟨b1, b2, -, b4, -, b6, b7⟩ := e
    simp only at a1 a3 a5 a6 a1' a3' a5' a6' b1
    obtain ⟨-, -, -, hpn, hpq, -⟩ := hs.bodies.get? a2
    obtain ⟨-, -, -, hpn', -, -⟩ := hs'.bodies.get? a2'
    obtain ⟨-, -, -, hcn, -, -⟩ := hs.bodies.get? a4
    obtain ⟨-, -, -, hcn', -, -⟩ := hs'.bodies.get? a4'
    have hpp : pn = pn' := by rw [← hpn, ← hpn', b2]
    have hcc : cn = cn' := by rw [← hcn, ← hcn', b4]
    subst hpp
    subst hcc
    obtain ⟨-, -, hr, hq, -⟩ := hbodies _ _ _ a2 a2'
    rw [hq] at b6 b7
    rw [hr] at b6
    have harm : arm = arm' := by
      have e0 := add_right_cancel b6
      rw [← (C02_rotate_conjugate hpq arm).1, e0, (C02_rotate_conjugate hpq arm').1]
    have haxis : axis = axis' := by
      rw [← (C02_rotate_conjugate hpq axis).1, b7, (C02_rotate_conjugate hpq axis').1]
    have hidx : g'.idx = g.idx := by
      obtain ⟨j, hj, he1⟩ := Dict.get?_some hg
      obtain ⟨j', hj', he2⟩ := Dict.get?_some hg'
      have i1 := (hs.hinges j hj).1
      have i2 := (hs'.hinges j' hj').1
      rw [he1] at i1
      rw [he2] at i2
      simp only at i1 i2
      rw [i1, i2]
      have hl : s.eng.hinges.entries.length = s'.eng.hinges.entries.length := by
        have := congrArg List.length hh.1
        simpa [Dict.keys] using this
      have k1 := keys_getElem s.eng.hinges hj
      have k2 := keys_getElem s'.eng.hinges hj'
      rw [he1] at k1
      rw [he2] at k2
      simp only [hh.1] at k1
      exact ((List.Nodup.getElem_inj_iff hs'.hinges_nodup).1 (k1.trans k2.symm)).symm
    refine ⟨hidx, b1.symm, ?_, ?_, ?_, ?_⟩
    · rw [a1, a1']
    · rw [a3, a3']
    · rw [a5, a5', harm]
    · rw [a6, a6', haxis]

end Verif
