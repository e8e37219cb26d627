import Verif.Props.IKChains
import Verif.Props.Quaternion

/-! Property C57: `update_skeleton` is forward kinematics. -/

namespace Verif

open IK

/-! ### Specification -/

namespace IK

/-- Everything of a bone but its world pose. -/
def Bone.data (b : Bone) := (b.shape, b.alpha, b.beta, b.gamma)

/-- Same bones up to their world poses. -/
def SameData (S S' : Skeleton) : Prop := S.map Bone.data = S'.map Bone.data

/-- The rotation of a joint: about the third axis by gamma, then about the second by beta, then about the first by alpha. -/
noncomputable def Bone.joint (b : Bone) : Quat :=
  Quat.prod (Quat.prod ((b.euler_code 0).rot b.alpha) ((b.euler_code 1).rot b.beta)) ((b.euler_code 2).rot b.gamma)

/-- The bone is placed relative to its parent as its bone vector and joint angles say; the root is placed relative to the world. -/
def Posed (S : Skeleton) (b : Bone) : Prop :=
  (b.parent = none → b.t_wcs = b.t ∧ b.q_wcs = b.joint) ∧
  ∀ (p : ℕ) (q : Bone), b.parent = some p → S[p]? = some q →
    b.t_wcs = q.t_wcs + Quat.rotate q.q_wcs b.t ∧ b.q_wcs = Quat.prod q.q_wcs b.joint

/-! ### Proofs -/

theorem q_bone_eq (b : Bone) : b.q_bone = b.joint := by
  unfold Bone.q_bone Bone.joint Bone.get_rotation_alpha Bone.get_rotation_beta Bone.get_rotation_gamma Bone.get_rotation
  rw [C01_prod_assoc]

theorem SameData.shape {S S' : Skeleton} (h : SameData S S') : SameShape S S' := by
  have := congrArg (List.map fun d => d.1) h
  unfold SameShape
  simpa [List.map_map, Function.comp_def, Bone.data] using this

theorem SameData.trans {S S' S'' : Skeleton} (h : SameData S S') (h' : SameData S' S'') : SameData S S'' := Eq.trans h h'

theorem SameData.get {S S' : Skeleton} (h : SameData S S') {i : ℕ} {b' : Bone} (hb : S'[i]? = some b') :
    ∃ b, S[i]? = some b ∧ b.data = b'.data := by
  have h1 : (S.map Bone.data)[i]? = (S'.map Bone.data)[i]? := by rw [h]
  rw [List.getElem?_map, List.getElem?_map, hb] at h1
  simp only [Option.map_some, Option.map_eq_some_iff] at h1
  exact h1

theorem sameData_set {S : Skeleton} {i : ℕ} {b b' : Bone} (hb : S[i]? = some b) (h : b.data = b'.data) : SameData S (S.set i b') := by
  unfold SameData
  rw [List.map_set, ← h]
  have h1 : (S.map Bone.data)[i]? = some b.data := by rw [List.getElem?_map, hb]; rfl
  refine List.ext_getElem? fun j => ?_
  rw [List.getElem?_set]
  split_ifs with hij hl
  · rw [← hij]; exact h1
  · rw [← hij]; exact List.getElem?_eq_none (not_lt.1 hl)
  · rfl

/-- j is i or below i. -/
def Below (S : Skeleton) (i j : ℕ) : Prop := Relation.ReflTransGen (fun a b => parentOf S b = some a) i j

/-- Internal form of `Posed`. -/
def PosedAt (S : Skeleton) (j : ℕ) : Prop := ∃ b P, S[j]? = some b ∧ parentPose S b = .ok P ∧ b.t_wcs = P.1 + Quat.rotate P.2 b.t ∧
  b.q_wcs = Quat.prod P.2 b.q_bone

theorem below_congr {S S' : Skeleton} (h : SameShape S S') : Below S' = Below S := by
  unfold Below
  simp only [h.parentOf]

theorem below_le {S : Skeleton} (hS : IsTree S) {i j : ℕ} (h : Below S i j) : i ≤ j := by
  unfold Below at h
  induction h with
  | refl => exact le_rfl
  | tail _ h ih => exact le_trans ih (hS.parent_lt h).le

theorem below_disjoint {S : Skeleton} (hS : IsTree S) {i c c' j : ℕ} (hc : parentOf S c = some i) (hc' : parentOf S c' = some i) (hne : c ≠ c')
    (h : Below S c j) (h' : Below S c' j) : False := by
  have key : ∀ {c c' : ℕ}, parentOf S c = some i → parentOf S c' = some i → c ≠ c' → Below S c c' → False := by
    intro c c' hc hc' hne h
    rcases Relation.ReflTransGen.cases_tail h with h | ⟨p, h1, h2⟩
    · exact hne h.symm
    · rw [hc'] at h2
      injection h2 with h2
      subst h2
      have := below_le hS h1
      have := hS.parent_lt hc
      omega
  have hsw : ∀ {a b : ℕ}, Below S a b → Relation.ReflTransGen (fun a b => parentOf S a = some b) b a := by
    intro a b h
    exact Relation.ReflTransGen.swap _ _ h
  rcases Relation.ReflTransGen.total_of_right_unique
    (fun a b c h1 h2 => by rw [h1] at h2; exact Option.some.inj h2) (hsw h) (hsw h') with h1 | h1
  · exact key hc' hc hne.symm (Relation.ReflTransGen.swap _ _ h1)
  · exact key hc hc' hne (Relation.ReflTransGen.swap _ _ h1)

theorem parentPose_congr {S S' : Skeleton} {b : Bone} (h : ∀ p, b.parent = some p → S'[p]? = S[p]?) : parentPose S' b = parentPose S b := by
  unfold parentPose
  cases hp : b.parent with
  | none => rfl
  | some p =>
    dsimp only
    unfold getBone
    rw [h p hp]

theorem PosedAt.congr {S S' : Skeleton} {j : ℕ} (h : PosedAt S j) (hj : S'[j]? = S[j]?) (hp : ∀ p, parentOf S j = some p → S'[p]? = S[p]?) :
    PosedAt S' j := by
  obtain ⟨b, P, h1, h2, h3⟩ := h
  refine ⟨b, P, hj.trans h1, ?_, h3⟩
  rw [← h2]
  exact parentPose_congr fun p hbp => hp p (parentOf_some.2 ⟨b, h1, hbp⟩)

theorem update_bone_succ {limit : ℕ} {S S' : Skeleton} {i : ℕ} : update_bone (limit + 1) S i = .ok S' ↔
    ∃ b P, S[i]? = some b ∧ parentPose S b = .ok P ∧ b.children.foldlM (fun S idx => update_bone limit S idx) (S.set i (b.moved P)) = .ok S' := by
  rw [update_bone]
  simp only [bind, Except.bind]
  constructor
  · intro h
    cases hb : getBone S i with
    | error err => rw [hb] at h; cases h
    | ok b =>
      rw [hb] at h
      simp only at h
      cases hp : parentPose S b with
      | error err => rw [hp] at h; cases h
      | ok P =>
        rw [hp] at h
        exact ⟨b, P, getBone_ok.1 hb, hp, h⟩
  · rintro ⟨b, P, h1, h2, h3⟩
    rw [getBone_ok.2 h1]
    simp only
    rw [h2]
    exact h3

theorem children_parent {S : Skeleton} (hS : IsTree S) {i : ℕ} {b : Bone} (hb : S[i]? = some b) {c : ℕ} : c ∈ b.children ↔ parentOf S c = some i := by
  rw [hS.children i b hb, List.mem_filter, decide_eq_true_eq, List.mem_range]
  refine ⟨fun h => h.2, fun h => ⟨?_, h⟩⟩
  obtain ⟨q, hq, -⟩ := parentOf_some.1 h
  exact getElem?_lt hq

theorem set_ne {S : Skeleton} {i j : ℕ} {b : Bone} (h : j ≠ i) : (S.set i b)[j]? = S[j]? := by
  rw [List.getElem?_set_ne (Ne.symm h)]

theorem set_self {S : Skeleton} {i : ℕ} {b b' : Bone} (h : S[i]? = some b) : (S.set i b')[i]? = some b' := by
  have := getElem?_lt h
  rw [List.getElem?_set_self this]

/-- What `update_bone` does: bones below i get posed, the others stay as they are, only poses change. -/
theorem update_bone_posed (limit : ℕ) {S S' : Skeleton} {i : ℕ} (hS : IsTree S) (h : update_bone limit S i = .ok S') :
    SameData S S' ∧ (∀ j, ¬ Below S i j → S'[j]? = S[j]?) ∧ ∀ j, Below S i j → PosedAt S' j := by
  induction limit generalizing S S' i with
  | zero => cases h
  | succ limit ih =>
    obtain ⟨b, P, hb, hP, hf⟩ := update_bone_succ.1 h
    clear h
    -- the loop over the children
    have loop : ∀ (L : List ℕ) {T T' : Skeleton}, SameData S T → L.Nodup → (∀ c ∈ L, parentOf S c = some i) →
        L.foldlM (fun S idx => update_bone limit S idx) T = .ok T' →
        SameData S T' ∧ (∀ j, (∀ c ∈ L, ¬ Below S c j) → T'[j]? = T[j]?) ∧ ∀ c ∈ L, ∀ j, Below S c j → PosedAt T' j := by
      intro L
      induction L with
      | nil =>
        intro T T' hT _ _ h
        injection h with h
        subst h
        exact ⟨hT, fun _ _ => rfl, by simp⟩
      | cons c L ihL =>
        intro T T' hT hn hp h
        simp only [List.foldlM_cons, bind, Except.bind] at h
        cases hc : update_bone limit T c with
        | error err => rw [hc] at h; cases h
        | ok T1 =>
          rw [hc] at h
          simp only at h
          obtain ⟨d1, d2, d3⟩ := ih (hS.congr hT.shape) hc
          rw [below_congr hT.shape] at d2 d3
          obtain ⟨hn1, hn2⟩ := List.nodup_cons.1 hn
          obtain ⟨e1, e2, e3⟩ := ihL (hT.trans d1) hn2 (fun c hc => hp c (List.mem_cons_of_mem _ hc)) h
          refine ⟨e1, fun j hj => ?_, fun c' hc' j hj => ?_⟩
          · rw [e2 j fun c' hc' => hj c' (List.mem_cons_of_mem _ hc'), d2 j (hj c List.mem_cons_self)]
          · rcases List.mem_cons.1 hc' with rfl | hc'
            · have hdis : ∀ k, Below S c' k → T'[k]? = T1[k]? := by
                intro k hk
                refine e2 k fun c'' hc'' hk' => ?_
                exact below_disjoint hS (hp c' List.mem_cons_self) (hp c'' (List.mem_cons_of_mem _ hc'')) (fun he => hn1 (he ▸ hc'')) hk hk'
              refine (d3 j hj).congr (hdis j hj) fun p hpj => ?_
              rw [((hT.trans d1).shape).parentOf] at hpj
              rcases Relation.ReflTransGen.cases_tail hj with rfl | ⟨p', h1, h2⟩
              · rw [hp j List.mem_cons_self] at hpj
                injection hpj with hpj
                subst hpj
                refine e2 i fun c'' hc'' hk' => ?_
                have h1 := below_le hS hk'
                have h2 := hS.parent_lt (hp c'' (List.mem_cons_of_mem _ hc''))
                omega
              · rw [hpj] at h2
                injection h2 with h2
                subst h2
                exact hdis p h1
            · exact e3 c' hc' j hj
    have h0 : SameData S (S.set i (b.moved P)) := sameData_set hb rfl
    have hch : b.children.Nodup := by
      rw [hS.children i b hb]
      exact (List.nodup_range).filter _
    obtain ⟨e1, e2, e3⟩ := loop b.children h0 hch (fun c hc => (children_parent hS hb).1 hc) hf
    have hkeep : ∀ j, ¬ Below S i j ∨ j = i → S'[j]? = (S.set i (b.moved P))[j]? := by
      intro j hj
      refine e2 j fun c hc hb' => ?_
      have hci := (children_parent hS hb).1 hc
      rcases hj with hj | hj
      · exact hj (Relation.ReflTransGen.head hci hb')
      · subst hj
        have h1 := below_le hS hb'
        have h2 := hS.parent_lt hci
        omega
    refine ⟨e1, fun j hj => ?_, fun j hj => ?_⟩
    · rw [hkeep j (Or.inl hj)]
      refine set_ne ?_
      rintro rfl
      exact hj Relation.ReflTransGen.refl
    · rcases Relation.ReflTransGen.cases_head hj with rfl | ⟨c, h1, h2⟩
      · have hpi : ∀ p, b.parent = some p → S'[p]? = S[p]? := by
          intro p hp
          have hlt := hS.parent_lt (parentOf_some.2 ⟨b, hb, hp⟩)
          rw [hkeep p (Or.inl fun hbel => absurd (below_le hS hbel) (by omega))]
          exact set_ne (by omega)
        refine ⟨b.moved P, P, ?_, ?_, rfl, rfl⟩
        · rw [hkeep i (Or.inr rfl), set_self hb]
        · rw [← hP]
          exact parentPose_congr hpi
      · exact e3 c ((children_parent hS hb).2 h1) j h2

theorem below_root {S : Skeleton} (hS : IsTree S) {j : ℕ} (hj : j < S.length) : Below S 0 j := by
  induction j using Nat.strong_induction_on with
  | _ j ih =>
    have hb := List.getElem?_eq_getElem hj
    by_cases h0 : j = 0
    · subst h0; exact Relation.ReflTransGen.refl
    · cases hp : (S[j]).parent with
      | none => exact absurd ((hS.root j _ hb).1 hp) h0
      | some p =>
        have hpj := parentOf_some.2 ⟨_, hb, hp⟩
        have hlt := hS.parent_lt hpj
        exact (ih p hlt (by omega)).tail hpj

theorem rotate_identity' (r : V3) : Quat.rotate Quat.identity r = r := by
  ext <;> simp [Quat.rotate, Quat.prod, Quat.vec, Quat.conjugate, Quat.identity, V3.dot, V3.cross]

theorem PosedAt.posed {S : Skeleton} {j : ℕ} {b : Bone} (h : PosedAt S j) (hb : S[j]? = some b) : Posed S b := by
  obtain ⟨b', P, h1, h2, h3, h4⟩ := h
  rw [hb] at h1
  injection h1 with h1
  subst h1
  rw [q_bone_eq] at h4
  constructor
  · intro hp
    unfold parentPose at h2
    rw [hp] at h2
    injection h2 with h2
    subst h2
    rw [h3, h4]
    refine ⟨?_, (C01_identity_unit _).1⟩
    rw [rotate_identity']
    exact zero_add _
  · intro p q hp hq
    unfold parentPose at h2
    rw [hp] at h2
    dsimp only at h2
    rw [getBone_ok.2 hq] at h2
    injection h2 with h2
    subst h2
    exact ⟨h3, h4⟩

end IK

/-- **C57** (forward kinematics). `update_skeleton` puts every bone where its parent, its bone vector and its joint angles say, and changes nothing but
the poses. -/
theorem C57_update {S S' : Skeleton} {limit : ℕ} (hS : IK.Built S) (h : update_skeleton limit S = .ok S') :
    SameData S S' ∧ ∀ b ∈ S', Posed S' b := by
  have hT := C56_tree hS
  obtain ⟨h1, -, h3⟩ := update_bone_posed limit hT h
  refine ⟨h1, fun b hb => ?_⟩
  obtain ⟨j, hj⟩ := List.mem_iff_getElem?.1 hb
  have hl : j < S.length := by rw [← h1.shape.length]; exact getElem?_lt hj
  exact (h3 j (below_root hT hl)).posed hj

/-- **C57** (the poses depend on bone vectors and angles only). Two skeletons that differ at most in their poses and have all bones posed are the same, so
the result of `update_skeleton` does not depend on the poses before the call. -/
theorem C57_unique {S S' : Skeleton} (hS : IK.Built S) (hd : SameData S S') (h : ∀ b ∈ S, Posed S b) (h' : ∀ b ∈ S', Posed S' b) : S = S' := by
  have hT := C56_tree hS
  have key : ∀ (j : ℕ) (b b' : Bone), S[j]? = some b → S'[j]? = some b' → b = b' := by
    intro j
    induction j using Nat.strong_induction_on with
    | _ j ih =>
      intro b b' hb hb'
      obtain ⟨b1, hb1, he⟩ := hd.get hb'
      rw [hb] at hb1
      injection hb1 with hb1
      subst hb1
      obtain ⟨p1, p2⟩ := h b (List.mem_of_getElem? hb)
      obtain ⟨p1', p2'⟩ := h' b' (List.mem_of_getElem? hb')
      have hlt := hT.parent j b
      obtain ⟨i1, c1, a1, b1, g1, q1, w1, t1, r1, k1⟩ := b
      obtain ⟨i2, c2, a2, b2, g2, q2, w2, t2, r2, k2⟩ := b'
      simp only [Bone.data, Bone.shape, Prod.mk.injEq] at he
      obtain ⟨⟨rfl, rfl, rfl, rfl, rfl⟩, rfl, rfl, rfl⟩ := he
      cases r1 with
      | none =>
        obtain ⟨x1, x2⟩ := p1 rfl
        obtain ⟨y1, y2⟩ := p1' rfl
        dsimp only [Bone.joint] at x1 x2 y1 y2
        rw [x1, x2, y1, y2]
      | some p =>
        have hpl := hlt p hb rfl
        have hjl := getElem?_lt hb
        have hjl' := getElem?_lt hb'
        have e1 := List.getElem?_eq_getElem (l := S) (i := p) (by omega)
        have e2 := List.getElem?_eq_getElem (l := S') (i := p) (by omega)
        have e3 := ih p hpl _ _ e1 e2
        obtain ⟨x1, x2⟩ := p2 p _ rfl e1
        obtain ⟨y1, y2⟩ := p2' p _ rfl e2
        dsimp only [Bone.joint] at x1 x2 y1 y2
        rw [x1, x2, y1, y2, e3]
  refine List.ext_getElem? fun j => ?_
  by_cases hj : j < S.length
  · have hj' : j < S'.length := by rw [hd.shape.length]; exact hj
    rw [List.getElem?_eq_getElem hj, List.getElem?_eq_getElem hj']
    rw [key j _ _ (List.getElem?_eq_getElem hj) (List.getElem?_eq_getElem hj')]
  · rw [List.getElem?_eq_none (by omega), List.getElem?_eq_none (by rw [hd.shape.length]; omega)]

namespace IK

theorem parentPose_ok {S : Skeleton} (hS : IsTree S) {i : ℕ} {b : Bone} (hb : S[i]? = some b) : ∃ P, parentPose S b = .ok P := by
  unfold parentPose
  cases hp : b.parent with
  | none => exact ⟨_, rfl⟩
  | some p =>
    have hlt := hS.parent i b p hb hp
    have hi := getElem?_lt hb
    dsimp only
    rw [getBone_ok.2 (List.getElem?_eq_getElem (lt_trans hlt hi))]
    exact ⟨_, rfl⟩

theorem foldlM_ok_iff {α σ : Type*} (I : σ → Prop) (P : α → Prop) {f : σ → α → Except PyErr σ} (hf : ∀ s a s', I s → f s a = .ok s' → I s')
    (L : List α) (hP : ∀ s a, a ∈ L → I s → ((∃ s', f s a = .ok s') ↔ P a)) {s : σ} (hs : I s) : (∃ s', L.foldlM f s = .ok s') ↔ ∀ a ∈ L, P a := by
  induction L generalizing s with
  | nil => exact ⟨fun _ => by simp, fun _ => ⟨s, rfl⟩⟩
  | cons a L ih =>
    simp only [List.foldlM_cons, bind, Except.bind, List.forall_mem_cons]
    rw [← hP s a List.mem_cons_self hs]
    cases hfa : f s a with
    | error err =>
      simp
    | ok s1 =>
      dsimp only
      rw [ih (fun s a ha => hP s a (List.mem_cons_of_mem _ ha)) (hf s a s1 hs hfa)]
      exact ⟨fun h => ⟨⟨s1, rfl⟩, h⟩, fun h => h.2⟩

theorem update_bone_success (limit : ℕ) {S : Skeleton} (hS : IsTree S) {i : ℕ} (hi : i < S.length) : (∃ S', update_bone limit S i = .ok S') ↔
    ∀ L : List ℕ, (i :: L).IsChain (fun a b => parentOf S b = some a) → (i :: L).length ≤ limit := by
  induction limit generalizing S i with
  | zero =>
    constructor
    · rintro ⟨S', h⟩; cases h
    · intro h
      have := h [] (by simp)
      simp at this
  | succ limit ih =>
    have hb := List.getElem?_eq_getElem hi
    obtain ⟨P, hP⟩ := parentPose_ok hS hb
    have e1 : (∃ S', update_bone (limit + 1) S i = .ok S') ↔
        ∃ S', (S[i]).children.foldlM (fun S idx => update_bone limit S idx) (S.set i ((S[i]).moved P)) = .ok S' := by
      refine exists_congr fun S' => ?_
      rw [update_bone_succ]
      constructor
      · rintro ⟨b, P', h1, h2, h3⟩
        rw [hb] at h1
        injection h1 with h1
        subst h1
        rw [hP] at h2
        injection h2 with h2
        subst h2
        exact h3
      · exact fun h => ⟨_, P, hb, hP, h⟩
    rw [e1, foldlM_ok_iff (f := fun S idx => update_bone limit S idx) (I := fun T => SameShape S T)
      (P := fun c => ∀ L : List ℕ, (c :: L).IsChain (fun a b => parentOf S b = some a) → (c :: L).length ≤ limit)
      (fun s a s' hs h => hs.trans (sameShape_update_bone limit h)) _ ?_ (sameShape_set (b' := (S[i]).moved P) hb rfl)]
    · constructor
      · intro h L hL
        cases L with
        | nil => simp
        | cons c L =>
          rw [List.isChain_cons_cons] at hL
          have := h c ((children_parent hS hb).2 hL.1) L hL.2
          simp at this ⊢
          omega
      · intro h c hc L hL
        have := h (c :: L) (List.isChain_cons_cons.2 ⟨(children_parent hS hb).1 hc, hL⟩)
        simp at this ⊢
        omega
    · intro T c hc hT
      have hcl : c < T.length := by
        rw [hT.length]
        obtain ⟨q, hq, -⟩ := parentOf_some.1 ((children_parent hS hb).1 hc)
        exact getElem?_lt hq
      rw [ih (hS.congr hT) hcl]
      simp only [hT.parentOf]

end IK

/-- **C57** (when the update succeeds). `update_skeleton` succeeds exactly for skeletons that have a root and in which no path down from the root has more
bones than the recursion depth allows. -/
theorem C57_success {S : Skeleton} (hS : IK.Built S) (limit : ℕ) : (∃ S', update_skeleton limit S = .ok S') ↔
    S ≠ [] ∧ ∀ L j, IsPath S L j → L.length ≤ limit := by
  have hT := C56_tree hS
  unfold update_skeleton
  by_cases h0 : S = []
  · subst h0
    constructor
    · rintro ⟨S', h⟩
      cases limit with
      | zero => cases h
      | succ n => obtain ⟨b, P, h1, -⟩ := update_bone_succ.1 h; simp at h1
    · exact fun h => absurd rfl h.1
  rw [update_bone_success limit hT (List.length_pos_iff.2 h0), and_iff_right h0]
  constructor
  · intro h L j hL
    cases L with
    | nil => simp
    | cons a L =>
      have ha : a = 0 := by have := hL.1; simpa using this
      subst ha
      exact h L hL.2.2
  · intro h L hL
    obtain ⟨j, hj⟩ : ∃ j, (0 :: L).getLast? = some j := Option.isSome_iff_exists.1 (List.getLast?_isSome.2 (by simp))
    exact h (0 :: L) j ⟨rfl, hj, hL⟩

namespace IK

theorem rot_unit (a : Axis) (x : ℝ) : IsUnitQ (a.rot x) := by
  have h := Real.cos_sq_add_sin_sq (x / 2)
  cases a <;> simp only [Axis.rot, IsUnitQ, Quat.Rx, Quat.Ry, Quat.Rz] <;> linarith

theorem joint_unit (b : Bone) : IsUnitQ b.joint :=
  (C01_unit_group (C01_unit_group (rot_unit _ _) (rot_unit _ _)).1 (rot_unit _ _)).1

theorem posed_unit {S : Skeleton} (hS : IsTree S) (h : ∀ b ∈ S, Posed S b) {b : Bone} (hb : b ∈ S) : IsUnitQ b.q_wcs := by
  obtain ⟨j, hj⟩ := List.mem_iff_getElem?.1 hb
  clear hb
  induction j using Nat.strong_induction_on generalizing b with
  | _ j ih =>
    obtain ⟨h1, h2⟩ := h b (List.mem_of_getElem? hj)
    cases hp : b.parent with
    | none => rw [(h1 hp).2]; exact joint_unit b
    | some p =>
      have hlt := hS.parent j b p hj hp
      have hl := getElem?_lt hj
      have hq := List.getElem?_eq_getElem (l := S) (i := p) (by omega)
      rw [(h2 p _ hp hq).2]
      exact (C01_unit_group (ih p hlt hq) (joint_unit b)).1

end IK

/-- **C57** (rigid bones). After an update every orientation is a unit quaternion, and every bone keeps its length: the distance of its origin to that of its
parent is the length of its bone vector, whatever the angles. -/
theorem C57_rigid {S S' : Skeleton} {limit : ℕ} (hS : IK.Built S) (h : update_skeleton limit S = .ok S') :
    (∀ b ∈ S', IsUnitQ b.q_wcs) ∧
    ∀ (b q : Bone) (p : ℕ), b ∈ S' → b.parent = some p → S'[p]? = some q → V3.norm (b.t_wcs - q.t_wcs) = V3.norm b.t := by
  have hB : IK.Built S' := .update hS h
  have hT := C56_tree hB
  obtain ⟨-, hp⟩ := C57_update hS h
  refine ⟨fun b hb => posed_unit hT hp hb, fun b q p hb hbp hq => ?_⟩
  have hu := posed_unit hT hp (List.mem_of_getElem? hq)
  rw [((hp b hb).2 p q hbp hq).1, add_sub_cancel_left]
  have := C02_rotate_dot hu b.t b.t
  rw [V3.toFun_dot, V3.toFun_dot] at this
  unfold V3.norm
  rw [this]

end Verif
