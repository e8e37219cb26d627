import Verif.Props.IKExamples
import Mathlib.Analysis.SpecialFunctions.Trigonometric.Deriv

/-! Property C59, first part: changing one joint angle turns everything below the joint rigidly about the axis of that angle, through the joint. -/

namespace Verif

open IK

namespace IK

/-- The program "set angle i to θ, update the skeleton". -/
noncomputable def moveTo (limit : ℕ) (S : Skeleton) (i : ℕ) (θ : ℝ) : Except PyErr Skeleton := do
  let S ← set_angle i θ S
  update_skeleton limit S

/-- The orientation of the frame in which bone b turns by its angle number o: the parent orientation followed by the rotations of the angles before o. -/
noncomputable def Bone.before (b : Bone) (q_parent : Quat) (o : ℕ) : Quat :=
  if o = 0 then q_parent
  else if o = 1 then Quat.prod q_parent ((b.euler_code 0).rot b.alpha)
  else Quat.prod (Quat.prod q_parent ((b.euler_code 0).rot b.alpha)) ((b.euler_code 1).rot b.beta)

/-- The letter of angle number o. -/
def Bone.letter (b : Bone) (o : ℕ) : Axis := if o = 0 then b.euler_code 0 else if o = 1 then b.euler_code 1 else b.euler_code 2

theorem rot_add (a : Axis) (x y : ℝ) : Quat.prod (a.rot x) (a.rot y) = a.rot (x + y) := by
  have h1 : (x + y) / 2 = x / 2 + y / 2 := by ring
  cases a <;> simp only [Axis.rot, Quat.Rx, Quat.Ry, Quat.Rz, h1, Real.cos_add, Real.sin_add] <;>
    ext <;> simp [Quat.prod, Quat.vec, V3.dot, V3.cross] <;> ring

theorem rot_neg (a : Axis) (x : ℝ) : Quat.conjugate (a.rot x) = a.rot (-x) := by
  have h1 : -x / 2 = -(x / 2) := by ring
  cases a <;> simp only [Axis.rot, Quat.Rx, Quat.Ry, Quat.Rz, h1, Real.cos_neg, Real.sin_neg, Quat.conjugate] <;>
    ext <;> simp

/-- The joint rotation after angle o has been set to θ. -/
theorem joint_setAngle (b : Bone) (o : ℕ) (θ : ℝ) (qp : Quat) (hq : IsUnitQ qp) :
    Quat.prod qp (b.setAngle o θ).joint =
      Quat.prod (Quat.prod (Quat.prod (b.before qp o) ((b.letter o).rot (θ - b.angle o))) (Quat.conjugate (b.before qp o))) (Quat.prod qp b.joint) := by
  have hinv : ∀ {A : Quat}, IsUnitQ A → ∀ B : Quat, Quat.prod (Quat.conjugate A) (Quat.prod A B) = B := by
    intro A hA B
    rw [← C01_prod_assoc, (C01_unit_group hA hA).2.2.2, (C01_identity_unit B).1]
  have hm : ∀ (a : Axis) (x y : ℝ) (B : Quat), Quat.prod (a.rot (y - x)) (Quat.prod (a.rot x) B) = Quat.prod (a.rot y) B := by
    intro a x y B
    rw [← C01_prod_assoc, rot_add, sub_add_cancel]
  have hm' : ∀ (a : Axis) (x y : ℝ), Quat.prod (a.rot (y - x)) (a.rot x) = a.rot y := by
    intro a x y
    rw [rot_add, sub_add_cancel]
  unfold Bone.setAngle Bone.before Bone.letter Bone.angle
  by_cases h0 : o = 0
  · simp only [if_pos h0, Bone.joint, C01_prod_assoc]
    rw [hinv hq, hm]
  · by_cases h1 : o = 1
    · simp only [if_neg h0, if_pos h1, Bone.joint, C01_prod_assoc]
      have hu := (C01_unit_group hq (rot_unit (b.euler_code 0) b.alpha)).1
      have := hinv hu (Quat.prod ((b.euler_code 1).rot b.beta) ((b.euler_code 2).rot b.gamma))
      rw [C01_prod_assoc] at this
      rw [this, hm]
    · simp only [if_neg h0, if_neg h1, Bone.joint, C01_prod_assoc]
      have hu := (C01_unit_group (C01_unit_group hq (rot_unit (b.euler_code 0) b.alpha)).1 (rot_unit (b.euler_code 1) b.beta)).1
      have := hinv hu ((b.euler_code 2).rot b.gamma)
      simp only [C01_prod_assoc] at this
      rw [this, hm']

/-- The orientation of the parent of a bone. -/
noncomputable def parentQ (S : Skeleton) (b : Bone) : Quat :=
  match b.parent with
  | none => Quat.identity
  | some p => match S[p]? with
    | none => Quat.identity
    | some q => q.q_wcs

theorem parentPose_snd {S : Skeleton} {b : Bone} {P : V3 × Quat} (h : parentPose S b = .ok P) : P.2 = parentQ S b := by
  unfold parentPose at h
  unfold parentQ
  cases hp : b.parent with
  | none => rw [hp] at h; injection h with h; rw [← h]
  | some p =>
    rw [hp] at h
    dsimp only at h ⊢
    unfold getBone at h
    cases hq : S[p]? with
    | none => rw [hq] at h; cases h
    | some q => rw [hq] at h; injection h with h; rw [← h]

theorem identity_unit : IsUnitQ Quat.identity := by unfold IsUnitQ Quat.identity; norm_num

theorem parentQ_unit {S : Skeleton} (hS : IsTree S) (h : ∀ b ∈ S, Posed S b) (b : Bone) : IsUnitQ (parentQ S b) := by
  unfold parentQ
  cases b.parent with
  | none => exact identity_unit
  | some p =>
    dsimp only
    cases hq : S[p]? with
    | none => exact identity_unit
    | some q => exact posed_unit hS h (List.mem_of_getElem? hq)

theorem posed_q {S : Skeleton} (hS : IsTree S) {j : ℕ} {b : Bone} (hj : S[j]? = some b) (h : Posed S b) : b.q_wcs = Quat.prod (parentQ S b) b.joint := by
  unfold parentQ
  cases hp : b.parent with
  | none => rw [(h.1 hp).2]; exact (C01_identity_unit _).1.symm
  | some p =>
    have hlt := hS.parent j b p hj hp
    have hl := getElem?_lt hj
    have hq := List.getElem?_eq_getElem (l := S) (i := p) (by omega)
    dsimp only
    rw [hq]
    exact (h.2 p _ hp hq).2

/-- The turn of everything below bone b when its angle o goes to θ. -/
noncomputable def turn (S : Skeleton) (b : Bone) (o : ℕ) (θ : ℝ) : Quat :=
  Quat.prod (Quat.prod (b.before (parentQ S b) o) ((b.letter o).rot (θ - b.angle o))) (Quat.conjugate (b.before (parentQ S b) o))

/-- What setting an angle and updating does to the poses. -/
theorem moveTo_spec {S0 S : Skeleton} {limit : ℕ} (hS0 : IK.Built S0) (hu : update_skeleton limit S0 = .ok S) {k o : ℕ} {b : Bone} (hb : S[k]? = some b)
    (ho : o < 3) (θ : ℝ) : ∃ S', moveTo limit S (k * 3 + o) θ = .ok S' ∧ IK.Built S' ∧ SameShape S S' ∧
      (∀ j, ¬ Below S k j → S'[j]? = S[j]?) ∧
      (∀ (j : ℕ) (c c' : Bone), Below S k j → S[j]? = some c → S'[j]? = some c' →
        c'.t_wcs = b.t_wcs + Quat.rotate (turn S b o θ) (c.t_wcs - b.t_wcs) ∧ c'.q_wcs = Quat.prod (turn S b o θ) c.q_wcs) ∧
      (∀ (j : ℕ) (c c' : Bone), S[j]? = some c → S'[j]? = some c' → c'.data = (if j = k then b.setAngle o θ else c).data) ∧
      ∀ b ∈ S', Posed S' b := by
  have hS : IK.Built S := .update hS0 hu
  have hT := C56_tree hS
  obtain ⟨hd0, hpos⟩ := C57_update hS0 hu
  have hdiv : (k * 3 + o) / 3 = k := by omega
  have hmod : (k * 3 + o) % 3 = o := by omega
  set S1 := S.set k (b.setAngle o θ) with hS1
  have hset : set_angle (k * 3 + o) θ S = .ok S1 := by
    unfold set_angle
    simp only [hdiv, hmod, bind, Except.bind]
    rw [getBone_ok.2 hb]
    rfl
  have hB1 : IK.Built S1 := .angle hS hset
  have hsh1 := sameShape_set_angle hset
  obtain ⟨S', hS'⟩ : ∃ S', update_skeleton limit S1 = .ok S' := by
    rw [C57_success hB1]
    have h0 := (C57_success hS0 limit).1 ⟨S, hu⟩
    have hsh := hd0.shape.trans hsh1
    refine ⟨?_, fun L j hL => h0.2 L j ⟨hL.1, hL.2.1, ?_⟩⟩
    · intro hc
      have := hsh.length
      rw [hc] at this
      exact h0.1 (List.eq_nil_of_length_eq_zero this.symm)
    · have := hL.2.2
      simp only [hsh.parentOf] at this
      exact this
  have hB' : IK.Built S' := .update hB1 hS'
  have hT' := C56_tree hB'
  obtain ⟨hd, hpos'⟩ := C57_update hB1 hS'
  have hshape : SameShape S S' := hsh1.trans hd.shape
  have hdata : ∀ (j : ℕ) (c c' : Bone), S[j]? = some c → S'[j]? = some c' → c'.data = (if j = k then b.setAngle o θ else c).data := by
    intro j c c' hc hc'
    obtain ⟨c1, h1, h2⟩ := hd.get hc'
    rw [← h2]
    by_cases hjk : j = k
    · subst hjk
      rw [hS1, set_self hb] at h1
      injection h1 with h1
      rw [if_pos rfl, h1]
    · rw [hS1, set_ne hjk, hc] at h1
      injection h1 with h1
      rw [if_neg hjk, h1]
  have fields : ∀ {x y : Bone}, x.data = y.data → x.t = y.t ∧ x.joint = y.joint ∧ x.parent = y.parent := by
    intro x y h
    obtain ⟨i1, c1, a1, b1, g1, q1, w1, t1, r1, k1⟩ := x
    obtain ⟨i2, c2, a2, b2, g2, q2, w2, t2, r2, k2⟩ := y
    simp only [Bone.data, Bone.shape, Prod.mk.injEq] at h
    obtain ⟨⟨rfl, rfl, rfl, rfl, rfl⟩, rfl, rfl, rfl⟩ := h
    exact ⟨rfl, rfl, rfl⟩
  have hget : ∀ j, j < S.length → ∃ c c', S[j]? = some c ∧ S'[j]? = some c' := fun j hj =>
    ⟨_, _, List.getElem?_eq_getElem hj, List.getElem?_eq_getElem (by rw [hshape.length]; exact hj)⟩
  have hother : ∀ j, ¬ Below S k j → S'[j]? = S[j]? := by
    intro j
    induction j using Nat.strong_induction_on with
    | _ j ih =>
      intro hj
      by_cases hl : j < S.length
      · obtain ⟨c, c', hc, hc'⟩ := hget j hl
        have hjk : j ≠ k := by rintro rfl; exact hj Relation.ReflTransGen.refl
        have hdj := hdata j c c' hc hc'
        rw [if_neg hjk] at hdj
        obtain ⟨ft, fj, fp⟩ := fields hdj
        have hq : c'.t_wcs = c.t_wcs ∧ c'.q_wcs = c.q_wcs := by
          have h1 := hpos c (List.mem_of_getElem? hc)
          have h2 := hpos' c' (List.mem_of_getElem? hc')
          cases hp : c.parent with
          | none =>
            rw [(h1.1 hp).1, (h1.1 hp).2, (h2.1 (fp.trans hp)).1, (h2.1 (fp.trans hp)).2, ft, fj]
            exact ⟨rfl, rfl⟩
          | some p =>
            have hpj : parentOf S j = some p := parentOf_some.2 ⟨c, hc, hp⟩
            have hlt := hT.parent_lt hpj
            have hnb : ¬ Below S k p := fun h => hj (h.tail hpj)
            have e := ih p hlt hnb
            have hq := List.getElem?_eq_getElem (l := S) (i := p) (by omega)
            rw [(h1.2 p _ hp hq).1, (h1.2 p _ hp hq).2, (h2.2 p _ (fp.trans hp) (e.trans hq)).1, (h2.2 p _ (fp.trans hp) (e.trans hq)).2, ft, fj]
            exact ⟨rfl, rfl⟩
        rw [hc, hc']
        congr 1
        obtain ⟨i1, c1, a1, b1, g1, q1, w1, t1, r1, k1⟩ := c
        obtain ⟨i2, c2, a2, b2, g2, q2, w2, t2, r2, k2⟩ := c'
        simp only [Bone.data, Bone.shape, Prod.mk.injEq] at hdj
        obtain ⟨⟨rfl, rfl, rfl, rfl, rfl⟩, rfl, rfl, rfl⟩ := hdj
        obtain ⟨rfl, rfl⟩ := hq
        rfl
      · rw [List.getElem?_eq_none (by rw [hshape.length]; omega), List.getElem?_eq_none (by omega)]
  refine ⟨S', ?_, hB', hshape, hother, ?_, hdata, hpos'⟩
  · unfold moveTo
    simp only [bind, Except.bind]
    rw [hset]
    exact hS'
  · have hparQ := parentQ_unit hT hpos b
    intro j
    induction j using Nat.strong_induction_on with
    | _ j ih =>
      intro c c' hj hc hc'
      have h1 := hpos c (List.mem_of_getElem? hc)
      have h2 := hpos' c' (List.mem_of_getElem? hc')
      have hdj := hdata j c c' hc hc'
      by_cases hjk : j = k
      · subst hjk
        rw [hb] at hc
        injection hc with hc
        subst hc
        rw [if_pos rfl] at hdj
        obtain ⟨ft, fj, fp⟩ := fields hdj
        have ht : (b.setAngle o θ).t = b.t := by unfold Bone.setAngle; split_ifs <;> rfl
        have hp0 : (b.setAngle o θ).parent = b.parent := by unfold Bone.setAngle; split_ifs <;> rfl
        have hpQ : parentQ S' c' = parentQ S b := by
          unfold parentQ
          rw [fp, hp0]
          cases hp : b.parent with
          | none => rfl
          | some p =>
            have hlt := hT.parent j b p hb hp
            dsimp only
            rw [hother p fun h => absurd (below_le hT h) (by omega)]
        constructor
        · rw [sub_self]
          have hz : ∀ q : Quat, Quat.rotate q (0 : V3) = 0 := by
            intro q
            have := (C02_rotate_linear q 0 (0 : V3) 0).2
            simpa using this
          rw [hz, add_zero]
          cases hp : b.parent with
          | none => rw [(h1.1 hp).1, (h2.1 (fp.trans (hp0.trans hp))).1, ft, ht]
          | some p =>
            have hlt := hT.parent j b p hb hp
            have hjl := getElem?_lt hb
            have hq := List.getElem?_eq_getElem (l := S) (i := p) (by omega)
            have e := hother p fun h => absurd (below_le hT h) (by omega)
            rw [(h1.2 p _ hp hq).1, (h2.2 p _ (fp.trans (hp0.trans hp)) (e.trans hq)).1, ft, ht]
        · rw [posed_q hT' hc' h2, hpQ, fj, joint_setAngle b o θ _ hparQ, posed_q hT hb h1]
          rfl
      · rw [if_neg hjk] at hdj
        obtain ⟨ft, fj, fp⟩ := fields hdj
        rcases Relation.ReflTransGen.cases_tail hj with h | ⟨p, hkp, hpj⟩
        · exact absurd h hjk
        · obtain ⟨c0, hc0, hp⟩ := parentOf_some.1 hpj
          rw [hc] at hc0
          injection hc0 with hc0
          subst hc0
          have hlt := hT.parent_lt hpj
          have hjl := getElem?_lt hc
          obtain ⟨q, q', hq, hq'⟩ := hget p (by omega)
          obtain ⟨i1, i2⟩ := ih p hlt q q' hkp hq hq'
          obtain ⟨u1, u2⟩ := h1.2 p q hp hq
          obtain ⟨w1, w2⟩ := h2.2 p q' (fp.trans hp) hq'
          constructor
          · rw [w1, i1, i2, u1, ft, C02_rotate_prod]
            have hlin := (C02_rotate_linear (turn S b o θ) 0 (q.t_wcs - b.t_wcs) (Quat.rotate q.q_wcs c.t)).1
            have e : q.t_wcs + Quat.rotate q.q_wcs c.t - b.t_wcs = q.t_wcs - b.t_wcs + Quat.rotate q.q_wcs c.t := by abel
            rw [e, hlin, add_assoc]
          · rw [w2, i2, u2, fj, C01_prod_assoc]

end IK

end Verif
