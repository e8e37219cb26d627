import Verif.Props.IKReach
import Verif.Props.IKExamples

/-! C125: the bound on the reach is sharp; straight arms; the demo. -/

namespace Verif

open IK

namespace IK

/-- The joint rotation of bone i with the angles θ. -/
noncomputable def jointWith (code : Fin 3 → Axis) (θ : ℝ × ℝ × ℝ) : Quat :=
  Quat.prod (Quat.prod ((code 0).rot θ.1) ((code 1).rot θ.2.1)) ((code 2).rot θ.2.2)

theorem jointWith_unit (code : Fin 3 → Axis) (θ : ℝ × ℝ × ℝ) : IsUnitQ (jointWith code θ) :=
  (C01_unit_group (C01_unit_group (rot_unit _ _) (rot_unit _ _)).1 (rot_unit _ _)).1

/-- The tip of an arm with bone vectors t, codes and angles, seen from the origin of the bone before. -/
noncomputable def armTip (t : ℕ → V3) (code : ℕ → Fin 3 → Axis) (θ : ℕ → ℝ × ℝ × ℝ) (tool : V3) : Quat → List ℕ → V3
  | q, [] => Quat.rotate q tool
  | q, i :: B => Quat.rotate q (t i) + armTip t code θ tool (Quat.prod q (jointWith (code i) (θ i))) B

theorem armTip_congr {t : ℕ → V3} {code : ℕ → Fin 3 → Axis} {θ θ' : ℕ → ℝ × ℝ × ℝ} {tool : V3} (B : List ℕ) (h : ∀ i ∈ B, θ i = θ' i) (q : Quat) :
    armTip t code θ tool q B = armTip t code θ' tool q B := by
  induction B generalizing q with
  | nil => rfl
  | cons i B ih =>
    unfold armTip
    rw [h i (by simp), ih fun k hk => h k (by simp [hk])]

theorem norm_smul_unit {d : V3} (hd : V3.norm d = 1) {s : ℝ} (hs : 0 ≤ s) : V3.norm (s • d) = s := by
  have h : V3.norm (s • d) ^ 2 = s ^ 2 := by
    rw [V3.norm_sq, V3.dot_smul_left, V3.dot_smul_right, ← V3.norm_sq, hd]
    ring
  exact (sq_eq_sq₀ (V3.norm_nonneg _) hs).1 h

/-- A joint can aim a vector in any direction. -/
theorem aim {code : Fin 3 → Axis} (hcode : code 0 ≠ code 1 ∧ code 1 ≠ code 2) {q : Quat} (hq : IsUnitQ q) {d : V3} (hd : V3.norm d = 1) (u : V3) :
    ∃ θ, Quat.rotate (Quat.prod q (jointWith code θ)) u = V3.norm u • d := by
  obtain ⟨α, β, γ, h⟩ := joint_aims hcode.1 hcode.2 (u := u) (w := Quat.rotate (Quat.conjugate q) (V3.norm u • d)) (by
    have hu : IsUnitQ (Quat.conjugate q) := (C01_unit_group hq hq).2.1
    rw [rotate_norm hu, norm_smul_unit hd (V3.norm_nonneg u)])
  refine ⟨(α, β, γ), ?_⟩
  rw [C02_rotate_prod]
  unfold jointWith
  rw [h]
  exact (C02_rotate_conjugate hq _).2

theorem arm_aims {t : ℕ → V3} {code : ℕ → Fin 3 → Axis} (tool : V3) {d : V3} (hd : V3.norm d = 1) (B : List ℕ) :
    ∀ (a : ℕ) (q : Quat), IsUnitQ q → (a :: B).Nodup → (∀ i ∈ a :: B, code i 0 ≠ code i 1 ∧ code i 1 ≠ code i 2) →
      ∃ θ, armTip t code θ tool (Quat.prod q (jointWith (code a) (θ a))) B = ((B.map fun i => V3.norm (t i)).sum + V3.norm tool) • d := by
  induction B with
  | nil =>
    intro a q hq _ hcode
    obtain ⟨θ, h⟩ := aim (hcode a (by simp)) hq hd tool
    refine ⟨fun _ => θ, ?_⟩
    unfold armTip
    rw [h]
    simp
  | cons b B ih =>
    intro a q hq hn hcode
    obtain ⟨θa, h⟩ := aim (hcode a (by simp)) hq hd (t b)
    rw [List.nodup_cons] at hn
    obtain ⟨θ', h'⟩ := ih b (Quat.prod q (jointWith (code a) θa)) (C01_unit_group hq (jointWith_unit _ _)).1 hn.2 fun i hi => hcode i (by simp at hi ⊢; tauto)
    have hne : ∀ i ∈ b :: B, Function.update θ' a θa i = θ' i := by
      intro i hi
      rw [Function.update_of_ne]
      rintro rfl
      exact hn.1 hi
    refine ⟨Function.update θ' a θa, ?_⟩
    rw [Function.update_self]
    unfold armTip
    rw [hne b (by simp), h, armTip_congr B fun i hi => hne i (by simp [hi]), h', ← add_smul, List.map_cons, List.sum_cons]
    congr 1
    ring

/-- The letters of the code of bone i. -/
def codeAt (S : Skeleton) (i : ℕ) : Fin 3 → Axis :=
  match S[i]? with
  | some b => b.euler_code
  | none => fun _ => .X

theorem valid_axes {code : String} (h : is_valid_euler_code code = true) : codeAxes code 0 ≠ codeAxes code 1 ∧ codeAxes code 1 ≠ codeAxes code 2 := by
  unfold is_valid_euler_code at h
  rw [List.contains_iff_mem] at h
  simp only [validCodes, List.cons_append, List.nil_append, List.mem_cons, List.not_mem_nil, or_false] at h
  rcases h with rfl | rfl | rfl | rfl | rfl | rfl | rfl | rfl | rfl | rfl | rfl | rfl <;> constructor <;> simp [codeAxes]

/-- In a skeleton made with the API neighbouring letters of a code differ. -/
theorem built_codes {S : Skeleton} (h : IK.Built S) : ∀ b ∈ S, b.euler_code 0 ≠ b.euler_code 1 ∧ b.euler_code 1 ≠ b.euler_code 2 := by
  have keep : ∀ {S S' : Skeleton}, SameShape S S' → (∀ b ∈ S, b.euler_code 0 ≠ b.euler_code 1 ∧ b.euler_code 1 ≠ b.euler_code 2) →
      ∀ b ∈ S', b.euler_code 0 ≠ b.euler_code 1 ∧ b.euler_code 1 ≠ b.euler_code 2 := by
    intro S S' hs ih b' hb'
    obtain ⟨i, hi⟩ := List.mem_iff_getElem?.1 hb'
    obtain ⟨b, hb, hsh⟩ := hs.get hi
    simp only [Bone.shape, Prod.mk.injEq] at hsh
    rw [← hsh.2.2.2.2]
    exact ih b (List.mem_of_getElem? hb)
  induction h with
  | new => intro b hb; cases hb
  | root _ hc ih =>
    unfold create_root at hc
    split_ifs at hc with h1 h2
    injection hc with hc
    subst hc
    intro b hb
    rcases List.mem_append.1 hb with hb | hb
    · exact ih b hb
    · rw [List.mem_singleton] at hb
      subst hb
      exact valid_axes h2
  | bone _ hc ih =>
    unfold add_bone at hc
    split_ifs at hc with h1 h2
    injection hc with hc
    subst hc
    intro b hb
    rcases List.mem_append.1 hb with hb | hb
    · obtain ⟨i, hi⟩ := List.mem_iff_getElem?.1 hb
      rw [List.getElem?_modify] at hi
      obtain ⟨b0, hb0, he⟩ := Option.map_eq_some_iff.1 hi
      have := ih b0 (List.mem_of_getElem? hb0)
      subst he
      split_ifs <;> exact this
    · rw [List.mem_singleton] at hb
      subst hb
      exact valid_axes h2
  | angles _ hc ih => exact keep (sameShape_set_joint_angles hc) ih
  | angle _ hc ih => exact keep (sameShape_set_angle hc) ih
  | update _ hc ih => exact keep (sameShape_update_bone _ hc) ih

theorem chain_tip {S : Skeleton} (hp : ∀ b ∈ S, Posed S b) {θ : ℕ → ℝ × ℝ × ℝ} (hθ : ∀ i b, S[i]? = some b → (b.alpha, b.beta, b.gamma) = θ i) (tool : V3) (B : List ℕ) :
    ∀ (a j : ℕ) (ba bj : Bone), S[a]? = some ba → S[j]? = some bj → (a :: B).IsChain (fun a b => parentOf S b = some a) → (a :: B).getLast? = some j →
    bj.t_wcs + Quat.rotate bj.q_wcs tool = ba.t_wcs + armTip (boneVec S) (codeAt S) θ tool ba.q_wcs B := by
  induction B with
  | nil =>
    intro a j ba bj ha hj _ hl
    simp only [List.getLast?_singleton, Option.some.injEq] at hl
    subst hl
    rw [ha, Option.some.injEq] at hj
    subst hj
    rfl
  | cons b B ih =>
    intro a j ba bj ha hj hc hl
    rw [List.isChain_cons_cons] at hc
    obtain ⟨bb, hb, hpar⟩ := parentOf_some.1 hc.1
    rw [List.getLast?_cons_cons] at hl
    obtain ⟨h1, h2⟩ := (hp bb (List.mem_of_getElem? hb)).2 a ba hpar ha
    have hj' : bb.joint = jointWith (codeAt S b) (θ b) := by
      rw [← hθ b bb hb]
      unfold codeAt
      rw [hb]
      rfl
    have hv : boneVec S b = bb.t := by unfold boneVec; rw [hb]
    rw [ih b j bb bj hb hj hc.2 hl, h1, h2, hj', add_assoc]
    conv_rhs => unfold armTip
    rw [hv]

theorem codeAt_shape {S S' : Skeleton} (h : SameShape S S') (i : ℕ) : codeAt S' i = codeAt S i := by
  unfold codeAt
  cases h' : S'[i]? with
  | none =>
    have : S[i]? = none := by
      rw [List.getElem?_eq_none_iff] at h' ⊢
      rw [h.length] at h'
      exact h'
    rw [this]
  | some b' =>
    obtain ⟨b, hb, hsh⟩ := h.get h'
    rw [hb]
    simp only [Bone.shape, Prod.mk.injEq] at hsh
    exact hsh.2.2.2.2.symm

/-- Any angles can be set and the skeleton updated. -/
theorem pose_with {S : Skeleton} (hS : IK.Built S) (h0 : S ≠ []) {limit : ℕ} (hl : ∀ L j, IsPath S L j → L.length ≤ limit) (θ : ℕ → ℝ × ℝ × ℝ) :
    ∃ v S1 S2, set_joint_angles S v = .ok S1 ∧ update_skeleton limit S1 = .ok S2 ∧ SameShape S S2 ∧
      ∀ i b, S2[i]? = some b → (b.alpha, b.beta, b.gamma) = θ i := by
  obtain ⟨v, hv⟩ : ∃ v, v = (List.range S.length).flatMap fun i => [(θ i).1, (θ i).2.1, (θ i).2.2] := ⟨_, rfl⟩
  have flat : ∀ (n m : ℕ), ((List.range' m n).flatMap fun i => [(θ i).1, (θ i).2.1, (θ i).2.2]).length = n * 3 ∧
      ∀ k < n, ((List.range' m n).flatMap fun i => [(θ i).1, (θ i).2.1, (θ i).2.2])[k * 3]? = some (θ (m + k)).1 ∧
        ((List.range' m n).flatMap fun i => [(θ i).1, (θ i).2.1, (θ i).2.2])[k * 3 + 1]? = some (θ (m + k)).2.1 ∧
        ((List.range' m n).flatMap fun i => [(θ i).1, (θ i).2.1, (θ i).2.2])[k * 3 + 2]? = some (θ (m + k)).2.2 := by
    intro n
    induction n with
    | zero => intro m; exact ⟨rfl, fun k hk => by omega⟩
    | succ n ih =>
      intro m
      obtain ⟨i1, i2⟩ := ih (m + 1)
      rw [List.range'_succ, List.flatMap_cons]
      refine ⟨by rw [List.length_append, i1]; simp; ring, fun k hk => ?_⟩
      cases k with
      | zero => simp
      | succ k =>
        obtain ⟨a1, a2, a3⟩ := i2 k (by omega)
        have e1 : (k + 1) * 3 = k * 3 + 3 := by ring
        have e2 : m + 1 + k = m + (k + 1) := by ring
        rw [e2] at a1 a2 a3
        refine ⟨?_, ?_, ?_⟩
        · rw [e1]; simpa using a1
        · rw [e1]; simpa using a2
        · rw [e1]; simpa using a3
  obtain ⟨f1, f2⟩ := flat S.length 0
  rw [← List.range_eq_range', ← hv] at f1 f2
  obtain ⟨hset, hafter⟩ := C58_set hS v
  obtain ⟨S1, hS1⟩ := hset.2 (by rw [f1])
  obtain ⟨hst, hget⟩ := hafter S1 hS1
  have hB1 : IK.Built S1 := .angles hS hS1
  have hsh1 : SameShape S S1 := sameStill_shape hst
  rw [C58_get hB1, List.take_of_length_le (by rw [f1])] at hget
  have hang : S1.flatMap Bone.angles = v := Except.ok.inj hget
  have hpar : IK.parentOf S1 = IK.parentOf S := by funext j; exact hsh1.parentOf j
  obtain ⟨S2, hS2⟩ := (C57_success hB1 limit).2 ⟨by
    intro e
    rw [e] at hsh1
    have := hsh1.length
    exact h0 (List.eq_nil_of_length_eq_zero this.symm), fun L j hL => hl L j (by unfold IsPath at hL ⊢; rwa [hpar] at hL)⟩
  have hd := (C57_update hB1 hS2).1
  refine ⟨v, S1, S2, hS1, hS2, hsh1.trans hd.shape, fun i b hb => ?_⟩
  obtain ⟨b1, hb1, hdat⟩ := hd.get hb
  simp only [Bone.data, Prod.mk.injEq] at hdat
  have hi : i < S.length := by
    rw [← hsh1.length]
    exact getElem?_lt hb1
  obtain ⟨a1, a2, a3⟩ := f2 i hi
  have g0 := flatMap_angles_get S1 i 0 (by norm_num)
  have g1 := flatMap_angles_get S1 i 1 (by norm_num)
  have g2 := flatMap_angles_get S1 i 2 (by norm_num)
  rw [hang, hb1] at g0 g1 g2
  rw [add_zero, a1] at g0
  rw [a2] at g1
  rw [a3] at g2
  simp only [Option.map_some, Option.some.injEq, Bone.angle, Nat.zero_add] at g0 g1 g2
  norm_num at g0 g1 g2
  rw [← hdat.2.1, ← hdat.2.2.1, ← hdat.2.2.2, ← g0, ← g1, ← g2]

end IK

/-- **C125** (the reach is attained). In every direction there are joint angles that stretch the chain completely: the end effector is then exactly the
length of the arm away from the origin of the root.  So the bound of `C125_reach` is the best one, whatever the Euler codes. -/
theorem C125_attained {S : Skeleton} (hS : IK.Built S) (h0 : S ≠ []) {limit : ℕ} (hl : ∀ L j, IsPath S L j → L.length ≤ limit) {c : Chain} (hc : GoodChain S c)
    {d : V3} (hd : V3.norm d = 1) :
    ∃ v S1 S2, set_joint_angles S v = .ok S1 ∧ update_skeleton limit S1 = .ok S2 ∧ get_end_effector c S2 = .ok (boneVec S 0 + armLength S c • d) := by
  have hT := C56_tree hS
  obtain ⟨j, hj⟩ := hc
  have hjl := path_lt h0 hj
  obtain ⟨hhead, hlast, hchain⟩ := hj
  cases hb : c.bones with
  | nil => rw [hb] at hhead; cases hhead
  | cons a B =>
    rw [hb] at hhead hlast hchain hjl
    simp only [List.head?_cons, Option.some.injEq] at hhead
    subst hhead
    have hnd : (0 :: B).Nodup := by
      have hinc : (0 :: B).IsChain (· < ·) := hchain.imp fun a b hab => hT.parent_lt hab
      exact (List.isChain_iff_pairwise.1 hinc).imp fun h => ne_of_lt h
    obtain ⟨θ, hθ⟩ := arm_aims (t := boneVec S) (code := codeAt S) c.tool hd B 0 Quat.identity identity_unit hnd (by
      intro i hi
      have := List.getElem?_eq_getElem (hjl i hi)
      unfold codeAt
      rw [this]
      exact built_codes hS _ (List.getElem_mem _))
    obtain ⟨v, S1, S2, h1, h2, hsh, hang⟩ := pose_with hS h0 hl θ
    have hB1 : IK.Built S1 := .angles hS h1
    have hT2 : IsTree S2 := C56_tree (.update hB1 h2)
    obtain ⟨-, hp⟩ := C57_update hB1 h2
    have hpar : IK.parentOf S2 = IK.parentOf S := by funext j; exact hsh.parentOf j
    have hlen := hsh.length
    have hj2 := List.getElem?_eq_getElem (l := S2) (i := j) (by rw [hlen]; exact hjl j (List.mem_of_getLast? hlast))
    have h02 := List.getElem?_eq_getElem (l := S2) (i := 0) (by rw [hlen]; exact hjl 0 (by simp))
    have tip := chain_tip hp hang c.tool B 0 j _ _ h02 hj2 (by rw [hpar]; exact hchain) hlast
    have hroot := (hp _ (List.mem_of_getElem? h02)).1 ((hT2.root 0 _ h02).2 rfl)
    have hq : (S2[0]'(by rw [hlen]; exact hjl 0 (by simp))).q_wcs = Quat.prod Quat.identity (jointWith (codeAt S 0) (θ 0)) := by
      rw [hroot.2, ← hang 0 _ h02, ← codeAt_shape hsh 0]
      unfold codeAt
      rw [h02]
      have : ∀ q : Quat, Quat.prod Quat.identity q = q := by
        intro q
        ext <;> simp [Quat.prod, Quat.identity, Quat.vec, V3.dot, V3.cross]
      rw [this]
      rfl
    refine ⟨v, S1, S2, h1, h2, ?_⟩
    unfold get_end_effector
    rw [hb, hlast]
    dsimp only
    rw [getBone_ok.2 hj2]
    refine congrArg Except.ok ?_
    dsimp only
    rw [tip, hroot.1, hq]
    have e1 : boneVec S2 = boneVec S := funext fun i => sameShape_boneVec hsh i
    have e2 : codeAt S2 = codeAt S := funext fun i => codeAt_shape hsh i
    rw [e1, e2, hθ]
    have e3 : (S2[0]'(by rw [hlen]; exact hjl 0 (by simp))).t = boneVec S 0 := by
      rw [← sameShape_boneVec hsh]
      unfold boneVec
      rw [h02]
    rw [e3]
    unfold armLength links
    rw [hb, List.tail_cons, List.sum_append, List.sum_singleton]

end Verif
