import Verif.Props.IKGradient

/-! Property C77: the Hessian of inverse kinematics. -/

namespace Verif

open IK

/-! ### Specification -/

namespace IK

/-- The program "set angle i to θ, update the skeleton, compute Jacobian and gradient". -/
noncomputable def gradAt (limit : ℕ) (S : Skeleton) (cs : List Chain) (i : ℕ) (θ : ℝ) : Except PyErr (ℕ → ℝ) := do
  let S ← set_angle i θ S
  let S ← update_skeleton limit S
  let J ← compute_jacobian cs S
  compute_gradient cs S J

/-- H is the second derivative of the objective with respect to the angles i and k: the derivative with respect to angle i of entry k of the gradient. -/
def IsSecond (limit : ℕ) (S : Skeleton) (cs : List Chain) (i k : ℕ) (H : ℝ) : Prop :=
  ∃ (θ₀ : ℝ) (G : ℝ → ℕ → ℝ), get_angle i S = .ok θ₀ ∧ (∀ θ, gradAt limit S cs i θ = .ok (G θ)) ∧ HasDerivAt (fun θ => G θ k) H θ₀

/-! ### Proofs: the true second derivative -/

/-- The world axis of angle number i. -/
noncomputable def axisVec (S : Skeleton) (i : ℕ) : V3 :=
  match S[i / 3]? with
  | none => 0
  | some b => axisOf S b (i % 3)

/-- The second derivative of an end effector with respect to the angles i and k on its chain. -/
noncomputable def secondVec (S : Skeleton) (e : V3) (i k : ℕ) : V3 :=
  if i ≤ k then V3.cross (axisVec S i) (colVec S e k) else V3.cross (axisVec S k) (colVec S e i)

theorem HasDerivV.cross_const {f : ℝ → V3} {v : V3} {t : ℝ} (a : V3) (h : HasDerivV f v t) : HasDerivV (fun t => V3.cross a (f t)) (V3.cross a v) t := by
  obtain ⟨h1, h2, h3⟩ := h
  exact ⟨((h3.const_mul a.y).sub (h2.const_mul a.z)), ((h1.const_mul a.z).sub (h3.const_mul a.x)), ((h2.const_mul a.x).sub (h1.const_mul a.y))⟩

theorem HasDerivV.dot {f g : ℝ → V3} {v w : V3} {t : ℝ} (hf : HasDerivV f v t) (hg : HasDerivV g w t) :
    HasDerivAt (fun t => V3.dot (f t) (g t)) (V3.dot v (g t) + V3.dot (f t) w) t := by
  refine (((hf.1.mul hg.1).add (hf.2.1.mul hg.2.1)).add (hf.2.2.mul hg.2.2)).congr_deriv ?_
  simp only [V3.dot]
  ring

theorem HasDerivV.const_sub {f : ℝ → V3} {v : V3} {t : ℝ} (a : V3) (h : HasDerivV f v t) : HasDerivV (fun t => a - f t) (-v) t :=
  ⟨h.1.const_sub a.x, h.2.1.const_sub a.y, h.2.2.const_sub a.z⟩

theorem hasDerivV_const (a : V3) (t : ℝ) : HasDerivV (fun _ => a) 0 t := ⟨hasDerivAt_const _ _, hasDerivAt_const _ _, hasDerivAt_const _ _⟩

theorem letter_setAngle (b : Bone) (o o' : ℕ) (θ : ℝ) : (b.setAngle o θ).letter o' = b.letter o' := by
  unfold Bone.setAngle Bone.letter
  split_ifs <;> rfl

theorem before_congr {b b' : Bone} (h : b'.euler_code = b.euler_code) (ha : b'.alpha = b.alpha) (hb : b'.beta = b.beta) (q : Quat) (o : ℕ) :
    b'.before q o = b.before q o := by
  unfold Bone.before
  rw [h, ha, hb]

/-- The frame before angle o' when angle o is set: it turns along if o comes before o', otherwise it stays. -/
theorem before_setAngle (b : Bone) {o o' : ℕ} (ho : o < 3) (ho' : o' < 3) (θ : ℝ) {q : Quat} (hq : IsUnitQ q) :
    (b.setAngle o θ).before q o' =
      if o < o' then Quat.prod (Quat.prod (Quat.prod (b.before q o) ((b.letter o).rot (θ - b.angle o))) (Quat.conjugate (b.before q o))) (b.before q o')
      else b.before q o' := by
  have hinv : ∀ {A : Quat}, IsUnitQ A → ∀ B : Quat, Quat.prod (Quat.conjugate A) (Quat.prod A B) = B := by
    intro A hA B
    rw [← C01_prod_assoc, (C01_unit_group hA hA).2.2.2, (C01_identity_unit B).1]
  have hm : ∀ (a : Axis) (x y : ℝ) (B : Quat), Quat.prod (a.rot (y - x)) (Quat.prod (a.rot x) B) = Quat.prod (a.rot y) B := by
    intro a x y B
    rw [← C01_prod_assoc, rot_add, sub_add_cancel]
  have hm' : ∀ (a : Axis) (x y : ℝ), Quat.prod (a.rot (y - x)) (a.rot x) = a.rot y := by
    intro a x y
    rw [rot_add, sub_add_cancel]
  have ho3 : o = 0 ∨ o = 1 ∨ o = 2 := by omega
  have ho3' : o' = 0 ∨ o' = 1 ∨ o' = 2 := by omega
  rcases ho3 with rfl | rfl | rfl <;> rcases ho3' with rfl | rfl | rfl <;>
    simp only [Bone.setAngle, Bone.before, Bone.letter, Bone.angle, if_pos, if_neg, Nat.lt_irrefl, Nat.not_lt_zero, if_false, Nat.zero_lt_one,
      Nat.zero_lt_two, if_true, one_ne_zero, OfNat.ofNat_ne_zero, OfNat.ofNat_ne_one, reduceIte, Nat.one_lt_two, Nat.reduceLT]
  · simp only [C01_prod_assoc]
    rw [hinv hq, hm']
  · simp only [C01_prod_assoc]
    rw [hinv hq, hm]
  · simp only [C01_prod_assoc]
    have hu := (C01_unit_group hq (rot_unit (b.euler_code 0) b.alpha)).1
    have := hinv hu ((b.euler_code 1).rot b.beta)
    rw [C01_prod_assoc] at this
    rw [this, hm']

theorem fields_of_data {x y : Bone} (h : x.data = y.data) : x.t = y.t ∧ x.parent = y.parent ∧ x.euler_code = y.euler_code ∧ x.alpha = y.alpha ∧ x.beta = y.beta := by
  obtain ⟨i1, c1, a1, b1, g1, q1, w1, t1, r1, k1⟩ := x
  obtain ⟨i2, c2, a2, b2, g2, q2, w2, t2, r2, k2⟩ := y
  simp only [Bone.data, Bone.shape, Prod.mk.injEq] at h
  obtain ⟨⟨rfl, rfl, rfl, rfl, rfl⟩, rfl, rfl, rfl⟩ := h
  exact ⟨rfl, rfl, rfl, rfl, rfl⟩

theorem letter_congr {b b' : Bone} (h : b'.euler_code = b.euler_code) (o : ℕ) : b'.letter o = b.letter o := by
  unfold Bone.letter
  rw [h]

theorem rotate_sub' (q : Quat) (a b : V3) : Quat.rotate q (a - b) = Quat.rotate q a - Quat.rotate q b := by
  have h1 := (C02_rotate_linear q 0 (a - b) b).1
  rw [sub_add_cancel] at h1
  rw [h1, add_sub_cancel_right]

theorem turn_unit {S : Skeleton} {b : Bone} (hq : IsUnitQ (parentQ S b)) (o : ℕ) (θ : ℝ) : IsUnitQ (turn S b o θ) := by
  have hu := before_unit (b := b) hq o
  unfold turn
  exact (C01_unit_group (C01_unit_group hu (rot_unit _ _)).1 (C01_unit_group hu hu).2.1).1

open Classical in
/-- How the columns of the Jacobian change with an angle. -/
theorem colVec_moved {S0 S S' : Skeleton} {limit : ℕ} (hS0 : IK.Built S0) (hu : update_skeleton limit S0 = .ok S) {i i' : ℕ} {b : Bone} (hb : S[i / 3]? = some b)
    (hi' : i' / 3 < S.length) (θ : ℝ) (hm : moveTo limit S i θ = .ok S') (e' : V3) :
    colVec S' e' i' =
      if i < i' ∧ Below S (i / 3) (i' / 3) then
        V3.cross (Quat.rotate (turn S b (i % 3) θ) (axisVec S i')) (e' - (b.t_wcs + Quat.rotate (turn S b (i % 3) θ) ((S[i' / 3]).t_wcs - b.t_wcs)))
      else V3.cross (axisVec S i') (e' - (S[i' / 3]).t_wcs) := by
  have hS : IK.Built S := .update hS0 hu
  have hT := C56_tree hS
  have hpos := (C57_update hS0 hu).2
  have hio : i / 3 * 3 + i % 3 = i := by omega
  have ho : i % 3 < 3 := by omega
  obtain ⟨S'', h1, hB', hsh, h2, h3, h4, -⟩ := moveTo_spec hS0 hu hb ho θ
  rw [hio, hm] at h1
  injection h1 with h1
  subst h1
  have hc := List.getElem?_eq_getElem hi'
  have hc' := List.getElem?_eq_getElem (l := S') (i := i' / 3) (by rw [hsh.length]; exact hi')
  have hax : axisVec S i' = axisOf S S[i' / 3] (i' % 3) := by
    unfold axisVec
    rw [hc]
  have hcol : ∀ c', S'[i' / 3]? = some c' → colVec S' e' i' = V3.cross (axisOf S' c' (i' % 3)) (e' - c'.t_wcs) := by
    intro c' h
    unfold colVec
    rw [h]
  have hl' : i' / 3 < S'.length := by rw [hsh.length]; exact hi'
  generalize S[i' / 3] = c at *
  generalize S'[i' / 3]'hl' = c' at *
  rw [hcol c' hc', hax]
  have hd := h4 _ c c' hc hc'
  have hQ := parentQ_unit hT hpos b
  by_cases hbel : Below S (i / 3) (i' / 3)
  · by_cases heq : i' / 3 = i / 3
    · -- the same bone
      rw [heq] at hc
      rw [hb] at hc
      injection hc with hc
      subst hc
      rw [if_pos heq] at hd
      obtain ⟨ft, fp, fe, fa, fb⟩ := fields_of_data hd
      have hp0 : (b.setAngle (i % 3) θ).parent = b.parent := by unfold Bone.setAngle; split_ifs <;> rfl
      have hpQ : parentQ S' c' = parentQ S b := by
        unfold parentQ
        rw [fp, hp0]
        cases hp : b.parent with
        | none => rfl
        | some p =>
          have hlt := hT.parent _ b p hb hp
          dsimp only
          rw [h2 p fun h => absurd (below_le hT h) (by omega)]
      have ht := (h3 _ b c' hbel (by rw [heq]; exact hb) hc').1
      have hz : ∀ q : Quat, Quat.rotate q (0 : V3) = 0 := by
        intro q
        have := (C02_rotate_linear q 0 (0 : V3) 0).2
        simpa using this
      rw [sub_self, hz, add_zero] at ht
      have hbf : c'.before (parentQ S b) (i' % 3) = (b.setAngle (i % 3) θ).before (parentQ S b) (i' % 3) := before_congr fe fa fb _ _
      have hlt : (i < i' ∧ Below S (i / 3) (i' / 3)) ↔ i % 3 < i' % 3 := by
        rw [and_iff_left hbel]
        omega
      unfold axisOf
      rw [hpQ, hbf, letter_congr fe, letter_setAngle, before_setAngle b ho (by omega) θ hQ, ht, sub_self, hz, add_zero]
      by_cases hoo : i % 3 < i' % 3
      · rw [if_pos hoo, if_pos (hlt.2 hoo), C02_rotate_prod]
        rfl
      · rw [if_neg hoo, if_neg fun h => hoo (hlt.1 h)]
    · -- a bone further down
      have hle := below_le hT hbel
      rw [if_pos ⟨by omega, hbel⟩]
      rw [if_neg heq] at hd
      obtain ⟨ft, fp, fe, fa, fb⟩ := fields_of_data hd
      rw [(h3 _ c c' hbel hc hc').1]
      rcases Relation.ReflTransGen.cases_tail hbel with h | ⟨p, hkp, hpj⟩
      · exact absurd h heq
      · obtain ⟨c0, hc0, hp⟩ := parentOf_some.1 hpj
        rw [hc] at hc0
        injection hc0 with hc0
        subst hc0
        have hlt := hT.parent_lt hpj
        have hq := List.getElem?_eq_getElem (l := S) (i := p) (by omega)
        have hq' := List.getElem?_eq_getElem (l := S') (i := p) (by rw [hsh.length]; omega)
        have hqq := (h3 p _ _ hkp hq hq').2
        have hpQ : parentQ S' c' = Quat.prod (turn S b (i % 3) θ) (parentQ S c) := by
          unfold parentQ
          rw [fp, hp]
          dsimp only
          rw [hq, hq']
          exact hqq
        have hbf : ∀ A B : Quat, c'.before (Quat.prod A B) (i' % 3) = Quat.prod A (c.before B (i' % 3)) := by
          intro A B
          rw [before_congr fe fa fb]
          unfold Bone.before
          split_ifs <;> simp only [C01_prod_assoc]
        unfold axisOf
        rw [hpQ, hbf, letter_congr fe, C02_rotate_prod]
  · rw [if_neg fun h => hbel h.2]
    have hsame := h2 _ hbel
    rw [hc, hc'] at hsame
    injection hsame with hsame
    subst hsame
    have hpQ : parentQ S' c' = parentQ S c' := by
      unfold parentQ
      cases hp : c'.parent with
      | none => rfl
      | some p =>
        dsimp only
        rw [h2 p fun h => hbel (h.tail (parentOf_some.2 ⟨c', hc, hp⟩))]
    unfold axisOf
    rw [hpQ]

theorem turn_start {S : Skeleton} {b : Bone} (hq : IsUnitQ (parentQ S b)) (o : ℕ) : turn S b o (b.angle o) = Quat.identity := by
  have hun := before_unit (b := b) hq o
  unfold turn
  rw [sub_self]
  have hz : (b.letter o).rot 0 = Quat.identity := by
    cases b.letter o <;> simp [Axis.rot, Quat.Rx, Quat.Ry, Quat.Rz, Quat.identity]
  rw [hz, (C01_identity_unit _).2, (C01_unit_group hun hun).2.2.1]

open Classical in
/-- The derivative of a column of the Jacobian. -/
theorem colVec_deriv {S0 S : Skeleton} {limit : ℕ} (hS0 : IK.Built S0) (hu : update_skeleton limit S0 = .ok S) {i i' : ℕ} {b : Bone} (hb : S[i / 3]? = some b)
    {T : ℝ → Skeleton} (hT' : ∀ θ, moveTo limit S i θ = .ok (T θ)) {c : Chain} {j : ℕ} (hc : IsPath S c.bones j) (hi' : i' / 3 ∈ c.bones) (e : V3) :
    HasDerivV (fun θ => colVec (T θ) (if i / 3 ∈ c.bones then b.t_wcs + Quat.rotate (turn S b (i % 3) θ) (e - b.t_wcs) else e) i')
      (if i / 3 ∈ c.bones then secondVec S e i i' else 0) (b.angle (i % 3)) := by
  have hS : IK.Built S := .update hS0 hu
  have hT := C56_tree hS
  have hpos := (C57_update hS0 hu).2
  have h0 : S ≠ [] := by rintro rfl; simp at hb
  have hil := path_lt h0 hc _ hi'
  have hQ := parentQ_unit hT hpos b
  have hci := List.getElem?_eq_getElem hil
  have hfun : (fun θ => colVec (T θ) (if i / 3 ∈ c.bones then b.t_wcs + Quat.rotate (turn S b (i % 3) θ) (e - b.t_wcs) else e) i') = fun θ =>
      if i < i' ∧ Below S (i / 3) (i' / 3) then
        V3.cross (Quat.rotate (turn S b (i % 3) θ) (axisVec S i')) ((if i / 3 ∈ c.bones then b.t_wcs + Quat.rotate (turn S b (i % 3) θ) (e - b.t_wcs) else e) -
          (b.t_wcs + Quat.rotate (turn S b (i % 3) θ) ((S[i' / 3]).t_wcs - b.t_wcs)))
      else V3.cross (axisVec S i') ((if i / 3 ∈ c.bones then b.t_wcs + Quat.rotate (turn S b (i % 3) θ) (e - b.t_wcs) else e) - (S[i' / 3]).t_wcs) := by
    funext θ
    exact colVec_moved hS0 hu hb hil θ (hT' θ) _
  have hcol : colVec S e i' = V3.cross (axisVec S i') (e - (S[i' / 3]).t_wcs) := by
    unfold colVec axisVec
    rw [hci]
  have hcoli : colVec S e i = V3.cross (axisVec S i) (e - b.t_wcs) := by
    unfold colVec axisVec
    rw [hb]
  have haxi : axisVec S i = axisOf S b (i % 3) := by
    unfold axisVec
    rw [hb]
  rw [hfun]
  by_cases hmem : i / 3 ∈ c.bones
  · simp only [if_pos hmem]
    by_cases hlt : i < i'
    · -- i comes first: the column turns along
      have hbel : Below S (i / 3) (i' / 3) := by
        have hd1 : i / 3 ≤ i' / 3 := by omega
        obtain ⟨A, B, hAB⟩ := List.append_of_mem hmem
        have hch := hc.2.2
        rw [hAB] at hch
        have hinc : (A ++ i / 3 :: B).Pairwise (· < ·) := List.isChain_iff_pairwise.1 (hch.imp fun a b hab => hT.parent_lt hab)
        have hin : i' / 3 ∈ i / 3 :: B := by
          rw [hAB] at hi'
          rcases List.mem_append.1 hi' with h | h
          · have := (List.pairwise_append.1 hinc).2.2 _ h _ List.mem_cons_self
            omega
          · exact h
        obtain ⟨C, D, hCD⟩ := List.append_of_mem hin
        have hch2 : (C ++ [i' / 3]).IsChain (fun a b => parentOf S b = some a) := by
          have := (List.isChain_append.1 hch).2.1
          rw [hCD] at this
          rw [show C ++ i' / 3 :: D = C ++ [i' / 3] ++ D by simp] at this
          exact (List.isChain_append.1 this).1
        cases C with
        | nil =>
          injection hCD with h1 h2
          rw [h1]
          exact Relation.ReflTransGen.refl
        | cons x C =>
          injection hCD with h1 h2
          subst h1
          exact chain_below (C ++ [i' / 3]) (i / 3) hch2 (by rw [← List.cons_append]; exact List.getLast?_concat)
      simp only [if_pos (And.intro hlt hbel)]
      unfold secondVec
      rw [if_pos hlt.le, hcol, haxi]
      have hturned : (fun θ => V3.cross (Quat.rotate (turn S b (i % 3) θ) (axisVec S i')) (b.t_wcs + Quat.rotate (turn S b (i % 3) θ) (e - b.t_wcs) -
          (b.t_wcs + Quat.rotate (turn S b (i % 3) θ) ((S[i' / 3]).t_wcs - b.t_wcs)))) =
          fun θ => Quat.rotate (turn S b (i % 3) θ) (V3.cross (axisVec S i') (e - (S[i' / 3]).t_wcs)) := by
        funext θ
        rw [rotate_cross' (turn_unit hQ _ θ), add_sub_add_left_eq_sub, ← rotate_sub']
        congr 2
        abel
      rw [hturned]
      exact turn_deriv hQ _ _
    · -- i comes later or is the same angle: only the end effector moves
      simp only [if_neg fun h : i < i' ∧ Below S (i / 3) (i' / 3) => hlt h.1]
      have hsec : secondVec S e i i' = V3.cross (axisVec S i') (colVec S e i) := by
        unfold secondVec
        by_cases hle : i ≤ i'
        · have : i = i' := by omega
          rw [if_pos hle, this]
        · rw [if_neg hle]
      rw [hsec, hcoli, haxi]
      have h1 := ((turn_deriv hQ (i % 3) (e - b.t_wcs)).const_add (b.t_wcs - (S[i' / 3]).t_wcs)).cross_const (axisVec S i')
      have h2 : (fun θ => V3.cross (axisVec S i') (b.t_wcs + Quat.rotate (turn S b (i % 3) θ) (e - b.t_wcs) - (S[i' / 3]).t_wcs)) =
          fun θ => V3.cross (axisVec S i') (b.t_wcs - (S[i' / 3]).t_wcs + Quat.rotate (turn S b (i % 3) θ) (e - b.t_wcs)) := by
        funext θ
        congr 1
        abel
      rw [h2]
      exact h1
  · simp only [if_neg hmem]
    have hnb : ¬ Below S (i / 3) (i' / 3) := by
      intro h
      exact hmem ((path_mem hT hc _).2 (h.trans ((path_mem hT hc _).1 hi')))
    simp only [if_neg fun h : i < i' ∧ Below S (i / 3) (i' / 3) => hnb h.2]
    exact hasDerivV_const _ _

/-- The second derivative of the objective. -/
noncomputable def secondOf (S : Skeleton) (cs : List Chain) (i k : ℕ) : ℝ :=
  (cs.map fun c => if i / 3 ∈ c.bones ∧ k / 3 ∈ c.bones then
    V3.dot (colVec S (endOf S c) i) (colVec S (endOf S c) k) - V3.dot (secondVec S (endOf S c) i k) (c.goal - endOf S c) else 0).sum

open Classical in
theorem isSecond_secondOf {S0 S : Skeleton} {limit : ℕ} (hS0 : IK.Built S0) (hu : update_skeleton limit S0 = .ok S) (cs : List Chain)
    (hcs : ∀ c ∈ cs, ∃ j, IsPath S c.bones j) {i k : ℕ} (hi : i < S.length * 3) (hk : k < S.length * 3) :
    IsSecond limit S cs i k (secondOf S cs i k) := by
  have hS : IK.Built S := .update hS0 hu
  have hT := C56_tree hS
  have hpos := (C57_update hS0 hu).2
  have hib : i / 3 < S.length := by omega
  have hb := List.getElem?_eq_getElem hib
  have h0 : S ≠ [] := by rintro rfl; simp at hi
  have hio : i / 3 * 3 + i % 3 = i := by omega
  have ho : i % 3 < 3 := by omega
  have hQ := parentQ_unit hT hpos S[i / 3]
  choose T hT1 hT2 hT3 hT4 hT5 using fun θ => moveTo_spec hS0 hu hb ho θ
  rw [hio] at hT1
  have hang : get_angle i S = .ok ((S[i / 3]).angle (i % 3)) := by
    unfold get_angle
    rw [getBone_ok.2 hb]
    rfl
  generalize S[i / 3] = b at *
  obtain ⟨E, hE⟩ : ∃ E : Chain → ℝ → V3, E = fun c θ => if i / 3 ∈ c.bones then
    b.t_wcs + Quat.rotate (turn S b (i % 3) θ) (endOf S c - b.t_wcs) else endOf S c := ⟨_, rfl⟩
  have hgood : ∀ θ, ∀ c ∈ cs, GoodChain (T θ) c := by
    intro θ c hc
    obtain ⟨j, hj⟩ := hcs c hc
    refine ⟨j, hj.1, hj.2.1, ?_⟩
    simp only [(hT3 θ).parentOf]
    exact hj.2.2
  have hne : ∀ θ, T θ ≠ [] := by
    intro θ h
    have := (hT3 θ).length
    rw [h] at this
    exact h0 (List.eq_nil_of_length_eq_zero this.symm)
  have hend : ∀ θ, ∀ c ∈ cs, endOf (T θ) c = E c θ := by
    intro θ c hc
    obtain ⟨j, hj⟩ := hcs c hc
    have h1 := endAt_spec hS0 hu hb ho hj (endOf_ok h0 ⟨j, hj⟩) θ
    rw [hio] at h1
    have h2 : endAt limit S c i θ = get_end_effector c (T θ) := by
      have hm := hT1 θ
      unfold moveTo at hm
      unfold endAt
      simp only [bind, Except.bind] at hm ⊢
      cases hs : set_angle i θ S with
      | error err => rw [hs] at hm; cases hm
      | ok S1 =>
        rw [hs] at hm
        dsimp only at hm ⊢
        rw [hm]
    rw [h2, endOf_ok (hne θ) (hgood θ c hc)] at h1
    injection h1 with h1
    rw [h1, hE]
  have hgrad : ∀ θ, ∃ g, gradAt limit S cs i θ = .ok g ∧ ∀ k, g k =
      -(cs.map fun c => if k / 3 ∈ c.bones then V3.dot (colVec (T θ) (E c θ) k) (c.goal - E c θ) else 0).sum := by
    intro θ
    obtain ⟨J, hJ, -⟩ := jacobian_ok (C56_tree (hT2 θ)) (hne θ) cs (hgood θ)
    obtain ⟨g, hg, hv⟩ := gradient_ok (C56_tree (hT2 θ)) (hne θ) cs (hgood θ) hJ
    refine ⟨g, ?_, fun k => ?_⟩
    · have hm := hT1 θ
      unfold moveTo at hm
      unfold gradAt
      simp only [bind, Except.bind] at hm ⊢
      cases hs : set_angle i θ S with
      | error err => rw [hs] at hm; cases hm
      | ok S1 =>
        rw [hs] at hm
        dsimp only at hm ⊢
        rw [hm]
        dsimp only
        rw [hJ]
        exact hg
    · rw [hv]
      congr 2
      refine List.map_congr_left fun c hc => ?_
      rw [hend θ c hc]
  choose G hG1 hG2 using hgrad
  refine ⟨b.angle (i % 3), G, hang, hG1, ?_⟩
  have hfun : (fun θ => G θ k) = fun θ => -(cs.map fun c => if k / 3 ∈ c.bones then V3.dot (colVec (T θ) (E c θ) k) (c.goal - E c θ) else 0).sum :=
    funext fun θ => hG2 θ k
  rw [hfun]
  have hE0 : ∀ c, E c (b.angle (i % 3)) = endOf S c := by
    intro c
    rw [hE]
    dsimp only
    rw [turn_start hQ, rotate_identity']
    split_ifs
    · abel
    · rfl
  have hEd : ∀ c, HasDerivV (E c) (if i / 3 ∈ c.bones then colVec S (endOf S c) i else 0) (b.angle (i % 3)) := by
    intro c
    rw [hE]
    by_cases hmem : i / 3 ∈ c.bones
    · simp only [if_pos hmem]
      have := (turn_deriv hQ (i % 3) (endOf S c - b.t_wcs)).const_add b.t_wcs
      have hcv : colVec S (endOf S c) i = V3.cross (axisOf S b (i % 3)) (endOf S c - b.t_wcs) := by
        unfold colVec
        rw [hb]
      rw [← hcv] at this
      exact this
    · simp only [if_neg hmem]
      exact hasDerivV_const _ _
  have hT0 : ∀ c ∈ cs, k / 3 ∈ c.bones → colVec (T (b.angle (i % 3))) (endOf S c) k = colVec S (endOf S c) k := by
    intro c hc hmem
    obtain ⟨j, hj⟩ := hcs c hc
    have hkl := path_lt h0 hj _ hmem
    rw [colVec_moved hS0 hu hb hkl _ (hT1 _) _, turn_start hQ, rotate_identity', rotate_identity']
    have : b.t_wcs + ((S[k / 3]).t_wcs - b.t_wcs) = (S[k / 3]).t_wcs := by abel
    rw [this, ite_self]
    unfold colVec axisVec
    rw [List.getElem?_eq_getElem hkl]
  have hsum := (hasDerivAt_list_sum cs (fun c θ => if k / 3 ∈ c.bones then V3.dot (colVec (T θ) (E c θ) k) (c.goal - E c θ) else 0)
    (fun c => if i / 3 ∈ c.bones ∧ k / 3 ∈ c.bones then
      V3.dot (secondVec S (endOf S c) i k) (c.goal - endOf S c) - V3.dot (colVec S (endOf S c) i) (colVec S (endOf S c) k) else 0) (b.angle (i % 3)) ?_).neg
  · refine hsum.congr_deriv ?_
    unfold secondOf
    have : ∀ L : List ℝ, -L.sum = (L.map fun x => -x).sum := by
      intro L
      induction L with
      | nil => simp
      | cons a L ih => rw [List.map_cons, List.sum_cons, List.sum_cons, ← ih]; ring
    rw [this, List.map_map]
    congr 1
    refine List.map_congr_left fun c _ => ?_
    simp only [Function.comp_apply]
    split_ifs <;> ring
  · intro c hc
    obtain ⟨j, hj⟩ := hcs c hc
    by_cases hkm : k / 3 ∈ c.bones
    · simp only [if_pos hkm]
      have h1 := colVec_deriv hS0 hu hb hT1 hj hkm (endOf S c)
      have h2 : (fun θ => colVec (T θ) (if i / 3 ∈ c.bones then b.t_wcs + Quat.rotate (turn S b (i % 3) θ) (endOf S c - b.t_wcs) else endOf S c) k) =
          fun θ => colVec (T θ) (E c θ) k := by rw [hE]
      rw [h2] at h1
      refine (h1.dot ((hEd c).const_sub c.goal)).congr_deriv ?_
      rw [hE0, hT0 c hc hkm]
      by_cases hmem : i / 3 ∈ c.bones
      · simp only [if_pos hmem, if_pos (And.intro hmem hkm)]
        rw [V3.dot_comm (colVec S (endOf S c) i)]
        simp only [V3.dot, V3.neg_x, V3.neg_y, V3.neg_z]
        ring
      · simp only [if_neg hmem, if_neg fun h : i / 3 ∈ c.bones ∧ k / 3 ∈ c.bones => hmem h.1]
        simp [V3.dot]
    · simp only [if_neg hkm, if_neg fun h : i / 3 ∈ c.bones ∧ k / 3 ∈ c.bones => hkm h.2]
      exact hasDerivAt_const _ _

theorem secondOf_comm (S : Skeleton) (cs : List Chain) (i k : ℕ) : secondOf S cs i k = secondOf S cs k i := by
  unfold secondOf
  congr 1
  refine List.map_congr_left fun c _ => ?_
  rw [V3.dot_comm (colVec S (endOf S c) i)]
  have : secondVec S (endOf S c) i k = secondVec S (endOf S c) k i := by
    unfold secondVec
    by_cases h1 : i ≤ k
    · by_cases h2 : k ≤ i
      · have : i = k := by omega
        rw [this]
      · rw [if_pos h1, if_neg h2]
    · rw [if_neg h1, if_pos (by omega)]
  rw [this]
  exact if_congr and_comm rfl rfl

end IK

end Verif
