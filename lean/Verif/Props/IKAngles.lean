import Verif.Props.IKPose

/-! Property C58: joint angles go in and out unchanged. -/

namespace Verif

open IK

/-! ### Specification -/

namespace IK

/-- The three angles of a bone. -/
def Bone.angles (b : Bone) : List ℝ := [b.alpha, b.beta, b.gamma]

/-- Everything of a bone but its angles. -/
def Bone.still (b : Bone) := (b.shape, b.t_wcs, b.q_wcs)

/-- Same bones up to their angles. -/
def SameStill (S S' : Skeleton) : Prop := S.map Bone.still = S'.map Bone.still

/-! ### Proofs -/

theorem flatMap_angles_length (S : Skeleton) : (S.flatMap Bone.angles).length = S.length * 3 := by
  induction S with
  | nil => rfl
  | cons b S ih => rw [List.flatMap_cons, List.length_append, ih, List.length_cons]; simp only [Bone.angles, List.length_cons, List.length_nil]; omega

theorem putItem_append (A Z : List ℝ) (z x : ℝ) {i : ℕ} (hi : i = A.length) : putItem (A ++ z :: Z) i x = .ok (A ++ [x] ++ Z) := by
  subst hi
  unfold putItem
  rw [if_pos (by simp), List.set_append_right _ _ le_rfl]
  simp

theorem get_loop (L : Skeleton) : ∀ (A Z : List ℝ) (m : ℕ), A.length = m * 3 → Z.length = L.length * 3 → (∀ (k : ℕ) (b : Bone), L[k]? = some b → b.idx = m + k) →
    L.foldlM (fun angles bone => do
      let angles ← putItem angles (bone.idx * 3 + 0) bone.alpha
      let angles ← putItem angles (bone.idx * 3 + 1) bone.beta
      putItem angles (bone.idx * 3 + 2) bone.gamma) (A ++ Z) = .ok (A ++ L.flatMap Bone.angles) := by
  induction L with
  | nil =>
    intro A Z m hA hZ _
    have : Z = [] := List.eq_nil_of_length_eq_zero (by simpa using hZ)
    subst this
    rfl
  | cons b L ih =>
    intro A Z m hA hZ hidx
    rw [List.length_cons] at hZ
    match Z, hZ with
    | [_], hZ => simp at hZ; omega
    | [_, _], hZ => simp at hZ; omega
    | z0 :: z1 :: z2 :: Z, hZ =>
      have hb : b.idx = m := by have := hidx 0 b rfl; omega
      simp only [List.foldlM_cons, bind, Except.bind]
      rw [putItem_append A _ z0 b.alpha (by rw [hb, hA]; omega)]
      dsimp only
      rw [putItem_append (A ++ [b.alpha]) _ z1 b.beta (by rw [hb, List.length_append, hA]; rfl)]
      dsimp only
      rw [putItem_append (A ++ [b.alpha] ++ [b.beta]) _ z2 b.gamma (by rw [hb, List.length_append, List.length_append, hA]; rfl)]
      dsimp only
      have h1 := ih (A ++ [b.alpha] ++ [b.beta] ++ [b.gamma]) Z (m + 1)
        (by simp only [List.length_append, List.length_cons, List.length_nil, hA]; omega)
        (by simp only [List.length_cons] at hZ; omega)
        (fun k c hc => by have := hidx (k + 1) c (by simpa using hc); omega)
      simp only [bind, Except.bind] at h1
      rw [h1]
      simp [Bone.angles]

theorem getItem_append (A Z : List ℝ) (z : ℝ) {i : ℕ} (hi : i = A.length) : getItem (A ++ z :: Z) i = .ok z := by
  subst hi
  unfold getItem
  rw [List.getElem?_append_right le_rfl]
  simp

theorem set_loop (L : Skeleton) : ∀ (A W Z : List ℝ) (m : ℕ), A.length = m * 3 → W.length = L.length * 3 →
    (∀ (k : ℕ) (b : Bone), L[k]? = some b → b.idx = m + k) →
    ∃ L', L.mapM (fun bone => (do
      let alpha ← getItem (A ++ W ++ Z) (bone.idx * 3 + 0)
      let beta ← getItem (A ++ W ++ Z) (bone.idx * 3 + 1)
      let gamma ← getItem (A ++ W ++ Z) (bone.idx * 3 + 2)
      return { bone with alpha := alpha, beta := beta, gamma := gamma } : Except PyErr Bone)) = .ok L' ∧ SameStill L L' ∧ L'.flatMap Bone.angles = W := by
  induction L with
  | nil =>
    intro A W Z m hA hW _
    have : W = [] := List.eq_nil_of_length_eq_zero (by simpa using hW)
    subst this
    exact ⟨[], rfl, rfl, rfl⟩
  | cons b L ih =>
    intro A W Z m hA hW hidx
    rw [List.length_cons] at hW
    match W, hW with
    | [_], hW => simp at hW; omega
    | [_, _], hW => simp at hW; omega
    | w0 :: w1 :: w2 :: W, hW =>
      have hb : b.idx = m := by have := hidx 0 b rfl; omega
      obtain ⟨L', h1, h2, h3⟩ := ih (A ++ [w0] ++ [w1] ++ [w2]) W Z (m + 1)
        (by simp only [List.length_append, List.length_cons, List.length_nil, hA]; omega)
        (by simp only [List.length_cons] at hW; omega)
        (fun k c hc => by have := hidx (k + 1) c (by simpa using hc); omega)
      have e0 : getItem (A ++ w0 :: w1 :: w2 :: W ++ Z) (b.idx * 3 + 0) = .ok w0 := by
        rw [List.append_assoc]
        exact getItem_append A _ w0 (by rw [hb, hA]; omega)
      have e1 : getItem (A ++ w0 :: w1 :: w2 :: W ++ Z) (b.idx * 3 + 1) = .ok w1 := by
        have : A ++ w0 :: w1 :: w2 :: W ++ Z = (A ++ [w0]) ++ w1 :: (w2 :: W ++ Z) := by simp
        rw [this]
        exact getItem_append _ _ w1 (by rw [hb, List.length_append, hA]; rfl)
      have e2 : getItem (A ++ w0 :: w1 :: w2 :: W ++ Z) (b.idx * 3 + 2) = .ok w2 := by
        have : A ++ w0 :: w1 :: w2 :: W ++ Z = (A ++ [w0] ++ [w1]) ++ w2 :: (W ++ Z) := by simp
        rw [this]
        exact getItem_append _ _ w2 (by rw [hb, List.length_append, List.length_append, hA]; rfl)
      have e : A ++ [w0] ++ [w1] ++ [w2] ++ W ++ Z = A ++ w0 :: w1 :: w2 :: W ++ Z := by simp
      rw [e] at h1
      refine ⟨{ b with alpha := w0, beta := w1, gamma := w2 } :: L', ?_, ?_, ?_⟩
      · rw [List.mapM_cons]
        simp only [bind, Except.bind] at h1 ⊢
        rw [e0, e1, e2]
        dsimp only
        simp only [pure, Except.pure] at h1 ⊢
        rw [h1]
      · unfold SameStill at h2 ⊢
        rw [List.map_cons, List.map_cons, h2]
        rfl
      · rw [List.flatMap_cons, h3]
        rfl

theorem still_angles_ext {S S' : Skeleton} (h : SameStill S S') (ha : S.flatMap Bone.angles = S'.flatMap Bone.angles) : S = S' := by
  induction S generalizing S' with
  | nil =>
    unfold SameStill at h
    rw [List.map_nil] at h
    exact (List.map_eq_nil_iff.1 h.symm).symm
  | cons b S ih =>
    cases S' with
    | nil => unfold SameStill at h; simp at h
    | cons b' S' =>
      unfold SameStill at h
      rw [List.map_cons, List.map_cons] at h
      injection h with h1 h2
      simp only [List.flatMap_cons, Bone.angles, List.cons_append, List.nil_append, List.cons.injEq] at ha
      obtain ⟨a1, a2, a3, a4⟩ := ha
      rw [ih h2 a4]
      congr 1
      obtain ⟨i1, c1, a1, b1, g1, q1, w1, t1, r1, k1⟩ := b
      obtain ⟨i2, c2, a2, b2, g2, q2, w2, t2, r2, k2⟩ := b'
      simp only [Bone.still, Bone.shape, Prod.mk.injEq] at h1
      obtain ⟨⟨rfl, rfl, rfl, rfl, rfl⟩, rfl, rfl⟩ := h1
      simp_all

theorem flatMap_angles_get (S : Skeleton) (k : ℕ) (o : ℕ) (ho : o < 3) : (S.flatMap Bone.angles)[k * 3 + o]? = (S[k]?).map fun b => b.angle o := by
  induction S generalizing k with
  | nil => simp
  | cons b S ih =>
    rw [List.flatMap_cons]
    cases k with
    | zero =>
      match o, ho with
      | 0, _ => rfl
      | 1, _ => rfl
      | 2, _ => rfl
    | succ k =>
      rw [List.getElem?_append_right (by simp only [Bone.angles, List.length_cons, List.length_nil]; omega)]
      have : (k + 1) * 3 + o - b.angles.length = k * 3 + o := by simp only [Bone.angles, List.length_cons, List.length_nil]; omega
      rw [this, ih, List.getElem?_cons_succ]

theorem sameStill_length {S S' : Skeleton} (h : SameStill S S') : S'.length = S.length := by
  have := congrArg List.length h
  simpa using this.symm

end IK

/-- **C58** (reading all angles). `get_joint_angles` lists the three angles of each bone, bone by bone. -/
theorem C58_get {S : Skeleton} (hS : IK.Built S) : get_joint_angles S = .ok (S.flatMap Bone.angles) := by
  have := get_loop S [] (List.replicate (S.length * 3) 0) 0 rfl (by simp) fun k b hb => by rw [(C56_tree hS).idx k b hb]; omega
  exact this

/-- **C58** (writing all angles). `set_joint_angles` succeeds exactly when the array has three angles for each bone (further entries are ignored); it then
changes the angles only, and `get_joint_angles` returns the array. -/
theorem C58_set {S : Skeleton} (hS : IK.Built S) (v : List ℝ) :
    ((∃ S', set_joint_angles S v = .ok S') ↔ S.length * 3 ≤ v.length) ∧
    ∀ S', set_joint_angles S v = .ok S' → SameStill S S' ∧ get_joint_angles S' = .ok (v.take (S.length * 3)) := by
  have hT := C56_tree hS
  have hpos : S.length * 3 ≤ v.length → ∃ S', set_joint_angles S v = .ok S' ∧ SameStill S S' ∧ S'.flatMap Bone.angles = v.take (S.length * 3) := by
    intro h
    have := set_loop S [] (v.take (S.length * 3)) (v.drop (S.length * 3)) 0 rfl (by simpa using h)
      fun k b hb => by rw [hT.idx k b hb]; omega
    rw [List.nil_append, List.take_append_drop] at this
    exact this
  have hneg : ∀ S', set_joint_angles S v = .ok S' → S.length * 3 ≤ v.length := by
    intro S' h
    by_contra hc
    have hn : S.length ≠ 0 := by omega
    have hb := List.getElem?_eq_getElem (l := S) (i := S.length - 1) (by omega)
    have hidx := hT.idx _ _ hb
    obtain ⟨b', -, hb'⟩ := forall₂_mem_left (mapM_ok h) _ (List.mem_of_getElem? hb)
    simp only [bind, Except.bind] at hb'
    rw [hidx] at hb'
    have h2 : getItem v ((S.length - 1) * 3 + 2) = .error .indexError := by
      unfold getItem
      rw [List.getElem?_eq_none (by omega)]
    rw [h2] at hb'
    cases h0 : getItem v ((S.length - 1) * 3 + 0) with
    | error err => rw [h0] at hb'; cases hb'
    | ok a0 =>
      cases h1 : getItem v ((S.length - 1) * 3 + 1) with
      | error err => rw [h0, h1] at hb'; cases hb'
      | ok a1 => rw [h0, h1] at hb'; cases hb'
  refine ⟨⟨fun ⟨S', h⟩ => hneg S' h, fun h => ?_⟩, fun S' h => ?_⟩
  · obtain ⟨S', h1, -⟩ := hpos h; exact ⟨S', h1⟩
  · obtain ⟨S'', h1, h2, h3⟩ := hpos (hneg S' h)
    rw [h] at h1
    injection h1 with h1
    subst h1
    exact ⟨h2, by rw [C58_get (.angles hS h), h3]⟩

/-- **C58** (reading and writing back). Writing the angles just read changes nothing. -/
theorem C58_get_set {S : Skeleton} (hS : IK.Built S) {v : List ℝ} (h : get_joint_angles S = .ok v) : set_joint_angles S v = .ok S := by
  rw [C58_get hS] at h
  injection h with h
  have hl : v.length = S.length * 3 := by rw [← h]; exact flatMap_angles_length S
  obtain ⟨S', hS'⟩ := (C58_set hS v).1.2 hl.ge
  obtain ⟨h1, h2⟩ := (C58_set hS v).2 S' hS'
  rw [C58_get (.angles hS hS'), List.take_of_length_le hl.le] at h2
  injection h2 with h2
  rw [hS', still_angles_ext h1 (h.trans h2.symm)]

/-- **C58** (one angle). `get_angle` and `set_angle` read and write the entry with that index of the array of all angles; they succeed exactly for indices
below the number of angles, and `set_angle` leaves everything else as it is. -/
theorem C58_angle {S : Skeleton} (hS : IK.Built S) {v : List ℝ} (h : get_joint_angles S = .ok v) (i : ℕ) (x : ℝ) :
    (∀ a, get_angle i S = .ok a ↔ v[i]? = some a) ∧
    ((∃ S', set_angle i x S = .ok S') ↔ i < v.length) ∧
    ∀ S', set_angle i x S = .ok S' → SameStill S S' ∧ get_joint_angles S' = .ok (v.set i x) := by
  rw [C58_get hS] at h
  injection h with h
  subst h
  have hi : i = i / 3 * 3 + i % 3 := by omega
  have ho : i % 3 < 3 := by omega
  have hget := flatMap_angles_get S (i / 3) (i % 3) ho
  rw [← hi] at hget
  have hset : ∀ S', set_angle i x S = .ok S' ↔ ∃ b, S[i / 3]? = some b ∧ S.set (i / 3) (b.setAngle (i % 3) x) = S' := by
    intro S'
    unfold set_angle
    simp only [bind, Except.bind]
    cases hb : getBone S (i / 3) with
    | error err =>
      refine ⟨fun h => (nomatch h), fun ⟨b, h1, _⟩ => ?_⟩
      rw [getBone_ok.2 h1] at hb
      cases hb
    | ok b =>
      simp only [pure, Except.pure, Except.ok.injEq]
      refine ⟨fun h => ⟨b, getBone_ok.1 hb, h⟩, fun ⟨b', h1, h2⟩ => ?_⟩
      rw [getBone_ok.1 hb] at h1
      injection h1 with h1
      rw [h1]
      exact h2
  refine ⟨fun a => ?_, ?_, fun S' hS' => ?_⟩
  · rw [hget]
    unfold get_angle
    simp only [bind, Except.bind]
    cases hb : getBone S (i / 3) with
    | error err =>
      have : S[i / 3]? = none := by
        cases hc : S[i / 3]? with
        | none => rfl
        | some b => rw [getBone_ok.2 hc] at hb; cases hb
      simp [this]
    | ok b => simp [getBone_ok.1 hb, pure, Except.pure]
  · rw [flatMap_angles_length]
    constructor
    · rintro ⟨S', h⟩
      obtain ⟨b, hb, -⟩ := (hset S').1 h
      have := getElem?_lt hb
      omega
    · intro h
      exact ⟨_, (hset _).2 ⟨_, List.getElem?_eq_getElem (l := S) (i := i / 3) (by omega), rfl⟩⟩
  · have hB : IK.Built S' := .angle hS hS'
    obtain ⟨b, hb, hs⟩ := (hset S').1 hS'
    have hbl := getElem?_lt hb
    constructor
    · rw [← hs]
      unfold SameStill
      rw [List.map_set]
      refine List.ext_getElem? fun j => ?_
      rw [List.getElem?_set]
      split_ifs with hij hl
      · rw [← hij, List.getElem?_map, hb]
        simp only [Option.map_some]
        congr 1
        unfold Bone.setAngle
        split_ifs <;> rfl
      · rw [← hij]; exact List.getElem?_eq_none (not_lt.1 hl)
      · rfl
    · rw [C58_get hB]
      congr 1
      refine List.ext_getElem? fun j => ?_
      have hj : j = j / 3 * 3 + j % 3 := by omega
      have e1 := flatMap_angles_get S' (j / 3) (j % 3) (by omega)
      have e2 := flatMap_angles_get S (j / 3) (j % 3) (by omega)
      rw [← hj] at e1 e2
      rw [e1, List.getElem?_set, flatMap_angles_length, ← hs, List.getElem?_set]
      by_cases hk : i / 3 = j / 3
      · rw [if_pos hk, if_pos hbl]
        simp only [Option.map_some]
        by_cases hij : i = j
        · subst hij
          rw [if_pos rfl, if_pos (by omega)]
          congr 1
          unfold Bone.setAngle Bone.angle
          split_ifs <;> rfl
        · rw [if_neg hij, e2, ← hk, hb]
          simp only [Option.map_some]
          congr 1
          have hm : i % 3 ≠ j % 3 := by omega
          unfold Bone.setAngle Bone.angle
          split_ifs <;> first | rfl | omega
      · rw [if_neg hk, if_neg (by intro h; rw [h] at hk; exact hk rfl), e2]

end Verif
