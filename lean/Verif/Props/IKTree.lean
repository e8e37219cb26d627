import Verif.Model.InverseKin
import Verif.Props.Collision
import Mathlib.Logic.Relation

/-! Property C56: whatever the API calls, an inverse kinematics skeleton is a tree with parents before children, and the default chains are the
paths from the root to the leaves. -/

namespace Verif

open IK

/-! ### Specification -/

namespace IK

/-- The parent of the bone with index j. -/
def parentOf (S : Skeleton) (j : ℕ) : Option ℕ := (S[j]?).bind Bone.parent

/-- The bones form a tree: bone i stores its own index, exactly bone 0 has no parent, parents come before their children, and the children
of a bone are the bones with that parent, in increasing order. -/
structure IsTree (S : Skeleton) : Prop where
  idx : ∀ (i : ℕ) (b : Bone), S[i]? = some b → b.idx = i
  root : ∀ (i : ℕ) (b : Bone), S[i]? = some b → (b.parent = none ↔ i = 0)
  parent : ∀ (i : ℕ) (b : Bone) (p : ℕ), S[i]? = some b → b.parent = some p → p < i
  children : ∀ (i : ℕ) (b : Bone), S[i]? = some b → b.children = (List.range S.length).filter fun j => decide (parentOf S j = some i)

/-- What no call but `add_bone` ever changes: index, parent, children, bone vector and Euler code. -/
def Bone.shape (b : Bone) : ℕ × Option ℕ × List ℕ × V3 × (Fin 3 → Axis) := (b.idx, b.parent, b.children, b.t, b.euler_code)

/-- Same bones up to angles and poses. -/
def SameShape (S S' : Skeleton) : Prop := S.map Bone.shape = S'.map Bone.shape

/-- The skeletons a program can build with the API. -/
inductive Built : Skeleton → Prop
  | new : Built create_skeleton
  | root {S S' a b c x y z code} : Built S → create_root S a b c x y z code = .ok S' → Built S'
  | bone {S S' p a b c x y z code} : Built S → add_bone S p a b c x y z code = .ok S' → Built S'
  | angles {S S' v} : Built S → set_joint_angles S v = .ok S' → Built S'
  | angle {S S' i v} : Built S → set_angle i v S = .ok S' → Built S'
  | update {S S' limit} : Built S → update_skeleton limit S = .ok S' → Built S'

/-- L is the path from the root down to bone j: it starts at 0, ends at j and every bone is the parent of the next. -/
def IsPath (S : Skeleton) (L : List ℕ) (j : ℕ) : Prop :=
  L.head? = some 0 ∧ L.getLast? = some j ∧ L.IsChain fun a b => parentOf S b = some a

/-! ### Proofs -/

theorem getBone_ok {S : Skeleton} {i : ℕ} {b : Bone} : getBone S i = .ok b ↔ S[i]? = some b := by
  unfold getBone
  split <;> simp_all

theorem getElem?_lt {S : Skeleton} {i : ℕ} {b : Bone} (h : S[i]? = some b) : i < S.length := by
  by_contra hc
  rw [List.getElem?_eq_none (not_lt.1 hc)] at h
  cases h

theorem SameShape.refl (S : Skeleton) : SameShape S S := rfl
theorem SameShape.trans {S S' S'' : Skeleton} (h : SameShape S S') (h' : SameShape S' S'') : SameShape S S'' := Eq.trans h h'
theorem SameShape.symm {S S' : Skeleton} (h : SameShape S S') : SameShape S' S := Eq.symm h

theorem SameShape.length {S S' : Skeleton} (h : SameShape S S') : S'.length = S.length := by
  have := congrArg List.length h
  simpa using this.symm

theorem SameShape.get {S S' : Skeleton} (h : SameShape S S') {i : ℕ} {b' : Bone} (hb : S'[i]? = some b') :
    ∃ b, S[i]? = some b ∧ b.shape = b'.shape := by
  have h1 : (S.map Bone.shape)[i]? = (S'.map Bone.shape)[i]? := by rw [h]
  rw [List.getElem?_map, List.getElem?_map, hb] at h1
  simp only [Option.map_some, Option.map_eq_some_iff] at h1
  exact h1

theorem SameShape.parentOf {S S' : Skeleton} (h : SameShape S S') (j : ℕ) : parentOf S' j = parentOf S j := by
  have h1 : (S.map Bone.shape)[j]? = (S'.map Bone.shape)[j]? := by rw [h]
  rw [List.getElem?_map, List.getElem?_map] at h1
  unfold IK.parentOf
  cases hb : S[j]? with
  | none =>
    rw [hb] at h1
    simp only [Option.map_none] at h1
    rw [Option.map_eq_none_iff.1 h1.symm]
  | some b =>
    rw [hb] at h1
    simp only [Option.map_some] at h1
    obtain ⟨b', hb', hs⟩ := Option.map_eq_some_iff.1 h1.symm
    rw [hb']
    simp only [Option.bind_some]
    have := congrArg (fun s => s.2.1) hs
    exact this

theorem IsTree.congr {S S' : Skeleton} (h : IsTree S) (hs : SameShape S S') : IsTree S' := by
  have key : ∀ (i : ℕ) (b' : Bone), S'[i]? = some b' → ∃ b, S[i]? = some b ∧ b.idx = b'.idx ∧ b.parent = b'.parent ∧ b.children = b'.children := by
    intro i b' hb'
    obtain ⟨b, hb, he⟩ := hs.get hb'
    exact ⟨b, hb, congrArg (fun s => s.1) he, congrArg (fun s => s.2.1) he, congrArg (fun s => s.2.2.1) he⟩
  refine ⟨fun i b' hb' => ?_, fun i b' hb' => ?_, fun i b' p hb' hp => ?_, fun i b' hb' => ?_⟩
  · obtain ⟨b, hb, h1, h2, h3⟩ := key i b' hb'
    rw [← h1]; exact h.idx i b hb
  · obtain ⟨b, hb, h1, h2, h3⟩ := key i b' hb'
    rw [← h2]; exact h.root i b hb
  · obtain ⟨b, hb, h1, h2, h3⟩ := key i b' hb'
    rw [← h2] at hp; exact h.parent i b p hb hp
  · obtain ⟨b, hb, h1, h2, h3⟩ := key i b' hb'
    rw [← h3, h.children i b hb, hs.length]
    simp only [hs.parentOf]

theorem sameShape_set {S : Skeleton} {i : ℕ} {b b' : Bone} (hb : S[i]? = some b) (h : b.shape = b'.shape) : SameShape S (S.set i b') := by
  unfold SameShape
  rw [List.map_set, ← h]
  have h1 : (S.map Bone.shape)[i]? = some b.shape := by rw [List.getElem?_map, hb]; rfl
  refine List.ext_getElem? fun j => ?_
  rw [List.getElem?_set]
  split_ifs with hij hl
  · rw [← hij]; exact h1
  · rw [← hij]; exact List.getElem?_eq_none (not_lt.1 hl)
  · rfl

theorem sameShape_mapM {S S' : Skeleton} {f : Bone → Except PyErr Bone} (hf : ∀ b b', f b = .ok b' → b.shape = b'.shape)
    (h : S.mapM f = .ok S') : SameShape S S' := by
  have h1 := mapM_ok h
  clear h
  unfold SameShape
  induction h1 with
  | nil => rfl
  | cons h1 _ ih => rw [List.map_cons, List.map_cons, ih, hf _ _ h1]

theorem foldlM_inv {α σ : Type*} (I : σ → Prop) {f : σ → α → Except PyErr σ} (hf : ∀ s a s', I s → f s a = .ok s' → I s') (L : List α) {s s' : σ}
    (hs : I s) (h : L.foldlM f s = .ok s') : I s' := by
  induction L generalizing s with
  | nil => injection h with h; exact h ▸ hs
  | cons a L ih =>
    simp only [List.foldlM_cons, bind, Except.bind] at h
    cases hfa : f s a with
    | error err => rw [hfa] at h; cases h
    | ok s1 => rw [hfa] at h; exact ih (hf s a s1 hs hfa) h

theorem setAngle_shape (b : Bone) (o : ℕ) (v : ℝ) : b.shape = (b.setAngle o v).shape := by
  unfold Bone.setAngle
  split_ifs <;> rfl

theorem sameShape_set_angle {S S' : Skeleton} {i : ℕ} {v : ℝ} (h : set_angle i v S = .ok S') : SameShape S S' := by
  unfold set_angle at h
  simp only [bind, Except.bind] at h
  cases hb : getBone S (i / 3) with
  | error err => rw [hb] at h; cases h
  | ok b =>
    rw [hb] at h
    simp only [pure, Except.pure, Except.ok.injEq] at h
    rw [← h]
    exact sameShape_set (getBone_ok.1 hb) (setAngle_shape b _ _)

theorem sameShape_set_joint_angles {S S' : Skeleton} {v : List ℝ} (h : set_joint_angles S v = .ok S') : SameShape S S' := by
  refine sameShape_mapM (fun b b' hb => ?_) h
  simp only [bind, Except.bind] at hb
  cases h0 : getItem v (b.idx * 3 + 0) with
  | error err => rw [h0] at hb; cases hb
  | ok a0 =>
    cases h1 : getItem v (b.idx * 3 + 1) with
    | error err => rw [h0, h1] at hb; cases hb
    | ok a1 =>
      cases h2 : getItem v (b.idx * 3 + 2) with
      | error err => rw [h0, h1, h2] at hb; cases hb
      | ok a2 =>
        rw [h0, h1, h2] at hb
        simp only [pure, Except.pure, Except.ok.injEq] at hb
        rw [← hb]
        rfl

theorem sameShape_update_bone (limit : ℕ) {S S' : Skeleton} {i : ℕ} (h : update_bone limit S i = .ok S') : SameShape S S' := by
  induction limit generalizing S S' i with
  | zero => cases h
  | succ limit ih =>
    unfold update_bone at h
    simp only [bind, Except.bind] at h
    cases hb : getBone S i with
    | error err => rw [hb] at h; cases h
    | ok b =>
      rw [hb] at h
      simp only at h
      cases hp : parentPose S b with
      | error err => rw [hp] at h; cases h
      | ok P =>
        rw [hp] at h
        simp only at h
        have h0 : SameShape S (S.set i (b.moved P)) := sameShape_set (getBone_ok.1 hb) rfl
        exact foldlM_inv (I := fun S' => SameShape S S') (fun s a s' hs hf => hs.trans (ih hf)) _ h0 h

theorem isTree_root {S S' : Skeleton} {a b c x y z code} (h : create_root S a b c x y z code = .ok S') : IsTree S' := by
  unfold create_root at h
  by_cases h0 : 0 < S.length
  · rw [if_pos h0] at h; cases h
  rw [if_neg h0] at h
  split_ifs at h with h1
  injection h with h
  have hS : S = [] := List.eq_nil_of_length_eq_zero (by omega)
  subst hS
  rw [List.nil_append] at h
  subst h
  have key : ∀ {B : Bone} {i : ℕ} {b : Bone}, [B][i]? = some b → i = 0 ∧ b = B := by
    intro B i b hb
    cases i with
    | zero => simp at hb; exact ⟨rfl, hb.symm⟩
    | succ n => simp at hb
  refine ⟨fun i b hb => ?_, fun i b hb => ?_, fun i b p hb hp => ?_, fun i b hb => ?_⟩
  · obtain ⟨rfl, rfl⟩ := key hb; rfl
  · obtain ⟨rfl, rfl⟩ := key hb; simp
  · obtain ⟨rfl, rfl⟩ := key hb; cases hp
  · obtain ⟨rfl, rfl⟩ := key hb
    simp [parentOf, List.range_succ]

/-- The result of a successful `add_bone`. -/
theorem add_bone_ok {S S' : Skeleton} {pi : ℤ} {a b c x y z : ℝ} {code : String} (h : add_bone S pi a b c x y z code = .ok S') :
    ∃ p : ℕ, pi = p ∧ p < S.length ∧ is_valid_euler_code code = true ∧
      S' = S.modify p (fun q => { q with children := q.children ++ [S.length] }) ++
        [{ idx := S.length, euler_code := codeAxes code, alpha := a, beta := b, gamma := c, q_wcs := Quat.identity, t_wcs := V3.zero,
           t := ⟨x, y, z⟩, parent := some p, children := [] }] := by
  unfold add_bone at h
  by_cases h0 : 0 ≤ pi ∧ pi < S.length
  · rw [if_neg (not_not.2 h0)] at h
    split_ifs at h with h1
    injection h with h
    refine ⟨pi.toNat, by omega, by omega, by simpa using h1, h.symm⟩
  · rw [if_pos h0] at h; cases h

theorem isTree_bone {S S' : Skeleton} {p a b c x y z code} (hS : IsTree S) (h : add_bone S p a b c x y z code = .ok S') : IsTree S' := by
  obtain ⟨p, -, hp, -, rfl⟩ := add_bone_ok h
  clear h
  set nb : Bone := Bone.mk S.length (codeAxes code) a b c Quat.identity V3.zero ⟨x, y, z⟩ (some p) [] with hnb
  set f : Bone → Bone := fun q => { q with children := q.children ++ [S.length] } with hf
  set S' := S.modify p f ++ [nb] with hS'
  have hlen : S'.length = S.length + 1 := by rw [hS']; simp
  -- the bones of the new skeleton
  have key : ∀ (i : ℕ) (b' : Bone), S'[i]? = some b' → (i = S.length ∧ b' = nb) ∨ (i < S.length ∧ ∃ b, S[i]? = some b ∧ b' = if i = p then f b else b) := by
    intro i b' hb'
    have hi : i < S.length + 1 := hlen ▸ getElem?_lt hb'
    by_cases hil : i < S.length
    · right
      refine ⟨hil, ?_⟩
      rw [hS', List.getElem?_append_left (by simpa using hil), List.getElem?_modify] at hb'
      rw [List.getElem?_eq_getElem hil] at hb' ⊢
      refine ⟨_, rfl, ?_⟩
      simp only [Option.map_eq_map, Option.map_some, Option.some.injEq] at hb'
      rw [← hb']
      by_cases hpi : p = i
      · rw [if_pos hpi, if_pos hpi.symm]
      · rw [if_neg hpi, if_neg (Ne.symm hpi)]
    · left
      have : i = S.length := by omega
      subst this
      rw [hS', List.getElem?_append_right (by simp)] at hb'
      simp at hb'
      exact ⟨rfl, hb'.symm⟩
  have hpar : ∀ j, parentOf S' j = if j = S.length then some p else parentOf S j := by
    intro j
    unfold parentOf
    by_cases hj : j = S.length
    · rw [if_pos hj, hj, hS', List.getElem?_append_right (by simp)]
      simp [hnb]
    · rw [if_neg hj]
      by_cases hjl : j < S.length
      · rw [hS', List.getElem?_append_left (by simpa using hjl), List.getElem?_modify]
        cases S[j]? with
        | none => rfl
        | some b =>
          simp only [Option.map_eq_map, Option.map_some, Option.bind_some]
          split_ifs <;> rfl
      · rw [List.getElem?_eq_none (by omega), List.getElem?_eq_none (by omega)]
  refine ⟨fun i b' hb' => ?_, fun i b' hb' => ?_, fun i b' q hb' hq => ?_, fun i b' hb' => ?_⟩
  · rcases key i b' hb' with ⟨rfl, rfl⟩ | ⟨hi, b, hb, rfl⟩
    · rfl
    · split_ifs
      · exact hS.idx i b hb
      · exact hS.idx i b hb
  · rcases key i b' hb' with ⟨rfl, rfl⟩ | ⟨hi, b, hb, rfl⟩
    · simp [hnb]; intro h0; rw [h0] at hp; exact absurd hp (by simp)
    · split_ifs
      · exact hS.root i b hb
      · exact hS.root i b hb
  · rcases key i b' hb' with ⟨rfl, rfl⟩ | ⟨hi, b, hb, rfl⟩
    · simp [hnb] at hq; omega
    · refine hS.parent i b q hb ?_
      split_ifs at hq
      · exact hq
      · exact hq
  · rw [hlen, List.range_succ, List.filter_append]
    have hold : (List.range S.length).filter (fun j => decide (parentOf S' j = some i)) =
        (List.range S.length).filter (fun j => decide (parentOf S j = some i)) := by
      refine List.filter_congr fun j hj => ?_
      rw [hpar, if_neg (by have := List.mem_range.1 hj; omega)]
    rw [hold]
    have hnew : [S.length].filter (fun j => decide (parentOf S' j = some i)) = if i = p then [S.length] else [] := by
      rw [List.filter_singleton, hpar, if_pos rfl]
      by_cases hip : i = p
      · simp [hip]
      · simp [hip, Ne.symm hip]
    rw [hnew]
    rcases key i b' hb' with ⟨rfl, rfl⟩ | ⟨hi, b, hb, rfl⟩
    · rw [if_neg (by omega), List.append_nil]
      symm
      rw [List.filter_eq_nil_iff]
      intro j hj
      rw [decide_eq_true_eq]
      intro hpj
      unfold parentOf at hpj
      obtain ⟨b, hb, hbp⟩ := Option.bind_eq_some_iff.1 hpj
      have := hS.parent j b _ hb hbp
      have := List.mem_range.1 hj
      omega
    · split_ifs
      · simp only [hf]; rw [hS.children i b hb]
      · rw [List.append_nil]; exact hS.children i b hb

end IK

/-- **C56** (the skeleton is a tree). -/
theorem C56_tree {S : Skeleton} (h : IK.Built S) : IsTree S := by
  induction h with
  | new => exact ⟨by simp [create_skeleton], by simp [create_skeleton], by simp [create_skeleton], by simp [create_skeleton]⟩
  | root _ h _ => exact isTree_root h
  | bone _ h ih => exact isTree_bone ih h
  | angles _ h ih => exact ih.congr (sameShape_set_joint_angles h)
  | angle _ h ih => exact ih.congr (sameShape_set_angle h)
  | update _ h ih => exact ih.congr (sameShape_update_bone _ h)

/-- **C56** (when calls succeed). A root can be created exactly in an empty skeleton and with a supported Euler code; a bone can be added exactly below an
existing bone and with a supported code. -/
theorem C56_success (S : Skeleton) (p : ℤ) (a b c x y z : ℝ) (code : String) :
    ((∃ S', create_root S a b c x y z code = .ok S') ↔ S = [] ∧ is_valid_euler_code code = true) ∧
    ((∃ S', add_bone S p a b c x y z code = .ok S') ↔ 0 ≤ p ∧ p < S.length ∧ is_valid_euler_code code = true) := by
  refine ⟨⟨fun ⟨S', h⟩ => ?_, fun ⟨h1, h2⟩ => ?_⟩, ⟨fun ⟨S', h⟩ => ?_, fun ⟨h1, h2, h3⟩ => ?_⟩⟩
  · unfold create_root at h
    by_cases h0 : 0 < S.length
    · rw [if_pos h0] at h; cases h
    rw [if_neg h0] at h
    split_ifs at h with h1
    exact ⟨List.eq_nil_of_length_eq_zero (by omega), by simpa using h1⟩
  · subst h1
    unfold create_root
    rw [if_neg (by simp), if_neg (not_not.2 h2)]
    exact ⟨_, rfl⟩
  · obtain ⟨q, h1, h2, h3, -⟩ := add_bone_ok h
    exact ⟨by omega, by omega, h3⟩
  · unfold add_bone
    rw [if_neg (not_not.2 ⟨h1, h2⟩), if_neg (not_not.2 h3)]
    exact ⟨_, rfl⟩

/-- **C56** (a new bone). `add_bone` appends a bone with the given data and no children below the given parent, which gets it as its last
child; everything else stays as it was. -/
theorem C56_new_bone {S S' : Skeleton} {p : ℤ} {a b c x y z : ℝ} {code : String} (h : add_bone S p a b c x y z code = .ok S') :
    S'.length = S.length + 1 ∧
    (∃ q : Bone, S'[S.length]? = some q ∧ q.idx = S.length ∧ q.parent = some p.toNat ∧ q.children = [] ∧ q.alpha = a ∧ q.beta = b ∧ q.gamma = c ∧
      q.t = ⟨x, y, z⟩ ∧ q.euler_code = codeAxes code) ∧
    ∀ (i : ℕ) (q : Bone), S[i]? = some q → S'[i]? = some { q with children := q.children ++ if (i : ℤ) = p then [S.length] else [] } := by
  obtain ⟨p, rfl, hp, -, rfl⟩ := add_bone_ok h
  refine ⟨by simp, ⟨Bone.mk S.length (codeAxes code) a b c Quat.identity V3.zero ⟨x, y, z⟩ (some p) [],
    by rw [List.getElem?_append_right (by simp)]; simp, rfl, rfl, rfl, rfl, rfl, rfl, rfl, rfl⟩, fun i q hq => ?_⟩
  have hi := getElem?_lt hq
  rw [List.getElem?_append_left (by simpa using hi), List.getElem?_modify, hq]
  by_cases hpi : p = i
  · simp [hpi]
  · have : ¬ ((i : ℤ) = p) := by omega
    simp [hpi, this]

/-- **C56** (Euler codes). The supported codes are exactly the three-letter words over X, Y, Z in which neighbouring letters differ, and the axes of
a bone are its letters. -/
theorem C56_euler_codes (s : String) : is_valid_euler_code s = true ↔
    ∃ a b c : Axis, a ≠ b ∧ b ≠ c ∧
      s.toList = [a, b, c].map (fun a => match a with | .X => 'X' | .Y => 'Y' | .Z => 'Z') ∧ codeAxes s = ![a, b, c] := by
  constructor
  · intro h
    have hax : ∀ (s : String) (a b c : Axis), s.toList = [a, b, c].map (fun a => match a with | .X => 'X' | .Y => 'Y' | .Z => 'Z') →
        codeAxes s = ![a, b, c] := by
      intro s a b c hs
      funext i
      unfold codeAxes
      rw [hs]
      fin_cases i <;> cases a <;> cases b <;> cases c <;> rfl
    have hmem : s ∈ validCodes := by simpa [is_valid_euler_code] using h
    have key : ∀ (a b c : Axis) (w : String), s = w → a ≠ b → b ≠ c →
        w.toList = [a, b, c].map (fun a => match a with | .X => 'X' | .Y => 'Y' | .Z => 'Z') →
        ∃ a b c : Axis, a ≠ b ∧ b ≠ c ∧ s.toList = [a, b, c].map (fun a => match a with | .X => 'X' | .Y => 'Y' | .Z => 'Z') ∧
          codeAxes s = ![a, b, c] := fun a b c w h1 h2 h3 h4 => ⟨a, b, c, h2, h3, h1 ▸ h4, hax s a b c (h1 ▸ h4)⟩
    simp only [validCodes, List.cons_append, List.nil_append, List.mem_cons, List.not_mem_nil, or_false] at hmem
    rcases hmem with h | h | h | h | h | h | h | h | h | h | h | h
    · exact key .X .Z .X _ h (by decide) (by decide) (by decide)
    · exact key .X .Y .X _ h (by decide) (by decide) (by decide)
    · exact key .Y .X .Y _ h (by decide) (by decide) (by decide)
    · exact key .Y .Z .Y _ h (by decide) (by decide) (by decide)
    · exact key .Z .Y .Z _ h (by decide) (by decide) (by decide)
    · exact key .Z .X .Z _ h (by decide) (by decide) (by decide)
    · exact key .X .Z .Y _ h (by decide) (by decide) (by decide)
    · exact key .X .Y .Z _ h (by decide) (by decide) (by decide)
    · exact key .Y .X .Z _ h (by decide) (by decide) (by decide)
    · exact key .Y .Z .X _ h (by decide) (by decide) (by decide)
    · exact key .Z .Y .X _ h (by decide) (by decide) (by decide)
    · exact key .Z .X .Y _ h (by decide) (by decide) (by decide)
  · rintro ⟨a, b, c, h1, h2, h3, -⟩
    have hs : s = String.ofList ([a, b, c].map (fun a => match a with | .X => 'X' | .Y => 'Y' | .Z => 'Z')) := by
      rw [← h3, String.ofList_toList]
    rw [hs]
    cases a <;> cases b <;> cases c <;> first | exact absurd rfl h1 | exact absurd rfl h2 | rfl | decide

end Verif
