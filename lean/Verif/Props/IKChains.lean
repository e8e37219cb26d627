import Verif.Props.IKTree

/-! Property C56, continued: the default chains are the paths from the root to the leaves. -/

namespace Verif

open IK

namespace IK

/-- The bones that are the parent of no bone, in increasing order. -/
def leaves (S : Skeleton) : List ℕ := (List.range S.length).filter fun j => (List.range S.length).all fun i => decide (parentOf S i ≠ some j)

theorem parentOf_some {S : Skeleton} {j p : ℕ} : parentOf S j = some p ↔ ∃ b : Bone, S[j]? = some b ∧ b.parent = some p := by
  unfold parentOf
  exact Option.bind_eq_some_iff

theorem mem_leaves {S : Skeleton} {j : ℕ} : j ∈ leaves S ↔ j < S.length ∧ ∀ i, parentOf S i ≠ some j := by
  unfold leaves
  rw [List.mem_filter, List.mem_range, List.all_eq_true]
  refine and_congr_right fun _ => ⟨fun h i hi => ?_, fun h i _ => decide_eq_true (h i)⟩
  obtain ⟨b, hb, -⟩ := parentOf_some.1 hi
  exact of_decide_eq_true (h i (List.mem_range.2 (getElem?_lt hb))) hi

theorem IsTree.parent_lt {S : Skeleton} (h : IsTree S) {j p : ℕ} (hp : parentOf S j = some p) : p < j := by
  obtain ⟨b, hb, hbp⟩ := parentOf_some.1 hp
  exact h.parent j b p hb hbp

/-- The loop of `make_chain`: it walks to the root and collects the bones on the way. -/
theorem make_chain_path {S : Skeleton} (hS : IsTree S) {j : ℕ} {b : Bone} (hb : S[j]? = some b) :
    ∃ c, make_chain b S = .ok c ∧ IsPath S c.bones j ∧ c.goal = ⟨10, 0, 0⟩ ∧ c.tool = V3.zero := by
  obtain ⟨s, h1, h2, h3⟩ := LoopEnds.of_measure (step := chainTrip S)
    (I := fun s => S[s.1.idx]? = some s.1 ∧ (s.2 ++ [s.1.idx]).head? = some j ∧ (s.2 ++ [s.1.idx]).IsChain fun a b => parentOf S a = some b)
    (μ := fun s => s.1.idx)
    (by
      rintro ⟨q, L⟩ ⟨hq, hh, hc⟩
      dsimp only at hq hh hc
      unfold chainTrip
      dsimp only
      cases hp : q.parent with
      | none => left; rfl
      | some p =>
        right
        have hlt := hS.parent _ q p hq hp
        have hpl : p < S.length := lt_trans hlt (getElem?_lt hq)
        have hidx := hS.idx p S[p] (List.getElem?_eq_getElem hpl)
        refine ⟨(S[p], L ++ [q.idx]), ?_, ⟨?_, ?_, ?_⟩, ?_⟩
        · dsimp only
          rw [getBone_ok.2 (List.getElem?_eq_getElem hpl)]
          rfl
        · dsimp only; rw [hidx]; exact List.getElem?_eq_getElem hpl
        · dsimp only
          rw [List.head?_append, hh]; rfl
        · dsimp only
          rw [List.isChain_append]
          refine ⟨hc, by simp, ?_⟩
          intro x hx y hy
          simp at hx hy
          subst hx hy
          rw [hidx]
          exact parentOf_some.2 ⟨q, hq, hp⟩
        · dsimp only; rw [hidx]; exact hlt)
    (b, []) (by
      have := hS.idx j b hb
      exact ⟨by rw [this]; exact hb, by simpa using this, by simp⟩)
  obtain ⟨q, L⟩ := s
  obtain ⟨hq, hh, hc⟩ := h2
  dsimp only at hq hh hc
  unfold make_chain
  rw [whileLoop_eq h1]
  refine ⟨_, rfl, ⟨?_, ?_, ?_⟩, rfl, rfl⟩
  · have hp : q.parent = none := by
      unfold chainTrip at h3
      dsimp only at h3
      cases hp : q.parent with
      | none => rfl
      | some p =>
        rw [hp] at h3
        dsimp only at h3
        cases hg : getBone S p with
        | error e => rw [hg] at h3; cases h3
        | ok b => rw [hg] at h3; cases h3
    dsimp only
    rw [List.head?_reverse, List.getLast?_append]
    simp [(hS.root _ q hq).1 hp]
  · dsimp only
    rw [List.getLast?_reverse]; exact hh
  · dsimp only
    rw [List.isChain_reverse]; exact hc

/-- A path is determined by its end. -/
theorem IsPath.unique {S : Skeleton} (hS : IsTree S) {L L' : List ℕ} {j : ℕ} (h : IsPath S L j) (h' : IsPath S L' j) : L = L' := by
  have h0 : parentOf S 0 = none := by
    cases hp : parentOf S 0 with
    | none => rfl
    | some p => exact absurd (hS.parent_lt hp) (by omega)
  induction L using List.reverseRecOn generalizing L' j with
  | nil => exact absurd h.1 (by simp)
  | append_singleton L a ih =>
    rcases List.eq_nil_or_concat L' with rfl | ⟨L', a', rfl⟩
    · exact absurd h'.1 (by simp)
    have ha : a = j := by have := h.2.1; simpa using this
    have ha' : a' = j := by have := h'.2.1; simpa using this
    subst ha'
    subst ha
    have nil : ∀ {M N : List ℕ}, N ≠ [] → (M ++ [a]).head? = some 0 → (N ++ [a]).IsChain (fun a b => parentOf S b = some a) → M = [] → False := by
      intro M N hN hM hc hM0
      rw [hM0] at hM
      have ha0 : a = 0 := by simpa using hM
      rw [ha0] at hc
      obtain ⟨p, hp⟩ := List.getLast?_isSome.2 hN |> Option.isSome_iff_exists.1
      have := (List.isChain_append.1 hc).2.2 p hp 0 rfl
      rw [h0] at this
      cases this
    by_cases hL : L = []
    · by_cases hL' : L' = []
      · rw [hL, hL']; rfl
      · exact (nil hL' h.1 (by simpa using h'.2.2) hL).elim
    · by_cases hL' : L' = []
      · exact (nil hL (by simpa using h'.1) h.2.2 hL').elim
      · obtain ⟨p, hp⟩ := List.getLast?_isSome.2 hL |> Option.isSome_iff_exists.1
        obtain ⟨p', hp'⟩ := List.getLast?_isSome.2 hL' |> Option.isSome_iff_exists.1
        have e1 := (List.isChain_append.1 h.2.2).2.2 p hp a rfl
        have hc' : (L' ++ [a]).IsChain (fun a b => parentOf S b = some a) := by simpa using h'.2.2
        have e2 := (List.isChain_append.1 hc').2.2 p' hp' a rfl
        have hpp : p = p' := by rw [e1] at e2; exact Option.some.inj e2
        subst hpp
        have hh : ∀ {M : List ℕ}, M ≠ [] → (M ++ [a]).head? = some 0 → M.head? = some 0 := by
          intro M hM h
          cases M with
          | nil => exact absurd rfl hM
          | cons x M => simpa using h
        have := ih (j := p) (L' := L') ⟨hh hL h.1, hp, (List.isChain_append.1 h.2.2).1⟩
          ⟨hh hL' (by simpa using h'.1), hp', (List.isChain_append.1 hc').1⟩
        rw [this]
        simp

/-- A path with a bone contains its parent. -/
theorem IsPath.parent_mem {S : Skeleton} (hS : IsTree S) {L : List ℕ} {j : ℕ} (h : IsPath S L j) {c p : ℕ} (hc : c ∈ L) (hp : parentOf S c = some p) : p ∈ L := by
  obtain ⟨A, B, rfl⟩ := List.append_of_mem hc
  rcases List.eq_nil_or_concat A with rfl | ⟨A, a, rfl⟩
  · have := h.1
    simp at this
    have := hS.parent_lt hp
    omega
  · have h2 := (List.isChain_append.1 h.2.2).2.2 a (by simp) c rfl
    rw [hp] at h2
    injection h2 with h2
    simp [h2]

end IK

/-- **C56** (default chains). For every skeleton a program can build `make_chains` gives exactly one chain for every bone that is no bone's parent, in the
order of the bones; its bones are the path from the root to that bone, and there is only one such path; and every bone is on one of the chains. -/
theorem C56_chains {S : Skeleton} (hS : IK.Built S) : ∃ cs, make_chains S = .ok cs ∧
    List.Forall₂ (fun c j => IsPath S c.bones j ∧ c.goal = ⟨10, 0, 0⟩ ∧ c.tool = V3.zero) cs
      (leaves S) ∧
    (∀ L L' j, IsPath S L j → IsPath S L' j → L = L') ∧
    ∀ j, j < S.length → ∃ c ∈ cs, j ∈ c.bones := by
  have hT := C56_tree hS
  have hleaf : ∀ (i : ℕ) (b : Bone), S[i]? = some b → (b.is_end_effector = true ↔ ∀ k, parentOf S k ≠ some i) := by
    intro i b hb
    unfold Bone.is_end_effector
    rw [List.isEmpty_iff, hT.children i b hb, List.filter_eq_nil_iff]
    constructor
    · intro h k hk
      obtain ⟨bk, hbk, -⟩ := parentOf_some.1 hk
      exact h k (List.mem_range.2 (getElem?_lt hbk)) (by simpa using hk)
    · intro h k _
      simpa using h k
  have hrange : S = (List.range S.length).map fun i => S.getD i ⟨0, fun _ => .X, 0, 0, 0, Quat.identity, V3.zero, V3.zero, none, []⟩ := by
    refine List.ext_getElem? fun i => ?_
    rw [List.getElem?_map]
    by_cases hi : i < S.length
    · rw [List.getElem?_range hi, Option.map_some, List.getD_eq_getElem?_getD, List.getElem?_eq_getElem hi]; rfl
    · rw [List.getElem?_eq_none (by omega), List.getElem?_eq_none (by simpa using hi)]; rfl
  set d : Bone := ⟨0, fun _ => .X, 0, 0, 0, Quat.identity, V3.zero, V3.zero, none, []⟩
  have hget : ∀ i, i < S.length → S[i]? = some (S.getD i d) := by
    intro i hi
    rw [List.getD_eq_getElem?_getD, List.getElem?_eq_getElem hi]; rfl
  have hfil : S.filter Bone.is_end_effector = (leaves S).map fun i => S.getD i d := by
    conv_lhs => rw [hrange]
    unfold leaves
    rw [List.filter_map]
    congr 1
    refine List.filter_congr fun i hi => ?_
    have h1 := hleaf i _ (hget i (List.mem_range.1 hi))
    have h2 : i ∈ leaves S ↔ _ := mem_leaves
    unfold leaves at h2
    rw [List.mem_filter, and_iff_right hi, and_iff_right (List.mem_range.1 hi)] at h2
    rw [Bool.eq_iff_iff, h2]
    exact h1
  have hmap : ∀ L : List ℕ, (∀ i ∈ L, i < S.length) → ∃ cs, (L.map fun i => S.getD i d).mapM (fun b => make_chain b S) = .ok cs ∧
      List.Forall₂ (fun c j => IsPath S c.bones j ∧ c.goal = ⟨10, 0, 0⟩ ∧ c.tool = V3.zero) cs L := by
    intro L
    induction L with
    | nil => intro _; exact ⟨[], rfl, .nil⟩
    | cons i L ih =>
      intro h
      obtain ⟨cs, h1, h2⟩ := ih fun i hi => h i (List.mem_cons_of_mem _ hi)
      obtain ⟨c, h3, h4⟩ := make_chain_path hT (hget i (h i List.mem_cons_self))
      refine ⟨c :: cs, ?_, .cons h4 h2⟩
      rw [List.map_cons, List.mapM_cons, h3, h1]
      rfl
  obtain ⟨cs, h1, h2⟩ := hmap (leaves S)
    fun i hi => (mem_leaves.1 hi).1
  refine ⟨cs, by unfold make_chains; rw [hfil]; exact h1, h2, fun L L' j => IsPath.unique hT, ?_⟩
  intro j hj
  induction hn : S.length - j using Nat.strong_induction_on generalizing j with
  | _ n ih =>
    by_cases hl : ∀ i, parentOf S i ≠ some j
    · obtain ⟨c, hc, hp⟩ := forall₂_mem_right h2 j (mem_leaves.2 ⟨hj, hl⟩)
      exact ⟨c, hc, List.mem_of_getLast? hp.1.2.1⟩
    · push Not at hl
      obtain ⟨i, hi⟩ := hl
      obtain ⟨bi, hbi, -⟩ := parentOf_some.1 hi
      have hlt := hT.parent_lt hi
      have hil := getElem?_lt hbi
      obtain ⟨c, hc, hic⟩ := ih (S.length - i) (by omega) i hil rfl
      obtain ⟨k, -, hk⟩ := forall₂_mem_left h2 c hc
      exact ⟨c, hc, hk.1.parent_mem hT hic hi⟩

end Verif
