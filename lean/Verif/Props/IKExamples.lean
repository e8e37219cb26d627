import Verif.Props.IKAngles

/-! Concrete skeletons for the inverse kinematics properties. -/

namespace Verif

open IK

namespace IK

/-- A root with two arms: bone 1 and bone 2 hang at the root, bone 3 at bone 1. -/
def exBones : List Bone :=
  [⟨0, codeAxes "ZYZ", 0, 0, 0, Quat.identity, V3.zero, ⟨0, 0, 0⟩, none, [1, 2]⟩,
   ⟨1, codeAxes "XYZ", 1, 2, 3, Quat.identity, V3.zero, ⟨0, 1, 0⟩, some 0, [3]⟩,
   ⟨2, codeAxes "ZXZ", 0, 1, 0, Quat.identity, V3.zero, ⟨1, 0, 0⟩, some 0, []⟩,
   ⟨3, codeAxes "ZYX", 0, 0, 5, Quat.identity, V3.zero, ⟨0, 0, 2⟩, some 1, []⟩]

theorem valid (s : String) (h : s ∈ validCodes) : is_valid_euler_code s = true := by
  unfold is_valid_euler_code
  simpa using h

theorem ex_built : IK.Built exBones := by
  have v1 : is_valid_euler_code "ZYZ" = true := valid _ (by simp [validCodes])
  have v2 : is_valid_euler_code "XYZ" = true := valid _ (by simp [validCodes])
  have v3 : is_valid_euler_code "ZXZ" = true := valid _ (by simp [validCodes])
  have v4 : is_valid_euler_code "ZYX" = true := valid _ (by simp [validCodes])
  have h1 : IK.Built _ := .root (a := 0) (b := 0) (c := 0) (x := 0) (y := 0) (z := 0) .new (by
    unfold create_root create_skeleton
    rw [if_neg (by simp), if_neg (not_not.2 v1)])
  have h2 : IK.Built _ := .bone (p := 0) (a := 1) (b := 2) (c := 3) (x := 0) (y := 1) (z := 0) h1 (by
    unfold add_bone
    rw [if_neg (by simp), if_neg (not_not.2 v2)])
  have h3 : IK.Built _ := .bone (p := 0) (a := 0) (b := 1) (c := 0) (x := 1) (y := 0) (z := 0) h2 (by
    unfold add_bone
    rw [if_neg (by simp), if_neg (not_not.2 v3)])
  have h4 : IK.Built _ := .bone (p := 1) (a := 0) (b := 0) (c := 5) (x := 0) (y := 0) (z := 2) h3 (by
    unfold add_bone
    rw [if_neg (by simp), if_neg (not_not.2 v4)])
  exact h4

theorem path_length {S : Skeleton} (hS : IsTree S) {L : List ℕ} {j : ℕ} (h : IsPath S L j) : L.length ≤ S.length ∨ S = [] := by
  by_cases h0 : S = []
  · exact Or.inr h0
  left
  have hinc : L.IsChain (· < ·) := h.2.2.imp fun a b hab => hS.parent_lt hab
  have hp : L.Pairwise (· < ·) := List.isChain_iff_pairwise.1 hinc
  have hmem : ∀ a ∈ L, a < S.length := by
    intro a ha
    obtain ⟨A, B, rfl⟩ := List.append_of_mem ha
    rcases List.eq_nil_or_concat A with rfl | ⟨A, p, rfl⟩
    · have := h.1
      simp at this
      rw [this]
      exact List.length_pos_iff.2 h0
    · have h2 := (List.isChain_append.1 h.2.2).2.2 p (by simp) a rfl
      obtain ⟨b, hb, -⟩ := parentOf_some.1 h2
      exact getElem?_lt hb
  have hsub : L ⊆ List.range S.length := fun a ha => List.mem_range.2 (hmem a ha)
  have hn : L.Nodup := hp.imp fun h => ne_of_lt h
  simpa using (List.subperm_of_subset hn hsub).length_le

/-- A recursion depth of the number of bones always suffices. -/
theorem update_ok {S : Skeleton} (hS : IK.Built S) (h0 : S ≠ []) {limit : ℕ} (hl : S.length ≤ limit) : ∃ S', update_skeleton limit S = .ok S' := by
  refine (C57_success hS limit).2 ⟨h0, fun L j h => ?_⟩
  rcases path_length (C56_tree hS) h with h | h
  · omega
  · exact absurd h h0

end IK

/-- Non-vacuity for C56: a branching skeleton; its chains end at the bones 2 and 3. -/
example : ∃ c2 c3, make_chains exBones = .ok [c2, c3] ∧ IsPath exBones c2.bones 2 ∧ IsPath exBones c3.bones 3 := by
  obtain ⟨cs, h1, h2, -⟩ := C56_chains ex_built
  have hl : leaves exBones = [2, 3] := by decide
  rw [hl] at h2
  cases h2 with
  | cons a h2 =>
    cases h2 with
    | cons b h2 =>
      cases h2
      exact ⟨_, _, h1, a.1, b.1⟩

/-- Non-vacuity for C57: the update of the branching skeleton succeeds. -/
example : ∃ S', update_skeleton 1000 exBones = .ok S' ∧ ∀ b ∈ S', Posed S' b := by
  obtain ⟨S', h⟩ := update_ok ex_built (by simp [exBones]) (limit := 1000) (by simp [exBones])
  exact ⟨S', h, (C57_update ex_built h).2⟩

/-- Non-vacuity for C58. -/
example : get_joint_angles exBones = .ok [0, 0, 0, 1, 2, 3, 0, 1, 0, 0, 0, 5] := C58_get ex_built

end Verif
