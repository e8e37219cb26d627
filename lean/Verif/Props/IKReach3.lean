import Verif.Props.IKReach2

/-! C125: straight arms, the small methods of bones and skeletons, the demo. -/

namespace Verif

open IK

namespace IK

theorem rot_zero (a : Axis) : a.rot 0 = Quat.identity := by
  cases a <;> simp [Axis.rot, Quat.Rx, Quat.Ry, Quat.Rz, Quat.identity]

theorem prod_identity (q : Quat) : Quat.prod q Quat.identity = q := by
  ext <;> simp [Quat.prod, Quat.identity, Quat.vec, V3.dot, V3.cross]

theorem joint_zero {b : Bone} (h : b.alpha = 0 ∧ b.beta = 0 ∧ b.gamma = 0) : b.joint = Quat.identity := by
  unfold Bone.joint
  rw [h.1, h.2.1, h.2.2, rot_zero, rot_zero, rot_zero, prod_identity, prod_identity]

end IK

/-- **C125** (straight arms). With all joint angles zero every bone has the orientation of the world, and its origin is the sum of the bone vectors on the path from
the root to it. -/
theorem C125_straight {S S' : Skeleton} (hS : IK.Built S) (hz : ∀ b ∈ S, b.alpha = 0 ∧ b.beta = 0 ∧ b.gamma = 0) {limit : ℕ}
    (hu : update_skeleton limit S = .ok S') {L : List ℕ} {j : ℕ} (hL : IsPath S L j) {b : Bone} (hb : S'[j]? = some b) :
    b.q_wcs = Quat.identity ∧ b.t_wcs = (L.map (boneVec S)).sum := by
  obtain ⟨hd, hp⟩ := C57_update hS hu
  have hT : IsTree S' := C56_tree (.update hS hu)
  have hsh := hd.shape
  have hz' : ∀ b ∈ S', b.alpha = 0 ∧ b.beta = 0 ∧ b.gamma = 0 := by
    intro b hb
    obtain ⟨i, hi⟩ := List.mem_iff_getElem?.1 hb
    obtain ⟨b0, hb0, hdat⟩ := hd.get hi
    simp only [Bone.data, Prod.mk.injEq] at hdat
    have := hz b0 (List.mem_of_getElem? hb0)
    rw [← hdat.2.1, ← hdat.2.2.1, ← hdat.2.2.2]
    exact this
  have hq : ∀ (i : ℕ) (b : Bone), S'[i]? = some b → b.q_wcs = Quat.identity := by
    intro i
    induction i using Nat.strong_induction_on with
    | _ i ih =>
      intro b hb
      have hm := List.mem_of_getElem? hb
      obtain ⟨h1, h2⟩ := hp b hm
      cases hpar : b.parent with
      | none => rw [(h1 hpar).2, joint_zero (hz' b hm)]
      | some p =>
        have hlt := hT.parent i b p hb hpar
        have hl := getElem?_lt hb
        have hpq := List.getElem?_eq_getElem (l := S') (i := p) (by omega)
        rw [(h2 p _ hpar hpq).2, joint_zero (hz' b hm), ih p hlt _ hpq, prod_identity]
  refine ⟨hq j b hb, ?_⟩
  have hpar : IK.parentOf S' = IK.parentOf S := by funext j; exact hsh.parentOf j
  have key : ∀ (L : List ℕ) (j : ℕ) (b : Bone), IsPath S L j → S'[j]? = some b → b.t_wcs = (L.map (boneVec S)).sum := by
    intro L
    induction L using List.reverseRecOn with
    | nil => intro j b hL; exact absurd hL.1 (by simp)
    | append_singleton A a ih =>
      intro j b hL hb
      have haj : a = j := by simpa using hL.2.1
      subst haj
      have hv : boneVec S a = b.t := by
        rw [← sameShape_boneVec hsh]
        unfold boneVec
        rw [hb]
      have hm := List.mem_of_getElem? hb
      rcases List.eq_nil_or_concat A with rfl | ⟨A', p, rfl⟩
      · have h0 : a = 0 := by simpa using hL.1
        rw [((hp b hm).1 ((hT.root a b hb).2 h0)).1]
        simp [hv]
      · rw [List.concat_eq_append] at hL ih
        rw [List.concat_eq_append]
        have hch := List.isChain_append.1 hL.2.2
        have hpa : parentOf S a = some p := hch.2.2 p (by simp) a rfl
        have hpath : IsPath S (A' ++ [p]) p := by
          refine ⟨?_, by simp, hch.1⟩
          have := hL.1
          rw [List.head?_append] at this
          cases hh : (A' ++ [p]).head? with
          | none => simp at hh
          | some x =>
            rw [hh] at this
            simpa using this
        rw [← hpar] at hpa
        obtain ⟨b', hb', hbp⟩ := parentOf_some.1 hpa
        rw [hb, Option.some.injEq] at hb'
        subst hb'
        have hlt := hT.parent a b p hb hbp
        have hl := getElem?_lt hb
        have hpq := List.getElem?_eq_getElem (l := S') (i := p) (by omega)
        rw [((hp b hm).2 p _ hbp hpq).1, hq p _ hpq, rotate_identity', ih p _ hpath hpq, List.map_append (l₁ := A' ++ [p]), List.sum_append (l₁ := List.map _ (A' ++ [p])), List.map_singleton, List.sum_singleton, hv]
  exact key L j b hL hb

/-- **C125** (roots, parents, axes). In a skeleton made with the API exactly bone 0 is a root; `has_root` and `has_bone` tell which bones there are; the parent that a
bone has is a bone of the skeleton; and each of the three rotations of a joint leaves its axis, of length one, where it is. -/
theorem C125_tree {S : Skeleton} (hS : IK.Built S) :
    (has_root S = true ↔ ∃ b, S[0]? = some b) ∧ (∀ idx : ℤ, has_bone S idx = true ↔ ∃ i : ℕ, idx = i ∧ ∃ b, S[i]? = some b) ∧
    (∀ (i : ℕ) (b : Bone), S[i]? = some b → (b.is_root = true ↔ i = 0) ∧ (b.has_parent = true ↔ ∃ p : ℕ, b.parent = some p ∧ has_bone S p = true)) ∧
    ∀ b ∈ S, (Quat.rotate b.get_rotation_alpha b.get_axis_alpha = b.get_axis_alpha ∧ Quat.rotate b.get_rotation_beta b.get_axis_beta = b.get_axis_beta ∧
      Quat.rotate b.get_rotation_gamma b.get_axis_gamma = b.get_axis_gamma) ∧
      V3.norm b.get_axis_alpha = 1 ∧ V3.norm b.get_axis_beta = 1 ∧ V3.norm b.get_axis_gamma = 1 := by
  have hT := C56_tree hS
  have hex : ∀ i : ℕ, (∃ b, S[i]? = some b) ↔ i < S.length := by
    intro i
    constructor
    · rintro ⟨b, hb⟩; exact getElem?_lt hb
    · intro h; exact ⟨_, List.getElem?_eq_getElem h⟩
  have hbone : ∀ idx : ℤ, has_bone S idx = true ↔ ∃ i : ℕ, idx = i ∧ ∃ b, S[i]? = some b := by
    intro idx
    unfold has_bone
    constructor
    · intro h
      split_ifs at h with h1
      obtain ⟨i, rfl⟩ := Int.eq_ofNat_of_zero_le h1.2
      refine ⟨i, rfl, (hex i).2 ?_⟩
      have := h1.1
      omega
    · rintro ⟨i, rfl, hi⟩
      have := (hex i).1 hi
      rw [if_pos ⟨by omega, by omega⟩]
  refine ⟨?_, hbone, ?_, ?_⟩
  · rw [hex]
    unfold has_root
    split_ifs with h
    · exact ⟨fun _ => h, fun _ => rfl⟩
    · exact ⟨fun h => by simp at h, fun h' => absurd h' h⟩
  · intro i b hb
    have hroot : b.is_root = true ↔ i = 0 := by
      unfold Bone.is_root
      rw [← hT.root i b hb]
      split_ifs with h
      · exact ⟨fun _ => h, fun _ => rfl⟩
      · exact ⟨fun h => by simp at h, fun h' => absurd h' h⟩
    refine ⟨hroot, ?_⟩
    unfold Bone.has_parent
    cases hp : b.parent with
    | none => simp [Bone.is_root, hp]
    | some p =>
      have hlt := hT.parent i b p hb hp
      have hl := getElem?_lt hb
      have hh : has_bone S p = true := (hbone p).2 ⟨p, rfl, (hex p).2 (by omega)⟩
      simp [Bone.is_root, hp, hh]
  · intro b hb
    have fix : ∀ (a : Axis) (x : ℝ), Quat.rotate (a.rot x) a.vec = a.vec := by
      intro a x
      rw [rotate_rot]
      cases a <;> simp [Axis.vec, V3.i, V3.j, V3.k]
    have one : ∀ a : Axis, V3.norm a.vec = 1 := by
      intro a
      cases a <;> simp [Axis.vec, V3.i, V3.j, V3.k, V3.norm, V3.dot]
    exact ⟨⟨fix _ _, fix _ _, fix _ _⟩, one _, one _, one _⟩

namespace IK

/-- The bones of the demo before the update. -/
def demoBones : List Bone :=
  [⟨0, codeAxes "ZYZ", 0, 0, 0, Quat.identity, V3.zero, ⟨1, 0, 0⟩, none, [1]⟩,
   ⟨1, codeAxes "ZYZ", 0, 0, 0, Quat.identity, V3.zero, ⟨1, 0, 0⟩, some 0, [2]⟩,
   ⟨2, codeAxes "ZYZ", 0, 0, 0, Quat.identity, V3.zero, ⟨1, 0, 0⟩, some 1, [3]⟩,
   ⟨3, codeAxes "ZYZ", 0, 0, 0, Quat.identity, V3.zero, ⟨1, 0, 0⟩, some 2, []⟩]

end IK

/-- **C125** (demo_inverse_kinematics.py). With at least four levels of recursion the demo runs: it makes a straight arm of four bones with origins (1,0,0), (2,0,0),
(3,0,0), (4,0,0), none of them turned, and the one chain of all four bones.  The goal (10,0,0) that chains have by default is out of its reach: for all joint
angles the objective is at least 18. -/
theorem C125_demo {limit : ℕ} (hl : 4 ≤ limit) : ∃ S c, show_simple_setup limit = .ok (S, [c]) ∧ IK.Built S ∧ S.length = 4 ∧
    (∀ (i : ℕ) (b : Bone), S[i]? = some b → b.t_wcs = ⟨i + 1, 0, 0⟩ ∧ b.q_wcs = Quat.identity) ∧ c.bones = [0, 1, 2, 3] ∧ c.goal = ⟨10, 0, 0⟩ ∧
    get_end_effector c S = .ok ⟨4, 0, 0⟩ ∧
    ∀ v S1 S2 f limit', set_joint_angles S v = .ok S1 → update_skeleton limit' S1 = .ok S2 → compute_objective [c] S2 = .ok f → 18 ≤ f := by
  have hv : is_valid_euler_code "ZYZ" = true := valid _ (by simp [validCodes])
  have l1 : (1.0 : ℝ) = 1 := by norm_num
  have l0 : (0.0 : ℝ) = 0 := by norm_num
  have hd0 : degrees_to_radians 0 = 0 := by unfold degrees_to_radians; simp
  obtain ⟨B1, hB1⟩ : ∃ B : List Bone, B = [⟨0, codeAxes "ZYZ", 0, 0, 0, Quat.identity, V3.zero, ⟨1, 0, 0⟩, none, []⟩] := ⟨_, rfl⟩
  obtain ⟨B2, hB2⟩ : ∃ B : List Bone, B = [⟨0, codeAxes "ZYZ", 0, 0, 0, Quat.identity, V3.zero, ⟨1, 0, 0⟩, none, [1]⟩,
    ⟨1, codeAxes "ZYZ", 0, 0, 0, Quat.identity, V3.zero, ⟨1, 0, 0⟩, some 0, []⟩] := ⟨_, rfl⟩
  obtain ⟨B3, hB3⟩ : ∃ B : List Bone, B = [⟨0, codeAxes "ZYZ", 0, 0, 0, Quat.identity, V3.zero, ⟨1, 0, 0⟩, none, [1]⟩,
    ⟨1, codeAxes "ZYZ", 0, 0, 0, Quat.identity, V3.zero, ⟨1, 0, 0⟩, some 0, [2]⟩,
    ⟨2, codeAxes "ZYZ", 0, 0, 0, Quat.identity, V3.zero, ⟨1, 0, 0⟩, some 1, []⟩] := ⟨_, rfl⟩
  have h1 : create_root create_skeleton 0 0 0 1 0 0 "ZYZ" = .ok B1 := by
    unfold create_root create_skeleton
    rw [if_neg (by simp), if_neg (not_not.2 hv), hB1]
    rfl
  have h2 : add_bone B1 0 0 0 0 1 0 0 "ZYZ" = .ok B2 := by
    unfold add_bone
    rw [if_neg (by simp [hB1]), if_neg (not_not.2 hv), hB1, hB2]
    rfl
  have h3 : add_bone B2 1 0 0 0 1 0 0 "ZYZ" = .ok B3 := by
    unfold add_bone
    rw [if_neg (by simp [hB2]), if_neg (not_not.2 hv), hB2, hB3]
    rfl
  have h4 : add_bone B3 2 0 0 0 1 0 0 "ZYZ" = .ok demoBones := by
    unfold add_bone
    rw [if_neg (by simp [hB3]), if_neg (not_not.2 hv), hB3]
    rfl
  have n1 : newIdx B1 = 0 := by rw [hB1]; rfl
  have n2 : newIdx B2 = 1 := by rw [hB2]; rfl
  have n3 : newIdx B3 = 2 := by rw [hB3]; rfl
  have hS : IK.Built demoBones := .bone (.bone (.bone (.root .new h1) h2) h3) h4
  have hne : demoBones ≠ [] := by simp [demoBones]
  obtain ⟨S, hu⟩ := update_ok hS hne (limit := limit) (by simp [demoBones]; omega)
  have hB : IK.Built S := .update hS hu
  have hsh := (C57_update hS hu).1.shape
  have hlen : S.length = 4 := by rw [hsh.length]; rfl
  have par : ∀ i : ℕ, parentOf demoBones i = if i = 1 then some 0 else if i = 2 then some 1 else if i = 3 then some 2 else none := by
    intro i
    unfold parentOf
    match i with
    | 0 => rfl
    | 1 => rfl
    | 2 => rfl
    | 3 => rfl
    | n + 4 => simp [demoBones]
  have hparS : IK.parentOf S = IK.parentOf demoBones := by funext j; exact hsh.parentOf j
  obtain ⟨cs, hcs, hfor, huniq, -⟩ := C56_chains hB
  have hleaves : leaves S = [3] := by
    unfold leaves
    rw [hlen, hparS]
    simp only [par]
    decide
  rw [hleaves] at hfor
  cases hfor with
  | @cons c _ cs' _ hc hrest =>
  cases hrest
  obtain ⟨hpath, hgoal, htool⟩ := hc
  have p3 : IsPath S [0, 1, 2, 3] 3 := by
    refine ⟨rfl, rfl, ?_⟩
    rw [hparS]
    simp [par]
  have hbones : c.bones = [0, 1, 2, 3] := huniq _ _ _ hpath p3
  have hz : ∀ b ∈ demoBones, b.alpha = 0 ∧ b.beta = 0 ∧ b.gamma = 0 := by
    intro b hb
    simp only [demoBones, List.mem_cons, List.not_mem_nil, or_false] at hb
    rcases hb with rfl | rfl | rfl | rfl <;> exact ⟨rfl, rfl, rfl⟩
  have vec : ∀ i < 4, boneVec demoBones i = ⟨1, 0, 0⟩ := by
    intro i hi
    interval_cases i <;> rfl
  have hpose : ∀ (i : ℕ) (b : Bone), S[i]? = some b → b.t_wcs = ⟨i + 1, 0, 0⟩ ∧ b.q_wcs = Quat.identity := by
    intro i b hb
    have hi : i < 4 := by rw [← hlen]; exact getElem?_lt hb
    have hp : IsPath demoBones (List.range (i + 1)) i := by
      interval_cases i <;> refine ⟨rfl, rfl, ?_⟩ <;> simp [List.range_succ, par]
    obtain ⟨q, t⟩ := C125_straight hS hz hu hp hb
    refine ⟨?_, q⟩
    rw [t]
    interval_cases i <;> simp [List.range_succ, vec] <;> refine V3.ext ?_ ?_ ?_ <;> norm_num
  have hend : get_end_effector c S = .ok ⟨4, 0, 0⟩ := by
    have hb := List.getElem?_eq_getElem (l := S) (i := 3) (by rw [hlen]; norm_num)
    rw [end_effector_ok (S := S) (c := c) (by rw [hbones]; rfl) hb, (hpose 3 _ hb).1, (hpose 3 _ hb).2, rotate_identity', htool]
    congr 1
    refine V3.ext ?_ ?_ ?_ <;> simp [V3.zero] <;> norm_num
  refine ⟨S, c, ?_, hB, hlen, hpose, hbones, hgoal, hend, ?_⟩
  · unfold show_simple_setup
    simp only [hd0, l0, l1, h1, n1, h2, n2, h3, n3, h4, hu, hcs, bind, Except.bind, pure, Except.pure]
  · intro v S1 S2 f limit' e1 e2 e3
    have vecS : ∀ i < 4, boneVec S i = ⟨1, 0, 0⟩ := fun i hi => by rw [sameShape_boneVec hsh, vec i hi]
    have n1 : V3.norm ⟨1, 0, 0⟩ = 1 := by simp [V3.norm, V3.dot]
    have harm : armLength S c = 3 := by
      unfold armLength links
      rw [hbones, htool, List.tail_cons]
      have n0 : V3.norm V3.zero = 0 := V3.norm_eq_zero.2 rfl
      simp only [List.map_cons, List.map_nil, vecS 1 (by norm_num), vecS 2 (by norm_num), vecS 3 (by norm_num), n1, n0]
      norm_num
    have hdist : V3.norm (c.goal - boneVec S 0) = 9 := by
      rw [hgoal, vecS 0 (by norm_num)]
      have : (⟨10, 0, 0⟩ - ⟨1, 0, 0⟩ : V3) = ⟨9, 0, 0⟩ := by refine V3.ext ?_ ?_ ?_ <;> simp <;> norm_num
      rw [this]
      unfold V3.norm V3.dot
      rw [show (9 * 9 + 0 * 0 + 0 * 0 : ℝ) = 9 ^ 2 by norm_num, Real.sqrt_sq (by norm_num)]
    have := C125_unreachable hB (cs := [c]) (c := c) (by simp) ⟨3, hpath⟩ (by rw [harm, hdist]; norm_num) e1 e2 e3
    rw [harm, hdist] at this
    norm_num at this
    exact this

/-- The hypotheses are met: the two-armed skeleton of the examples can be stretched in every direction, along its chain [0, 1, 3] with a tool of length one. -/
example {d : V3} (hd : V3.norm d = 1) : ∃ v S1 S2, set_joint_angles exBones v = .ok S1 ∧ update_skeleton 4 S1 = .ok S2 ∧
    get_end_effector ⟨[0, 1, 3], ⟨10, 0, 0⟩, ⟨0, 0, 1⟩⟩ S2 = .ok (boneVec exBones 0 + armLength exBones ⟨[0, 1, 3], ⟨10, 0, 0⟩, ⟨0, 0, 1⟩⟩ • d) :=
  C125_attained ex_built (by simp [exBones]) (fun L j hL => by
    rcases path_length (C56_tree ex_built) hL with h | h
    · exact h
    · simp [exBones] at h) ⟨3, rfl, rfl, by simp [parentOf, exBones]⟩ hd

end Verif
