import Verif.Model.IKDemo
import Verif.Props.IKFinite
import Verif.Props.IKGradient
import Verif.Props.SceneMail3
import Mathlib.Analysis.SpecialFunctions.Complex.Arg

/-! C125: which points the end effector of a chain can reach. -/

namespace Verif

open IK

namespace IK

theorem exists_cos_sin {x y : ℝ} (h : x ^ 2 + y ^ 2 = 1) : ∃ t, Real.cos t = x ∧ Real.sin t = y := by
  have hn : ‖(⟨x, y⟩ : ℂ)‖ = 1 := by
    rw [Complex.norm_def, Complex.normSq_apply, Real.sqrt_eq_one]
    simp only
    linarith [h, sq x, sq y]
  have h0 : (⟨x, y⟩ : ℂ) ≠ 0 := by
    intro e
    rw [e, norm_zero] at hn
    norm_num at hn
  refine ⟨Complex.arg ⟨x, y⟩, ?_, ?_⟩
  · rw [Complex.cos_arg h0, hn]; simp
  · rw [Complex.sin_arg, hn]; simp

/-- Some angle makes a combination of cosine and sine vanish. -/
theorem exists_root (p q : ℝ) : ∃ t, Real.cos t * p + Real.sin t * q = 0 := by
  by_cases h : p ^ 2 + q ^ 2 = 0
  · have hp : p = 0 := by nlinarith [sq_nonneg p, sq_nonneg q]
    have hq : q = 0 := by nlinarith [sq_nonneg p, sq_nonneg q]
    exact ⟨0, by rw [hp, hq]; simp⟩
  · have hpos : 0 < p ^ 2 + q ^ 2 := lt_of_le_of_ne (by positivity) (Ne.symm h)
    have hs : Real.sqrt (p ^ 2 + q ^ 2) ^ 2 = p ^ 2 + q ^ 2 := Real.sq_sqrt hpos.le
    have hs0 : Real.sqrt (p ^ 2 + q ^ 2) ≠ 0 := (Real.sqrt_pos.2 hpos).ne'
    obtain ⟨t, h1, h2⟩ := exists_cos_sin (x := q / Real.sqrt (p ^ 2 + q ^ 2)) (y := -p / Real.sqrt (p ^ 2 + q ^ 2)) (by
      rw [div_pow, div_pow, ← add_div, hs]
      rw [div_eq_one_iff_eq hpos.ne']
      ring)
    exact ⟨t, by rw [h1, h2]; ring⟩

/-- A plane rotation takes any vector to any other of the same length. -/
theorem exists_turn {a b c d : ℝ} (h : a ^ 2 + b ^ 2 = c ^ 2 + d ^ 2) : ∃ t, Real.cos t * a - Real.sin t * b = c ∧ Real.sin t * a + Real.cos t * b = d := by
  by_cases h0 : a ^ 2 + b ^ 2 = 0
  · have ha : a = 0 := by nlinarith [sq_nonneg a, sq_nonneg b]
    have hb : b = 0 := by nlinarith [sq_nonneg a, sq_nonneg b]
    have hc : c = 0 := by nlinarith [sq_nonneg c, sq_nonneg d]
    have hd : d = 0 := by nlinarith [sq_nonneg c, sq_nonneg d]
    exact ⟨0, by rw [ha, hb, hc, hd]; simp⟩
  · obtain ⟨t, h1, h2⟩ := exists_cos_sin (x := (a * c + b * d) / (a ^ 2 + b ^ 2)) (y := (a * d - b * c) / (a ^ 2 + b ^ 2)) (by
      rw [div_pow, div_pow, ← add_div, div_eq_one_iff_eq (pow_ne_zero 2 h0)]
      have : (a * c + b * d) ^ 2 + (a * d - b * c) ^ 2 = (a ^ 2 + b ^ 2) * (c ^ 2 + d ^ 2) := by ring
      rw [this, ← h]
      ring)
    refine ⟨t, ?_, ?_⟩
    · rw [h1, h2]
      field_simp
      ring
    · rw [h1, h2]
      field_simp
      ring

theorem rot_back (a : Axis) (x : ℝ) (w : V3) : Quat.rotate (a.rot x) (Quat.rotate (a.rot (-x)) w) = w := by
  rw [← rot_neg]
  exact (C02_rotate_conjugate (rot_unit a x) w).2

theorem rotate_norm {q : Quat} (h : IsUnitQ q) (v : V3) : V3.norm (Quat.rotate q v) = V3.norm v := by
  have := C02_rotate_dot h v v
  rw [V3.toFun_dot, V3.toFun_dot] at this
  unfold V3.norm
  rw [this]

/-- A rotation about one axis can take a vector into the plane orthogonal to another axis. -/
theorem into_plane {b c : Axis} (h : b ≠ c) (u : V3) : ∃ t, V3.dot b.vec (Quat.rotate (c.rot t) u) = 0 := by
  cases b <;> cases c <;> first | exact absurd rfl h | skip
  all_goals
    simp only [rotate_rot, Axis.vec, V3.i, V3.j, V3.k, V3.dot]
  · obtain ⟨t, ht⟩ := exists_root u.x u.z; exact ⟨t, by linarith⟩
  · obtain ⟨t, ht⟩ := exists_root u.x (-u.y); exact ⟨t, by linarith⟩
  · obtain ⟨t, ht⟩ := exists_root u.y (-u.z); exact ⟨t, by linarith⟩
  · obtain ⟨t, ht⟩ := exists_root u.y u.x; exact ⟨t, by linarith⟩
  · obtain ⟨t, ht⟩ := exists_root u.z u.y; exact ⟨t, by linarith⟩
  · obtain ⟨t, ht⟩ := exists_root u.z (-u.x); exact ⟨t, by linarith⟩

theorem within_plane (b : Axis) {x y : V3} (hx : V3.dot b.vec x = 0) (hy : V3.dot b.vec y = 0) (h : V3.norm x = V3.norm y) :
    ∃ t, Quat.rotate (b.rot t) x = y := by
  have h2 : V3.dot x x = V3.dot y y := by rw [← V3.norm_sq, ← V3.norm_sq, h]
  cases b <;> simp only [rotate_rot, Axis.vec, V3.i, V3.j, V3.k, V3.dot] at *
  · have ex : x.x = 0 := by linarith
    have ey : y.x = 0 := by linarith
    rw [ex, ey] at h2
    obtain ⟨t, h3, h4⟩ := exists_turn (a := x.y) (b := x.z) (c := y.y) (d := y.z) (by nlinarith)
    exact ⟨t, V3.ext (by rw [ex, ey]) h3 h4⟩
  · have ex : x.y = 0 := by linarith
    have ey : y.y = 0 := by linarith
    rw [ex, ey] at h2
    obtain ⟨t, h3, h4⟩ := exists_turn (a := x.z) (b := x.x) (c := y.z) (d := y.x) (by nlinarith)
    exact ⟨t, V3.ext (by simp only; linarith) (by rw [ex, ey]) h3⟩
  · have ex : x.z = 0 := by linarith
    have ey : y.z = 0 := by linarith
    rw [ex, ey] at h2
    obtain ⟨t, h3, h4⟩ := exists_turn (a := x.x) (b := x.y) (c := y.x) (d := y.y) (by nlinarith)
    exact ⟨t, V3.ext h3 h4 (by rw [ex, ey])⟩

/-- A joint whose neighbouring axes differ can turn any vector to any other of the same length. -/
theorem joint_aims {a b c : Axis} (hab : a ≠ b) (hbc : b ≠ c) {u w : V3} (h : V3.norm u = V3.norm w) :
    ∃ α β γ, Quat.rotate (Quat.prod (Quat.prod (a.rot α) (b.rot β)) (c.rot γ)) u = w := by
  obtain ⟨γ, hγ⟩ := into_plane hbc u
  obtain ⟨α, hα⟩ := into_plane (Ne.symm hab) w
  obtain ⟨β, hβ⟩ := within_plane b hγ hα (by rw [rotate_norm (rot_unit _ _), rotate_norm (rot_unit _ _), h])
  refine ⟨-α, β, γ, ?_⟩
  rw [C02_rotate_prod, C02_rotate_prod, hβ]
  have := rot_back a (-α) w
  rwa [neg_neg] at this

/-! ### Specification -/

/-- The bone vector of bone i, in the frame of its parent. -/
def boneVec (S : Skeleton) (i : ℕ) : V3 :=
  match S[i]? with
  | some b => b.t
  | none => 0

/-- The lengths of the links of a chain that can move: those of its bones but the root, and that of its tool. -/
noncomputable def links (S : Skeleton) (c : Chain) : List ℝ := (c.bones.tail.map fun i => V3.norm (boneVec S i)) ++ [V3.norm c.tool]

/-- The length of the stretched arm. -/
noncomputable def armLength (S : Skeleton) (c : Chain) : ℝ := (links S c).sum

/-! ### Proofs -/

theorem sameShape_boneVec {S S' : Skeleton} (h : SameShape S S') (i : ℕ) : boneVec S' i = boneVec S i := by
  unfold boneVec
  cases h' : S'[i]? with
  | none =>
    have : S[i]? = none := by
      rw [List.getElem?_eq_none_iff] at h' ⊢
      rw [h.length] at h'
      exact h'
    rw [this]
  | some b' =>
    obtain ⟨b, hb, hsh⟩ := h.get h'
    rw [hb]
    simp only [Bone.shape, Prod.mk.injEq] at hsh
    exact hsh.2.2.2.1.symm

theorem sameShape_links {S S' : Skeleton} (h : SameShape S S') (c : Chain) : links S' c = links S c := by
  unfold links
  simp only [sameShape_boneVec h]

theorem sum_norm_le (L : List V3) : V3.norm L.sum ≤ (L.map V3.norm).sum := by
  induction L with
  | nil =>
    simp only [List.sum_nil, List.map_nil]
    exact le_of_eq (V3.norm_eq_zero.2 rfl)
  | cons a L ih =>
    rw [List.sum_cons, List.map_cons, List.sum_cons]
    exact (vnorm_add _ _).trans (by linarith)

theorem norm_neg' (a : V3) : V3.norm (-a) = V3.norm a := by
  unfold V3.norm
  congr 1
  simp [V3.dot]

theorem sum_norm_ge {L : List V3} {a : V3} (h : a ∈ L) : 2 * V3.norm a - (L.map V3.norm).sum ≤ V3.norm L.sum := by
  obtain ⟨A, B, rfl⟩ := List.append_of_mem h
  have h1 := sum_norm_le (A ++ B)
  have e : a = (A ++ a :: B).sum + -(A ++ B).sum := by
    rw [List.sum_append, List.sum_append, List.sum_cons]
    refine V3.ext ?_ ?_ ?_ <;> simp <;> ring
  have h2 := vnorm_add (A ++ a :: B).sum (-(A ++ B).sum)
  rw [← e, norm_neg'] at h2
  simp only [List.map_append, List.map_cons, List.sum_append, List.sum_cons] at h1 ⊢
  simp only [List.sum_append, List.sum_cons] at h2 h1
  linarith

theorem chain_segments {S : Skeleton} (hS : IsTree S) (hp : ∀ b ∈ S, Posed S b) (B : List ℕ) : ∀ (a j : ℕ) (ba bj : Bone), S[a]? = some ba → S[j]? = some bj →
    (a :: B).IsChain (fun a b => parentOf S b = some a) → (a :: B).getLast? = some j →
    ∃ segs : List V3, segs.map V3.norm = B.map (fun i => V3.norm (boneVec S i)) ∧ bj.t_wcs = ba.t_wcs + segs.sum := by
  induction B with
  | nil =>
    intro a j ba bj ha hj _ hl
    simp only [List.getLast?_singleton, Option.some.injEq] at hl
    subst hl
    rw [ha, Option.some.injEq] at hj
    subst hj
    exact ⟨[], rfl, by simp⟩
  | cons b B ih =>
    intro a j ba bj ha hj hc hl
    rw [List.isChain_cons_cons] at hc
    obtain ⟨bb, hb, hpar⟩ := parentOf_some.1 hc.1
    rw [List.getLast?_cons_cons] at hl
    obtain ⟨segs, h1, h2⟩ := ih b j bb bj hb hj hc.2 hl
    have hmb := List.mem_of_getElem? hb
    have hpose := ((hp bb hmb).2 a ba hpar ha).1
    refine ⟨Quat.rotate ba.q_wcs bb.t :: segs, ?_, ?_⟩
    · rw [List.map_cons, List.map_cons, h1, rotate_norm (posed_unit hS hp (List.mem_of_getElem? ha))]
      unfold boneVec
      rw [hb]
    · rw [h2, hpose, List.sum_cons, add_assoc]

/-- The end effector is the origin of the root and a sum of vectors as long as the links. -/
theorem end_segments {S0 S : Skeleton} {limit : ℕ} (hS0 : IK.Built S0) (hu : update_skeleton limit S0 = .ok S) {c : Chain} (hc : GoodChain S c) {e : V3}
    (he : get_end_effector c S = .ok e) : ∃ segs : List V3, segs.map V3.norm = links S c ∧ e - boneVec S 0 = segs.sum := by
  have hT : IsTree S := C56_tree (.update hS0 hu)
  obtain ⟨-, hp⟩ := C57_update hS0 hu
  obtain ⟨j, hhead, hlast, hchain⟩ := hc
  cases hb : c.bones with
  | nil => rw [hb] at hhead; cases hhead
  | cons a B =>
    rw [hb] at hhead hlast hchain
    simp only [List.head?_cons, Option.some.injEq] at hhead
    subst hhead
    unfold get_end_effector at he
    rw [hb, hlast] at he
    dsimp only at he
    cases hj : S[j]? with
    | none =>
      unfold getBone at he
      rw [hj] at he
      cases he
    | some bj =>
      rw [getBone_ok.2 hj] at he
      have he' : bj.t_wcs + Quat.rotate bj.q_wcs c.tool = e := Except.ok.inj he
      have hne : 0 < S.length := lt_of_le_of_lt (Nat.zero_le _) (getElem?_lt hj)
      have h0 := List.getElem?_eq_getElem hne
      obtain ⟨segs, h1, h2⟩ := chain_segments hT hp B 0 j _ bj h0 hj hchain hlast
      have hroot : (S[0]).t_wcs = boneVec S 0 := by
        unfold boneVec
        rw [h0]
        exact ((hp _ (List.mem_of_getElem? h0)).1 ((hT.root 0 _ h0).2 rfl)).1
      refine ⟨segs ++ [Quat.rotate bj.q_wcs c.tool], ?_, ?_⟩
      · unfold links
        rw [List.map_append, h1, hb, List.tail_cons, List.map_singleton, rotate_norm (posed_unit hT hp (List.mem_of_getElem? hj))]
      · rw [← he', h2, hroot, List.sum_append, List.sum_singleton]
        refine V3.ext ?_ ?_ ?_ <;> simp <;> ring

end IK

/-- **C125** (reach). Whatever the joint angles: the end effector of a chain that starts at the root is within the length of the stretched arm of the origin of
the root; and if one link is longer than all others together, the end effector cannot come closer than the difference. -/
theorem C125_reach {S S1 S2 : Skeleton} (hS : IK.Built S) {c : Chain} (hc : GoodChain S c) {v : List ℝ} (h1 : set_joint_angles S v = .ok S1) {limit : ℕ}
    (h2 : update_skeleton limit S1 = .ok S2) {e : V3} (h3 : get_end_effector c S2 = .ok e) :
    V3.norm (e - boneVec S 0) ≤ armLength S c ∧ ∀ l ∈ links S c, 2 * l - armLength S c ≤ V3.norm (e - boneVec S 0) := by
  have hB1 : IK.Built S1 := .angles hS h1
  have sh : SameShape S S2 := (sameShape_set_joint_angles h1).trans (C57_update hB1 h2).1.shape
  obtain ⟨segs, hs, hsum⟩ := end_segments hB1 h2 (goodChain_congr sh hc) h3
  rw [sameShape_boneVec sh] at hsum
  rw [sameShape_links sh] at hs
  unfold armLength
  rw [hsum, ← hs]
  refine ⟨sum_norm_le segs, fun l hl => ?_⟩
  obtain ⟨a, ha, rfl⟩ := List.mem_map.1 hl
  exact sum_norm_ge ha

/-- **C125** (goals out of reach). If the goal of a chain is farther from the origin of the root than the arm is long, then no joint angles bring the end
effector there: the objective is at least half the square of what is missing. -/
theorem C125_unreachable {S S1 S2 : Skeleton} (hS : IK.Built S) {cs : List Chain} {c : Chain} (hmem : c ∈ cs) (hc : GoodChain S c)
    (hfar : armLength S c ≤ V3.norm (c.goal - boneVec S 0)) {v : List ℝ} (h1 : set_joint_angles S v = .ok S1) {limit : ℕ}
    (h2 : update_skeleton limit S1 = .ok S2) {f : ℝ} (h3 : compute_objective cs S2 = .ok f) :
    (V3.norm (c.goal - boneVec S 0) - armLength S c) ^ 2 / 2 ≤ f := by
  obtain ⟨-, -, E, hE, hf⟩ := C59_objective cs h3
  have hr := (C125_reach hS hc h1 h2 (hE c hmem)).1
  have htri := vnorm_add (c.goal - E c) (E c - boneVec S 0)
  rw [sub_add_sub_cancel] at htri
  have hone : V3.norm (c.goal - E c) ^ 2 ≤ (cs.map fun c => V3.norm (c.goal - E c) ^ 2).sum :=
    List.single_le_sum (by
      intro x hx
      obtain ⟨d, -, rfl⟩ := List.mem_map.1 hx
      positivity) _ (List.mem_map.2 ⟨c, hmem, rfl⟩)
  have hsq : (V3.norm (c.goal - boneVec S 0) - armLength S c) ^ 2 ≤ V3.norm (c.goal - E c) ^ 2 := by
    refine pow_le_pow_left₀ (by linarith) ?_ 2
    linarith
  rw [hf]
  linarith

end Verif
