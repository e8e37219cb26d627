import Verif.Props.IKHessian
import Verif.Props.IKExamples

/-! Property C77, continued: what `compute_hessian` computes, where it is the second derivative, and a skeleton for which it is not. -/

namespace Verif

open IK

namespace IK

/-- The number the code subtracts from entry (i, j) if i is on a bone not after that of j. -/
noncomputable def codeTerm (S : Skeleton) (col : ℕ → V3) (r : V3) (i j : ℕ) : ℝ :=
  V3.dot (V3.cross (axisVec S (i / 3 * 3 + j % 3)) (col (j / 3 * 3 + i % 3))) r

theorem subBlock_apply (H D : Array2) (h k i j : ℕ) :
    subBlock H (h * 3) (k * 3) D i j = if i / 3 = h ∧ j / 3 = k then H i j - D (i % 3) (j % 3) else H i j := by
  unfold subBlock
  by_cases hc : i / 3 = h ∧ j / 3 = k
  · have e1 : i - h * 3 = i % 3 := by omega
    have e2 : j - k * 3 = j % 3 := by omega
    rw [if_pos hc, if_pos (by omega), e1, e2]
  · rw [if_neg hc, if_neg (by omega)]

theorem hessianPair_ok {S : Skeleton} (hS : IsTree S) (J : Array2) (r : V3) (row : ℕ) {h k : ℕ} (hh : h < S.length) (H : Array2) :
    hessianPair S J r row k H h = .ok fun i j => H i j - (if i / 3 = h ∧ j / 3 = k ∧ h ≤ k then codeTerm S (getCol J row) r i j else 0) -
      (if j / 3 = h ∧ i / 3 = k ∧ h < k then codeTerm S (getCol J row) r j i else 0) := by
  have hb := List.getElem?_eq_getElem hh
  obtain ⟨P, hP⟩ := parentPose_ok hS hb
  unfold hessianPair
  by_cases hk : h > k
  · rw [if_pos hk]
    congr 1
    funext i j
    rw [if_neg (by omega), if_neg (by omega)]
    ring
  rw [if_neg hk]
  simp only [bind, Except.bind]
  rw [getBone_ok.2 hb]
  dsimp only
  rw [hP]
  simp only [pure, Except.pure, Except.ok.injEq]
  rw [parentPose_snd hP, worldAxes_eq]
  have hD : ∀ a b, a < 3 → b < 3 → dH (axisOf S S[h] 0, axisOf S S[h] 1, axisOf S S[h] 2) (getCol J row (k * 3), getCol J row (k * 3 + 1), getCol J row (k * 3 + 2)) r a b =
      V3.dot (V3.cross (axisVec S (h * 3 + b)) (getCol J row (k * 3 + a))) r := by
    intro a b ha hb3
    have hax : axisVec S (h * 3 + b) = axisOf S S[h] b := by
      unfold axisVec
      have e1 : (h * 3 + b) / 3 = h := by omega
      have e2 : (h * 3 + b) % 3 = b := by omega
      rw [e1, e2, hb]
    rw [hax]
    have ha3 : a = 0 ∨ a = 1 ∨ a = 2 := by omega
    have hb3' : b = 0 ∨ b = 1 ∨ b = 2 := by omega
    unfold dH
    rcases ha3 with rfl | rfl | rfl <;> rcases hb3' with rfl | rfl | rfl <;> rfl
  funext i j
  by_cases hne : h ≠ k
  · rw [if_pos hne]
    rw [subBlock_apply, subBlock_apply]
    by_cases h1 : i / 3 = h ∧ j / 3 = k
    · rw [if_neg (by omega), if_pos h1, if_pos (by omega), if_neg (by omega), hD _ _ (by omega) (by omega)]
      unfold codeTerm
      rw [h1.1, h1.2]
      ring
    · rw [if_neg h1, if_neg (by omega : ¬ (i / 3 = h ∧ j / 3 = k ∧ h ≤ k))]
      by_cases h2 : i / 3 = k ∧ j / 3 = h
      · rw [if_pos h2, if_pos (by omega), hD _ _ (by omega) (by omega)]
        unfold codeTerm
        rw [h2.1, h2.2]
        ring
      · rw [if_neg h2, if_neg (by omega)]
        ring
  · rw [if_neg hne, subBlock_apply]
    have hne' : h = k := not_not.1 hne
    rw [if_neg (by omega : ¬ (j / 3 = h ∧ i / 3 = k ∧ h < k))]
    by_cases h1 : i / 3 = h ∧ j / 3 = k
    · rw [if_pos h1, if_pos (by omega), hD _ _ (by omega) (by omega)]
      unfold codeTerm
      rw [h1.1, h1.2]
      ring
    · rw [if_neg h1, if_neg (by omega)]
      ring

theorem hessian_inner {S : Skeleton} (hS : IsTree S) (J : Array2) (r : V3) (row k : ℕ) (L : List ℕ) (hn : L.Nodup) (hL : ∀ h ∈ L, h < S.length) (H : Array2) :
    L.foldlM (hessianPair S J r row k) H = .ok fun i j => H i j - (if i / 3 ∈ L ∧ j / 3 = k ∧ i / 3 ≤ k then codeTerm S (getCol J row) r i j else 0) -
      (if j / 3 ∈ L ∧ i / 3 = k ∧ j / 3 < k then codeTerm S (getCol J row) r j i else 0) := by
  induction L generalizing H with
  | nil => simp [pure, Except.pure]
  | cons h L ih =>
    obtain ⟨hn1, hn2⟩ := List.nodup_cons.1 hn
    simp only [List.foldlM_cons, bind, Except.bind]
    rw [hessianPair_ok hS J r row (hL h List.mem_cons_self)]
    dsimp only
    rw [ih hn2 fun k hk => hL k (List.mem_cons_of_mem _ hk)]
    congr 1
    funext i j
    have key : ∀ (a b : ℕ) (P : Prop) [Decidable P] (x : ℝ), (P → b = k) → (if a = h ∧ P then x else 0) + (if a ∈ L ∧ P then x else 0) = if a ∈ h :: L ∧ P then x else 0 := by
      intro a b P _ x _
      by_cases hP : P
      · by_cases ha : a = h
        · rw [if_pos ⟨ha, hP⟩, if_neg fun hc => hn1 (ha ▸ hc.1), if_pos ⟨ha ▸ List.mem_cons_self, hP⟩, add_zero]
        · rw [if_neg fun hc => ha hc.1]
          by_cases hm : a ∈ L
          · rw [if_pos ⟨hm, hP⟩, if_pos ⟨List.mem_cons_of_mem _ hm, hP⟩, zero_add]
          · rw [if_neg fun hc => hm hc.1, if_neg fun hc => (List.mem_cons.1 hc.1).elim ha hm, add_zero]
      · rw [if_neg fun hc => hP hc.2, if_neg fun hc => hP hc.2, if_neg fun hc => hP hc.2, add_zero]
    have e1 : (if i / 3 = h ∧ j / 3 = k ∧ h ≤ k then codeTerm S (getCol J row) r i j else 0) =
        if i / 3 = h ∧ (j / 3 = k ∧ i / 3 ≤ k) then codeTerm S (getCol J row) r i j else 0 := if_congr (by omega) rfl rfl
    have e2 : (if j / 3 = h ∧ i / 3 = k ∧ h < k then codeTerm S (getCol J row) r j i else 0) =
        if j / 3 = h ∧ (i / 3 = k ∧ j / 3 < k) then codeTerm S (getCol J row) r j i else 0 := if_congr (by omega) rfl rfl
    rw [e1, e2, ← key (i / 3) (j / 3) (j / 3 = k ∧ i / 3 ≤ k) _ (fun h => h.1), ← key (j / 3) (i / 3) (i / 3 = k ∧ j / 3 < k) _ (fun h => h.1)]
    ring

theorem hessian_outer {S : Skeleton} (hS : IsTree S) (J : Array2) (r : V3) (row : ℕ) (L : List ℕ) (hn : L.Nodup) (hL : ∀ h ∈ L, h < S.length) (K : List ℕ)
    (hK : K.Nodup) (H : Array2) :
    K.foldlM (fun H k => L.foldlM (hessianPair S J r row k) H) H = .ok fun i j =>
      H i j - (if j / 3 ∈ K ∧ i / 3 ∈ L ∧ i / 3 ≤ j / 3 then codeTerm S (getCol J row) r i j else 0) -
      (if i / 3 ∈ K ∧ j / 3 ∈ L ∧ j / 3 < i / 3 then codeTerm S (getCol J row) r j i else 0) := by
  induction K generalizing H with
  | nil => simp [pure, Except.pure]
  | cons k K ih =>
    obtain ⟨hn1, hn2⟩ := List.nodup_cons.1 hK
    simp only [List.foldlM_cons, bind, Except.bind]
    rw [hessian_inner hS J r row k L hn hL]
    dsimp only
    rw [ih hn2]
    congr 1
    funext i j
    have key : ∀ (a : ℕ) (P : Prop) [Decidable P] (x : ℝ), (if a = k ∧ P then x else 0) + (if a ∈ K ∧ P then x else 0) = if a ∈ k :: K ∧ P then x else 0 := by
      intro a P _ x
      by_cases hP : P
      · by_cases ha : a = k
        · rw [if_pos ⟨ha, hP⟩, if_neg fun hc => hn1 (ha ▸ hc.1), if_pos ⟨ha ▸ List.mem_cons_self, hP⟩, add_zero]
        · rw [if_neg fun hc => ha hc.1]
          by_cases hm : a ∈ K
          · rw [if_pos ⟨hm, hP⟩, if_pos ⟨List.mem_cons_of_mem _ hm, hP⟩, zero_add]
          · rw [if_neg fun hc => hm hc.1, if_neg fun hc => (List.mem_cons.1 hc.1).elim ha hm, add_zero]
      · rw [if_neg fun hc => hP hc.2, if_neg fun hc => hP hc.2, if_neg fun hc => hP hc.2, add_zero]
    have e1 : (if i / 3 ∈ L ∧ j / 3 = k ∧ i / 3 ≤ k then codeTerm S (getCol J row) r i j else 0) =
        if j / 3 = k ∧ (i / 3 ∈ L ∧ i / 3 ≤ j / 3) then codeTerm S (getCol J row) r i j else 0 := by
      refine if_congr ⟨fun h => ⟨h.2.1, h.1, by omega⟩, fun h => ⟨h.2.1, h.1, by omega⟩⟩ rfl rfl
    have e2 : (if j / 3 ∈ L ∧ i / 3 = k ∧ j / 3 < k then codeTerm S (getCol J row) r j i else 0) =
        if i / 3 = k ∧ (j / 3 ∈ L ∧ j / 3 < i / 3) then codeTerm S (getCol J row) r j i else 0 := by
      refine if_congr ⟨fun h => ⟨h.2.1, h.1, by omega⟩, fun h => ⟨h.2.1, h.1, by omega⟩⟩ rfl rfl
    rw [e1, e2, ← key (j / 3) (i / 3 ∈ L ∧ i / 3 ≤ j / 3), ← key (i / 3) (j / 3 ∈ L ∧ j / 3 < i / 3)]
    ring

/-- The number the code subtracts for one chain. -/
noncomputable def chainTerm (S : Skeleton) (c : Chain) (i j : ℕ) : ℝ :=
  if i / 3 ∈ c.bones ∧ j / 3 ∈ c.bones then
    if i / 3 ≤ j / 3 then codeTerm S (colVec S (endOf S c)) (c.goal - endOf S c) i j else codeTerm S (colVec S (endOf S c)) (c.goal - endOf S c) j i
  else 0

theorem path_nodup {S : Skeleton} (hS : IsTree S) {L : List ℕ} {j : ℕ} (h : IsPath S L j) : L.Nodup := by
  have hinc : L.Pairwise (· < ·) := List.isChain_iff_pairwise.1 (h.2.2.imp fun a b hab => hS.parent_lt hab)
  exact hinc.imp fun h => ne_of_lt h

theorem hessian_loop {S : Skeleton} (hS : IsTree S) (h0 : S ≠ []) (J : Array2) (cs : List Chain) (hcs : ∀ c ∈ cs, GoodChain S c) (m : ℕ)
    (hJ : ∀ k c, cs[k]? = some c → ∀ q, q / 3 ∈ c.bones → getCol J ((m + k) * 3) q = colVec S (endOf S c) q) (H : Array2) :
    cs.foldlM (hessianChain S J) (H, m * 3) = .ok (fun i j => H i j - (cs.map fun c => chainTerm S c i j).sum, (m + cs.length) * 3) := by
  induction cs generalizing H m with
  | nil => simp [pure, Except.pure]
  | cons c cs ih =>
    have hc := hcs c List.mem_cons_self
    obtain ⟨p, hp⟩ := hc
    simp only [List.foldlM_cons, bind, Except.bind]
    have h1 : hessianChain S J (H, m * 3) c = .ok (fun i j => H i j - chainTerm S c i j, (m + 1) * 3) := by
      unfold hessianChain
      simp only [bind, Except.bind]
      rw [endOf_ok h0 ⟨p, hp⟩]
      dsimp only
      rw [hessian_outer hS J _ _ _ (path_nodup hS hp) (path_lt h0 hp) _ (path_nodup hS hp)]
      simp only [pure, Except.pure]
      congr 2
      · funext i j
        unfold chainTerm
        have hcol := hJ 0 c rfl
        rw [Nat.add_zero] at hcol
        by_cases hb : i / 3 ∈ c.bones ∧ j / 3 ∈ c.bones
        · rw [if_pos hb]
          have t1 : codeTerm S (getCol J (m * 3)) (c.goal - endOf S c) i j = codeTerm S (colVec S (endOf S c)) (c.goal - endOf S c) i j := by
            unfold codeTerm
            rw [hcol _ (by have : (j / 3 * 3 + i % 3) / 3 = j / 3 := by omega
                           rw [this]; exact hb.2)]
          have t2 : codeTerm S (getCol J (m * 3)) (c.goal - endOf S c) j i = codeTerm S (colVec S (endOf S c)) (c.goal - endOf S c) j i := by
            unfold codeTerm
            rw [hcol _ (by have : (i / 3 * 3 + j % 3) / 3 = i / 3 := by omega
                           rw [this]; exact hb.1)]
          rw [t1, t2]
          by_cases hle : i / 3 ≤ j / 3
          · rw [if_pos hle, if_pos ⟨hb.2, hb.1, hle⟩, if_neg fun h => absurd h.2.2 (by omega)]
            ring
          · rw [if_neg hle, if_neg fun h => hle h.2.2, if_pos ⟨hb.1, hb.2, by omega⟩]
            ring
        · rw [if_neg hb, if_neg fun h => hb ⟨h.2.1, h.1⟩, if_neg fun h => hb ⟨h.1, h.2.1⟩]
          ring
      · omega
    rw [h1]
    dsimp only
    rw [ih (fun c hc => hcs c (List.mem_cons_of_mem _ hc)) (m + 1) (fun k c hc q hq => by
      have := hJ (k + 1) c (by simpa using hc) q hq
      rw [← this]
      congr 1
      ring)]
    congr 2
    · funext i j
      rw [List.map_cons, List.sum_cons]
      ring
    · rw [List.length_cons]; ring

/-- The value of `compute_hessian`. -/
theorem hessian_ok {S : Skeleton} (hS : IsTree S) (h0 : S ≠ []) (cs : List Chain) (hcs : ∀ c ∈ cs, GoodChain S c) {J : Array2}
    (hJ : compute_jacobian cs S = .ok J) : ∃ H, compute_hessian cs S J = .ok H ∧ ∀ i j, H i j =
      (cs.map fun c => (if i / 3 ∈ c.bones ∧ j / 3 ∈ c.bones then V3.dot (colVec S (endOf S c) i) (colVec S (endOf S c) j) else 0) - chainTerm S c i j).sum := by
  obtain ⟨J', hJ', hval⟩ := jacobian_ok hS h0 cs hcs
  rw [hJ] at hJ'
  injection hJ' with hJ'
  subst hJ'
  have hrow : ∀ k c, cs[k]? = some c → ∀ x q, x < 3 → J (k * 3 + x) q = if q / 3 ∈ c.bones then comp3 (colVec S (endOf S c) q) x else 0 := by
    intro k c hc x q hx
    rw [hval]
    have e1 : (k * 3 + x) / 3 = k := by omega
    have e2 : (k * 3 + x) % 3 = x := by omega
    rw [e1, e2, hc]
  have hloop := hessian_loop hS h0 J cs hcs 0 (by
    intro k c hc q hq
    rw [Nat.zero_add]
    have r0 := hrow k c hc 0 q (by omega)
    rw [Nat.add_zero] at r0
    unfold getCol
    rw [r0, hrow k c hc 1 q (by omega), hrow k c hc 2 q (by omega), if_pos hq, if_pos hq, if_pos hq]
    rfl) (fun i j => ∑ r ∈ Finset.range (cs.length * 3), J r i * J r j)
  rw [Nat.zero_mul] at hloop
  refine ⟨fun i j => (∑ r ∈ Finset.range (cs.length * 3), J r i * J r j) - (cs.map fun c => chainTerm S c i j).sum, ?_, fun i j => ?_⟩
  · unfold compute_hessian
    simp only [bind, Except.bind]
    rw [hloop]
    rfl
  · dsimp only
    have hsum : ∑ r ∈ Finset.range (cs.length * 3), J r i * J r j =
        (cs.map fun c => if i / 3 ∈ c.bones ∧ j / 3 ∈ c.bones then V3.dot (colVec S (endOf S c) i) (colVec S (endOf S c) j) else 0).sum := by
      rw [sum_range_mul3]
      refine sum_range_list cs _ _ fun k c hc => ?_
      have r0 : ∀ q, J (k * 3) q = if q / 3 ∈ c.bones then comp3 (colVec S (endOf S c) q) 0 else 0 := fun q => hrow k c hc 0 q (by omega)
      rw [r0, r0, hrow k c hc 1 i (by omega), hrow k c hc 1 j (by omega), hrow k c hc 2 i (by omega), hrow k c hc 2 j (by omega)]
      by_cases h1 : i / 3 ∈ c.bones
      · by_cases h2 : j / 3 ∈ c.bones
        · simp only [if_pos h1, if_pos h2, if_pos (And.intro h1 h2)]
          simp [comp3, V3.dot]
        · simp [h2]
      · simp [h1]
    rw [hsum]
    have : ∀ (L : List Chain) (f g : Chain → ℝ), (L.map f).sum - (L.map g).sum = (L.map fun c => f c - g c).sum := by
      intro L f g
      induction L with
      | nil => simp
      | cons a L ih => simp only [List.map_cons, List.sum_cons]; rw [← ih]; ring
    exact this cs _ _

end IK

/-- **C77** (the second derivatives). After an update, the gradient is differentiable in every joint angle, for all chains that are paths of the skeleton, and the
second derivatives are symmetric. -/
theorem C77_second_symmetric {S0 S : Skeleton} {limit : ℕ} (hS0 : IK.Built S0) (hu : update_skeleton limit S0 = .ok S) (cs : List Chain)
    (hcs : ∀ c ∈ cs, ∃ j, IsPath S c.bones j) {i k : ℕ} (hi : i < S.length * 3) (hk : k < S.length * 3) :
    ∃ D, IsSecond limit S cs i k D ∧ IsSecond limit S cs k i D ∧ ∀ D', IsSecond limit S cs i k D' → D' = D := by
  refine ⟨secondOf S cs i k, isSecond_secondOf hS0 hu cs hcs hi hk, ?_, ?_⟩
  · rw [secondOf_comm]
    exact isSecond_secondOf hS0 hu cs hcs hk hi
  · rintro D' ⟨θ, G, h1, h2, h3⟩
    obtain ⟨θ', G', h1', h2', h3'⟩ := isSecond_secondOf hS0 hu cs hcs hi hk
    rw [h1] at h1'
    injection h1' with h1'
    subst h1'
    have : G = G' := by
      funext θ
      have a := h2 θ
      rw [h2' θ] at a
      injection a with a
      exact a.symm
    subst this
    exact h3.unique h3'

/-- **C77** (Hessian, the part that holds). After an update, for all chains that are paths of the skeleton, `compute_hessian` succeeds, and its entry (i, k)
is the second derivative of the objective in these cases: the two angles have the same place in the Euler code of their bones; or they belong to the same bone
and k is not after i; or every end effector is at its goal.  Missing: all other entries, which are wrong in general (`C77_hessian_wrong`). -/
theorem C77_hessian_partial {S0 S : Skeleton} {limit : ℕ} (hS0 : IK.Built S0) (hu : update_skeleton limit S0 = .ok S) (cs : List Chain)
    (hcs : ∀ c ∈ cs, ∃ j, IsPath S c.bones j) : ∃ J H, compute_jacobian cs S = .ok J ∧ compute_hessian cs S J = .ok H ∧
    ∀ i k, i < S.length * 3 → k < S.length * 3 →
      (i % 3 = k % 3 ∨ i / 3 = k / 3 ∧ k ≤ i ∨ ∀ c ∈ cs, get_end_effector c S = .ok c.goal) → IsSecond limit S cs i k (H i k) := by
  have hS : IK.Built S := .update hS0 hu
  have hT := C56_tree hS
  have h0 : S ≠ [] := by
    rintro rfl
    have h1 := (C57_success hS0 limit).1 ⟨_, hu⟩
    have h2 := (C57_update hS0 hu).1.shape.length
    exact h1.1 (List.eq_nil_of_length_eq_zero h2.symm)
  obtain ⟨J, hJ, -⟩ := jacobian_ok hT h0 cs hcs
  obtain ⟨H, hH, hval⟩ := hessian_ok hT h0 cs hcs hJ
  refine ⟨J, H, hJ, hH, fun i k hi hk hcase => ?_⟩
  have : H i k = secondOf S cs i k := by
    rw [hval]
    unfold secondOf
    congr 1
    refine List.map_congr_left fun c hc => ?_
    by_cases hb : i / 3 ∈ c.bones ∧ k / 3 ∈ c.bones
    · rw [if_pos hb, if_pos hb]
      congr 1
      unfold chainTerm
      rw [if_pos hb]
      rcases hcase with h | h | h
      · have e1 : ∀ a b : ℕ, a % 3 = b % 3 → a / 3 * 3 + b % 3 = a := fun a b hab => by omega
        unfold codeTerm secondVec
        rw [e1 i k h, e1 k i h.symm]
        by_cases hle : i / 3 ≤ k / 3
        · rw [if_pos hle, if_pos (by omega)]
        · rw [if_neg hle, if_neg (by omega)]
      · have e1 : i / 3 * 3 + k % 3 = k := by omega
        have e2 : k / 3 * 3 + i % 3 = i := by omega
        unfold codeTerm secondVec
        rw [if_pos (by omega : i / 3 ≤ k / 3), e1, e2]
        by_cases hle : i ≤ k
        · have : i = k := by omega
          rw [if_pos hle, this]
        · rw [if_neg hle]
      · have he := h c hc
        rw [endOf_ok h0 (hcs c hc)] at he
        injection he with he
        have hz : c.goal - endOf S c = 0 := by rw [he]; exact sub_self _
        unfold codeTerm
        rw [hz]
        simp [V3.dot]
    · unfold chainTerm
      rw [if_neg hb, if_neg hb, if_neg hb, sub_zero]
  rw [this]
  exact isSecond_secondOf hS0 hu cs hcs hi hk

namespace IK

/-- A single root bone with Euler code ZYZ and zero angles, at the origin. -/
def exRoot : List Bone := [⟨0, codeAxes "ZYZ", 0, 0, 0, Quat.identity, V3.zero, ⟨0, 0, 0⟩, none, []⟩]

theorem exRoot_built : IK.Built exRoot := by
  have v1 : is_valid_euler_code "ZYZ" = true := valid _ (by simp [validCodes])
  exact .root (a := 0) (b := 0) (c := 0) (x := 0) (y := 0) (z := 0) .new (by
    unfold create_root create_skeleton
    rw [if_neg (by simp), if_neg (not_not.2 v1)]
    rfl)

theorem exRoot_update : update_skeleton 1000 exRoot = .ok exRoot := by
  have h : ∀ b : Bone, b = ⟨0, codeAxes "ZYZ", 0, 0, 0, Quat.identity, V3.zero, ⟨0, 0, 0⟩, none, []⟩ → b.moved (V3.zero, Quat.identity) = b := by
    rintro b rfl
    simp [Bone.moved, Bone.q_bone, Bone.get_rotation_alpha, Bone.get_rotation_beta, V3.cross, V3.dot, Quat.vec, Quat.conjugate,
      Bone.get_rotation_gamma, Bone.get_rotation, Axis.rot, codeAxes, Quat.Rz, Quat.Ry, Quat.prod, Quat.identity, Quat.rotate, V3.zero]
    rfl
  unfold update_skeleton update_bone
  simp only [exRoot, getBone, parentPose, bind, Except.bind, List.getElem?_cons_zero, List.foldlM_nil, pure, Except.pure, List.set_cons_zero]
  rw [h _ rfl]

/-- The chain from the root to the root, with a tool at (0, 1, 0) and the goal (0, 1, 1). -/
def exTool : Chain := ⟨[0], ⟨0, 1, 1⟩, ⟨0, 1, 0⟩⟩

theorem exTool_path : IsPath exRoot exTool.bones 0 := ⟨rfl, rfl, by simp [exTool]⟩

theorem exTool_end : endOf exRoot exTool = ⟨0, 1, 0⟩ := by
  have := endOf_ok (S := exRoot) (by simp [exRoot]) ⟨0, exTool_path⟩
  rw [end_effector_ok (j := 0) (b := ⟨0, codeAxes "ZYZ", 0, 0, 0, Quat.identity, V3.zero, ⟨0, 0, 0⟩, none, []⟩) rfl rfl] at this
  injection this with this
  rw [← this, rotate_identity']
  simp [exTool, V3.zero]
  rfl

theorem exRoot_axis : axisVec exRoot 0 = V3.k ∧ axisVec exRoot 1 = V3.j := by
  constructor <;>
  simp [axisVec, axisOf, exRoot, Bone.before, parentQ, Bone.letter, codeAxes, Axis.vec, Axis.rot, Quat.Rz, Quat.rotate, Quat.prod, Quat.conjugate, Quat.identity,
    Quat.vec, V3.dot, V3.cross, V3.j, V3.k]

end IK

/-- **C77** (finding). The Hessian is not always symmetric, and its entries are not always the second derivatives: for one root bone with Euler code ZYZ, zero
angles, and a chain with tool (0, 1, 0) and goal (0, 1, 1), entry (0, 1) is -1, entry (1, 0) is 0, and the second derivative is 0. -/
theorem C77_hessian_wrong : ∃ S0 S : Skeleton, ∃ c : Chain, IK.Built S0 ∧ update_skeleton 1000 S0 = .ok S ∧ IsPath S c.bones 0 ∧
    ∃ J H, compute_jacobian [c] S = .ok J ∧ compute_hessian [c] S J = .ok H ∧ H 0 1 = -1 ∧ H 1 0 = 0 ∧
      IsSecond 1000 S [c] 0 1 0 ∧ ¬ IsSecond 1000 S [c] 0 1 (H 0 1) := by
  have hpath : ∀ c ∈ [exTool], ∃ j, IsPath exRoot c.bones j := by simpa using ⟨0, exTool_path⟩
  have hT := C56_tree exRoot_built
  have h0 : exRoot ≠ [] := by simp [exRoot]
  obtain ⟨J, hJ, -⟩ := jacobian_ok hT h0 [exTool] hpath
  obtain ⟨H, hH, hval⟩ := hessian_ok hT h0 [exTool] hpath hJ
  have c0 : colVec exRoot ⟨0, 1, 0⟩ 0 = ⟨-1, 0, 0⟩ := by
    have : colVec exRoot ⟨0, 1, 0⟩ 0 = V3.cross (axisVec exRoot 0) ((⟨0, 1, 0⟩ : V3) - V3.zero) := rfl
    rw [this, exRoot_axis.1]
    simp [V3.cross, V3.k, V3.zero]
  have c1 : colVec exRoot ⟨0, 1, 0⟩ 1 = 0 := by
    have : colVec exRoot ⟨0, 1, 0⟩ 1 = V3.cross (axisVec exRoot 1) ((⟨0, 1, 0⟩ : V3) - V3.zero) := rfl
    rw [this, exRoot_axis.2]
    simp [V3.cross, V3.j, V3.zero]
    rfl
  have v01 : H 0 1 = -1 := by
    rw [hval]
    simp [chainTerm, exTool_end, codeTerm, exRoot_axis, c0, c1]
    simp [exTool, V3.cross, V3.dot, V3.j, V3.k]
  have v10 : H 1 0 = 0 := by
    rw [hval]
    simp [chainTerm, exTool_end, codeTerm, exRoot_axis, c0, c1]
    simp [exTool, V3.cross, V3.dot, V3.j, V3.k]
  have hsec : IsSecond 1000 exRoot [exTool] 0 1 0 := by
    have hz : secondOf exRoot [exTool] 0 1 = 0 := by
      simp [secondOf, exTool_end, secondVec, c0, c1]
      simp [exTool, V3.cross, V3.dot, V3.k]
    have h2 := isSecond_secondOf exRoot_built exRoot_update [exTool] hpath (i := 0) (k := 1) (by simp [exRoot]) (by simp [exRoot])
    rwa [hz] at h2
  obtain ⟨D, -, -, hD⟩ := C77_second_symmetric exRoot_built exRoot_update [exTool] hpath (i := 0) (k := 1) (by simp [exRoot]) (by simp [exRoot])
  refine ⟨exRoot, exRoot, exTool, exRoot_built, exRoot_update, exTool_path, J, H, hJ, hH, v01, v10, hsec, fun h => ?_⟩
  have := (hD _ h).trans (hD _ hsec).symm
  rw [v01] at this
  norm_num at this

end Verif
