import Verif.Props.ProxSolver
import Verif.Props.Blocking
import Mathlib.Tactic.Abel

/-! C38/C39: parallel colour groups against sequential processing. -/

namespace Verif

open ProxSolver Matrix

variable {K : ℕ} {M : Type} [Fintype M]

/-- The new block of contact k computed from the residual J W Jᵀ x + b. -/
noncomputable def exactNew {β : Type} (D : Data K 4 M) (friction : V3 → β → ℝ → V3) (mu : Fin K → β)
    (r x : Fin K × Fin 4 → ℝ) (k : Fin K) : Fin 4 → ℝ :=
  contactProx friction mu k (fun c => x (k, c) - r (k, c) * (((D.J * D.WJT) *ᵥ x) (k, c) + D.b (k, c)))

/-- The contacts of a group do not influence each other: the Delassus matrix J W Jᵀ has no entries between them. -/
def Decoupled (D : Data K 4 M) (ks : List (Fin K)) : Prop :=
  ∀ k ∈ ks, ∀ l ∈ ks, k ≠ l → ∀ c d, (D.J * D.WJT) (k, c) (l, d) = 0

theorem exactBlock_apply {β : Type} (D : Data K 4 M) (friction : V3 → β → ℝ → V3) (mu : Fin K → β)
    (r x : Fin K × Fin 4 → ℝ) (k : Fin K) (q : Fin K × Fin 4) :
    exactBlock D (contactProx friction mu) r x k q = if q.1 = k then exactNew D friction mu r x k q.2 else x q := rfl

theorem residual_unchanged (D : Data K 4 M) (x y : Fin K × Fin 4 → ℝ) (k l : Fin K)
    (h : ∀ c d, (D.J * D.WJT) (l, c) (k, d) = 0) (hxy : ∀ q : Fin K × Fin 4, q.1 ≠ k → y q = x q) (c : Fin 4) :
    ((D.J * D.WJT) *ᵥ y) (l, c) = ((D.J * D.WJT) *ᵥ x) (l, c) := by
  simp only [Matrix.mulVec, dotProduct]
  apply Finset.sum_congr rfl
  rintro ⟨j, d⟩ _
  by_cases hj : j = k
  · subst hj; rw [h]; ring
  · rw [hxy (j, d) hj]

theorem exactFold_apply {β : Type} (D : Data K 4 M) (friction : V3 → β → ℝ → V3) (mu : Fin K → β)
    (r x : Fin K × Fin 4 → ℝ) (ks : List (Fin K)) (hn : ks.Nodup) (hd : Decoupled D ks) (q : Fin K × Fin 4) :
    ks.foldl (exactBlock D (contactProx friction mu) r) x q =
      if q.1 ∈ ks then exactNew D friction mu r x q.1 q.2 else x q := by
  induction ks generalizing x with
  | nil => simp
  | cons k ks ih =>
    rw [List.nodup_cons] at hn
    rw [List.foldl_cons, ih _ hn.2 (fun a ha b hb => hd a (List.mem_cons_of_mem _ ha) b (List.mem_cons_of_mem _ hb))]
    by_cases hq : q.1 ∈ ks
    · rw [if_pos hq, if_pos (List.mem_cons_of_mem _ hq)]
      have hne : q.1 ≠ k := by rintro rfl; exact hn.1 hq
      unfold exactNew
      congr 1
      funext c
      rw [residual_unchanged D x _ k q.1]
      · rw [exactBlock_apply, if_neg hne]
      · exact hd q.1 (List.mem_cons_of_mem _ hq) k List.mem_cons_self hne
      · intro p hp
        rw [exactBlock_apply, if_neg hp]
    · rw [if_neg hq, exactBlock_apply]
      by_cases hk : q.1 = k
      · rw [if_pos hk, if_pos (by rw [hk]; exact List.mem_cons_self), hk]
      · rw [if_neg hk, if_neg (by simp [hk, hq])]

/-- What a worker computes for contact k from the shared w. -/
noncomputable def workerNew {β : Type} (D : Data K 4 M) (friction : V3 → β → ℝ → V3) (mu : Fin K → β)
    (r : Fin K × Fin 4 → ℝ) (w : M → ℝ) (x : Fin K × Fin 4 → ℝ) (k : Fin K) : Fin 4 → ℝ :=
  contactProx friction mu k (fun c => x (k, c) - r (k, c) * ((D.J *ᵥ w) (k, c) + D.b (k, c)))

theorem workerFold_apply {β : Type} (D : Data K 4 M) (friction : V3 → β → ℝ → V3) (mu : Fin K → β)
    (r : Fin K × Fin 4 → ℝ) (w : M → ℝ) (ks : List (Fin K)) (hn : ks.Nodup)
    (s : (Fin K × Fin 4 → ℝ) × (Fin K → M → ℝ)) :
    (∀ q, (ks.foldl (workerTrip D friction mu r w) s).1 q =
      if q.1 ∈ ks then workerNew D friction mu r w s.1 q.1 q.2 else s.1 q) ∧
    (∀ k, (ks.foldl (workerTrip D friction mu r w) s).2 k =
      if k ∈ ks then blockDot D k (fun c => workerNew D friction mu r w s.1 k c - s.1 (k, c)) else s.2 k) := by
  induction ks generalizing s with
  | nil => simp
  | cons k ks ih =>
    rw [List.nodup_cons] at hn
    rw [List.foldl_cons]
    obtain ⟨h1, h2⟩ := ih hn.2 (workerTrip D friction mu r w s k)
    have hx : ∀ q, (workerTrip D friction mu r w s k).1 q =
        if q.1 = k then workerNew D friction mu r w s.1 k q.2 else s.1 q := fun q => rfl
    have hw : ∀ j, (workerTrip D friction mu r w s k).2 j =
        if j = k then blockDot D k (fun c => workerNew D friction mu r w s.1 k c - s.1 (k, c)) else s.2 j := by
      intro j
      unfold workerTrip
      by_cases h : j = k
      · subst h; simp [workerNew]
      · simp [h]
    have hnew : ∀ j, j ≠ k → workerNew D friction mu r w (workerTrip D friction mu r w s k).1 j =
        workerNew D friction mu r w s.1 j := by
      intro j hj
      unfold workerNew
      congr 1
      funext c
      rw [hx, if_neg hj]
    constructor
    · intro q
      rw [h1]
      by_cases hq : q.1 ∈ ks
      · have hne : q.1 ≠ k := by rintro rfl; exact hn.1 hq
        rw [if_pos hq, if_pos (List.mem_cons_of_mem _ hq), hnew q.1 hne]
      · rw [if_neg hq, hx]
        by_cases hk : q.1 = k
        · rw [if_pos hk, if_pos (by rw [hk]; exact List.mem_cons_self), hk]
        · rw [if_neg hk, if_neg (by simp [hk, hq])]
    · intro j
      rw [h2]
      by_cases hj : j ∈ ks
      · have hne : j ≠ k := by rintro rfl; exact hn.1 hj
        rw [if_pos hj, if_pos (List.mem_cons_of_mem _ hj), hnew j hne]
        congr 1
        funext c
        rw [hx, if_neg hne]
      · rw [if_neg hj, hw]
        by_cases hk : j = k
        · rw [if_pos hk, if_pos (by rw [hk]; exact List.mem_cons_self), hk]
        · rw [if_neg hk, if_neg (by simp [hk, hj])]

/-- The result of a colour group does not depend on the order (schedule) in which its contacts are processed. -/
theorem C39_schedule_irrelevant {β : Type} (D : Data K 4 M) (friction : V3 → β → ℝ → V3) (mu : Fin K → β)
    (r : Fin K × Fin 4 → ℝ) (w : M → ℝ) (ks ks' : List (Fin K)) (hn : ks.Nodup) (hp : ks'.Perm ks)
    (s : (Fin K × Fin 4 → ℝ) × (Fin K → M → ℝ)) :
    ks'.foldl (workerTrip D friction mu r w) s = ks.foldl (workerTrip D friction mu r w) s := by
  obtain ⟨a1, a2⟩ := workerFold_apply D friction mu r w ks hn s
  obtain ⟨b1, b2⟩ := workerFold_apply D friction mu r w ks' (hp.nodup_iff.2 hn) s
  apply Prod.ext
  · funext q
    rw [a1, b1]
    simp only [hp.mem_iff]
  · funext k
    rw [a2, b2]
    simp only [hp.mem_iff]

/-- A group whose contacts do not influence each other: processing it in parallel from the exact velocity W Jᵀ x gives
what processing its contacts one after the other, in any order, each with the residual of the current forces, gives. -/
theorem C39_parallel_group {β : Type} (D : Data K 4 M) (friction : V3 → β → ℝ → V3) (mu : Fin K → β)
    (r x : Fin K × Fin 4 → ℝ) (dws : Fin K → M → ℝ) (ks ks' : List (Fin K)) (hn : ks.Nodup) (hd : Decoupled D ks)
    (hp : ks'.Perm ks) :
    (ks.foldl (workerTrip D friction mu r (D.WJT *ᵥ x)) (x, dws)).1 =
      ks'.foldl (exactBlock D (contactProx friction mu) r) x := by
  funext q
  have hd' : Decoupled D ks' := by
    intro k hk l hl
    exact hd k (hp.mem_iff.1 hk) l (hp.mem_iff.1 hl)
  rw [(workerFold_apply D friction mu r _ ks hn (x, dws)).1, exactFold_apply D friction mu r x ks' (hp.nodup_iff.2 hn) hd']
  simp only [hp.mem_iff]
  have : ∀ k, workerNew D friction mu r (D.WJT *ᵥ x) x k = exactNew D friction mu r x k := by
    intro k
    unfold workerNew exactNew
    simp only [Matrix.mulVec_mulVec]
  rw [this]

/-! ### The velocity used by `ParallelGaussSeidelSolver` -/

theorem mulVec_change (D : Data K 4 M) (x y : Fin K × Fin 4 → ℝ) :
    D.WJT *ᵥ y = D.WJT *ᵥ x + ∑ k, blockDot D k (fun c => y (k, c) - x (k, c)) := by
  funext i
  simp only [Matrix.mulVec, dotProduct, Pi.add_apply, Finset.sum_apply, blockDot]
  rw [Fintype.sum_prod_type, Fintype.sum_prod_type, ← Finset.sum_add_distrib]
  apply Finset.sum_congr rfl
  intro k _
  rw [← Finset.sum_add_distrib]
  apply Finset.sum_congr rfl
  intro c _
  ring

/-- The state of a sweep after some groups: forces and delta_ws. -/
noncomputable def afterGroups {β : Type} (D : Data K 4 M) (friction : V3 → β → ℝ → V3) (mu : Fin K → β)
    (groups : List (Fin K × List (Fin K))) (r x : Fin K × Fin 4 → ℝ) : (Fin K × Fin 4 → ℝ) × (Fin K → M → ℝ) :=
  groups.foldl (fun s g => g.2.foldl (workerTrip D friction mu r (groupW (D.WJT *ᵥ x) s.2 g.1)) s) (x, fun _ => 0)

theorem afterGroups_ws {β : Type} (D : Data K 4 M) (friction : V3 → β → ℝ → V3) (mu : Fin K → β)
    (groups : List (Fin K × List (Fin K))) (r x : Fin K × Fin 4 → ℝ) (hn : (groups.flatMap Prod.snd).Nodup) :
    (∀ k, (afterGroups D friction mu groups r x).2 k =
      blockDot D k (fun c => (afterGroups D friction mu groups r x).1 (k, c) - x (k, c))) ∧
    (∀ q, q.1 ∉ groups.flatMap Prod.snd → (afterGroups D friction mu groups r x).1 q = x q) := by
  induction groups using List.reverseRecOn with
  | nil => exact ⟨fun k => by funext i; simp [afterGroups, blockDot], fun q _ => rfl⟩
  | append_singleton gs g ih =>
    rw [List.flatMap_append] at hn
    obtain ⟨h1, h2⟩ := ih (List.Nodup.of_append_left hn)
    have hg : g.2.Nodup := by
      have := List.Nodup.of_append_right hn
      simpa using this
    have hdisj : ∀ k ∈ g.2, k ∉ gs.flatMap Prod.snd := by
      intro k hk hk'
      rw [List.nodup_append] at hn
      exact hn.2.2 k hk' k (by simpa using hk) rfl
    have hfold : afterGroups D friction mu (gs ++ [g]) r x = g.2.foldl (workerTrip D friction mu r
        (groupW (D.WJT *ᵥ x) (afterGroups D friction mu gs r x).2 g.1)) (afterGroups D friction mu gs r x) := by
      unfold afterGroups
      rw [List.foldl_append]
      rfl
    obtain ⟨a1, a2⟩ := workerFold_apply D friction mu r
      (groupW (D.WJT *ᵥ x) (afterGroups D friction mu gs r x).2 g.1) g.2 hg (afterGroups D friction mu gs r x)
    rw [hfold]
    constructor
    · intro k
      rw [a2]
      by_cases hk : k ∈ g.2
      · rw [if_pos hk]
        congr 1
        funext c
        rw [a1, if_pos hk, h2 (k, c) (hdisj k hk)]
      · rw [if_neg hk, h1]
        congr 1
        funext c
        rw [a1, if_neg hk]
    · intro q hq
      rw [List.flatMap_append, List.mem_append, not_or] at hq
      rw [a1, if_neg (by simpa using hq.2), h2 q hq.1]

/-- The velocity vector a colour group works with is the exact W Jᵀ x *minus* the contributions of all contacts
processed earlier in the sweep whose number is not below the group's first contact. -/
theorem C38_parallel_velocity {β : Type} (D : Data K 4 M) (friction : V3 → β → ℝ → V3) (mu : Fin K → β)
    (groups : List (Fin K × List (Fin K))) (r x : Fin K × Fin 4 → ℝ) (hn : (groups.flatMap Prod.snd).Nodup)
    (first : Fin K) :
    groupW (D.WJT *ᵥ x) (afterGroups D friction mu groups r x).2 first =
      D.WJT *ᵥ (afterGroups D friction mu groups r x).1 -
        ∑ k ∈ Finset.univ.filter (fun k => first ≤ k),
          blockDot D k (fun c => (afterGroups D friction mu groups r x).1 (k, c) - x (k, c)) := by
  obtain ⟨h1, -⟩ := afterGroups_ws D friction mu groups r x hn
  unfold groupW
  rw [mulVec_change D x (afterGroups D friction mu groups r x).1]
  rw [Finset.sum_congr rfl (fun k _ => h1 k)]
  rw [← Finset.sum_filter_add_sum_filter_not Finset.univ (fun k => k < first)]
  simp only [not_lt]
  abel

/-- So a sweep is exact whenever each group's first contact comes after all contacts processed before: then it equals
the sequential sweep, group by group, with exact residuals. -/
theorem C38_parallel_exact_if {β : Type} (D : Data K 4 M) (friction : V3 → β → ℝ → V3) (mu : Fin K → β)
    (groups : List (Fin K × List (Fin K))) (r x : Fin K × Fin 4 → ℝ) (hn : (groups.flatMap Prod.snd).Nodup)
    (hd : ∀ g ∈ groups, Decoupled D g.2)
    (hord : ∀ pre g post, groups = pre ++ g :: post → ∀ k ∈ pre.flatMap Prod.snd, k < g.1) :
    parallelSweep D friction mu groups r x =
      (groups.flatMap Prod.snd).foldl (exactBlock D (contactProx friction mu) r) x := by
  change (afterGroups D friction mu groups r x).1 = _
  induction groups using List.reverseRecOn with
  | nil => rfl
  | append_singleton gs g ih =>
    rw [List.flatMap_append] at hn
    have hn1 := List.Nodup.of_append_left hn
    have ih' := ih hn1 (fun g hg => hd g (List.mem_append_left _ hg)) (by
      intro pre g' post h
      exact hord pre g' (post ++ [g]) (by rw [h]; simp))
    have hfold : afterGroups D friction mu (gs ++ [g]) r x = g.2.foldl (workerTrip D friction mu r
        (groupW (D.WJT *ᵥ x) (afterGroups D friction mu gs r x).2 g.1)) (afterGroups D friction mu gs r x) := by
      unfold afterGroups
      rw [List.foldl_append]
      rfl
    have hw : groupW (D.WJT *ᵥ x) (afterGroups D friction mu gs r x).2 g.1 =
        D.WJT *ᵥ (afterGroups D friction mu gs r x).1 := by
      rw [C38_parallel_velocity D friction mu gs r x hn1, sub_eq_self]
      apply Finset.sum_eq_zero
      intro k hk
      rw [Finset.mem_filter] at hk
      have hnot : k ∉ gs.flatMap Prod.snd := by
        intro hmem
        have := hord gs g [] rfl k hmem
        exact absurd hk.2 (not_le.2 this)
      funext i
      simp only [blockDot, Pi.zero_apply]
      apply Finset.sum_eq_zero
      intro c _
      rw [(afterGroups_ws D friction mu gs r x hn1).2 (k, c) hnot]
      ring
    have hg : g.2.Nodup := by
      have := List.Nodup.of_append_right hn
      simpa using this
    rw [hfold, hw, List.flatMap_append, List.foldl_append, ← ih']
    have := C39_parallel_group D friction mu r (afterGroups D friction mu gs r x).1 (afterGroups D friction mu gs r x).2
      g.2 g.2 hg (hd g (List.mem_append_right _ List.mem_cons_self)) (List.Perm.refl _)
    simpa using this

/-- Three contacts in a row between four bodies of unit mass that move along a line. -/
noncomputable def chainData : Data 3 4 (Fin 4) where
  J := fun q i => if q.2 = 0 then !![-1, 1, 0, 0; 0, -1, 1, 0; 0, 0, -1, 1] q.1 i else 0
  WJT := fun i q => if q.2 = 0 then !![-1, 1, 0, 0; 0, -1, 1, 0; 0, 0, -1, 1] q.1 i else 0
  b := fun q => if q.2 = 0 ∧ q.1 ≠ 1 then -1 else 0

theorem prox_zero_mu (z : V3) (x_n : ℝ) : Prox.prox_sphere z 0 x_n = ⟨0, 0, 0⟩ := by
  have h := C34_prox_origin z 0 x_n
  rw [← h]; rfl

theorem chain_r : ∀ k, compute_initial_r_factor chainData (k, 0) = 1 / 20 := by
  intro k
  unfold compute_initial_r_factor ProxSolver.diag
  fin_cases k <;> simp [chainData, Fin.sum_univ_four, Fin.sum_univ_three] <;> norm_num

/-- The forces after the first group. -/
noncomputable def chainY : Fin 3 × Fin 4 → ℝ := fun q => if q.2 = 0 ∧ q.1 ≠ 1 then 1 / 20 else 0

theorem chain_new (r : Fin 3 × Fin 4 → ℝ) (hr : ∀ k, r (k, 0) = 1 / 20) (k : Fin 3) (hk : k ≠ 1) :
    contactProx Prox.prox_sphere (fun _ : Fin 3 => (0 : ℝ)) k
      (fun c => (0 : Fin 3 × Fin 4 → ℝ) (k, c) - r (k, c) * (0 + chainData.b (k, c))) = ![1 / 20, 0, 0, 0] := by
  unfold contactProx
  simp only [prox_zero_mu, hr]
  have hb : chainData.b (k, 0) = -1 := by simp [chainData, hk]
  rw [hb]
  norm_num

theorem chain_decoupled : Decoupled chainData [0, 2] := by
  intro k hk l hl hkl c d
  rw [Matrix.mul_apply]
  have h02 : ∀ c d, ∑ j, chainData.J (0, c) j * chainData.WJT j (2, d) = 0 := by
    intro c d; simp [chainData, Fin.sum_univ_four, Fin.sum_univ_three]
  have h20 : ∀ c d, ∑ j, chainData.J (2, c) j * chainData.WJT j (0, d) = 0 := by
    intro c d; simp [chainData, Fin.sum_univ_four, Fin.sum_univ_three]
  simp only [List.mem_cons, List.not_mem_nil, or_false] at hk hl
  rcases hk with rfl | rfl <;> rcases hl with rfl | rfl
  · exact absurd rfl hkl
  · exact h02 c d
  · exact h20 c d
  · exact absurd rfl hkl

theorem chain_first (r : Fin 3 × Fin 4 → ℝ) (hr : ∀ k, r (k, 0) = 1 / 20) (dws : Fin 3 → Fin 4 → ℝ) :
    ([0, 2].foldl (workerTrip chainData Prox.prox_sphere (fun _ => 0) r 0) (0, dws)).1 = chainY ∧
    ([0, 2].foldl (workerTrip chainData Prox.prox_sphere (fun _ => 0) r 0) (0, dws)).2 0 = ![-1 / 20, 1 / 20, 0, 0] := by
  obtain ⟨h1, h2⟩ := workerFold_apply chainData Prox.prox_sphere (fun _ => (0 : ℝ)) r 0 [0, 2] (by decide) (0, dws)
  have hnew : ∀ k : Fin 3, k ≠ 1 → workerNew chainData Prox.prox_sphere (fun _ => (0 : ℝ)) r 0 0 k = ![1 / 20, 0, 0, 0] := by
    intro k hk
    unfold workerNew
    rw [Matrix.mulVec_zero]
    exact chain_new r hr k hk
  constructor
  · funext ⟨k, c⟩
    rw [h1]
    obtain rfl | rfl | rfl : k = 0 ∨ k = 1 ∨ k = 2 := by decide +revert
    · rw [if_pos (by simp), hnew _ (by simp)]
      fin_cases c <;> simp [chainY]
    · rw [if_neg (by simp)]
      simp [chainY]
    · rw [if_pos (by simp), hnew _ (by simp)]
      fin_cases c <;> simp [chainY]
  · rw [h2, if_pos (by decide)]
    simp only [hnew 0 (by decide)]
    funext i
    unfold blockDot
    fin_cases i <;> simp [chainData, Fin.sum_univ_four, Fin.sum_univ_three] <;> norm_num

/-- C38 fails for `ParallelGaussSeidelSolver`: with the groups its own colouring produces for three contacts in a row,
and its own initial r-factors, the second group does not see the velocity change caused by contact 2, and the sweep is
not the sequential one in the order of the groups. -/
theorem C38_parallel_stale : ∃ groups : List (Fin 3 × List (Fin 3)),
    (groups.map fun g => g.2.map fun k => (4 * k.val, 4 * k.val + 4)) =
      (Blocking.greedy_graph_coloring (Blocking.build_contact_graph_rigid [⟨0, 1⟩, ⟨1, 2⟩, ⟨2, 3⟩])).values ∧
    (∀ g ∈ groups, g.2.head? = some g.1) ∧ (∀ g ∈ groups, Decoupled chainData g.2) ∧
    chainData.WJT = chainData.Jᵀ ∧
    parallelSweep chainData Prox.prox_sphere (fun _ => 0) groups (compute_initial_r_factor chainData) 0 ≠
      (groups.flatMap Prod.snd).foldl
        (exactBlock chainData (contactProx Prox.prox_sphere (fun _ => 0)) (compute_initial_r_factor chainData)) 0 := by
  refine ⟨[(0, [0, 2]), (1, [1])], ?_, by simp, ?_, ?_, ?_⟩
  · rw [C39_chain_groups]; rfl
  · intro g hg
    simp only [List.mem_cons, List.not_mem_nil, or_false] at hg
    rcases hg with rfl | rfl
    · exact chain_decoupled
    · intro k hk l hl hkl
      simp only [List.mem_cons, List.not_mem_nil, or_false] at hk hl
      exact absurd (hk.trans hl.symm) hkl
  · funext i q; rfl
  · have hr := chain_r
    generalize compute_initial_r_factor chainData = r at *
    intro heq
    have h := congrFun heq (1, 0)
    have hw0 : groupW (chainData.WJT *ᵥ (0 : Fin 3 × Fin 4 → ℝ)) (fun _ : Fin 3 => (0 : Fin 4 → ℝ)) 0 = 0 := by
      unfold groupW
      rw [Matrix.mulVec_zero]
      simp
    have e1 : parallelSweep chainData Prox.prox_sphere (fun _ => 0) [(0, [0, 2]), (1, [1])] r 0 (1, 0) = 1 / 400 := by
      unfold parallelSweep
      simp only [List.foldl_cons, List.foldl_nil]
      rw [show (fun _ : Fin 3 => (0 : Fin 4 → ℝ)) = (fun _ => 0) from rfl] at hw0
      rw [hw0]
      obtain ⟨f1, f2⟩ := chain_first r hr (fun _ => 0)
      simp only [List.foldl_cons, List.foldl_nil] at f1 f2
      generalize workerTrip chainData Prox.prox_sphere (fun _ => (0 : ℝ)) r 0
        (workerTrip chainData Prox.prox_sphere (fun _ => (0 : ℝ)) r 0 (0, fun _ => 0) 0) 2 = s at *
      obtain ⟨sx, sw⟩ := s
      simp only at f1 f2
      subst f1
      have hw1 : groupW (chainData.WJT *ᵥ (0 : Fin 3 × Fin 4 → ℝ)) sw 1 = ![-1 / 20, 1 / 20, 0, 0] := by
        unfold groupW
        rw [Matrix.mulVec_zero, zero_add, show (Finset.univ.filter fun i : Fin 3 => i < 1) = {0} by decide,
          Finset.sum_singleton, f2]
      rw [hw1]
      simp only [workerTrip, setBlock, if_true, contactProx, hr]
      simp [chainY, chainData, Matrix.mulVec, dotProduct, Fin.sum_univ_four, Fin.sum_univ_three]
      norm_num
    have e2 : ([((0 : Fin 3), [(0 : Fin 3), 2]), (1, [1])].flatMap Prod.snd).foldl
        (exactBlock chainData (contactProx Prox.prox_sphere (fun _ => 0)) r) 0 ((1 : Fin 3), (0 : Fin 4)) = 1 / 200 := by
      have hfl : ([((0 : Fin 3), [(0 : Fin 3), 2]), (1, [1])].flatMap Prod.snd) = [0, 2] ++ [1] := rfl
      rw [hfl, List.foldl_append]
      have hy : [0, 2].foldl (exactBlock chainData (contactProx Prox.prox_sphere (fun _ => 0)) r) 0 = chainY := by
        rw [← C39_parallel_group chainData Prox.prox_sphere (fun _ => (0 : ℝ)) r 0 (fun _ => 0) [0, 2] [0, 2] (by decide)
          chain_decoupled (List.Perm.refl _), Matrix.mulVec_zero]
        exact (chain_first r hr _).1
      rw [hy]
      simp only [List.foldl_cons, List.foldl_nil, exactBlock, if_true, contactProx, hr, ← Matrix.mulVec_mulVec]
      have hw : chainData.WJT *ᵥ chainY = ![-1 / 20, 1 / 20, -1 / 20, 1 / 20] := by
        funext i
        simp only [Matrix.mulVec, dotProduct, Fintype.sum_prod_type]
        fin_cases i <;> simp [chainData, chainY, Fin.sum_univ_four, Fin.sum_univ_three] <;> norm_num
      rw [hw]
      simp [chainY, chainData, Matrix.mulVec, dotProduct, Fin.sum_univ_four, Fin.sum_univ_three]
      norm_num
    rw [e1, e2] at h
    norm_num at h

end Verif
