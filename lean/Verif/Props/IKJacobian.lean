import Verif.Props.IKMotion

/-! Property C59: the Jacobian, the gradient and the objective of inverse kinematics. -/

namespace Verif

open IK

/-! ### Specification -/

namespace IK

/-- A component of a vector: 0, 1, 2 for x, y, z. -/
def comp3 (v : V3) (n : ℕ) : ℝ := if n = 0 then v.x else if n = 1 then v.y else v.z

/-- The vector function f has the derivative v at t. -/
def HasDerivV (f : ℝ → V3) (v : V3) (t : ℝ) : Prop :=
  HasDerivAt (fun t => (f t).x) v.x t ∧ HasDerivAt (fun t => (f t).y) v.y t ∧ HasDerivAt (fun t => (f t).z) v.z t

/-- The program "set angle i to θ, update the skeleton, read the end effector of a chain". -/
noncomputable def endAt (limit : ℕ) (S : Skeleton) (c : Chain) (i : ℕ) (θ : ℝ) : Except PyErr V3 := do
  let S ← set_angle i θ S
  let S ← update_skeleton limit S
  get_end_effector c S

/-- The program "set angle i to θ, update the skeleton, compute the objective". -/
noncomputable def objAt (limit : ℕ) (S : Skeleton) (cs : List Chain) (i : ℕ) (θ : ℝ) : Except PyErr ℝ := do
  let S ← set_angle i θ S
  let S ← update_skeleton limit S
  compute_objective cs S

/-! ### Proofs -/

theorem rotate_rot (a : Axis) (x : ℝ) (w : V3) : Quat.rotate (a.rot x) w =
    match a with
    | .X => ⟨w.x, Real.cos x * w.y - Real.sin x * w.z, Real.sin x * w.y + Real.cos x * w.z⟩
    | .Y => ⟨Real.cos x * w.x + Real.sin x * w.z, w.y, Real.cos x * w.z - Real.sin x * w.x⟩
    | .Z => ⟨Real.cos x * w.x - Real.sin x * w.y, Real.sin x * w.x + Real.cos x * w.y, w.z⟩ := by
  have h1 := Real.cos_sq_add_sin_sq (x / 2)
  have h2 : Real.cos x = Real.cos (x / 2) ^ 2 - Real.sin (x / 2) ^ 2 := by rw [← Real.cos_two_mul']; congr 1; ring
  have h3 : Real.sin x = 2 * Real.sin (x / 2) * Real.cos (x / 2) := by rw [← Real.sin_two_mul]; congr 1; ring
  rw [h2, h3]
  cases a <;> simp only [Axis.rot, Quat.Rx, Quat.Ry, Quat.Rz, Quat.rotate, Quat.prod, Quat.vec, Quat.conjugate]
  all_goals
    clear h2 h3
    generalize Real.cos (x / 2) = c at *
    generalize Real.sin (x / 2) = s at *
    refine V3.ext ?_ ?_ ?_ <;> simp [V3.dot, V3.cross]
  all_goals first | (ring; done) | (linear_combination w.x * h1) | (linear_combination w.y * h1) | (linear_combination w.z * h1)

theorem rot_deriv (a : Axis) (w : V3) (t0 : ℝ) : HasDerivV (fun t => Quat.rotate (a.rot (t - t0)) w) (V3.cross a.vec w) t0 := by
  have hc : HasDerivAt (fun t => Real.cos (t - t0)) 0 t0 := by
    have := ((hasDerivAt_id t0).sub_const t0).cos
    simpa using this
  have hs : HasDerivAt (fun t => Real.sin (t - t0)) 1 t0 := by
    have := ((hasDerivAt_id t0).sub_const t0).sin
    simpa using this
  simp only [rotate_rot]
  cases a <;> simp only [Axis.vec, V3.i, V3.j, V3.k, V3.cross, HasDerivV]
  · exact ⟨(hasDerivAt_const t0 w.x).congr_deriv (by ring), ((hc.mul_const w.y).sub (hs.mul_const w.z)).congr_deriv (by ring),
      ((hs.mul_const w.y).add (hc.mul_const w.z)).congr_deriv (by ring)⟩
  · exact ⟨((hc.mul_const w.x).add (hs.mul_const w.z)).congr_deriv (by ring), (hasDerivAt_const t0 w.y).congr_deriv (by ring),
      ((hc.mul_const w.z).sub (hs.mul_const w.x)).congr_deriv (by ring)⟩
  · exact ⟨((hc.mul_const w.x).sub (hs.mul_const w.y)).congr_deriv (by ring), ((hs.mul_const w.x).add (hc.mul_const w.y)).congr_deriv (by ring),
      (hasDerivAt_const t0 w.z).congr_deriv (by ring)⟩

theorem HasDerivV.rotate {f : ℝ → V3} {v : V3} {t : ℝ} (q : Quat) (h : HasDerivV f v t) :
    HasDerivV (fun t => Quat.rotate q (f t)) (Quat.rotate q v) t := by
  have hlin : ∀ w : V3, Quat.rotate q w = w.x • Quat.rotate q V3.i + w.y • Quat.rotate q V3.j + w.z • Quat.rotate q V3.k := by
    intro w
    rw [← (C02_rotate_linear q w.x V3.i 0).2, ← (C02_rotate_linear q w.y V3.j 0).2, ← (C02_rotate_linear q w.z V3.k 0).2,
      ← (C02_rotate_linear q 0 _ _).1, ← (C02_rotate_linear q 0 _ _).1]
    congr 1
    refine V3.ext ?_ ?_ ?_ <;> simp [V3.i, V3.j, V3.k]
  obtain ⟨h1, h2, h3⟩ := h
  have hf : (fun t => Quat.rotate q (f t)) = fun t => (f t).x • Quat.rotate q V3.i + (f t).y • Quat.rotate q V3.j + (f t).z • Quat.rotate q V3.k :=
    funext fun t => hlin (f t)
  rw [hf, hlin v]
  clear hf hlin
  generalize Quat.rotate q V3.i = a
  generalize Quat.rotate q V3.j = b
  generalize Quat.rotate q V3.k = c
  refine ⟨?_, ?_, ?_⟩
  · exact ((h1.mul_const a.x).add (h2.mul_const b.x)).add (h3.mul_const c.x)
  · exact ((h1.mul_const a.y).add (h2.mul_const b.y)).add (h3.mul_const c.y)
  · exact ((h1.mul_const a.z).add (h2.mul_const b.z)).add (h3.mul_const c.z)

theorem HasDerivV.const_add {f : ℝ → V3} {v : V3} {t : ℝ} (a : V3) (h : HasDerivV f v t) : HasDerivV (fun t => a + f t) v t :=
  ⟨h.1.const_add a.x, h.2.1.const_add a.y, h.2.2.const_add a.z⟩

/-- The world axis of angle o of bone b. -/
noncomputable def axisOf (S : Skeleton) (b : Bone) (o : ℕ) : V3 := Quat.rotate (b.before (parentQ S b) o) (b.letter o).vec

theorem before_unit {b : Bone} {q : Quat} (hq : IsUnitQ q) (o : ℕ) : IsUnitQ (b.before q o) := by
  unfold Bone.before
  split_ifs
  · exact hq
  · exact (C01_unit_group hq (rot_unit _ _)).1
  · exact (C01_unit_group (C01_unit_group hq (rot_unit _ _)).1 (rot_unit _ _)).1

theorem rotate_cross' {q : Quat} (h : IsUnitQ q) (a b : V3) : Quat.rotate q (V3.cross a b) = V3.cross (Quat.rotate q a) (Quat.rotate q b) := by
  apply V3.toFun_injective
  rw [C02_rotate_cross h, V3.toFun_cross]

theorem turn_deriv {S : Skeleton} {b : Bone} (hq : IsUnitQ (parentQ S b)) (o : ℕ) (w : V3) :
    HasDerivV (fun θ => Quat.rotate (turn S b o θ) w) (V3.cross (axisOf S b o) w) (b.angle o) := by
  unfold turn axisOf
  have hu := before_unit (b := b) hq o
  simp only [C02_rotate_prod]
  have := (rot_deriv (b.letter o) (Quat.rotate (Quat.conjugate (b.before (parentQ S b) o)) w) (b.angle o)).rotate (b.before (parentQ S b) o)
  rw [rotate_cross' hu, (C02_rotate_conjugate hu w).2] at this
  exact this

theorem chain_below {S : Skeleton} {j : ℕ} : ∀ (B : List ℕ) (k : ℕ), (k :: B).IsChain (fun a b => parentOf S b = some a) → (k :: B).getLast? = some j →
    Below S k j := by
  intro B
  induction B with
  | nil =>
    intro k _ h
    have : k = j := by simpa using h
    rw [this]
    exact Relation.ReflTransGen.refl
  | cons c B ih =>
    intro k h1 h2
    rw [List.isChain_cons_cons] at h1
    rw [List.getLast?_cons_cons] at h2
    exact Relation.ReflTransGen.head h1.1 (ih c h1.2 h2)

theorem path_mem {S : Skeleton} (hS : IsTree S) {L : List ℕ} {j : ℕ} (h : IsPath S L j) (k : ℕ) : k ∈ L ↔ Below S k j := by
  constructor
  · intro hk
    obtain ⟨A, B, rfl⟩ := List.append_of_mem hk
    refine chain_below B k (List.isChain_append.1 h.2.2).2.1 ?_
    have := h.2.1
    rw [List.getLast?_append] at this
    simpa using this
  · intro hk
    have hj : j ∈ L := List.mem_of_getLast? h.2.1
    have : ∀ m, Below S k m → m ∈ L → k ∈ L := by
      intro m hm
      induction hm with
      | refl => exact id
      | tail _ h1 ih => exact fun hm => ih (h.parent_mem hS hm h1)
    exact this j hk hj

theorem path_lt {S : Skeleton} (h0 : S ≠ []) {L : List ℕ} {j : ℕ} (h : IsPath S L j) : ∀ k ∈ L, k < S.length := by
  intro a ha
  obtain ⟨A, B, rfl⟩ := List.append_of_mem ha
  rcases List.eq_nil_or_concat A with rfl | ⟨A, p, rfl⟩
  · have := h.1
    simp at this
    rw [this]
    exact List.length_pos_iff.2 h0
  · have h2 := (List.isChain_append.1 h.2.2).2.2 p (by simp) a rfl
    obtain ⟨b, hb, -⟩ := parentOf_some.1 h2
    exact getElem?_lt hb

/-- The end effector of a chain that ends at a bone of the skeleton. -/
theorem end_effector_ok {S : Skeleton} {c : Chain} {j : ℕ} {b : Bone} (hl : c.bones.getLast? = some j) (hb : S[j]? = some b) :
    get_end_effector c S = .ok (b.t_wcs + Quat.rotate b.q_wcs c.tool) := by
  unfold get_end_effector
  rw [hl]
  dsimp only
  rw [getBone_ok.2 hb]
  rfl

/-- The end effector as a function of one angle. -/
theorem endAt_spec {S0 S : Skeleton} {limit : ℕ} (hS0 : IK.Built S0) (hu : update_skeleton limit S0 = .ok S) {k o : ℕ} {b : Bone} (hb : S[k]? = some b)
    (ho : o < 3) {c : Chain} {j : ℕ} (hc : IsPath S c.bones j) {e : V3} (he : get_end_effector c S = .ok e) (θ : ℝ) :
    endAt limit S c (k * 3 + o) θ = .ok (if k ∈ c.bones then b.t_wcs + Quat.rotate (turn S b o θ) (e - b.t_wcs) else e) := by
  have hS : IK.Built S := .update hS0 hu
  have hT := C56_tree hS
  have h0 : S ≠ [] := by rintro rfl; simp at hb
  obtain ⟨S', h1, -, hsh, h2, h3, -⟩ := moveTo_spec hS0 hu hb ho θ
  have hend : endAt limit S c (k * 3 + o) θ = get_end_effector c S' := by
    unfold moveTo at h1
    unfold endAt
    simp only [bind, Except.bind] at h1 ⊢
    cases hs : set_angle (k * 3 + o) θ S with
    | error err => rw [hs] at h1; cases h1
    | ok S1 =>
      rw [hs] at h1
      dsimp only at h1 ⊢
      rw [h1]
  rw [hend]
  have hjl := path_lt h0 hc j (List.mem_of_getLast? hc.2.1)
  have hj := List.getElem?_eq_getElem hjl
  have hj' := List.getElem?_eq_getElem (l := S') (i := j) (by rw [hsh.length]; exact hjl)
  rw [end_effector_ok hc.2.1 hj] at he
  injection he with he
  by_cases hk : k ∈ c.bones
  · rw [if_pos hk, end_effector_ok hc.2.1 hj']
    obtain ⟨e1, e2⟩ := h3 j _ _ ((path_mem hT hc k).1 hk) hj hj'
    rw [e1, e2, ← he, C02_rotate_prod, add_assoc, ← (C02_rotate_linear _ 0 _ _).1]
    congr 3
    abel
  · rw [if_neg hk]
    have := h2 j fun h => hk ((path_mem hT hc k).2 h)
    rw [this] at hj'
    rw [hj] at hj'
    rw [end_effector_ok hc.2.1 (this.trans hj), he]

/-! #### The Jacobian -/

/-- The column of the Jacobian of an end effector e for angle number i, if the bone is on the chain. -/
noncomputable def colVec (S : Skeleton) (e : V3) (i : ℕ) : V3 :=
  match S[i / 3]? with
  | none => 0
  | some b => V3.cross (axisOf S b (i % 3)) (e - b.t_wcs)

theorem worldAxes_eq (S : Skeleton) (b : Bone) : worldAxes b (parentQ S b) = (axisOf S b 0, axisOf S b 1, axisOf S b 2) := by
  unfold worldAxes axisOf Bone.before Bone.letter Bone.get_axis Bone.get_rotation_alpha Bone.get_rotation_beta Bone.get_rotation
  simp [C02_rotate_prod]

theorem setCol_apply (J : Array2) (row col : ℕ) (v : V3) (r c : ℕ) :
    setCol J row col v r c = if c = col ∧ row ≤ r ∧ r < row + 3 then comp3 v (r - row) else J r c := by
  unfold setCol comp3
  by_cases hc : c = col
  · rw [if_pos hc]
    by_cases h0 : r = row
    · rw [if_pos h0, if_pos ⟨hc, by omega, by omega⟩, if_pos (by omega)]
    · rw [if_neg h0]
      by_cases h1 : r = row + 1
      · rw [if_pos h1, if_pos ⟨hc, by omega, by omega⟩, if_neg (by omega), if_pos (by omega)]
      · rw [if_neg h1]
        by_cases h2 : r = row + 2
        · rw [if_pos h2, if_pos ⟨hc, by omega, by omega⟩, if_neg (by omega), if_neg (by omega)]
        · rw [if_neg h2, if_neg (by omega)]
  · rw [if_neg hc, if_neg fun h => hc h.1]

theorem jacobianBone_ok {S : Skeleton} (hS : IsTree S) (e : V3) (row : ℕ) (J : Array2) {idx : ℕ} (hi : idx < S.length) :
    jacobianBone S e row J idx = .ok fun r c => if c / 3 = idx ∧ row ≤ r ∧ r < row + 3 then comp3 (colVec S e c) (r - row) else J r c := by
  have hb := List.getElem?_eq_getElem hi
  obtain ⟨P, hP⟩ := parentPose_ok hS hb
  unfold jacobianBone
  simp only [bind, Except.bind]
  rw [getBone_ok.2 hb]
  dsimp only
  rw [hP]
  simp only [pure, Except.pure, Except.ok.injEq]
  rw [parentPose_snd hP, worldAxes_eq]
  dsimp only
  funext r c
  simp only [setCol_apply]
  by_cases hc : c / 3 = idx
  · have hcol : ∀ o, c % 3 = o → colVec S e c = V3.cross (axisOf S S[idx] o) (e - (S[idx]).t_wcs) := by
      intro o ho
      unfold colVec
      rw [hc, hb, ho]
    have h3 : c % 3 = 0 ∨ c % 3 = 1 ∨ c % 3 = 2 := by omega
    rcases h3 with h | h | h
    · have e0 : c = idx * 3 := by omega
      rw [if_neg (by omega), if_neg (by omega), hcol 0 h]
      simp only [e0, hc, true_and, Nat.add_zero]
      have : idx * 3 / 3 = idx := by omega
      simp [this]
    · have e0 : c = idx * 3 + 1 := by omega
      rw [if_neg (by omega : ¬ (c = idx * 3 + 2 ∧ row ≤ r ∧ r < row + 3)), hcol 1 h]
      simp only [e0]
      have : (idx * 3 + 1) / 3 = idx := by omega
      simp [this]
    · have e0 : c = idx * 3 + 2 := by omega
      rw [hcol 2 h]
      simp only [e0]
      have : (idx * 3 + 2) / 3 = idx := by omega
      simp [this]
  · rw [if_neg (by omega), if_neg (by omega), if_neg (by omega), if_neg (by omega)]

theorem jacobianChain_loop {S : Skeleton} (hS : IsTree S) (e : V3) (row : ℕ) (L : List ℕ) (hL : ∀ k ∈ L, k < S.length) (J : Array2) :
    L.foldlM (jacobianBone S e row) J = .ok fun r c => if c / 3 ∈ L ∧ row ≤ r ∧ r < row + 3 then comp3 (colVec S e c) (r - row) else J r c := by
  induction L generalizing J with
  | nil => simp [pure, Except.pure]
  | cons k L ih =>
    simp only [List.foldlM_cons, bind, Except.bind]
    rw [jacobianBone_ok hS e row J (hL k List.mem_cons_self)]
    dsimp only
    rw [ih fun k hk => hL k (List.mem_cons_of_mem _ hk)]
    congr 1
    funext r c
    by_cases hr : row ≤ r ∧ r < row + 3
    · by_cases h1 : c / 3 ∈ L
      · rw [if_pos ⟨h1, hr⟩, if_pos ⟨List.mem_cons_of_mem _ h1, hr⟩]
      · rw [if_neg fun h => h1 h.1]
        by_cases h2 : c / 3 = k
        · rw [if_pos ⟨h2, hr⟩, if_pos ⟨by rw [h2]; exact List.mem_cons_self, hr⟩]
        · rw [if_neg fun h => h2 h.1, if_neg fun h => (List.mem_cons.1 h.1).elim h2 h1]
    · rw [if_neg fun h => hr h.2, if_neg fun h => hr h.2, if_neg fun h => hr h.2]

/-- The end effector of a chain. -/
noncomputable def endOf (S : Skeleton) (c : Chain) : V3 :=
  match get_end_effector c S with
  | .ok e => e
  | .error _ => 0

/-- The chain is a path of the skeleton. -/
def GoodChain (S : Skeleton) (c : Chain) : Prop := ∃ j, IsPath S c.bones j

theorem endOf_ok {S : Skeleton} (h0 : S ≠ []) {c : Chain} (hc : GoodChain S c) : get_end_effector c S = .ok (endOf S c) := by
  obtain ⟨j, hj⟩ := hc
  have hjl := path_lt h0 hj j (List.mem_of_getLast? hj.2.1)
  have := end_effector_ok hj.2.1 (List.getElem?_eq_getElem hjl)
  unfold endOf
  rw [this]

theorem jacobian_loop {S : Skeleton} (hS : IsTree S) (h0 : S ≠ []) (cs : List Chain) (hcs : ∀ c ∈ cs, GoodChain S c) (J : Array2) (m : ℕ) :
    ∃ J', cs.foldlM (jacobianChain S) (J, m * 3) = .ok (J', (m + cs.length) * 3) ∧
      ∀ r i, J' r i = match (if r < m * 3 then none else cs[r / 3 - m]?) with
        | none => J r i
        | some c => if i / 3 ∈ c.bones then comp3 (colVec S (endOf S c) i) (r % 3) else J r i := by
  induction cs generalizing J m with
  | nil =>
    refine ⟨J, rfl, fun r i => ?_⟩
    split_ifs <;> simp
  | cons c cs ih =>
    have hc := hcs c List.mem_cons_self
    obtain ⟨j, hj⟩ := hc
    obtain ⟨J', h1, h2⟩ := ih (fun c hc => hcs c (List.mem_cons_of_mem _ hc))
      (fun r i => if i / 3 ∈ c.bones ∧ m * 3 ≤ r ∧ r < m * 3 + 3 then comp3 (colVec S (endOf S c) i) (r - m * 3) else J r i) (m + 1)
    refine ⟨J', ?_, fun r i => ?_⟩
    · simp only [List.foldlM_cons, bind, Except.bind]
      have : jacobianChain S (J, m * 3) c = .ok (fun r i => if i / 3 ∈ c.bones ∧ m * 3 ≤ r ∧ r < m * 3 + 3 then
          comp3 (colVec S (endOf S c) i) (r - m * 3) else J r i, (m + 1) * 3) := by
        unfold jacobianChain
        simp only [bind, Except.bind]
        rw [endOf_ok h0 ⟨j, hj⟩]
        dsimp only
        rw [jacobianChain_loop hS _ _ _ (path_lt h0 hj)]
        simp only [pure, Except.pure]
        congr 2
        omega
      rw [this]
      dsimp only
      rw [h1, List.length_cons]
      congr 2
      omega
    · rw [h2]
      by_cases h3 : r < m * 3
      · rw [if_pos h3, if_pos (by omega)]
        dsimp only
        rw [if_neg (by omega)]
      · rw [if_neg h3]
        by_cases h4 : r < (m + 1) * 3
        · rw [if_pos h4]
          have : r / 3 - m = 0 := by omega
          rw [this]
          dsimp only [List.getElem?_cons_zero]
          have hmod : r - m * 3 = r % 3 := by omega
          rw [hmod]
          by_cases h5 : i / 3 ∈ c.bones
          · rw [if_pos h5, if_pos ⟨h5, by omega, by omega⟩]
          · rw [if_neg h5, if_neg fun h => h5 h.1]
        · rw [if_neg h4]
          have : r / 3 - m = (r / 3 - (m + 1)) + 1 := by omega
          rw [this, List.getElem?_cons_succ]
          cases cs[r / 3 - (m + 1)]? with
          | none =>
            dsimp only
            rw [if_neg (by omega)]
          | some c' =>
            dsimp only
            rw [if_neg (by omega : ¬ (i / 3 ∈ c.bones ∧ m * 3 ≤ r ∧ r < m * 3 + 3))]

/-- The value of `compute_jacobian`. -/
theorem jacobian_ok {S : Skeleton} (hS : IsTree S) (h0 : S ≠ []) (cs : List Chain) (hcs : ∀ c ∈ cs, GoodChain S c) :
    ∃ J, compute_jacobian cs S = .ok J ∧ ∀ r i, J r i = match cs[r / 3]? with
      | none => 0
      | some c => if i / 3 ∈ c.bones then comp3 (colVec S (endOf S c) i) (r % 3) else 0 := by
  obtain ⟨J, h1, h2⟩ := jacobian_loop hS h0 cs hcs (fun _ _ => 0) 0
  refine ⟨J, ?_, fun r i => ?_⟩
  · unfold compute_jacobian
    simp only [bind, Except.bind]
    rw [Nat.zero_mul] at h1
    rw [h1]
    rfl
  · rw [h2]
    simp

end IK

/-- **C59** (exact motion). After an update, setting one angle to θ and updating again turns the end effector of every chain through that bone about the
world axis of that angle through the joint, by the change of the angle, and moves no other end effector: the orientation of the turn is
A R(θ - θ₀) A⁻¹, where R is the elementary rotation of the Euler letter and A the frame before that letter. -/
theorem C59_motion {S0 S : Skeleton} {limit : ℕ} (hS0 : IK.Built S0) (hu : update_skeleton limit S0 = .ok S) {k o : ℕ} {b : Bone} (hb : S[k]? = some b)
    (ho : o < 3) {c : Chain} {j : ℕ} (hc : IsPath S c.bones j) : ∃ e, get_end_effector c S = .ok e ∧ ∃ A : Quat, IsUnitQ A ∧ ∀ θ,
      endAt limit S c (k * 3 + o) θ = .ok (if k ∈ c.bones then
        b.t_wcs + Quat.rotate A (Quat.rotate ((b.letter o).rot (θ - b.angle o)) (Quat.rotate (Quat.conjugate A) (e - b.t_wcs))) else e) := by
  have hS : IK.Built S := .update hS0 hu
  have hT := C56_tree hS
  have h0 : S ≠ [] := by rintro rfl; simp at hb
  have hpos := (C57_update hS0 hu).2
  refine ⟨_, endOf_ok h0 ⟨j, hc⟩, b.before (parentQ S b) o, before_unit (parentQ_unit hT hpos b) o, fun θ => ?_⟩
  rw [endAt_spec hS0 hu hb ho hc (endOf_ok h0 ⟨j, hc⟩), turn, C02_rotate_prod, C02_rotate_prod]

/-- **C59** (Jacobian). After an update, for every list of chains that are paths of the skeleton, `compute_jacobian` succeeds and the three rows of a chain
hold, in the column of each joint angle, the derivative of that chain's end effector with respect to the angle (all others fixed); the column is zero, and
the end effector does not move at all, if the bone is not on the chain. -/
theorem C59_jacobian {S0 S : Skeleton} {limit : ℕ} (hS0 : IK.Built S0) (hu : update_skeleton limit S0 = .ok S) (cs : List Chain)
    (hcs : ∀ c ∈ cs, ∃ j, IsPath S c.bones j) : ∃ J, compute_jacobian cs S = .ok J ∧
    ∀ (m : ℕ) (c : Chain) (i : ℕ), cs[m]? = some c → i < S.length * 3 → ∃ (θ₀ : ℝ) (E : ℝ → V3), get_angle i S = .ok θ₀ ∧
      (∀ θ, endAt limit S c i θ = .ok (E θ)) ∧ get_end_effector c S = .ok (E θ₀) ∧
      HasDerivV E ⟨J (m * 3) i, J (m * 3 + 1) i, J (m * 3 + 2) i⟩ θ₀ ∧
      (i / 3 ∉ c.bones → (∀ θ, E θ = E θ₀) ∧ J (m * 3) i = 0 ∧ J (m * 3 + 1) i = 0 ∧ J (m * 3 + 2) i = 0) := by
  have hS : IK.Built S := .update hS0 hu
  have hT := C56_tree hS
  have hpos := (C57_update hS0 hu).2
  by_cases h0 : S = []
  · exfalso
    subst h0
    have := ((C57_success hS limit).not.2 fun h => h.1 rfl)
    have h1 := (C57_success hS0 limit).1 ⟨_, hu⟩
    have h2 := (C57_update hS0 hu).1.shape.length
    exact h1.1 (List.eq_nil_of_length_eq_zero h2.symm)
  obtain ⟨J, hJ, hval⟩ := jacobian_ok hT h0 cs hcs
  refine ⟨J, hJ, fun m c i hc hi => ?_⟩
  obtain ⟨j, hj⟩ := hcs c (List.mem_of_getElem? hc)
  have hk : i / 3 < S.length := by omega
  have hb := List.getElem?_eq_getElem hk
  have hio : i / 3 * 3 + i % 3 = i := by omega
  have ho : i % 3 < 3 := by omega
  have he := endOf_ok h0 ⟨j, hj⟩
  have hend := endAt_spec hS0 hu hb ho hj he
  rw [hio] at hend
  have hrow : ∀ x, x < 3 → J (m * 3 + x) i = if i / 3 ∈ c.bones then comp3 (colVec S (endOf S c) i) x else 0 := by
    intro x hx
    rw [hval]
    have h1 : (m * 3 + x) / 3 = m := by omega
    have h2 : (m * 3 + x) % 3 = x := by omega
    rw [h1, h2, hc]
  have e0 := hrow 0 (by omega)
  have e1 := hrow 1 (by omega)
  have e2 := hrow 2 (by omega)
  rw [Nat.add_zero] at e0
  have hang : get_angle i S = .ok ((S[i / 3]).angle (i % 3)) := by
    unfold get_angle
    rw [getBone_ok.2 hb]
    rfl
  refine ⟨_, fun θ => if i / 3 ∈ c.bones then (S[i / 3]).t_wcs + Quat.rotate (turn S S[i / 3] (i % 3) θ) (endOf S c - (S[i / 3]).t_wcs) else endOf S c, hang,
    hend, ?_, ?_, ?_⟩
  · have hturn : turn S S[i / 3] (i % 3) ((S[i / 3]).angle (i % 3)) = Quat.identity := by
      have hun := before_unit (b := S[i / 3]) (parentQ_unit hT hpos S[i / 3]) (i % 3)
      unfold turn
      rw [sub_self]
      have hz : ((S[i / 3]).letter (i % 3)).rot 0 = Quat.identity := by
        cases (S[i / 3]).letter (i % 3) <;> simp [Axis.rot, Quat.Rx, Quat.Ry, Quat.Rz, Quat.identity]
      rw [hz, (C01_identity_unit _).2, (C01_unit_group hun hun).2.2.1]
    rw [he]
    dsimp only
    rw [hturn, rotate_identity']
    split_ifs
    · congr 1; abel
    · rfl
  · rw [e0, e1, e2]
    by_cases hmem : i / 3 ∈ c.bones
    · simp only [if_pos hmem]
      have := (turn_deriv (parentQ_unit hT hpos S[i / 3]) (i % 3) (endOf S c - (S[i / 3]).t_wcs)).const_add (S[i / 3]).t_wcs
      have hcv : colVec S (endOf S c) i = V3.cross (axisOf S S[i / 3] (i % 3)) (endOf S c - (S[i / 3]).t_wcs) := by
        unfold colVec
        rw [hb]
      rw [← hcv] at this
      exact this
    · simp only [if_neg hmem]
      exact ⟨hasDerivAt_const _ _, hasDerivAt_const _ _, hasDerivAt_const _ _⟩
  · intro hmem
    rw [e0, e1, e2]
    simp only [if_neg hmem]
    exact ⟨fun _ => trivial, trivial, trivial, trivial⟩

end Verif
