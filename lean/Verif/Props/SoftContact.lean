import Verif.Props.SoftDirichlet
import Verif.Props.Vector3

/-! C73: the contact Jacobian of the soft body simulator. -/

namespace Verif

open Soft

theorem csr_cons (t : ℕ × ℕ × ℝ) (L : List (ℕ × ℕ × ℝ)) (r c : ℕ) :
    csr (t :: L) r c = (if t.1 = r ∧ t.2.1 = c then t.2.2 else 0) + csr L r c := by
  unfold csr
  by_cases h : t.1 = r ∧ t.2.1 = c
  · rw [List.filter_cons_of_pos (by simpa using h), if_pos h]; simp
  · rw [List.filter_cons_of_neg (by simpa using h), if_neg h, zero_add]

theorem csr_mulVec (L : List (ℕ × ℕ × ℝ)) (m r : ℕ) (v : ℕ → ℝ) (hL : ∀ t ∈ L, t.2.1 < m) :
    ∑ c ∈ Finset.range m, csr L r c * v c = (L.map fun t => if t.1 = r then t.2.2 * v t.2.1 else 0).sum := by
  induction L with
  | nil => simp [csr]
  | cons t L ih =>
    rw [List.map_cons, List.sum_cons, ← ih fun t ht => hL t (List.mem_cons_of_mem _ ht)]
    simp only [csr_cons, add_mul, Finset.sum_add_distrib]
    congr 1
    rw [Finset.sum_eq_single t.2.1]
    · by_cases h : t.1 = r <;> simp [h]
    · intro c _ hc
      rw [if_neg (fun h => hc h.2.symm), zero_mul]
    · intro h
      exact absurd (Finset.mem_range.2 (hL t (List.mem_cons_self ..))) h

theorem csr_vecMul (L : List (ℕ × ℕ × ℝ)) (m c : ℕ) (y : ℕ → ℝ) (hL : ∀ t ∈ L, t.1 < m) :
    ∑ r ∈ Finset.range m, csr L r c * y r = (L.map fun t => if t.2.1 = c then t.2.2 * y t.1 else 0).sum := by
  induction L with
  | nil => simp [csr]
  | cons t L ih =>
    rw [List.map_cons, List.sum_cons, ← ih fun t ht => hL t (List.mem_cons_of_mem _ ht)]
    simp only [csr_cons, add_mul, Finset.sum_add_distrib]
    congr 1
    rw [Finset.sum_eq_single t.1]
    · by_cases h : t.2.1 = c <;> simp [h]
    · intro r _ hr
      rw [if_neg (fun h => hr h.1.symm), zero_mul]
    · intro h
      exact absurd (Finset.mem_range.2 (hL t (List.mem_cons_self ..))) h

theorem sum_map_flatMap {α β : Type*} (L : List α) (g : α → List β) (f : β → ℝ) :
    ((L.flatMap g).map f).sum = (L.map fun a => ((g a).map f).sum).sum := by
  induction L with
  | nil => simp
  | cons a L ih => simp [ih]

/-- The triplets of one contact with given global nodes. -/
noncomputable def entriesOf (k : ℕ) (cp : ContactPoint) (nA nB : Fin 4 → ℕ) : List (ℕ × ℕ × ℝ) :=
  (List.finRange 4).flatMap fun (i : Fin 4) =>
    ((List.finRange 4).flatMap fun (a : Fin 4) => (List.finRange 3).map fun (j : Fin 3) =>
      (k * 4 + (i : ℕ), nA a * 3 + (j : ℕ), -(Soft.comp (contactFrame cp.n i) j * cp.omegaA a))) ++
    ((List.finRange 4).flatMap fun (a : Fin 4) => (List.finRange 3).map fun (j : Fin 3) =>
      (k * 4 + (i : ℕ), nB a * 3 + (j : ℕ), Soft.comp (contactFrame cp.n i) j * cp.omegaB a))

theorem entriesOf_sum (k : ℕ) (cp : ContactPoint) (nA nB : Fin 4 → ℕ) (f : ℕ × ℕ × ℝ → ℝ) :
    ((entriesOf k cp nA nB).map f).sum = ∑ i : Fin 4,
      ((∑ a : Fin 4, ∑ j : Fin 3, f (k * 4 + (i : ℕ), nA a * 3 + (j : ℕ), -(Soft.comp (contactFrame cp.n i) j * cp.omegaA a))) +
        ∑ a : Fin 4, ∑ j : Fin 3, f (k * 4 + (i : ℕ), nB a * 3 + (j : ℕ), Soft.comp (contactFrame cp.n i) j * cp.omegaB a)) := by
  unfold entriesOf
  simp only [sum_map_flatMap, List.map_append, List.sum_append, List.map_map, Function.comp_def, Fin.sum_univ_def]

theorem entriesOf_mem {k : ℕ} {cp : ContactPoint} {nA nB : Fin 4 → ℕ} {t : ℕ × ℕ × ℝ} (h : t ∈ entriesOf k cp nA nB) :
    (∃ i : Fin 4, t.1 = k * 4 + i) ∧ ∃ (a : Fin 4) (j : Fin 3), t.2.1 = nA a * 3 + j ∨ t.2.1 = nB a * 3 + j := by
  unfold entriesOf at h
  simp only [List.mem_flatMap, List.mem_append, List.mem_map, List.mem_finRange, true_and] at h
  obtain ⟨i, ⟨a, j, rfl⟩ | ⟨a, j, rfl⟩⟩ := h
  · exact ⟨⟨i, rfl⟩, a, j, .inl rfl⟩
  · exact ⟨⟨i, rfl⟩, a, j, .inr rfl⟩

theorem jacobian_aux {e : Soft.Engine} {J : ℕ → ℕ → ℝ} (cps : List ContactPoint) (h : (do
      let entries ← cps.zipIdx.mapM fun p => contactEntries e p.2 p.1
      return csr entries.flatten : Except PyErr (ℕ → ℕ → ℝ)) = .ok J) :
    ∃ nA nB : ℕ → Fin 4 → ℕ, (∀ k (hk : k < cps.length),
      globalTet e cps[k].bodyA cps[k].idx_tetA = .ok (nA k) ∧
      globalTet e cps[k].bodyB cps[k].idx_tetB = .ok (nB k)) ∧
      J = csr ((List.finRange cps.length).flatMap
        fun (k : Fin cps.length) => entriesOf k cps[k] (nA k) (nB k)) := by
  simp only [bind, Except.bind] at h
  cases hE : cps.zipIdx.mapM (fun p => contactEntries e p.2 p.1) with
  | error err => rw [hE] at h; cases h
  | ok E =>
    rw [hE] at h
    simp only [pure, Except.pure, Except.ok.injEq] at h
    have hF := mapM_ok hE
    have hlen : E.length = cps.length := by
      have := hF.length_eq
      simpa using this.symm
    have hk : ∀ k (hk : k < cps.length), contactEntries e k cps[k] = .ok (E[k]'(hlen ▸ hk)) := by
      intro k hk
      have := (List.forall₂_iff_get.1 hF).2 k (by simpa using hk) (hlen ▸ hk)
      simpa using this
    have hex : ∀ k (hk : k < cps.length), ∃ A B, globalTet e cps[k].bodyA cps[k].idx_tetA = .ok A ∧
        globalTet e cps[k].bodyB cps[k].idx_tetB = .ok B ∧ E[k]'(hlen ▸ hk) = entriesOf k cps[k] A B := by
      intro k hk'
      have := hk k hk'
      unfold contactEntries at this
      simp only [bind, Except.bind] at this
      cases hA : globalTet e cps[k].bodyA cps[k].idx_tetA with
      | error err => rw [hA] at this; cases this
      | ok A =>
        rw [hA] at this
        simp only at this
        cases hB : globalTet e cps[k].bodyB cps[k].idx_tetB with
        | error err => rw [hB] at this; cases this
        | ok B =>
          rw [hB] at this
          simp only [pure, Except.pure, Except.ok.injEq] at this
          exact ⟨A, B, rfl, rfl, this.symm⟩
    choose! nA nB h1 h2 h3 using hex
    refine ⟨nA, nB, fun k hk => ⟨h1 k hk, h2 k hk⟩, ?_⟩
    rw [← h]
    congr 1
    rw [List.flatMap_def]
    congr 1
    apply List.ext_getElem
    · simp [hlen]
    · intro k hk1 hk2
      simp only [List.getElem_map, List.getElem_finRange, Fin.cast_mk]
      exact h3 k (hlen ▸ hk1)

theorem jacobian_ok {e : Soft.Engine} {J : ℕ → ℕ → ℝ} (h : compute_jacobian_matrix e = .ok J) :
    ∃ nA nB : ℕ → Fin 4 → ℕ, (∀ k (hk : k < e.contact_points.length),
      globalTet e e.contact_points[k].bodyA e.contact_points[k].idx_tetA = .ok (nA k) ∧
      globalTet e e.contact_points[k].bodyB e.contact_points[k].idx_tetB = .ok (nB k)) ∧
      J = csr ((List.finRange e.contact_points.length).flatMap
        fun (k : Fin e.contact_points.length) => entriesOf k e.contact_points[k] (nA k) (nB k)) :=
  jacobian_aux e.contact_points h

/-! ### What the Jacobian means -/

/-- The value at a point with barycentric weights omega in a tetrahedron of a nodal field. -/
noncomputable def interp (omega : Fin 4 → ℝ) (nodes : Fin 4 → ℕ) (v : ℕ → V3) : V3 := ∑ a, omega a • v (nodes a)

theorem flat_node (v : ℕ → V3) (q : ℕ) (j : Fin 3) : flat v (q * 3 + j) = Soft.comp (v q) j := by
  unfold flat
  have h1 : (q * 3 + (j : ℕ)) / 3 = q := by omega
  have h2 : (⟨(q * 3 + (j : ℕ)) % 3, Nat.mod_lt _ (by norm_num)⟩ : Fin 3) = j := Fin.ext (by simp)
  rw [h1, h2]

theorem dot_comp (v w : V3) : V3.dot v w = ∑ j, Soft.comp v j * Soft.comp w j := by
  simp [V3.dot, Soft.comp, Fin.sum_univ_three]

theorem globalTet_lt {e : Soft.Engine} (hok : SoftOk e) {name : String} {idx : ℕ} {nodes : Fin 4 → ℕ} (h : globalTet e name idx = .ok nodes)
    (a : Fin 4) : nodes a < e.number_of_nodes := by
  unfold globalTet at h
  simp only [bind, Except.bind] at h
  cases hb : e.findBody name with
  | error err => rw [hb] at h; cases h
  | ok b =>
    rw [hb] at h
    dsimp only at h
    split_ifs at h with hi
    simp only [pure, Except.pure, Except.ok.injEq] at h
    rw [← h]
    have := hok.below _ _ (softFindBody_ok hb)
    have := (b.T ⟨idx, hi⟩ a).2
    dsimp only
    omega

/-- **C73** (contact frame). The rows of the contact frame are the unit normal, two tangents making a right handed orthonormal frame with it, and
a zero row. -/
theorem C73_frame (n : V3) (hn : n ≠ 0) :
    contactFrame n 0 = V3.unit n ∧ contactFrame n 3 = 0 ∧
    (∀ i : Fin 3, V3.dot (contactFrame n i.castSucc) (contactFrame n i.castSucc) = 1) ∧
    V3.dot (contactFrame n 0) (contactFrame n 1) = 0 ∧ V3.dot (contactFrame n 0) (contactFrame n 2) = 0 ∧
    V3.dot (contactFrame n 1) (contactFrame n 2) = 0 ∧ V3.cross (contactFrame n 1) (contactFrame n 2) = contactFrame n 0 := by
  have := C07_orthonormal_frame n hn
  have h0 : contactFrame n 0 = V3.unit n := rfl
  refine ⟨h0, rfl, ?_⟩
  have e0 : contactFrame n 0 = (V3.make_orthonormal_vectors n).2.2 := rfl
  have e1 : contactFrame n 1 = (V3.make_orthonormal_vectors n).1 := rfl
  have e2 : contactFrame n 2 = (V3.make_orthonormal_vectors n).2.1 := rfl
  generalize V3.make_orthonormal_vectors n = f at *
  obtain ⟨t, b, n'⟩ := f
  simp only [V3.toFun_dot, ← V3.toFun_cross] at this
  obtain ⟨h1, h2, h3, h4, h5, h6, h7, -⟩ := this
  refine ⟨?_, ?_, ?_, ?_, ?_⟩
  · intro i
    fin_cases i
    · show V3.dot (contactFrame n 0) (contactFrame n 0) = 1
      rw [e0]; exact h3
    · show V3.dot (contactFrame n 1) (contactFrame n 1) = 1
      rw [e1]; exact h1
    · show V3.dot (contactFrame n 2) (contactFrame n 2) = 1
      rw [e2]; exact h2
  · rw [e0, e1, V3.dot_comm]; exact h6
  · rw [e0, e2, V3.dot_comm]; exact h5
  · rw [e1, e2]; exact h4
  · rw [e0, e1, e2]; exact V3.toFun_injective h7

/-- The value of one contact's triplets in a product with v. -/
theorem entriesOf_dot (k : ℕ) (cp : ContactPoint) (nA nB : Fin 4 → ℕ) (v : ℕ → V3) (r : ℕ) :
    ((entriesOf k cp nA nB).map fun t => if t.1 = r then t.2.2 * flat v t.2.1 else 0).sum =
      ∑ i : Fin 4, if k * 4 + (i : ℕ) = r then V3.dot (contactFrame cp.n i) (interp cp.omegaB nB v - interp cp.omegaA nA v) else 0 := by
  rw [entriesOf_sum]
  refine Finset.sum_congr rfl fun i _ => ?_
  by_cases h : k * 4 + (i : ℕ) = r
  · simp only [if_pos h, flat_node]
    have key : ∀ (s : ℝ) (om : Fin 4 → ℝ) (nd : Fin 4 → ℕ),
        ∑ a : Fin 4, ∑ j : Fin 3, s * (Soft.comp (contactFrame cp.n i) j * om a) * Soft.comp (v (nd a)) j =
          s * V3.dot (contactFrame cp.n i) (interp om nd v) := by
      intro s om nd
      rw [interp, V3.dot_sum_right, Finset.mul_sum]
      refine Finset.sum_congr rfl fun a _ => ?_
      rw [V3.dot_smul_right, dot_comp, Finset.mul_sum, Finset.mul_sum]
      exact Finset.sum_congr rfl fun j _ => by ring
    have k1 := key (-1) cp.omegaA nA
    have k2 := key 1 cp.omegaB nB
    simp only [neg_mul, one_mul] at k1 k2
    simp only [neg_mul]
    rw [k1, k2]
    simp only [V3.dot, V3.sub_x, V3.sub_y, V3.sub_z]
    ring
  · simp [if_neg h]

/-- **C73** (relative velocity). Row 4k+i of the Jacobian times a velocity field is component i, in the contact frame, of the velocity of the contact
point on B relative to A. -/
theorem C73_relative_velocity {e : Soft.Engine} (hok : SoftOk e) {J : ℕ → ℕ → ℝ} (h : compute_jacobian_matrix e = .ok J) (v : ℕ → V3) :
    ∀ (k : Fin e.contact_points.length), ∃ nA nB : Fin 4 → ℕ,
      globalTet e e.contact_points[k].bodyA e.contact_points[k].idx_tetA = .ok nA ∧
      globalTet e e.contact_points[k].bodyB e.contact_points[k].idx_tetB = .ok nB ∧
      ∀ i : Fin 4, matVec (e.number_of_nodes * 3) J (flat v) (k * 4 + i) =
        V3.dot (contactFrame e.contact_points[k].n i)
          (interp e.contact_points[k].omegaB nB v - interp e.contact_points[k].omegaA nA v) := by
  intro k
  obtain ⟨nA, nB, h1, h2⟩ := jacobian_ok h
  refine ⟨nA k, nB k, (h1 k k.2).1, (h1 k k.2).2, fun i => ?_⟩
  unfold matVec
  rw [h2, csr_mulVec, sum_map_flatMap]
  · simp only [entriesOf_dot]
    rw [← Fin.sum_univ_def, Finset.sum_eq_single k, Finset.sum_eq_single i, if_pos rfl]
    · intro i' _ hi
      exact if_neg fun h => hi (Fin.ext (by omega))
    · simp
    · intro k' _ hk
      refine Finset.sum_eq_zero fun i' _ => if_neg fun h => hk (Fin.ext ?_)
      have := i'.2; have := i.2
      omega
    · simp
  · intro t ht
    obtain ⟨k', -, hk'⟩ := List.mem_flatMap.1 ht
    obtain ⟨-, a, j, hj | hj⟩ := entriesOf_mem hk'
    · have := globalTet_lt hok (h1 k' k'.2).1 a
      have := j.2
      omega
    · have := globalTet_lt hok (h1 k' k'.2).2 a
      have := j.2
      omega

/-- The nodal impulses `Jᵀ λ`. -/
noncomputable def nodalImpulse (e : Soft.Engine) (J : ℕ → ℕ → ℝ) (lam : ℕ → ℝ) : ℕ → V3 :=
  unflat fun c => ∑ r ∈ Finset.range (e.contact_points.length * 4), J r c * lam r

/-- The impulse of contact k in world coordinates: its four numbers in the contact frame. -/
noncomputable def contactImpulse (cp : ContactPoint) (k : ℕ) (lam : ℕ → ℝ) : V3 := ∑ i : Fin 4, lam (k * 4 + i) • contactFrame cp.n i

open Classical in
/-- Total weight of the node q in the tetrahedron. -/
noncomputable def weightAt (omega : Fin 4 → ℝ) (nodes : Fin 4 → ℕ) (q : ℕ) : ℝ := ∑ a, if nodes a = q then omega a else 0

theorem comp_ext {v w : V3} (h : ∀ j : Fin 3, Soft.comp v j = Soft.comp w j) : v = w := by
  ext
  · exact h 0
  · exact h 1
  · exact h 2

theorem comp_unflat (y : ℕ → ℝ) (q : ℕ) (j : Fin 3) : Soft.comp (unflat y q) j = y (q * 3 + j) := by
  fin_cases j <;> rfl

theorem comp_smul (c : ℝ) (v : V3) (j : Fin 3) : Soft.comp (c • v) j = c * Soft.comp v j := by
  fin_cases j <;> simp [Soft.comp]

theorem comp_sub (v w : V3) (j : Fin 3) : Soft.comp (v - w) j = Soft.comp v j - Soft.comp w j := by
  fin_cases j <;> simp [Soft.comp]

/-- **C73** (nodal impulses). The nodal impulse at q is the sum over the contacts of the contact impulse, times the weight of q on side B minus its
weight on side A. -/
theorem C73_nodal_impulse {e : Soft.Engine} {J : ℕ → ℕ → ℝ} (h : compute_jacobian_matrix e = .ok J) :
    ∃ nA nB : ℕ → Fin 4 → ℕ, (∀ k (hk : k < e.contact_points.length),
      globalTet e e.contact_points[k].bodyA e.contact_points[k].idx_tetA = .ok (nA k) ∧
      globalTet e e.contact_points[k].bodyB e.contact_points[k].idx_tetB = .ok (nB k)) ∧
      ∀ lam q, nodalImpulse e J lam q = ∑ k : Fin e.contact_points.length,
        (weightAt e.contact_points[k].omegaB (nB k) q - weightAt e.contact_points[k].omegaA (nA k) q) •
          contactImpulse e.contact_points[k] k lam := by
  obtain ⟨nA, nB, h1, h2⟩ := jacobian_ok h
  refine ⟨nA, nB, h1, fun lam q => ?_⟩
  apply comp_ext
  intro j
  unfold nodalImpulse
  rw [comp_unflat, h2, csr_vecMul, sum_map_flatMap, ← Fin.sum_univ_def, comp_sum]
  · refine Finset.sum_congr rfl fun k _ => ?_
    rw [entriesOf_sum, comp_smul, contactImpulse, comp_sum, Finset.mul_sum]
    refine Finset.sum_congr rfl fun i _ => ?_
    rw [comp_smul]
    have key : ∀ (s : ℝ) (om : Fin 4 → ℝ) (nd : Fin 4 → ℕ),
        ∑ a : Fin 4, ∑ j' : Fin 3, (if nd a * 3 + (j' : ℕ) = q * 3 + j then
          s * (Soft.comp (contactFrame e.contact_points[k].n i) j' * om a) * lam (k * 4 + i) else 0) =
          s * (weightAt om nd q * (lam (k * 4 + i) * Soft.comp (contactFrame e.contact_points[k].n i) j)) := by
      intro s om nd
      rw [weightAt, Finset.sum_mul, Finset.mul_sum]
      refine Finset.sum_congr rfl fun a _ => ?_
      by_cases hq : nd a = q
      · rw [if_pos hq, Finset.sum_eq_single j, if_pos (by rw [hq])]
        · ring
        · intro j' _ hj
          exact if_neg fun h => hj (Fin.ext (by omega))
        · simp
      · rw [if_neg hq, Finset.sum_eq_zero]
        · ring
        · intro j' _
          exact if_neg fun h => hq (by have := j'.2; have := j.2; omega)
    have k1 := key (-1) e.contact_points[k].omegaA (nA k)
    have k2 := key 1 e.contact_points[k].omegaB (nB k)
    simp only [neg_mul, one_mul] at k1 k2
    simp only [neg_mul]
    rw [k1, k2]
    ring
  · intro t ht
    obtain ⟨k', -, hk'⟩ := List.mem_flatMap.1 ht
    obtain ⟨⟨i, hi⟩, -⟩ := entriesOf_mem hk'
    have := i.2; have := k'.2
    omega

theorem weight_sum (omega : Fin 4 → ℝ) (nodes : Fin 4 → ℕ) (N : ℕ) (hN : ∀ a, nodes a < N) (f : ℕ → V3) :
    ∑ q ∈ Finset.range N, weightAt omega nodes q • f q = interp omega nodes f := by
  unfold weightAt interp
  simp only [Finset.sum_smul]
  rw [Finset.sum_comm]
  refine Finset.sum_congr rfl fun a _ => ?_
  rw [Finset.sum_eq_single (nodes a), if_pos rfl]
  · intro q _ hq
    rw [if_neg hq.symm, zero_smul]
  · intro h
    exact absurd (Finset.mem_range.2 (hN a)) h

/-- **C73** (action and reaction). If the barycentric weights of every contact add up to one on both sides, the contact impulses add up to zero
over all nodes, whatever the contact solver returned. -/
theorem C73_action_reaction {e : Soft.Engine} (hok : SoftOk e) {J : ℕ → ℕ → ℝ} (h : compute_jacobian_matrix e = .ok J)
    (hw : ∀ cp ∈ e.contact_points, ∑ a, cp.omegaA a = 1 ∧ ∑ a, cp.omegaB a = 1) (lam : ℕ → ℝ) :
    ∑ q ∈ Finset.range e.number_of_nodes, nodalImpulse e J lam q = 0 := by
  obtain ⟨nA, nB, h1, h2⟩ := C73_nodal_impulse h
  simp only [h2]
  rw [Finset.sum_comm]
  refine Finset.sum_eq_zero fun k _ => ?_
  obtain ⟨hwA, hwB⟩ := hw e.contact_points[k] (List.getElem_mem _)
  simp only [sub_smul, Finset.sum_sub_distrib]
  rw [weight_sum _ _ _ fun a => globalTet_lt hok (h1 k k.2).1 a, weight_sum _ _ _ fun a => globalTet_lt hok (h1 k k.2).2 a]
  simp only [interp, ← Finset.sum_smul]
  rw [hwA, hwB, sub_self]

/-- **C73** (moments). The total moment of the contact impulses about the origin at nodal positions x is, for each contact, the moment of the
impulse about the offset between the two material points in contact: zero where both sides meet in one point. -/
theorem C73_moment {e : Soft.Engine} (hok : SoftOk e) {J : ℕ → ℕ → ℝ} (h : compute_jacobian_matrix e = .ok J) (x : ℕ → V3) :
    ∃ nA nB : ℕ → Fin 4 → ℕ, (∀ k (hk : k < e.contact_points.length),
      globalTet e e.contact_points[k].bodyA e.contact_points[k].idx_tetA = .ok (nA k) ∧
      globalTet e e.contact_points[k].bodyB e.contact_points[k].idx_tetB = .ok (nB k)) ∧
      ∀ lam, ∑ q ∈ Finset.range e.number_of_nodes, V3.cross (x q) (nodalImpulse e J lam q) =
        ∑ k : Fin e.contact_points.length, V3.cross (interp e.contact_points[k].omegaB (nB k) x - interp e.contact_points[k].omegaA (nA k) x)
          (contactImpulse e.contact_points[k] k lam) := by
  obtain ⟨nA, nB, h1, h2⟩ := C73_nodal_impulse h
  refine ⟨nA, nB, h1, fun lam => ?_⟩
  have hcs : ∀ (a : V3) (s : Finset (Fin e.contact_points.length)) (f : Fin e.contact_points.length → V3),
      V3.cross a (∑ k ∈ s, f k) = ∑ k ∈ s, V3.cross a (f k) := by
    intro a s f
    classical
    induction s using Finset.induction_on with
    | empty => simp; ext <;> simp [V3.cross]
    | insert k s hk ih =>
      rw [Finset.sum_insert hk, Finset.sum_insert hk, ← ih]
      ext <;> simp [V3.cross] <;> ring
  have hsc : ∀ (s : Finset ℕ) (f : ℕ → V3) (b : V3), ∑ q ∈ s, V3.cross (f q) b = V3.cross (∑ q ∈ s, f q) b := by
    intro s f b
    classical
    induction s using Finset.induction_on with
    | empty => simp; ext <;> simp [V3.cross]
    | insert k s hk ih =>
      rw [Finset.sum_insert hk, Finset.sum_insert hk, ih]
      ext <;> simp [V3.cross] <;> ring
  simp only [h2, hcs]
  rw [Finset.sum_comm]
  refine Finset.sum_congr rfl fun k _ => ?_
  rw [← weight_sum e.contact_points[k].omegaA (nA k) _ (fun a => globalTet_lt hok (h1 k k.2).1 a),
    ← weight_sum e.contact_points[k].omegaB (nB k) _ (fun a => globalTet_lt hok (h1 k k.2).2 a), ← Finset.sum_sub_distrib, ← hsc]
  refine Finset.sum_congr rfl fun q _ => ?_
  ext <;> simp [V3.cross] <;> ring

end Verif
