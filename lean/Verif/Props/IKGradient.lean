import Verif.Props.IKJacobian

/-! Property C59, continued: the objective and its gradient. -/

namespace Verif

open IK

namespace IK

/-- The objective: half the sum of the squared distances of the end effectors to their goals. -/
theorem objective_ok {S : Skeleton} (cs : List Chain) (E : Chain → V3) (h : ∀ c ∈ cs, get_end_effector c S = .ok (E c)) :
    compute_objective cs S = .ok ((cs.map fun c => V3.dot (c.goal - E c) (c.goal - E c)).sum * 0.5) := by
  have loop : ∀ (cs : List Chain) (f : ℝ), (∀ c ∈ cs, get_end_effector c S = .ok (E c)) →
      cs.foldlM (fun f chain => (do
        let e ← get_end_effector chain S
        let r := chain.goal - e
        return f + V3.dot r r : Except PyErr ℝ)) f = .ok (f + (cs.map fun c => V3.dot (c.goal - E c) (c.goal - E c)).sum) := by
    intro cs
    induction cs with
    | nil => intro f _; simp [pure, Except.pure]
    | cons c cs ih =>
      intro f h
      have ih' := ih (f + V3.dot (c.goal - E c) (c.goal - E c)) fun c hc => h c (List.mem_cons_of_mem _ hc)
      simp only [List.foldlM_cons, bind, Except.bind] at ih' ⊢
      rw [h c List.mem_cons_self]
      simp only [pure, Except.pure] at ih' ⊢
      rw [ih', List.map_cons, List.sum_cons, add_assoc]
  unfold compute_objective
  have := loop cs 0 h
  simp only [bind, Except.bind] at this ⊢
  rw [this]
  simp [pure, Except.pure]

theorem sum_nonneg_zero (L : List ℝ) (h : ∀ x ∈ L, 0 ≤ x) : 0 ≤ L.sum ∧ (L.sum = 0 ↔ ∀ x ∈ L, x = 0) := by
  induction L with
  | nil => simp
  | cons a L ih =>
    obtain ⟨h1, h2⟩ := ih fun x hx => h x (List.mem_cons_of_mem _ hx)
    have ha := h a List.mem_cons_self
    rw [List.sum_cons, List.forall_mem_cons]
    refine ⟨by linarith, ⟨fun hs => ?_, fun ⟨e1, e2⟩ => ?_⟩⟩
    · exact ⟨by linarith, h2.1 (by linarith)⟩
    · rw [e1, h2.2 e2, add_zero]

theorem setRows_apply (f : ℕ → ℝ) (row : ℕ) (v : V3) (r : ℕ) : setRows f row v r = if row ≤ r ∧ r < row + 3 then comp3 v (r - row) else f r := by
  unfold setRows comp3
  by_cases h0 : r = row
  · rw [if_pos h0, if_pos ⟨by omega, by omega⟩, if_pos (by omega)]
  · rw [if_neg h0]
    by_cases h1 : r = row + 1
    · rw [if_pos h1, if_pos ⟨by omega, by omega⟩, if_neg (by omega), if_pos (by omega)]
    · rw [if_neg h1]
      by_cases h2 : r = row + 2
      · rw [if_pos h2, if_pos ⟨by omega, by omega⟩, if_neg (by omega), if_neg (by omega)]
      · rw [if_neg h2, if_neg (by omega)]

theorem residual_loop {S : Skeleton} (h0 : S ≠ []) (cs : List Chain) (hcs : ∀ c ∈ cs, GoodChain S c) (f : ℕ → ℝ) (m : ℕ) :
    ∃ f', cs.foldlM (residualChain S) (f, m * 3) = .ok (f', (m + cs.length) * 3) ∧
      ∀ r, f' r = match (if r < m * 3 then none else cs[r / 3 - m]?) with
        | none => f r
        | some c => comp3 (c.goal - endOf S c) (r % 3) := by
  induction cs generalizing f m with
  | nil =>
    refine ⟨f, rfl, fun r => ?_⟩
    split_ifs <;> simp
  | cons c cs ih =>
    have hc := hcs c List.mem_cons_self
    obtain ⟨f', h1, h2⟩ := ih (fun c hc => hcs c (List.mem_cons_of_mem _ hc)) (setRows f (m * 3) (c.goal - endOf S c)) (m + 1)
    refine ⟨f', ?_, fun r => ?_⟩
    · simp only [List.foldlM_cons, bind, Except.bind]
      have : residualChain S (f, m * 3) c = .ok (setRows f (m * 3) (c.goal - endOf S c), (m + 1) * 3) := by
        unfold residualChain
        simp only [bind, Except.bind]
        rw [endOf_ok h0 hc]
        simp only [pure, Except.pure]
        congr 2
        omega
      rw [this]
      dsimp only
      rw [h1, List.length_cons]
      congr 2
      omega
    · rw [h2, setRows_apply]
      by_cases h3 : r < m * 3
      · rw [if_pos h3, if_pos (by omega)]
        dsimp only
        rw [if_neg (by omega)]
      · rw [if_neg h3]
        by_cases h4 : r < (m + 1) * 3
        · rw [if_pos h4]
          have : r / 3 - m = 0 := by omega
          rw [this]
          dsimp only [List.getElem?_cons_zero]
          have hmod : r - m * 3 = r % 3 := by omega
          rw [hmod, if_pos ⟨by omega, by omega⟩]
        · rw [if_neg h4]
          have : r / 3 - m = (r / 3 - (m + 1)) + 1 := by omega
          rw [this, List.getElem?_cons_succ]
          cases cs[r / 3 - (m + 1)]? with
          | none =>
            dsimp only
            rw [if_neg (by omega)]
          | some c' => rfl

theorem sum_range_mul3 (f : ℕ → ℝ) (n : ℕ) : ∑ r ∈ Finset.range (n * 3), f r = ∑ k ∈ Finset.range n, (f (k * 3) + f (k * 3 + 1) + f (k * 3 + 2)) := by
  induction n with
  | zero => simp
  | succ n ih =>
    rw [show (n + 1) * 3 = n * 3 + 1 + 1 + 1 by ring, Finset.sum_range_succ, Finset.sum_range_succ, Finset.sum_range_succ, Finset.sum_range_succ, ih]
    ring

theorem sum_range_list {α : Type*} (L : List α) (g : α → ℝ) (f : ℕ → ℝ) (h : ∀ k a, L[k]? = some a → f k = g a) :
    ∑ k ∈ Finset.range L.length, f k = (L.map g).sum := by
  induction L generalizing f with
  | nil => simp
  | cons a L ih =>
    rw [List.length_cons, Finset.sum_range_succ', List.map_cons, List.sum_cons, h 0 a rfl, ih (fun k => f (k + 1)) fun k a ha => h (k + 1) a (by simpa using ha)]
    ring

theorem hasDerivAt_list_sum {α : Type*} (L : List α) (F : α → ℝ → ℝ) (F' : α → ℝ) (t : ℝ) (h : ∀ a ∈ L, HasDerivAt (F a) (F' a) t) :
    HasDerivAt (fun t => (L.map fun a => F a t).sum) (L.map F').sum t := by
  induction L with
  | nil => simpa using hasDerivAt_const t (0 : ℝ)
  | cons a L ih =>
    simp only [List.map_cons, List.sum_cons]
    exact (h a List.mem_cons_self).add (ih fun a ha => h a (List.mem_cons_of_mem _ ha))

theorem HasDerivV.dot_self {f : ℝ → V3} {v : V3} {t : ℝ} (g : V3) (h : HasDerivV f v t) :
    HasDerivAt (fun t => V3.dot (g - f t) (g - f t)) (-(2 * V3.dot v (g - f t))) t := by
  obtain ⟨h1, h2, h3⟩ := h
  have e1 := h1.const_sub g.x
  have e2 := h2.const_sub g.y
  have e3 := h3.const_sub g.z
  refine (((e1.mul e1).add (e2.mul e2)).add (e3.mul e3)).congr_deriv ?_
  simp only [V3.dot, V3.sub_x, V3.sub_y, V3.sub_z]
  ring

/-- The value of `compute_gradient` for the Jacobian of the same skeleton. -/
theorem gradient_ok {S : Skeleton} (hS : IsTree S) (h0 : S ≠ []) (cs : List Chain) (hcs : ∀ c ∈ cs, GoodChain S c) {J : Array2}
    (hJ : compute_jacobian cs S = .ok J) : ∃ g, compute_gradient cs S J = .ok g ∧ ∀ i, g i =
      -(cs.map fun c => if i / 3 ∈ c.bones then V3.dot (colVec S (endOf S c) i) (c.goal - endOf S c) else 0).sum := by
  obtain ⟨J', hJ', hval⟩ := jacobian_ok hS h0 cs hcs
  rw [hJ] at hJ'
  injection hJ' with hJ'
  subst hJ'
  obtain ⟨f, h1, h2⟩ := residual_loop h0 cs hcs (fun _ => 0) 0
  rw [Nat.zero_mul] at h1
  refine ⟨fun i => -∑ r ∈ Finset.range (cs.length * 3), J r i * f r, ?_, fun i => ?_⟩
  · unfold compute_gradient
    simp only [bind, Except.bind]
    rw [h1]
    rfl
  · dsimp only
    rw [sum_range_mul3]
    congr 1
    refine sum_range_list cs _ _ fun k c hc => ?_
    have hm : ∀ x, x < 3 → J (k * 3 + x) i * f (k * 3 + x) = (if i / 3 ∈ c.bones then comp3 (colVec S (endOf S c) i) x else 0) * comp3 (c.goal - endOf S c) x := by
      intro x hx
      rw [hval, h2]
      have e1 : (k * 3 + x) / 3 = k := by omega
      have e2 : (k * 3 + x) % 3 = x := by omega
      rw [e1, e2, hc]
      simp [hc]
    have e0 := hm 0 (by omega)
    have e1 := hm 1 (by omega)
    have e2 := hm 2 (by omega)
    rw [Nat.add_zero] at e0
    rw [e0, e1, e2]
    split_ifs
    · simp [comp3, V3.dot]
    · simp

end IK

/-- **C59** (objective). The objective is half the sum of the squared distances between goals and end effectors; it is never negative, and zero exactly when
every end effector is at its goal. -/
theorem C59_objective {S : Skeleton} (cs : List Chain) {f : ℝ} (h : compute_objective cs S = .ok f) :
    0 ≤ f ∧ (f = 0 ↔ ∀ c ∈ cs, get_end_effector c S = .ok c.goal) ∧
    ∃ E : Chain → V3, (∀ c ∈ cs, get_end_effector c S = .ok (E c)) ∧ f = (cs.map fun c => V3.norm (c.goal - E c) ^ 2).sum / 2 := by
  have hall : ∀ c ∈ cs, ∃ e, get_end_effector c S = .ok e := by
    have loop : ∀ (cs : List Chain) (s t : ℝ), cs.foldlM (fun f chain => (do
        let e ← get_end_effector chain S
        let r := chain.goal - e
        return f + V3.dot r r : Except PyErr ℝ)) s = .ok t → ∀ c ∈ cs, ∃ e, get_end_effector c S = .ok e := by
      intro cs
      induction cs with
      | nil => intro s t _; simp
      | cons c cs ih =>
        intro s t h
        simp only [List.foldlM_cons, bind, Except.bind] at h
        cases he : get_end_effector c S with
        | error err => rw [he] at h; cases h
        | ok e =>
          rw [he] at h
          simp only [pure, Except.pure] at h
          rw [List.forall_mem_cons]
          refine ⟨⟨e, he⟩, ih (s + V3.dot (c.goal - e) (c.goal - e)) t ?_⟩
          simp only [bind, Except.bind, pure, Except.pure]
          exact h
    unfold compute_objective at h
    simp only [bind, Except.bind] at h
    intro c hc
    cases hl : cs.foldlM (fun f chain => (do
        let e ← get_end_effector chain S
        let r := chain.goal - e
        return f + V3.dot r r : Except PyErr ℝ)) 0 with
    | ok t => exact loop cs 0 t hl c hc
    | error err =>
      simp only [bind, Except.bind] at hl
      rw [hl] at h
      cases h
  have hE : ∀ c ∈ cs, get_end_effector c S = .ok (endOf S c) := by
    intro c hc
    obtain ⟨e, he⟩ := hall c hc
    unfold endOf
    rw [he]
  rw [objective_ok cs _ hE] at h
  injection h with h
  have hnn : ∀ x ∈ cs.map (fun c => V3.dot (c.goal - endOf S c) (c.goal - endOf S c)), 0 ≤ x := by
    intro x hx
    obtain ⟨c, -, rfl⟩ := List.mem_map.1 hx
    exact V3.dot_self_nonneg _
  obtain ⟨h1, h2⟩ := sum_nonneg_zero _ hnn
  have h05 : (0.5 : ℝ) = 1 / 2 := by norm_num
  rw [h05] at h
  refine ⟨by rw [← h]; linarith, ?_, endOf S, hE, ?_⟩
  · have : f = 0 ↔ (cs.map (fun c => V3.dot (c.goal - endOf S c) (c.goal - endOf S c))).sum = 0 := by
      rw [← h]
      constructor <;> intro hz <;> linarith
    rw [this, h2]
    constructor
    · intro hz c hc
      have := hz _ (List.mem_map.2 ⟨c, hc, rfl⟩)
      rw [V3.dot_self_eq_zero] at this
      rw [hE c hc]
      congr 1
      exact (sub_eq_zero.1 this).symm
    · intro hz x hx
      obtain ⟨c, hc, rfl⟩ := List.mem_map.1 hx
      have h3 := hz c hc
      rw [hE c hc] at h3
      injection h3 with h3
      rw [h3, V3.dot_self_eq_zero]
      exact sub_self _
  · rw [← h]
    simp only [V3.norm_sq]
    ring

/-- **C59** (gradient). After an update, for every list of chains that are paths of the skeleton, `compute_gradient` with the Jacobian of
`compute_jacobian` succeeds, and its entries are the derivatives of the objective with respect to the joint angles. -/
theorem C59_gradient {S0 S : Skeleton} {limit : ℕ} (hS0 : IK.Built S0) (hu : update_skeleton limit S0 = .ok S) (cs : List Chain)
    (hcs : ∀ c ∈ cs, ∃ j, IsPath S c.bones j) : ∃ J g, compute_jacobian cs S = .ok J ∧ compute_gradient cs S J = .ok g ∧
    ∀ i, i < S.length * 3 → ∃ (θ₀ : ℝ) (F : ℝ → ℝ), get_angle i S = .ok θ₀ ∧ (∀ θ, objAt limit S cs i θ = .ok (F θ)) ∧
      compute_objective cs S = .ok (F θ₀) ∧ HasDerivAt F (g i) θ₀ := by
  have hS : IK.Built S := .update hS0 hu
  have hT := C56_tree hS
  have hpos := (C57_update hS0 hu).2
  obtain ⟨J, hJ, hder⟩ := C59_jacobian hS0 hu cs hcs
  have h0 : S ≠ [] := by
    rintro rfl
    have h1 := (C57_success hS0 limit).1 ⟨_, hu⟩
    have h2 := (C57_update hS0 hu).1.shape.length
    exact h1.1 (List.eq_nil_of_length_eq_zero h2.symm)
  obtain ⟨g, hg, hgval⟩ := gradient_ok hT h0 cs hcs hJ
  refine ⟨J, g, hJ, hg, fun i hi => ?_⟩
  have hk : i / 3 < S.length := by omega
  have hb := List.getElem?_eq_getElem hk
  have hio : i / 3 * 3 + i % 3 = i := by omega
  have ho : i % 3 < 3 := by omega
  obtain ⟨E, hE⟩ : ∃ E : Chain → ℝ → V3, E = fun c θ => if i / 3 ∈ c.bones then
    (S[i / 3]).t_wcs + Quat.rotate (turn S S[i / 3] (i % 3) θ) (endOf S c - (S[i / 3]).t_wcs) else endOf S c := ⟨_, rfl⟩
  have hend : ∀ c ∈ cs, ∀ θ, endAt limit S c i θ = .ok (E c θ) := by
    intro c hc θ
    obtain ⟨j, hj⟩ := hcs c hc
    have := endAt_spec hS0 hu hb ho hj (endOf_ok h0 ⟨j, hj⟩) θ
    rw [hio] at this
    rw [this, hE]
  have hang : get_angle i S = .ok ((S[i / 3]).angle (i % 3)) := by
    unfold get_angle
    rw [getBone_ok.2 hb]
    rfl
  set θ₀ := (S[i / 3]).angle (i % 3) with hθ
  have hE0 : ∀ c ∈ cs, E c θ₀ = endOf S c := by
    intro c hc
    have hturn : turn S S[i / 3] (i % 3) θ₀ = Quat.identity := by
      have hun := before_unit (b := S[i / 3]) (parentQ_unit hT hpos S[i / 3]) (i % 3)
      unfold turn
      rw [← hθ, sub_self]
      have hz : ((S[i / 3]).letter (i % 3)).rot 0 = Quat.identity := by
        cases (S[i / 3]).letter (i % 3) <;> simp [Axis.rot, Quat.Rx, Quat.Ry, Quat.Rz, Quat.identity]
      rw [hz, (C01_identity_unit _).2, (C01_unit_group hun hun).2.2.1]
    rw [hE]
    dsimp only
    rw [hturn, rotate_identity']
    split_ifs
    · abel
    · rfl
  refine ⟨θ₀, fun θ => (cs.map fun c => V3.dot (c.goal - E c θ) (c.goal - E c θ)).sum * 0.5, hang, fun θ => ?_, ?_, ?_⟩
  · obtain ⟨S', h1, -⟩ := moveTo_spec hS0 hu hb ho θ
    rw [hio] at h1
    unfold moveTo at h1
    unfold objAt
    unfold endAt at hend
    simp only [bind, Except.bind] at h1 hend ⊢
    cases hs : set_angle i θ S with
    | error err => rw [hs] at h1; cases h1
    | ok S1 =>
      rw [hs] at h1
      dsimp only at h1 ⊢
      rw [h1]
      refine objective_ok cs (fun c => E c θ) fun c hc => ?_
      have := hend c hc θ
      rw [hs] at this
      dsimp only at this
      rw [h1] at this
      exact this
  · refine objective_ok cs (fun c => E c θ₀) fun c hc => ?_
    rw [hE0 c hc]
    exact endOf_ok h0 (hcs c hc)
  · have hd : ∀ c ∈ cs, HasDerivV (E c) (if i / 3 ∈ c.bones then colVec S (endOf S c) i else 0) θ₀ := by
      intro c hc
      rw [hE]
      by_cases hmem : i / 3 ∈ c.bones
      · simp only [if_pos hmem]
        have := (turn_deriv (parentQ_unit hT hpos S[i / 3]) (i % 3) (endOf S c - (S[i / 3]).t_wcs)).const_add (S[i / 3]).t_wcs
        have hcv : colVec S (endOf S c) i = V3.cross (axisOf S S[i / 3] (i % 3)) (endOf S c - (S[i / 3]).t_wcs) := by
          unfold colVec
          rw [hb]
        rw [← hcv] at this
        exact this
      · simp only [if_neg hmem]
        exact ⟨hasDerivAt_const _ _, hasDerivAt_const _ _, hasDerivAt_const _ _⟩
    have hsum := (hasDerivAt_list_sum cs _ _ θ₀ fun c hc => (hd c hc).dot_self c.goal).mul_const (0.5 : ℝ)
    refine hsum.congr_deriv ?_
    rw [hgval i]
    have h05 : (0.5 : ℝ) = 1 / 2 := by norm_num
    rw [h05]
    have : (cs.map fun c => -(2 * V3.dot (if i / 3 ∈ c.bones then colVec S (endOf S c) i else 0) (c.goal - E c θ₀))) =
        cs.map fun c => (-2) * (if i / 3 ∈ c.bones then V3.dot (colVec S (endOf S c) i) (c.goal - endOf S c) else 0) := by
      refine List.map_congr_left fun c hc => ?_
      rw [hE0 c hc]
      split_ifs
      · ring
      · simp [V3.dot]
    rw [this, List.sum_map_mul_left]
    ring

/-- Non-vacuity for C59: the default chains of the branching skeleton. -/
example : ∃ S cs J g, update_skeleton 1000 exBones = .ok S ∧ make_chains S = .ok cs ∧ cs.length = 2 ∧ compute_jacobian cs S = .ok J ∧
    compute_gradient cs S J = .ok g := by
  obtain ⟨S, h⟩ := update_ok ex_built (by simp [exBones]) (limit := 1000) (by simp [exBones])
  have hS : IK.Built S := .update ex_built h
  obtain ⟨cs, h1, h2, -⟩ := C56_chains hS
  have hsh := (C57_update ex_built h).1.shape
  have hl : leaves S = [2, 3] := by
    have h3 : leaves exBones = [2, 3] := by decide
    rw [← h3]
    unfold leaves
    simp only [hsh.parentOf, hsh.length]
  have hlen : cs.length = 2 := by rw [h2.length_eq, hl]; rfl
  obtain ⟨J, g, hJ, hg, -⟩ := C59_gradient ex_built h cs fun c hc => by
    obtain ⟨j, -, hj⟩ := forall₂_mem_left h2 c hc
    exact ⟨j, hj.1⟩
  exact ⟨S, cs, J, g, h, h1, hlen, hJ, hg⟩

end Verif
