import Verif.Props.RigidSim
import Verif.Props.RigidExamples

/-! C94: post-stabilization (back projection of penetrating contacts), and what a contact point accepts. -/

namespace Verif

open Matrix ProxSolver Rigid

variable {N : ℕ}

/-- A contact penetrates deeper than the tolerance. -/
def Deep (w : World N) (k : Fin w.contact_points.length) : Prop :=
  (w.contact_points.get k).g < -w.params.min_gap_value

/-- The inverse masses and inertias of the movable bodies are positive. -/
def Massive (bodies : Fin N → RigidBody) : Prop :=
  ∀ m, (bodies m).is_fixed = false → 0 < (bodies m).mass ∧ 0 < (bodies m).inertia.x ∧ 0 < (bodies m).inertia.y ∧
    0 < (bodies m).inertia.z

/-! ### The matrix W is positive semidefinite -/

theorem vel_dot (f g : Vel N → ℝ) : f ⬝ᵥ g = ∑ m, (V3.dot (lin f m) (lin g m) + V3.dot (ang f m) (ang g m)) := by
  simp only [dotProduct, Fintype.sum_prod_type, Fin.sum_univ_six, V3.dot, lin, ang]
  apply Finset.sum_congr rfl
  intro m _
  ring

theorem inertia_form (R : M3) (I t : V3) : V3.dot t ((update_inertia_tensor R I).mulVec t) =
    I.x * (R.m00 * t.x + R.m10 * t.y + R.m20 * t.z) ^ 2 + I.y * (R.m01 * t.x + R.m11 * t.y + R.m21 * t.z) ^ 2 +
      I.z * (R.m02 * t.x + R.m12 * t.y + R.m22 * t.z) ^ 2 := by
  simp only [update_inertia_tensor, M3.mulVec, V3.dot]
  ring

/-- The energy of an impulse f, body by body. -/
theorem mass_form {bodies : Fin N → RigidBody} {x : Pos N → ℝ} {W : Matrix (Vel N) (Vel N) ℝ}
    (h : compute_inverse_mass_matrix bodies x = .ok W) (hm : Massive bodies) (f : Vel N → ℝ) (m : Fin N) :
    (if (bodies m).is_fixed = true then 0 else V3.dot (lin f m) (lin f m) / (bodies m).mass) ≤
      V3.dot (lin f m) (lin (W *ᵥ f) m) + V3.dot (ang f m) (ang (W *ᵥ f) m) := by
  obtain ⟨h1, h2⟩ := inverse_mass_mulVec h f m
  rw [h1, h2]
  by_cases hf : (bodies m).is_fixed = true
  · simp only [massBlocks, hf, if_true]
    simp [M3.mulVec, V3.dot, M3.zero]
  · rw [if_neg hf]
    obtain ⟨p0, p1, p2, p3⟩ := hm m (by simpa using hf)
    simp only [massBlocks, if_neg hf]
    rw [inertia_form]
    have e : V3.dot (lin f m) ((M3.diag (1.0 / (bodies m).mass) (1.0 / (bodies m).mass) (1.0 / (bodies m).mass)).mulVec (lin f m))
        = V3.dot (lin f m) (lin f m) / (bodies m).mass := by
      simp only [M3.mulVec, M3.diag, V3.dot, show (1.0 : ℝ) = 1 by norm_num]
      ring
    rw [e]
    have : 0 ≤ 1.0 / (bodies m).inertia.x := by positivity
    have : 0 ≤ 1.0 / (bodies m).inertia.y := by positivity
    have : 0 ≤ 1.0 / (bodies m).inertia.z := by positivity
    have := mul_nonneg ‹0 ≤ 1.0 / (bodies m).inertia.x› (sq_nonneg ((xq x m).to_matrix.m00 * (ang f m).x + (xq x m).to_matrix.m10 * (ang f m).y + (xq x m).to_matrix.m20 * (ang f m).z))
    have := mul_nonneg ‹0 ≤ 1.0 / (bodies m).inertia.y› (sq_nonneg ((xq x m).to_matrix.m01 * (ang f m).x + (xq x m).to_matrix.m11 * (ang f m).y + (xq x m).to_matrix.m21 * (ang f m).z))
    have := mul_nonneg ‹0 ≤ 1.0 / (bodies m).inertia.z› (sq_nonneg ((xq x m).to_matrix.m02 * (ang f m).x + (xq x m).to_matrix.m12 * (ang f m).y + (xq x m).to_matrix.m22 * (ang f m).z))
    linarith

/-- C94: an impulse never does negative work: fᵀ W f ≥ 0, so the matrix J W Jᵀ of every contact problem is positive
semidefinite. -/
theorem C94_mass_psd {bodies : Fin N → RigidBody} {s : StateStorage N} (hs : copy_from_engine bodies = .ok s)
    (hm : Massive bodies) (f : Vel N → ℝ) : 0 ≤ f ⬝ᵥ (s.W *ᵥ f) := by
  obtain ⟨-, -, -, hW, -⟩ := copy_fields hs
  rw [vel_dot]
  apply Finset.sum_nonneg
  intro m _
  refine le_trans ?_ (mass_form hW hm f m)
  split_ifs with hf
  · exact le_rfl
  · exact div_nonneg (by unfold V3.dot; nlinarith [mul_self_nonneg (lin f m).x, mul_self_nonneg (lin f m).y, mul_self_nonneg (lin f m).z])
      (hm m (by simpa using hf)).1.le

theorem col_single (cps : List (ContactPoint N)) (k : Fin cps.length) :
    contactForce cps (Pi.single (k, (0 : Fin 4)) 1) k = V3.unit (cps.get k).n := by
  rw [← frameN_eq]
  unfold contactForce
  ext <;> simp

/-- C94: the normal entry of J W Jᵀ is positive for a contact between two different bodies, at least one of which can
move. -/
theorem C94_diagonal_pos {s : StateStorage N} {bodies : Fin N → RigidBody} (cps : List (ContactPoint N))
    (hs : copy_from_engine bodies = .ok s) (hm : Massive bodies) (k : Fin cps.length)
    (hn : (cps.get k).n ≠ 0) (hne : (cps.get k).bodyA ≠ (cps.get k).bodyB)
    (hmov : (bodies (cps.get k).bodyA).is_fixed = false ∨ (bodies (cps.get k).bodyB).is_fixed = false) :
    0 < (contactJacobian bodies cps * (s.W * (contactJacobian bodies cps)ᵀ)) (k, 0) (k, 0) := by
  obtain ⟨-, -, -, hW, -⟩ := copy_fields hs
  set J := contactJacobian bodies cps with hJ
  set x : Fin cps.length × Fin 4 → ℝ := Pi.single (k, (0 : Fin 4)) 1 with hx
  have e : (J * (s.W * Jᵀ)) (k, 0) (k, 0) = (Jᵀ *ᵥ x) ⬝ᵥ (s.W *ᵥ (Jᵀ *ᵥ x)) := by
    have h1 : (Jᵀ *ᵥ x) ⬝ᵥ (s.W *ᵥ (Jᵀ *ᵥ x)) = x ⬝ᵥ (J *ᵥ (s.W *ᵥ (Jᵀ *ᵥ x))) := by
      rw [Matrix.mulVec_transpose, ← Matrix.dotProduct_mulVec]
    rw [h1, Matrix.mulVec_mulVec, Matrix.mulVec_mulVec, hx, single_dotProduct, one_mul, Matrix.mulVec_single_one, Matrix.mul_assoc]
    rfl
  rw [e, vel_dot]
  have hnn : ∀ m, 0 ≤ V3.dot (lin (Jᵀ *ᵥ x) m) (lin (s.W *ᵥ (Jᵀ *ᵥ x)) m) + V3.dot (ang (Jᵀ *ᵥ x) m) (ang (s.W *ᵥ (Jᵀ *ᵥ x)) m) := by
    intro m
    refine le_trans ?_ (mass_form hW hm (Jᵀ *ᵥ x) m)
    split_ifs with hf
    · exact le_rfl
    · exact div_nonneg (by unfold V3.dot; nlinarith [mul_self_nonneg (lin (Jᵀ *ᵥ x) m).x, mul_self_nonneg (lin (Jᵀ *ᵥ x) m).y, mul_self_nonneg (lin (Jᵀ *ᵥ x) m).z])
        (hm m (by simpa using hf)).1.le
  have hlin : ∀ m, lin (Jᵀ *ᵥ x) m = (if m = (cps.get k).bodyB then V3.unit (cps.get k).n else 0) -
      (if m = (cps.get k).bodyA then V3.unit (cps.get k).n else 0) := by
    intro m
    rw [hJ, (C40_contact_force bodies cps x m).1, Finset.sum_eq_single k]
    · rw [hx, col_single ]
    · intro l _ hl
      have : contactForce cps x l = 0 := by
        rw [hx]
        unfold contactForce
        ext <;> simp [hl]
      rw [this]
      simp
    · simp
  have hu : V3.dot (V3.unit (cps.get k).n) (V3.unit (cps.get k).n) = 1 := by
    obtain ⟨_, _, hF, -⟩ := C40_contact_velocity bodies cps k hn
    exact hF.2.2.1
  have key : ∀ m, (bodies m).is_fixed = false → (m = (cps.get k).bodyA ∨ m = (cps.get k).bodyB) →
      0 < V3.dot (lin (Jᵀ *ᵥ x) m) (lin (s.W *ᵥ (Jᵀ *ᵥ x)) m) + V3.dot (ang (Jᵀ *ᵥ x) m) (ang (s.W *ᵥ (Jᵀ *ᵥ x)) m) := by
    intro m hf hab
    refine lt_of_lt_of_le ?_ (mass_form hW hm (Jᵀ *ᵥ x) m)
    rw [if_neg (by simp [hf])]
    refine div_pos ?_ (hm m hf).1
    have hd : V3.dot (lin (Jᵀ *ᵥ x) m) (lin (Jᵀ *ᵥ x) m) = 1 := by
      rw [hlin m]
      rcases hab with rfl | rfl
      · rw [if_neg hne, if_pos rfl, ← hu]
        simp [V3.dot]
      · rw [if_pos rfl, if_neg (Ne.symm hne), ← hu]
        simp [V3.dot]
    rw [hd]
    exact one_pos
  rcases hmov with hf | hf
  · exact Finset.sum_pos' (fun m _ => hnn m) ⟨_, Finset.mem_univ _, key _ hf (Or.inl rfl)⟩
  · exact Finset.sum_pos' (fun m _ => hnn m) ⟨_, Finset.mem_univ _, key _ hf (Or.inr rfl)⟩

/-! ### When nothing happens -/

/-- C94: post-stabilization leaves the state alone when it is switched off, and when no contact penetrates deeper than
`min_gap_value`. -/
theorem C94_touches_nothing (w : World N) (C : Option (ContactProblem N w.contact_points.length)) (s1 : StateStorage N)
    (h : w.params.use_post_stabilization = false ∨ ∀ k, ¬ Deep w k) : stabilized w C s1 = .ok s1 := by
  unfold stabilized
  cases C with
  | none => rfl
  | some C =>
    simp only []
    rcases h with h | h
    · rw [h]; rfl
    · split
      · unfold apply_post_stabilization
        simp only [bind, Except.bind]
        rw [if_pos]
        · rfl
        · funext i
          change postError w.params w.contact_points i = 0
          unfold postError
          rw [if_neg]
          rintro ⟨-, h2⟩
          exact h i.1 h2
      · rfl

/-! ### What the projection aims at -/

/-- C94: the corrections a converged projection settles on.  Take any x that a sweep of the projection reproduces (with
any positive r-factors) and let δ = J W Jᵀ x be the displacement of the contacts it leads to, to first order.  Then at every
contact x pushes and never pulls, has no tangential part, and moves the contact apart by at least its
penetration depth if that exceeds the tolerance (and not closer otherwise) - by exactly that much where it pushes. -/
theorem C94_equilibrium {dt : ℝ} {s : StateStorage N} {w : World N} {C : ContactProblem N w.contact_points.length}
    (h : Contacts.initialize dt s w = .ok C) (r x : Fin w.contact_points.length × Fin 4 → ℝ)
    (hr : ∀ q, 0 < r q) (hx : gsSweep (PostStabilization.initialize w C.data) normalProx r x = x)
    (k : Fin w.contact_points.length) :
    let J := contactJacobian w.bodies w.contact_points
    let δ := J *ᵥ (s.W *ᵥ (Jᵀ *ᵥ x))
    0 ≤ x (k, 0) ∧ x (k, 1) = 0 ∧ x (k, 2) = 0 ∧ x (k, 3) = 0 ∧
    (Deep w k → -(w.contact_points.get k).g ≤ δ (k, 0) ∧ (0 < x (k, 0) → δ (k, 0) = -(w.contact_points.get k).g)) ∧
    (¬ Deep w k → 0 ≤ δ (k, 0) ∧ (0 < x (k, 0) → δ (k, 0) = 0)) := by
  obtain ⟨hJ, hW, -⟩ := contacts_init h
  intro J δ
  have hres : (((PostStabilization.initialize w C.data).J * (PostStabilization.initialize w C.data).WJT) *ᵥ x) = δ := by
    change (C.data.J * C.data.WJT) *ᵥ x = J *ᵥ (s.W *ᵥ (Jᵀ *ᵥ x))
    rw [hW, hJ, ← Matrix.mulVec_mulVec, ← Matrix.mulVec_mulVec]
  have hfix := (sweep_fixed_iff ..).1 hx k
  unfold BlockFixed at hfix
  rw [hres] at hfix
  have f0 := congrFun hfix 0
  have f1 := congrFun hfix 1
  have f2 := congrFun hfix 2
  have f3 := congrFun hfix 3
  simp only [normalProx, Matrix.cons_val_zero, Matrix.cons_val_one, Matrix.cons_val,
    show (0.0 : ℝ) = 0 by norm_num] at f0 f1 f2 f3
  obtain ⟨d, hd⟩ : ∃ d, d = (PostStabilization.initialize w C.data).b (k, 0) := ⟨_, rfl⟩
  rw [← hd] at f0
  have r0 := hr (k, 0)
  have hx0 : 0 ≤ x (k, 0) := by rw [f0]; exact le_max_left _ _
  have hge : 0 ≤ δ (k, 0) + d := by
    by_contra hc
    push Not at hc
    have h1 := mul_neg_of_pos_of_neg r0 hc
    have h2 : x (k, 0) - r (k, 0) * (δ (k, 0) + d) ≤ x (k, 0) := by
      conv_rhs => rw [f0]
      exact le_max_right _ _
    linarith
  have heq : 0 < x (k, 0) → δ (k, 0) + d = 0 := by
    intro hpos
    rcases max_choice (0 : ℝ) (x (k, 0) - r (k, 0) * (δ (k, 0) + d)) with hc | hc
    · rw [hc] at f0
      linarith
    · rw [hc] at f0
      have h1 : r (k, 0) * (δ (k, 0) + d) = 0 := by linarith
      exact (mul_eq_zero.1 h1).resolve_left r0.ne'
  refine ⟨hx0, f1, f2, f3, ?_, ?_⟩
  · intro hdp
    have : d = (w.contact_points.get k).g := by
      rw [hd]
      exact if_pos ⟨rfl, hdp⟩
    rw [this] at hge heq
    exact ⟨by linarith, fun hp => by linarith [heq hp]⟩
  · intro hdp
    have : d = 0 := by
      rw [hd]
      exact if_neg (fun hh => hdp hh.2)
    rw [this] at hge heq
    exact ⟨by linarith, fun hp => by linarith [heq hp]⟩

/-! ### Contacts that do not share a movable body -/

open Classical in
/-- The exact answer for decoupled contacts. -/
noncomputable def postAnswer (w : World N) (A : Fin w.contact_points.length × Fin 4 → ℝ) :
    Fin w.contact_points.length × Fin 4 → ℝ :=
  fun q => if q.2 = 0 ∧ Deep w q.1 then -(w.contact_points.get q.1).g / A q else 0

theorem decoupled_row {K : ℕ} {M : Type} [Fintype M] (D : Data K 4 M)
    (hdec : ∀ k l, k ≠ l → (D.J * D.WJT) (k, 0) (l, 0) = 0) (x : Fin K × Fin 4 → ℝ)
    (hx : ∀ k, x (k, 1) = 0 ∧ x (k, 2) = 0 ∧ x (k, 3) = 0) (k : Fin K) :
    ((D.J * D.WJT) *ᵥ x) (k, 0) = (D.J * D.WJT) (k, 0) (k, 0) * x (k, 0) := by
  simp only [Matrix.mulVec, dotProduct, Fintype.sum_prod_type, Fin.sum_univ_four]
  rw [Finset.sum_eq_single k]
  · rw [(hx k).1, (hx k).2.1, (hx k).2.2]; ring
  · intro l _ hl
    rw [hdec k l (Ne.symm hl), (hx l).1, (hx l).2.1, (hx l).2.2]; ring
  · simp

/-- The first sweep from zero lands on the answer. -/
theorem first_sweep {K : ℕ} {M : Type} [Fintype M] (D : Data K 4 M)
    (hdec : ∀ k l, k ≠ l → (D.J * D.WJT) (k, 0) (l, 0) = 0) (y : Fin K × Fin 4 → ℝ)
    (hy : ∀ k, y (k, 0) = max 0 (-(D.b (k, 0)) * initial_r D (k, 0)) ∧ y (k, 1) = 0 ∧ y (k, 2) = 0 ∧ y (k, 3) = 0) :
    gsSweep D normalProx (initial_r D) 0 = y := by
  rw [C38_sweep_exact]
  suffices hh : ∀ ks : List (Fin K), ks.Nodup → ∀ x : Fin K × Fin 4 → ℝ, (∀ q, q.1 ∈ ks → x q = 0) →
      (∀ q, q.1 ∉ ks → x q = y q) → ks.foldl (exactBlock D normalProx (initial_r D)) x = y by
    exact hh _ (List.nodup_finRange K) 0 (fun _ _ => rfl) (fun q hq => absurd (List.mem_finRange q.1) hq)
  intro ks
  induction ks with
  | nil =>
    intro _ x _ h2
    funext q
    exact h2 q (by simp)
  | cons k ks ih =>
    intro hn x h1 h2
    rw [List.nodup_cons] at hn
    rw [List.foldl_cons]
    have hx0 : ∀ l, x (l, 1) = 0 ∧ x (l, 2) = 0 ∧ x (l, 3) = 0 := by
      intro l
      by_cases hl : l ∈ k :: ks
      · exact ⟨h1 _ hl, h1 _ hl, h1 _ hl⟩
      · rw [h2 (l, 1) hl, h2 (l, 2) hl, h2 (l, 3) hl]
        exact (hy l).2
    apply ih hn.2
    · intro q hq
      unfold exactBlock
      rw [if_neg (fun e : q.1 = k => hn.1 (e ▸ hq))]
      exact h1 q (List.mem_cons_of_mem _ hq)
    · intro q hq
      unfold exactBlock
      by_cases hqk : q.1 = k
      · obtain ⟨q1, q2⟩ := q
        simp only at hqk
        subst hqk
        rw [if_pos rfl]
        have e0 := decoupled_row D hdec x hx0 q1
        have z0 := h1 (q1, 0) List.mem_cons_self
        obtain ⟨y0, y1, y2, y3⟩ := hy q1
        fin_cases q2
        · change max 0.0 (x (q1, 0) - initial_r D (q1, 0) * (((D.J * D.WJT) *ᵥ x) (q1, 0) + D.b (q1, 0))) = y (q1, 0)
          rw [e0, z0, y0, show (0.0 : ℝ) = 0 by norm_num]
          congr 1
          ring
        · exact y1.symm
        · exact y2.symm
        · exact y3.symm
      · rw [if_neg hqk]
        exact h2 q (by simp [hqk, hq])

/-- The iterate stays where it is once a sweep reproduces it. -/
theorem settled {M : Type} (p : ProxSolver.Params) (q : Prob M) (hx : q.st.x = q.st.sol) (y : q.ι → ℝ)
    (h1 : q.sweep q.st.r q.st.sol = y) (h2 : ∀ r, q.sweep r y = y) (m : ℕ) : (stateAt p q (m + 1)).sol = y := by
  induction m with
  | zero =>
    rcases (C37_rigid_step p q hx 0).2 with ⟨h, -⟩ | ⟨-, -, -, l, hl, -⟩
    · rw [h]; exact h1
    · simp [stateAt] at hl
  | succ m ih =>
    rcases (C37_rigid_step p q hx (m + 1)).2 with ⟨h, -⟩ | ⟨h, -⟩
    · rw [h, ih]; exact h2 _
    · rw [h, ih]

/-- C94: contacts that have no movable body in common are corrected exactly.  With post-stabilization on, at least one
iteration allowed, a non-negative tolerance and at least one contact deeper than it, the bodies are moved by W Jᵀ y, with non-negative normal
corrections y only, such that (to first order) every contact deeper than the tolerance is pushed apart by exactly its
penetration depth and no other contact changes its distance. -/
theorem C94_decoupled_exact {dt : ℝ} {s s1 : StateStorage N} {w : World N} {C : ContactProblem N w.contact_points.length}
    (hs : copy_from_engine w.bodies = .ok s) (hC : Contacts.initialize dt s w = .ok C)
    (hp : w.params.use_post_stabilization = true) (hit : 0 < w.params.max_iterations) (hg : 0 ≤ w.params.min_gap_value)
    (hm : Massive w.bodies) (hdeep : ∃ k, Deep w k)
    (hcp : ∀ k, Deep w k → (w.contact_points.get k).n ≠ 0 ∧
      (w.contact_points.get k).bodyA ≠ (w.contact_points.get k).bodyB ∧
      ((w.bodies (w.contact_points.get k).bodyA).is_fixed = false ∨
        (w.bodies (w.contact_points.get k).bodyB).is_fixed = false))
    (hdis : ∀ k l, k ≠ l → ∀ m, InContact w.contact_points m k → InContact w.contact_points m l →
      (w.bodies m).is_fixed = true) :
    let J := contactJacobian w.bodies w.contact_points
    ∃ y : Fin w.contact_points.length × Fin 4 → ℝ,
      stabilized w (some C) s1 = .ok (position_update s1 1 w.bodies (s.W *ᵥ (Jᵀ *ᵥ y))) ∧
      ∀ k, y (k, 1) = 0 ∧ y (k, 2) = 0 ∧ y (k, 3) = 0 ∧
        (Deep w k → 0 < y (k, 0) ∧ (J *ᵥ (s.W *ᵥ (Jᵀ *ᵥ y))) (k, 0) = -(w.contact_points.get k).g) ∧
        (¬ Deep w k → y (k, 0) = 0 ∧ (J *ᵥ (s.W *ᵥ (Jᵀ *ᵥ y))) (k, 0) = 0) := by
  intro J
  obtain ⟨hJ, hW, -⟩ := contacts_init hC
  set D := PostStabilization.initialize w C.data with hD
  have hDJ : D.J = J := hJ
  have hDW : D.WJT = s.W * Jᵀ := by rw [← hDJ]; exact hW
  have hdec : ∀ k l, k ≠ l → (D.J * D.WJT) (k, 0) (l, 0) = 0 := by
    intro k l hkl
    exact C40_decoupled hs hC (List.finRange _) (fun k _ l _ => hdis k l) k (List.mem_finRange _) l (List.mem_finRange _)
      hkl 0 0
  have hpos : ∀ k, Deep w k → 0 < (D.J * D.WJT) (k, 0) (k, 0) := by
    intro k hk
    obtain ⟨h1, h2, h3⟩ := hcp k hk
    rw [hDW, hDJ]
    exact C94_diagonal_pos w.contact_points hs hm k h1 h2 h3
  have hneg : ∀ k, Deep w k → (w.contact_points.get k).g < 0 := by
    intro k hk
    unfold Deep at hk
    linarith
  have hb : ∀ k, (Deep w k → D.b (k, 0) = (w.contact_points.get k).g) ∧ (¬ Deep w k → D.b (k, 0) = 0) := by
    intro k
    refine ⟨fun h => if_pos ⟨rfl, h⟩, fun h => if_neg (fun hh => h hh.2)⟩
  set y := postAnswer w (fun q => (D.J * D.WJT) q q) with hy
  have y0 : ∀ k, Deep w k → y (k, 0) = -(w.contact_points.get k).g / (D.J * D.WJT) (k, 0) (k, 0) :=
    fun k hk => if_pos ⟨rfl, hk⟩
  have y0' : ∀ k, ¬ Deep w k → y (k, 0) = 0 := fun k hk => if_neg (fun hh => hk hh.2)
  have yt : ∀ k, y (k, 1) = 0 ∧ y (k, 2) = 0 ∧ y (k, 3) = 0 := by
    intro k
    refine ⟨if_neg ?_, if_neg ?_, if_neg ?_⟩ <;> simp
  have hrow := decoupled_row D hdec y yt
  have hres : ∀ k, ((D.J * D.WJT) *ᵥ y) (k, 0) + D.b (k, 0) = 0 := by
    intro k
    rw [hrow]
    by_cases hk : Deep w k
    · rw [y0 k hk, (hb k).1 hk]
      have := (hpos k hk).ne'
      field_simp
      ring
    · rw [y0' k hk, (hb k).2 hk]
      ring
  have ypos : ∀ k, 0 ≤ y (k, 0) := by
    intro k
    by_cases hk : Deep w k
    · rw [y0 k hk]
      exact div_nonneg (by linarith [hneg k hk]) (hpos k hk).le
    · rw [y0' k hk]
  have hs1 : gsSweep D normalProx (initial_r D) 0 = y := by
    apply first_sweep D hdec
    intro k
    refine ⟨?_, yt k⟩
    by_cases hk : Deep w k
    · have hA := hpos k hk
      have hr : initial_r D (k, 0) = 1 / (D.J * D.WJT) (k, 0) (k, 0) := by
        unfold initial_r ProxSolver.diag
        simp only [show (1.0 : ℝ) = 1 by norm_num]
        rw [if_neg]
        · rfl
        · exact hA.ne'
      rw [hr, y0 k hk, (hb k).1 hk, max_eq_right]
      · ring
      · exact mul_nonneg (by linarith [hneg k hk]) (by positivity)
    · rw [y0' k hk, (hb k).2 hk]
      simp
  have hs2 : ∀ r, gsSweep D normalProx r y = y := by
    intro r
    rw [sweep_fixed_iff]
    intro k
    unfold BlockFixed
    funext c
    obtain ⟨t1, t2, t3⟩ := yt k
    fin_cases c
    · change y (k, 0) = max 0.0 (y (k, 0) - r (k, 0) * (((D.J * D.WJT) *ᵥ y) (k, 0) + D.b (k, 0)))
      rw [hres, show (0.0 : ℝ) = 0 by norm_num, mul_zero, sub_zero, max_eq_right (ypos k)]
    · exact t1
    · exact t2
    · exact t3
  have hdelta : ∀ k, (J *ᵥ (s.W *ᵥ (Jᵀ *ᵥ y))) (k, 0) = -D.b (k, 0) := by
    intro k
    have := hres k
    rw [hDW, hDJ, ← Matrix.mulVec_mulVec, ← Matrix.mulVec_mulVec] at this
    linarith
  refine ⟨y, ?_, fun k => ⟨(yt k).1, (yt k).2.1, (yt k).2.2, fun hk => ⟨?_, ?_⟩, fun hk => ⟨y0' k hk, ?_⟩⟩⟩
  · unfold stabilized
    simp only []
    rw [if_pos hp]
    unfold apply_post_stabilization
    simp only [bind, Except.bind]
    by_cases hz : (PostStabilization.initialize w C.data).b = 0
    · rw [if_pos hz]
      exfalso
      obtain ⟨k, hk⟩ := hdeep
      have h1 := (hb k).1 hk
      have h2 := congrFun hz (k, 0)
      rw [← hD, h1] at h2
      exact (hneg k hk).ne h2
    · rw [if_neg hz]
      have hne : w.contact_points ≠ [] := by
        intro he
        apply hz
        funext q
        exact absurd q.1.2 (by simp [he])
      obtain ⟨R, m, hR, -, hPs, -, -, -, hex⟩ := C37_rigid_solve w.params.toParams [D.problem normalProx]
        (by intro q hq; rw [List.mem_singleton] at hq; subst hq
            exact ⟨(⟨0, List.length_pos_of_ne_nil hne⟩, 0)⟩)
      have hm1 : ∃ m', m = m' + 1 := by
        have : 0 < m := by
          rcases hex with ⟨-, h, -⟩ | ⟨-, h, -⟩ | ⟨-, h, -⟩
          · rw [h]; exact hit
          · exact h
          · omega
        exact ⟨m - 1, by omega⟩
      obtain ⟨m', rfl⟩ := hm1
      unfold solveAndAdd
      rw [← hD, hR]
      simp only [hPs, List.map_cons, List.map_nil, List.foldl_cons, List.foldl_nil, zero_add, pure, Except.pure]
      have hset : (stateAt w.params.toParams (D.problem normalProx) (m' + 1)).sol = y :=
        settled w.params.toParams (D.problem normalProx) rfl y hs1 hs2 m'
      have hfin := finalize_solAt w.params.toParams D normalProx (m' + 1) (W := s.W) (J := J) hDW
      rw [show solAt w.params.toParams D normalProx (m' + 1) = y from hset] at hfin
      rw [show (1.0 : ℝ) = 1 by norm_num, ← hfin]
      rfl
  · rw [y0 k hk]
    exact div_pos (by linarith [hneg k hk]) (hpos k hk)
  · rw [hdelta, (hb k).1 hk]
  · rw [hdelta, (hb k).2 hk, neg_zero]

/-! ### Contact points -/

/-- C40: a contact point is created from exactly the arguments, unless its normal is more than 0.1 away from unit length;
then RuntimeError is raised. -/
theorem C40_contact_point (bodyA bodyB : Fin N) (p n : V3) (g : ℝ) :
    (0.9 ≤ V3.norm n ∧ V3.norm n ≤ 1.1 →
      ContactPoint.init bodyA bodyB p n g = .ok ⟨bodyA, bodyB, p, n, g⟩) ∧
    (V3.norm n < 0.9 ∨ 1.1 < V3.norm n → ContactPoint.init bodyA bodyB p n g = .error .runtimeError) := by
  unfold ContactPoint.init
  constructor
  · rintro ⟨h1, h2⟩
    rw [if_neg]
    rw [not_lt, abs_le]
    constructor <;> norm_num at h1 h2 ⊢ <;> linarith
  · intro h
    rw [if_pos]
    rw [gt_iff_lt, lt_abs]
    rcases h with h | h
    · left; norm_num at h ⊢; linarith
    · right; norm_num at h ⊢; linarith

end Verif

namespace Verif.RigidExample

open Matrix ProxSolver Rigid

/-- The two bodies of `world`, one centimetre into each other, with post-stabilization on. -/
noncomputable def deepWorld : World 2 :=
  { world with contact_points := [⟨0, 1, 0, ⟨0, 0, 1⟩, -0.01⟩],
               params := { Params.init with use_post_stabilization := true } }

/-- C94, non-vacuity: `deepWorld` meets all hypotheses of `C94_decoupled_exact`: the contact is pushed apart by the
centimetre. -/
theorem deep_contact_removed (dt : ℝ) (s1 : StateStorage 2) : ∃ (s : StateStorage 2)
    (C : ContactProblem 2 deepWorld.contact_points.length) (y : Fin deepWorld.contact_points.length × Fin 4 → ℝ),
    Contacts.initialize dt s deepWorld = .ok C ∧
    stabilized deepWorld (some C) s1 = .ok (position_update s1 1 deepWorld.bodies
      (s.W *ᵥ ((contactJacobian deepWorld.bodies deepWorld.contact_points)ᵀ *ᵥ y))) ∧
    ∀ k, (contactJacobian deepWorld.bodies deepWorld.contact_points *ᵥ
      (s.W *ᵥ ((contactJacobian deepWorld.bodies deepWorld.contact_points)ᵀ *ᵥ y))) (k, 0) = 0.01 := by
  obtain ⟨s, hs⟩ := state_exists
  have hC : ∃ C, Contacts.initialize dt s deepWorld = .ok C := by
    have hfr : frictionVector deepWorld.surfaces_interactions deepWorld.bodies deepWorld.contact_points = .ok [1] := by
      unfold frictionVector
      have : ∀ k, (deepWorld.bodies k).material = "default" := material
      simp only [this]
      rfl
    have hre : restitutionVector deepWorld.surfaces_interactions deepWorld.params deepWorld.bodies
        deepWorld.contact_points = .ok [0] := rfl
    unfold Contacts.initialize
    simp only [bind, Except.bind, hfr, hre]
    exact ⟨_, rfl⟩
  obtain ⟨C, hC⟩ := hC
  have hcp : ∀ k, deepWorld.contact_points.get k = ⟨0, 1, 0, ⟨0, 0, 1⟩, -0.01⟩ := by
    intro k
    have : k = ⟨0, Nat.one_pos⟩ := Subsingleton.elim (α := Fin 1) k ⟨0, Nat.one_pos⟩
    rw [this]
    rfl
  have hmg : deepWorld.params.min_gap_value = Params.init.min_gap_value := rfl
  have hdeep : ∀ k, Deep deepWorld k := by
    intro k
    unfold Deep
    rw [hcp, hmg]
    norm_num [Params.init]
  obtain ⟨y, h1, h2⟩ := C94_decoupled_exact (s1 := s1) hs hC rfl (by norm_num [deepWorld, Params.init])
    (by rw [hmg]; norm_num [Params.init])
    (by
      intro m hm
      change (bodies m).is_fixed = false at hm
      change 0 < (bodies m).mass ∧ 0 < (bodies m).inertia.x ∧ 0 < (bodies m).inertia.y ∧ 0 < (bodies m).inertia.z
      unfold bodies at hm ⊢
      split_ifs at hm ⊢
      norm_num)
    ⟨⟨0, Nat.one_pos⟩, hdeep _⟩
    (by
      intro k _
      rw [hcp]
      refine ⟨?_, by decide, Or.inr rfl⟩
      intro h
      have := congrArg V3.z h
      simp at this)
    (by
      intro k l hkl
      exact absurd (Subsingleton.elim (α := Fin 1) k l) hkl)
  refine ⟨s, C, y, hC, h1, fun k => ?_⟩
  rw [((h2 k).2.2.2.1 (hdeep k)).2, hcp]
  norm_num

end Verif.RigidExample
