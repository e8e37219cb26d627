import Verif.Props.ContactSolve

/-! C41: the hinge constraints of the rigid body simulator. -/

namespace Verif

open Matrix ProxSolver Rigid

variable {N : ℕ}

/-- World position of the hinge anchor on the parent body. -/
def anchorP (bodies : Fin N → RigidBody) (h : Hinge N) : V3 :=
  (bodies h.parent).r + Quat.rotate (bodies h.parent).q h.arm_p
/-- World position of the hinge anchor on the child body. -/
def anchorC (bodies : Fin N → RigidBody) (h : Hinge N) : V3 :=
  (bodies h.child).r + Quat.rotate (bodies h.child).q h.arm_c
/-- World direction of the hinge axis on the parent body. -/
def axisP (bodies : Fin N → RigidBody) (h : Hinge N) : V3 := Quat.rotate (bodies h.parent).q h.axis_p
/-- World direction of the hinge axis on the child body. -/
def axisC (bodies : Fin N → RigidBody) (h : Hinge N) : V3 := Quat.rotate (bodies h.child).q h.axis_c
/-- Velocity of the anchor point of the parent body. -/
def anchorVelP (bodies : Fin N → RigidBody) (h : Hinge N) (u : Vel N → ℝ) : V3 :=
  pointVelocity (bodies h.parent).r (lin u h.parent) (ang u h.parent) (anchorP bodies h)
/-- Velocity of the anchor point of the child body. -/
def anchorVelC (bodies : Fin N → RigidBody) (h : Hinge N) (u : Vel N → ℝ) : V3 :=
  pointVelocity (bodies h.child).r (lin u h.child) (ang u h.child) (anchorC bodies h)

/-- A vector in the coordinates of a frame. -/
theorem frame_expand {s t n : V3} (h : IsFrame s t n) (w : V3) :
    w = V3.dot s w • s + V3.dot t w • t + V3.dot n w • n := by
  obtain ⟨h1, h2, h3, h4, h5, h6, -⟩ := h
  obtain ⟨s0, s1, s2⟩ := s
  obtain ⟨t0, t1, t2⟩ := t
  obtain ⟨n0, n1, n2⟩ := n
  simp only [V3.dot] at h1 h2 h3 h4 h5 h6
  have hR : (!![s0, s1, s2; t0, t1, t2; n0, n1, n2] : Matrix (Fin 3) (Fin 3) ℝ) * !![s0, t0, n0; s1, t1, n1; s2, t2, n2] = 1 := by
    ext i j
    fin_cases i <;> fin_cases j <;> simp [Matrix.mul_apply, Fin.sum_univ_three] <;> linarith
  have hR' := mul_eq_one_comm.1 hR
  have e : ∀ i j, (!![s0, t0, n0; s1, t1, n1; s2, t2, n2] * !![s0, s1, s2; t0, t1, t2; n0, n1, n2] : Matrix (Fin 3) (Fin 3) ℝ) i j
      = (1 : Matrix (Fin 3) (Fin 3) ℝ) i j := fun i j => by rw [hR']
  have e00 := e 0 0
  have e01 := e 0 1
  have e02 := e 0 2
  have e11 := e 1 1
  have e12 := e 1 2
  have e22 := e 2 2
  simp [Matrix.mul_apply, Fin.sum_univ_three] at e00 e01 e02 e11 e12 e22
  obtain ⟨w0, w1, w2⟩ := w
  ext <;> simp only [V3.dot, V3.add_x, V3.add_y, V3.add_z, V3.smul_x, V3.smul_y, V3.smul_z]
  · linear_combination (-w0) * e00 - w1 * e01 - w2 * e02
  · linear_combination (-w0) * e01 - w1 * e11 - w2 * e12
  · linear_combination (-w0) * e02 - w1 * e12 - w2 * e22

theorem hinge_rows (bodies : Fin N → RigidBody) (hs : List (Hinge N)) (k : Fin hs.length) (u : Vel N → ℝ) :
    let h := hs.get k
    let v := hingeJacobian bodies hs *ᵥ u
    (⟨v (k, 0), v (k, 1), v (k, 2)⟩ : V3) = anchorVelP bodies h u - anchorVelC bodies h u ∧
      v (k, 3) = V3.dot (frameS (axisP bodies h)) (ang u h.parent - ang u h.child) ∧
      v (k, 4) = V3.dot (frameT (axisP bodies h)) (ang u h.parent - ang u h.child) := by
  simp only [Matrix.mulVec, dotProduct, hingeJacobian_row, pairRow_dot]
  unfold anchorVelP anchorVelC anchorP anchorC axisP pointVelocity
  generalize frameS _ = s
  generalize frameT _ = t
  generalize Quat.rotate (bodies (hs.get k).parent).q (hs.get k).arm_p = ap
  generalize Quat.rotate (bodies (hs.get k).child).q (hs.get k).arm_c = ac
  generalize (bodies (hs.get k).parent).r = rA
  generalize (bodies (hs.get k).child).r = rB
  generalize lin u (hs.get k).parent = vA
  generalize lin u (hs.get k).child = vB
  generalize ang u (hs.get k).parent = wA
  generalize ang u (hs.get k).child = wB
  refine ⟨?_, ?_, ?_⟩
  · ext <;> simp [V3.dot, V3.cross, V3.zero, M3.star, M3.row0, M3.row1, M3.row2, M3.identity] <;> ring
  all_goals simp [V3.dot, V3.zero] <;> ring

/-- C41: the hinge Jacobian maps body velocities to the velocity of the parent's anchor point minus that of the child's
anchor point (three rows) and to the components of the relative angular velocity along two directions that complete the
parent's hinge axis to a right-handed orthonormal frame (two rows). -/
theorem C41_hinge_velocity (bodies : Fin N → RigidBody) (hs : List (Hinge N)) (k : Fin hs.length)
    (hn : axisP bodies (hs.get k) ≠ 0) :
    ∃ s t, IsFrame s t (V3.unit (axisP bodies (hs.get k))) ∧ ∀ u : Vel N → ℝ,
      let h := hs.get k
      let v := hingeJacobian bodies hs *ᵥ u
      (⟨v (k, 0), v (k, 1), v (k, 2)⟩ : V3) = anchorVelP bodies h u - anchorVelC bodies h u ∧
      v (k, 3) = V3.dot s (ang u h.parent - ang u h.child) ∧
      v (k, 4) = V3.dot t (ang u h.parent - ang u h.child) := by
  refine ⟨frameS (axisP bodies (hs.get k)), frameT (axisP bodies (hs.get k)),
    frameN_eq (axisP bodies (hs.get k)) ▸ frame_isFrame hn, fun u => ?_⟩
  exact hinge_rows bodies hs k u

/-- C41: the hinge constraint holds at velocity level exactly when the two anchor points move together and the bodies
rotate relative to each other only about the hinge axis. -/
theorem C41_hinge_kernel (bodies : Fin N → RigidBody) (hs : List (Hinge N)) (k : Fin hs.length)
    (hn : axisP bodies (hs.get k) ≠ 0) (u : Vel N → ℝ) :
    (∀ i, (hingeJacobian bodies hs *ᵥ u) (k, i) = 0) ↔
      anchorVelP bodies (hs.get k) u = anchorVelC bodies (hs.get k) u ∧
      ∃ c : ℝ, ang u (hs.get k).parent - ang u (hs.get k).child = c • axisP bodies (hs.get k) := by
  obtain ⟨s, t, hF, h⟩ := C41_hinge_velocity bodies hs k hn
  obtain ⟨h1, h2, h3⟩ := h u
  set a := axisP bodies (hs.get k)
  set w := ang u (hs.get k).parent - ang u (hs.get k).child
  set J := hingeJacobian bodies hs
  set v := J *ᵥ u
  have hua : a = V3.norm a • V3.unit a := by
    have hne : V3.norm a ≠ 0 := (V3.norm_pos hn).ne'
    ext <;> simp [V3.unit, V3.divs] <;> field_simp
  constructor
  · intro hz
    refine ⟨?_, ?_⟩
    · rw [hz, hz, hz] at h1
      rw [← sub_eq_zero]
      exact h1.symm
    · rw [hz] at h2 h3
      refine ⟨V3.dot (V3.unit a) w / V3.norm a, ?_⟩
      have hne : V3.norm a ≠ 0 := (V3.norm_pos hn).ne'
      have e := frame_expand hF w
      rw [← h2, ← h3] at e
      have e2 : V3.unit a = (1 / V3.norm a) • a := by
        ext <;> simp [V3.unit, V3.divs] <;> field_simp
      nth_rewrite 2 [e2] at e
      rw [smul_smul] at e
      rw [div_eq_mul_one_div]
      simpa using e
  · rintro ⟨ha, c, hc⟩
    rw [ha, sub_self] at h1
    have d1 : V3.dot s w = 0 := by
      rw [hc, hua]
      have := hF.2.2.2.2.2.1
      generalize V3.unit a = n at *
      simp only [V3.dot, V3.smul_x, V3.smul_y, V3.smul_z] at *
      linear_combination (c * V3.norm a) * this
    have d2 : V3.dot t w = 0 := by
      rw [hc, hua]
      have := hF.2.2.2.2.1
      generalize V3.unit a = n at *
      simp only [V3.dot, V3.smul_x, V3.smul_y, V3.smul_z] at *
      linear_combination (c * V3.norm a) * this
    have hx := congrArg V3.x h1
    have hy := congrArg V3.y h1
    have hz := congrArg V3.z h1
    intro i
    fin_cases i
    · simpa using hx
    · simpa using hy
    · simpa using hz
    · exact h2.trans d1
    · exact h3.trans d2

/-- The force hinge k exerts on the parent when the multipliers are x. -/
def hingeForce {K : ℕ} (x : Fin K × Fin 5 → ℝ) (k : Fin K) : V3 := ⟨x (k, 0), x (k, 1), x (k, 2)⟩

/-- The torque hinge k exerts on the parent besides the anchor force. -/
noncomputable def hingeTorque (bodies : Fin N → RigidBody) (hs : List (Hinge N)) (x : Fin hs.length × Fin 5 → ℝ)
    (k : Fin hs.length) : V3 :=
  x (k, 3) • frameS (axisP bodies (hs.get k)) + x (k, 4) • frameT (axisP bodies (hs.get k))

/-- C41: the transposed hinge Jacobian applies a force at the parent's anchor point and the opposite force at the
child's anchor point, and an opposite pair of torques, which have no component along the hinge axis. -/
theorem C41_hinge_force (bodies : Fin N → RigidBody) (hs : List (Hinge N)) (x : Fin hs.length × Fin 5 → ℝ) :
    (∀ m : Fin N,
      let f := (hingeJacobian bodies hs)ᵀ *ᵥ x
      let F := hingeForce x
      let T := hingeTorque bodies hs x
      lin f m = ∑ k, ((if m = (hs.get k).parent then F k else 0) - (if m = (hs.get k).child then F k else 0)) ∧
      ang f m = ∑ k,
        ((if m = (hs.get k).parent then V3.cross (anchorP bodies (hs.get k) - (bodies m).r) (F k) + T k else 0) -
          (if m = (hs.get k).child then V3.cross (anchorC bodies (hs.get k) - (bodies m).r) (F k) + T k else 0))) ∧
    ∀ k, axisP bodies (hs.get k) ≠ 0 → V3.dot (hingeTorque bodies hs x k) (V3.unit (axisP bodies (hs.get k))) = 0 := by
  constructor
  · intro m
    have hrow : ∀ k i, hingeJacobian bodies hs (k, i) = _ := fun k i => funext fun j => hingeJacobian_row bodies hs k i j
    simp only [Matrix.mulVec_transpose, Matrix.vecMul_eq_sum, Fintype.sum_prod_type, Fin.sum_univ_five, hrow]
    simp only [lin_sum, ang_sum, lin_add, ang_add, lin_smul, ang_smul, lin_pairRow, ang_pairRow]
    constructor
    · apply Finset.sum_congr rfl
      intro k _
      unfold hingeForce
      split_ifs <;> ext <;> simp [V3.zero, M3.row0, M3.row1, M3.row2, M3.identity]
    · apply Finset.sum_congr rfl
      intro k _
      unfold hingeForce hingeTorque axisP anchorP anchorC
      generalize frameS _ = s
      generalize frameT _ = t
      generalize (hs.get k).arm_p = ap
      generalize (hs.get k).arm_c = ac
      generalize (hs.get k).parent = A
      generalize (hs.get k).child = B
      by_cases h1 : m = A
      · subst h1
        generalize Quat.rotate (bodies m).q ap = ap'
        by_cases h2 : m = B
        · subst h2
          generalize Quat.rotate (bodies m).q ac = ac'
          simp only [if_true]
          ext <;> simp [V3.zero, V3.cross, M3.star, M3.row0, M3.row1, M3.row2] <;> ring
        · simp only [if_true, if_neg h2]
          ext <;> simp [V3.zero, V3.cross, M3.star, M3.row0, M3.row1, M3.row2] <;> ring
      · by_cases h2 : m = B
        · subst h2
          generalize Quat.rotate (bodies m).q ac = ac'
          simp only [if_true, if_neg h1]
          ext <;> simp [V3.zero, V3.cross, M3.star, M3.row0, M3.row1, M3.row2] <;> ring
        · simp only [if_neg h2, if_neg h1]
          ext <;> simp [V3.zero, V3.cross]
  · intro k hn
    have hF := frame_isFrame hn
    rw [frameN_eq] at hF
    have h1 := hF.2.2.2.2.1
    have h2 := hF.2.2.2.2.2.1
    unfold hingeTorque
    generalize frameS _ = s at *
    generalize frameT _ = t at *
    simp only [V3.dot, V3.smul_x, V3.smul_y, V3.smul_z, V3.add_x, V3.add_y, V3.add_z] at *
    linear_combination x (k, 3) * h2 + x (k, 4) * h1

/-- C41 (action and reaction): whatever the multipliers, the hinge forces on all bodies sum to zero; their moments about
any point sum to zero as soon as the two anchor points of every hinge coincide. -/
theorem C41_action_reaction (bodies : Fin N → RigidBody) (hs : List (Hinge N)) (x : Fin hs.length × Fin 5 → ℝ) (o : V3) :
    let f := (hingeJacobian bodies hs)ᵀ *ᵥ x
    ∑ m, lin f m = 0 ∧
    ((∀ h ∈ hs, anchorP bodies h = anchorC bodies h) → ∑ m, moment o (bodies m).r (lin f m) (ang f m) = 0) := by
  have h := (C41_hinge_force bodies hs x).1
  simp only at h ⊢
  simp only [h]
  constructor
  · rw [Finset.sum_comm]
    apply Finset.sum_eq_zero
    intro k _
    rw [Finset.sum_sub_distrib]
    simp
  · intro hA
    have hc : ∀ (a : V3) (S : Finset (Fin hs.length)) (f : Fin hs.length → V3),
        V3.cross a (∑ k ∈ S, f k) = ∑ k ∈ S, V3.cross a (f k) := by
      intro a S f
      classical
      induction S using Finset.induction_on with
      | empty => ext <;> simp [V3.cross]
      | insert b S hb ih =>
        rw [Finset.sum_insert hb, Finset.sum_insert hb, ← ih]
        ext <;> simp [V3.cross] <;> ring
    unfold moment
    simp only [hc, ← Finset.sum_add_distrib]
    rw [Finset.sum_comm]
    apply Finset.sum_eq_zero
    intro k _
    rw [← hA (hs.get k) (List.get_mem _ _)]
    set F := hingeForce x k
    set T := hingeTorque bodies hs x k
    set p := anchorP bodies (hs.get k)
    set A := (hs.get k).parent
    set B := (hs.get k).child
    clear_value F T p A B
    have hm : ∀ m : Fin N,
        V3.cross ((bodies m).r - o) ((if m = A then F else 0) - (if m = B then F else 0)) +
          ((if m = A then V3.cross (p - (bodies m).r) F + T else 0) -
            (if m = B then V3.cross (p - (bodies m).r) F + T else 0)) =
        (if m = A then V3.cross (p - o) F + T else 0) - (if m = B then V3.cross (p - o) F + T else 0) := by
      intro m
      split_ifs <;> ext <;> simp [V3.cross] <;> ring
    simp only [hm]
    rw [Finset.sum_sub_distrib]
    simp

/-- C41: a converged hinge solve.  If a sweep of the hinge problem reproduces the multipliers x (for any positive
r-factors) then the velocities u' = u + dt·W·f_ext + W·Jᵀ·x they lead to satisfy J u' + g = 0, and conversely.  Without
pre-stabilization g = 0, so by `C41_hinge_kernel` every hinge holds exactly. -/
theorem C41_hinge_solved (dt : ℝ) (s : StateStorage N) (w : World N) (r x : Fin w.hinges.length × Fin 5 → ℝ)
    (hr : ∀ q, 0 < r q) :
    let J := hingeJacobian w.bodies w.hinges
    let u' := s.u + dt • s.delta_u_ext + s.W *ᵥ (Jᵀ *ᵥ x)
    (gsSweep (Hinges.initialize dt s w) freeProx r x = x ↔ J *ᵥ u' + hingeError w.params dt w.bodies w.hinges = 0) ∧
    (w.params.use_pre_stabilization = false → hingeError w.params dt w.bodies w.hinges = 0) := by
  intro J u'
  constructor
  · rw [sweep_fixed_iff]
    unfold BlockFixed Hinges.initialize freeProx
    have hres : ∀ k i, ((J * (s.W * Jᵀ)) *ᵥ x) (k, i) + (J *ᵥ s.u + J *ᵥ (dt • s.delta_u_ext) +
        hingeError w.params dt w.bodies w.hinges) (k, i) =
        (J *ᵥ u' + hingeError w.params dt w.bodies w.hinges) (k, i) := by
      intro k i
      have : J *ᵥ u' = J *ᵥ s.u + J *ᵥ (dt • s.delta_u_ext) + (J * (s.W * Jᵀ)) *ᵥ x := by
        change J *ᵥ (s.u + dt • s.delta_u_ext + s.W *ᵥ (Jᵀ *ᵥ x)) = _
        rw [Matrix.mulVec_add, Matrix.mulVec_add, ← Matrix.mulVec_mulVec, ← Matrix.mulVec_mulVec]
      rw [this]
      simp only [Pi.add_apply]
      ring
    change (∀ k, (fun c => x (k, c)) = fun c => x (k, c) - r (k, c) * (((J * (s.W * Jᵀ)) *ᵥ x) (k, c) +
      (J *ᵥ s.u + J *ᵥ (dt • s.delta_u_ext) + hingeError w.params dt w.bodies w.hinges) (k, c))) ↔ _
    simp only [hres]
    constructor
    · intro h
      funext ⟨k, i⟩
      have := congrFun (h k) i
      have hz : r (k, i) * (J *ᵥ u' + hingeError w.params dt w.bodies w.hinges) (k, i) = 0 := by linarith
      exact (mul_eq_zero.1 hz).resolve_left (hr (k, i)).ne'
    · intro h k
      funext i
      rw [h]
      simp
  · intro hp
    unfold hingeError
    exact if_pos hp

/-- C41 (finding): pre-stabilization works with the wrong sign.  When the hinge solve has converged, the separation
d = (child anchor) - (parent anchor) of every hinge changes with velocity +γ/dt·d, where γ is `gap_reduction`: over the
step dt the separation is enlarged by γ·d instead of reduced; and the cosine of the angle between the hinge axes of the
two bodies changes with velocity -γ/dt·|n_p × n_c|², so misaligned axes are driven further apart. -/
theorem C41_prestabilization_diverges {dt : ℝ} (hdt : 0 < dt) (s : StateStorage N) (w : World N)
    (r x : Fin w.hinges.length × Fin 5 → ℝ) (hr : ∀ q, 0 < r q)
    (hx : gsSweep (Hinges.initialize dt s w) freeProx r x = x) (hp : w.params.use_pre_stabilization = true)
    (k : Fin w.hinges.length) (hn : axisP w.bodies (w.hinges.get k) ≠ 0) :
    let h := w.hinges.get k
    let u' := s.u + dt • s.delta_u_ext + s.W *ᵥ ((hingeJacobian w.bodies w.hinges)ᵀ *ᵥ x)
    let d := anchorC w.bodies h - anchorP w.bodies h
    let np := V3.unit (axisP w.bodies h)
    let nc := axisC w.bodies h
    dt • (anchorVelC w.bodies h u' - anchorVelP w.bodies h u') = w.params.gap_reduction • d ∧
    dt * (V3.dot (V3.cross (ang u' h.parent) np) nc + V3.dot np (V3.cross (ang u' h.child) nc)) =
      -w.params.gap_reduction * V3.dot (V3.cross np nc) (V3.cross np nc) := by
  intro h u' d np nc
  have hs := ((C41_hinge_solved dt s w r x hr).1).1 hx
  have hF := frame_isFrame hn
  have hv : (⟨(hingeJacobian w.bodies w.hinges *ᵥ u') (k, 0), (hingeJacobian w.bodies w.hinges *ᵥ u') (k, 1),
      (hingeJacobian w.bodies w.hinges *ᵥ u') (k, 2)⟩ : V3) = anchorVelP w.bodies h u' - anchorVelC w.bodies h u' ∧
      (hingeJacobian w.bodies w.hinges *ᵥ u') (k, 3) = V3.dot (frameS (axisP w.bodies h)) (ang u' h.parent - ang u' h.child) ∧
      (hingeJacobian w.bodies w.hinges *ᵥ u') (k, 4) = V3.dot (frameT (axisP w.bodies h)) (ang u' h.parent - ang u' h.child) := by
    exact hinge_rows w.bodies w.hinges k u'
  have hg : ∀ i, hingeError w.params dt w.bodies w.hinges (k, i) = hingeGap w.bodies h i * (w.params.gap_reduction / dt) := by
    intro i
    unfold hingeError
    rw [if_neg (by simp [hp])]
  have hrow : ∀ i, (hingeJacobian w.bodies w.hinges *ᵥ u') (k, i) = -(hingeGap w.bodies h i * (w.params.gap_reduction / dt)) := by
    intro i
    have := congrFun hs (k, i)
    simp only [Pi.add_apply, Pi.zero_apply] at this
    rw [hg] at this
    linarith
  have hgap : hingeGap w.bodies h 0 = d.x ∧ hingeGap w.bodies h 1 = d.y ∧ hingeGap w.bodies h 2 = d.z ∧
      hingeGap w.bodies h 3 = V3.dot (frameS (axisP w.bodies h)) (V3.cross np nc) ∧
      hingeGap w.bodies h 4 = V3.dot (frameT (axisP w.bodies h)) (V3.cross np nc) := by
    refine ⟨?_, ?_, ?_, rfl, rfl⟩ <;>
      · simp only [d, anchorP, anchorC, hingeGap]
        simp [add_comm]
  obtain ⟨h1, h2, h3⟩ := hv
  obtain ⟨g0, g1, g2, g3, g4⟩ := hgap
  rw [hrow, hrow, hrow, g0, g1, g2] at h1
  rw [hrow, g3] at h2
  rw [hrow, g4] at h3
  have hdt' := hdt.ne'
  constructor
  · have : anchorVelC w.bodies h u' - anchorVelP w.bodies h u' = -(anchorVelP w.bodies h u' - anchorVelC w.bodies h u') := by
      abel
    rw [this, ← h1]
    ext <;> simp <;> field_simp
  · have hF' : IsFrame (frameS (axisP w.bodies h)) (frameT (axisP w.bodies h)) np := hF
    generalize frameS (axisP w.bodies h) = t at *
    generalize frameT (axisP w.bodies h) = b at *
    have hnu : V3.dot np (V3.cross np nc) = 0 := by simp [V3.dot, V3.cross]; ring
    set U := V3.cross np nc with hU
    set wr := ang u' h.parent - ang u' h.child with hwr
    have e1 := frame_expand hF' U
    rw [hnu] at e1
    have hx1 : V3.dot (V3.cross (ang u' h.parent) np) nc + V3.dot np (V3.cross (ang u' h.child) nc) = V3.dot wr U := by
      rw [hwr, hU]
      simp [V3.dot, V3.cross]
      ring
    rw [hx1]
    have hx2 : V3.dot wr U = V3.dot t U * V3.dot t wr + V3.dot b U * V3.dot b wr := by
      conv_lhs => rw [e1]
      simp [V3.dot]
      ring
    have hx3 : V3.dot U U = V3.dot t U * V3.dot t U + V3.dot b U * V3.dot b U := by
      nth_rewrite 1 [e1]
      simp [V3.dot]
      ring
    rw [hx2, ← h2, ← h3, hx3]
    field_simp
    ring

end Verif
