import Verif.Lemmas.Jacobian
import Verif.Props.Vector3
import Verif.Props.ParallelGS

/-! C40: the contact problem of the rigid body simulator. -/

namespace Verif

open Matrix ProxSolver Rigid

variable {N : ℕ}

theorem frame_isFrame {n : V3} (h : n ≠ 0) : IsFrame (frameS n) (frameT n) (frameN n) := by
  have := C07_orthonormal_frame n h
  unfold frameS frameT frameN
  generalize V3.make_orthonormal_vectors n = f at *
  obtain ⟨t, b, n'⟩ := f
  simp only [V3.toFun_dot, ← V3.toFun_cross] at this
  obtain ⟨h1, h2, h3, h4, h5, h6, h7, -⟩ := this
  exact ⟨h1, h2, h3, h4, h5, h6, V3.toFun_injective h7⟩

theorem frameN_eq (n : V3) : frameN n = V3.unit n := rfl

/-- The relative velocity at contact point cp: the velocity of the point of body B minus that of body A. -/
def relVelocity (bodies : Fin N → RigidBody) (cp : ContactPoint N) (u : Vel N → ℝ) : V3 :=
  pointVelocity (bodies cp.bodyB).r (lin u cp.bodyB) (ang u cp.bodyB) cp.p -
    pointVelocity (bodies cp.bodyA).r (lin u cp.bodyA) (ang u cp.bodyA) cp.p

/-- C40: the contact Jacobian maps body velocities to the relative velocity at the contact point (B minus A), expressed
in a right-handed orthonormal frame whose third axis is the normalised contact normal: first the normal component, then
the two tangential components, then the relative spin about the normal. -/
theorem C40_contact_velocity (bodies : Fin N → RigidBody) (cps : List (ContactPoint N)) (k : Fin cps.length)
    (hn : (cps.get k).n ≠ 0) :
    ∃ s t, IsFrame s t (V3.unit (cps.get k).n) ∧ ∀ u : Vel N → ℝ,
      let cp := cps.get k
      let J := contactJacobian bodies cps
      (J *ᵥ u) (k, 0) = V3.dot (V3.unit cp.n) (relVelocity bodies cp u) ∧
      (J *ᵥ u) (k, 1) = V3.dot s (relVelocity bodies cp u) ∧
      (J *ᵥ u) (k, 2) = V3.dot t (relVelocity bodies cp u) ∧
      (J *ᵥ u) (k, 3) = V3.dot (V3.unit cp.n) (ang u cp.bodyB - ang u cp.bodyA) := by
  refine ⟨frameS (cps.get k).n, frameT (cps.get k).n, frameN_eq (cps.get k).n ▸ frame_isFrame hn, fun u => ?_⟩
  simp only [← frameN_eq]
  simp only [Matrix.mulVec, dotProduct, contactJacobian_row, pairRow_dot]
  generalize frameS (cps.get k).n = s
  generalize frameT (cps.get k).n = t
  generalize frameN (cps.get k).n = n
  unfold relVelocity pointVelocity
  generalize (bodies (cps.get k).bodyA).r = rA
  generalize (bodies (cps.get k).bodyB).r = rB
  generalize lin u (cps.get k).bodyA = vA
  generalize lin u (cps.get k).bodyB = vB
  generalize ang u (cps.get k).bodyA = wA
  generalize ang u (cps.get k).bodyB = wB
  generalize (cps.get k).p = p
  refine ⟨?_, ?_, ?_, ?_⟩ <;> simp [V3.dot, V3.cross, V3.zero] <;> ring

/-- The force that contact k exerts on body B when the multipliers are x (normal, s, t components). -/
noncomputable def contactForce (cps : List (ContactPoint N)) (x : Fin cps.length × Fin 4 → ℝ) (k : Fin cps.length) : V3 :=
  x (k, 0) • frameN (cps.get k).n + x (k, 1) • frameS (cps.get k).n + x (k, 2) • frameT (cps.get k).n

theorem lin_add (u v : Vel N → ℝ) (m : Fin N) : lin (u + v) m = lin u m + lin v m := by ext <;> simp [lin]
theorem ang_add (u v : Vel N → ℝ) (m : Fin N) : ang (u + v) m = ang u m + ang v m := by ext <;> simp [ang]
theorem lin_smul (c : ℝ) (u : Vel N → ℝ) (m : Fin N) : lin (c • u) m = c • lin u m := by ext <;> simp [lin]
theorem ang_smul (c : ℝ) (u : Vel N → ℝ) (m : Fin N) : ang (c • u) m = c • ang u m := by ext <;> simp [ang]
theorem lin_zero (m : Fin N) : lin (0 : Vel N → ℝ) m = 0 := by ext <;> simp [lin]
theorem ang_zero (m : Fin N) : ang (0 : Vel N → ℝ) m = 0 := by ext <;> simp [ang]

theorem lin_sum {ι : Type} (S : Finset ι) (f : ι → Vel N → ℝ) (m : Fin N) :
    lin (∑ i ∈ S, f i) m = ∑ i ∈ S, lin (f i) m := by
  classical
  induction S using Finset.induction_on with
  | empty => simp [lin_zero]
  | insert a S ha ih => rw [Finset.sum_insert ha, Finset.sum_insert ha, lin_add, ih]
theorem ang_sum {ι : Type} (S : Finset ι) (f : ι → Vel N → ℝ) (m : Fin N) :
    ang (∑ i ∈ S, f i) m = ∑ i ∈ S, ang (f i) m := by
  classical
  induction S using Finset.induction_on with
  | empty => simp [ang_zero]
  | insert a S ha ih => rw [Finset.sum_insert ha, Finset.sum_insert ha, ang_add, ih]

theorem lin_pairRow (A B : Fin N) (av aw bv bw : V3) (m : Fin N) :
    lin (pairRow A B av aw bv bw) m = (if m = A then av else 0) + (if m = B then bv else 0) := by
  unfold lin pairRow
  simp only
  split_ifs <;> ext <;> simp [six]

theorem ang_pairRow (A B : Fin N) (av aw bv bw : V3) (m : Fin N) :
    ang (pairRow A B av aw bv bw) m = (if m = A then aw else 0) + (if m = B then bw else 0) := by
  unfold ang pairRow
  simp only
  split_ifs <;> ext <;> simp [six]

/-- C40: the transposed Jacobian applies, for every contact, the contact force at the contact point to body B and the
opposite force at the same point to body A, and an opposite pair of frictional torques about the normal. -/
theorem C40_contact_force (bodies : Fin N → RigidBody) (cps : List (ContactPoint N))
    (x : Fin cps.length × Fin 4 → ℝ) (m : Fin N) :
    let f := (contactJacobian bodies cps)ᵀ *ᵥ x
    let F := contactForce cps x
    let T := fun k => x (k, 3) • V3.unit (cps.get k).n
    lin f m = ∑ k, ((if m = (cps.get k).bodyB then F k else 0) - (if m = (cps.get k).bodyA then F k else 0)) ∧
    ang f m = ∑ k,
      ((if m = (cps.get k).bodyB then V3.cross ((cps.get k).p - (bodies m).r) (F k) + T k else 0) -
        (if m = (cps.get k).bodyA then V3.cross ((cps.get k).p - (bodies m).r) (F k) + T k else 0)) := by
  have hrow : ∀ k i, contactJacobian bodies cps (k, i) = _ := fun k i => funext fun j => contactJacobian_row bodies cps k i j
  simp only [Matrix.mulVec_transpose, Matrix.vecMul_eq_sum, Fintype.sum_prod_type, Fin.sum_univ_four, hrow]
  simp only [lin_sum, ang_sum, lin_add, ang_add, lin_smul, ang_smul, lin_pairRow, ang_pairRow]
  constructor
  · apply Finset.sum_congr rfl
    intro k _
    unfold contactForce
    split_ifs <;> ext <;> simp [V3.zero] <;> ring
  · apply Finset.sum_congr rfl
    intro k _
    unfold contactForce
    simp only [← frameN_eq]
    generalize (cps.get k).bodyA = A
    generalize (cps.get k).bodyB = B
    generalize (cps.get k).p = p
    by_cases h1 : m = A
    · subst h1
      by_cases h2 : m = B
      · subst h2
        simp only [if_true]
        ext <;> simp [V3.zero, V3.cross] <;> ring
      · simp only [if_true, if_neg h2]
        ext <;> simp [V3.zero, V3.cross] <;> ring
    · by_cases h2 : m = B
      · subst h2
        simp only [if_true, if_neg h1]
        ext <;> simp [V3.zero, V3.cross] <;> ring
      · simp only [if_neg h2, if_neg h1]
        ext <;> simp [V3.zero, V3.cross]

/-- C40 (action and reaction): whatever the multipliers, the contact forces on all bodies sum to zero and so do their
moments about any point o. -/
theorem C40_action_reaction (bodies : Fin N → RigidBody) (cps : List (ContactPoint N))
    (x : Fin cps.length × Fin 4 → ℝ) (o : V3) :
    let f := (contactJacobian bodies cps)ᵀ *ᵥ x
    ∑ m, lin f m = 0 ∧ ∑ m, moment o (bodies m).r (lin f m) (ang f m) = 0 := by
  have h := C40_contact_force bodies cps x
  simp only at h ⊢
  simp only [h]
  constructor
  · rw [Finset.sum_comm]
    apply Finset.sum_eq_zero
    intro k _
    rw [Finset.sum_sub_distrib]
    simp
  · have hc : ∀ (a : V3) (S : Finset (Fin cps.length)) (f : Fin cps.length → V3),
        V3.cross a (∑ k ∈ S, f k) = ∑ k ∈ S, V3.cross a (f k) := by
      intro a S f
      classical
      induction S using Finset.induction_on with
      | empty => ext <;> simp [V3.cross]
      | insert b S hb ih =>
        rw [Finset.sum_insert hb, Finset.sum_insert hb, ← ih]
        ext <;> simp [V3.cross] <;> ring
    unfold moment
    simp only [hc, ← Finset.sum_add_distrib]
    rw [Finset.sum_comm]
    apply Finset.sum_eq_zero
    intro k _
    set F := contactForce cps x k
    set T := x (k, 3) • V3.unit (cps.get k).n
    have hm : ∀ m : Fin N,
        V3.cross ((bodies m).r - o) ((if m = (cps.get k).bodyB then F else 0) - (if m = (cps.get k).bodyA then F else 0)) +
          ((if m = (cps.get k).bodyB then V3.cross ((cps.get k).p - (bodies m).r) F + T else 0) -
            (if m = (cps.get k).bodyA then V3.cross ((cps.get k).p - (bodies m).r) F + T else 0)) =
        (if m = (cps.get k).bodyB then V3.cross ((cps.get k).p - o) F + T else 0) -
          (if m = (cps.get k).bodyA then V3.cross ((cps.get k).p - o) F + T else 0) := by
      intro m
      split_ifs <;> ext <;> simp [V3.cross] <;> ring
    simp only [hm]
    rw [Finset.sum_sub_distrib]
    simp

end Verif
