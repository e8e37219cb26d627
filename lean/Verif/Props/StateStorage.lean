import Verif.Props.Contacts

/-! C46/C47: the stacked state of the rigid body simulator. -/

namespace Verif

open Matrix Rigid

variable {N : ℕ}

theorem lin_six (f : Fin N → V3 × V3) (m : Fin N) : lin (fun i : Vel N => six (f i.1).1 (f i.1).2 i.2) m = (f m).1 := by
  ext <;> simp [lin, six]
theorem ang_six (f : Fin N → V3 × V3) (m : Fin N) : ang (fun i : Vel N => six (f i.1).1 (f i.1).2 i.2) m = (f m).2 := by
  ext <;> simp [ang, six]

/-- A stacked velocity vector is determined by its 3-vectors. -/
theorem vel_ext {u v : Vel N → ℝ} (hl : ∀ m, lin u m = lin v m) (ha : ∀ m, ang u m = ang v m) : u = v := by
  funext ⟨m, c⟩
  have h1 := hl m
  have h2 := ha m
  simp only [lin, ang, V3.mk.injEq] at h1 h2
  obtain ⟨a0, a1, a2⟩ := h1
  obtain ⟨a3, a4, a5⟩ := h2
  fin_cases c <;> assumption

/-- C46: writing the state of the bodies into the stacked vectors and back changes nothing, and each vector entry has
exactly one owner (the layouts r,q / v,w of 7 and 6 numbers per body). -/
theorem C46_round_trip (s : StateStorage N) (bodies : Fin N → RigidBody) :
    copy_to_engine { s with x := get_position_vector bodies, u := get_velocity_vector bodies } bodies = bodies ∧
    get_position_vector (copy_to_engine s bodies) = s.x ∧ get_velocity_vector (copy_to_engine s bodies) = s.u := by
  refine ⟨?_, ?_, ?_⟩
  · funext k
    unfold copy_to_engine get_position_vector get_velocity_vector lin ang xr xq six seven
    simp
  · funext ⟨k, c⟩
    unfold copy_to_engine get_position_vector xr xq seven
    fin_cases c <;> rfl
  · funext ⟨k, c⟩
    unfold copy_to_engine get_velocity_vector lin ang six
    fin_cases c <;> rfl

/-- C46: storing the state touches nothing but position, orientation, velocity and spin of the bodies. -/
theorem C46_only_state (s : StateStorage N) (bodies : Fin N → RigidBody) (k : Fin N) :
    let b := copy_to_engine s bodies k
    b.name = (bodies k).name ∧ b.mass = (bodies k).mass ∧ b.inertia = (bodies k).inertia ∧ b.shape = (bodies k).shape ∧
      b.is_fixed = (bodies k).is_fixed ∧ b.forces = (bodies k).forces ∧ b.material = (bodies k).material :=
  ⟨rfl, rfl, rfl, rfl, rfl, rfl, rfl⟩

/-- C46: `copy_from_engine` succeeds unless a movable body has mass zero (ValueError). -/
theorem C46_mass_required (bodies : Fin N → RigidBody) :
    ((∃ k, (bodies k).is_fixed = false ∧ (bodies k).mass = 0) → copy_from_engine bodies = .error .valueError) ∧
    ((∀ k, (bodies k).is_fixed = false → (bodies k).mass ≠ 0) → ∃ s, copy_from_engine bodies = .ok s) := by
  constructor
  · intro h
    unfold copy_from_engine compute_inverse_mass_matrix
    simp only [bind, Except.bind]
    rw [if_pos h]
  · intro h
    unfold copy_from_engine compute_inverse_mass_matrix
    simp only [bind, Except.bind]
    rw [if_neg (by rintro ⟨k, h1, h2⟩; exact h k h1 h2)]
    exact ⟨_, rfl⟩

/-- The fields of the state after `copy_from_engine`. -/
theorem copy_fields {bodies : Fin N → RigidBody} {s : StateStorage N} (hs : copy_from_engine bodies = .ok s) :
    s.x = get_position_vector bodies ∧ s.u = get_velocity_vector bodies ∧
    s.f_ext = compute_total_external_forces bodies s.x s.u ∧ compute_inverse_mass_matrix bodies s.x = .ok s.W ∧
    s.delta_u_ext = s.W *ᵥ s.f_ext ∧ (∀ k, (bodies k).is_fixed = false → (bodies k).mass ≠ 0) := by
  unfold copy_from_engine at hs
  simp only [bind, Except.bind] at hs
  split at hs
  · cases hs
  rename_i W hW2
  simp only [pure, Except.pure, Except.ok.injEq] at hs
  rw [← hs]
  refine ⟨rfl, rfl, rfl, hW2, rfl, ?_⟩
  intro k hk h0
  unfold compute_inverse_mass_matrix at hW2
  rw [if_pos ⟨k, hk, h0⟩] at hW2
  cases hW2

theorem state_vectors (bodies : Fin N → RigidBody) (k : Fin N) :
    xr (get_position_vector bodies) k = (bodies k).r ∧ xq (get_position_vector bodies) k = (bodies k).q ∧
    lin (get_velocity_vector bodies) k = (bodies k).v ∧ ang (get_velocity_vector bodies) k = (bodies k).w := by
  refine ⟨?_, ?_, ?_, ?_⟩ <;> ext <;> simp [xr, xq, lin, ang, get_position_vector, get_velocity_vector, six, seven]

theorem sixBlock_mulVec (A B : M3) (u : Vel N → ℝ) (m : Fin N) :
    (fun c => ∑ d, sixBlock A B c d * u (m, d)) = six (A.mulVec (lin u m)) (B.mulVec (ang u m)) := by
  funext c
  simp only [Fin.sum_univ_six, sixBlock, six, M3.mulVec, lin, ang]
  fin_cases c <;> simp

theorem inverse_mass_mulVec {bodies : Fin N → RigidBody} {x : Pos N → ℝ} {W : Matrix (Vel N) (Vel N) ℝ}
    (h : compute_inverse_mass_matrix bodies x = .ok W) (f : Vel N → ℝ) (m : Fin N) :
    lin (W *ᵥ f) m = (massBlocks (bodies m) (xq x m)).1.mulVec (lin f m) ∧
    ang (W *ᵥ f) m = (massBlocks (bodies m) (xq x m)).2.mulVec (ang f m) := by
  have key : ∀ c, (W *ᵥ f) (m, c) =
      six ((massBlocks (bodies m) (xq x m)).1.mulVec (lin f m)) ((massBlocks (bodies m) (xq x m)).2.mulVec (ang f m)) c := by
    intro c
    unfold compute_inverse_mass_matrix at h
    split at h
    · cases h
    injection h with h
    subst h
    rw [← sixBlock_mulVec]
    simp only [Matrix.mulVec, dotProduct, Fintype.sum_prod_type]
    rw [Finset.sum_eq_single m]
    · simp
    · intro n _ hn
      apply Finset.sum_eq_zero
      intro d _
      rw [if_neg (Ne.symm hn), zero_mul]
    · simp
  constructor <;> ext <;> simp only [lin, ang, key] <;> rfl

/-- World-frame inertia: `update_inertia_tensor` is R diag(I) Rᵀ. -/
theorem C46_inertia_tensor (R : M3) (I : V3) :
    (update_inertia_tensor R I).toMat = R.toMat * Matrix.diagonal I.toFun * R.toMatᵀ := by
  ext i j
  rw [Matrix.mul_apply]
  simp only [Matrix.mul_diagonal, Matrix.transpose_apply, Fin.sum_univ_three]
  fin_cases i <;> fin_cases j <;> simp [update_inertia_tensor, M3.toMat, V3.toFun] <;> ring

/-- For a rotation R the tensor of the inverse principal moments is the inverse of the tensor of the moments. -/
theorem C46_inertia_inverse {R : M3} (hR : IsRotation R) {I : V3} (hx : I.x ≠ 0) (hy : I.y ≠ 0) (hz : I.z ≠ 0) :
    (update_inertia_tensor R I).toMat * (update_inertia_tensor R ⟨1.0 / I.x, 1.0 / I.y, 1.0 / I.z⟩).toMat = 1 := by
  rw [C46_inertia_tensor, C46_inertia_tensor]
  have hRR : R.toMatᵀ * R.toMat = 1 := by
    have := (Matrix.mem_specialOrthogonalGroup_iff.1 hR).1
    rw [Matrix.mem_orthogonalGroup_iff'] at this
    exact this
  have hRR' : R.toMat * R.toMatᵀ = 1 := by
    have := (Matrix.mem_specialOrthogonalGroup_iff.1 hR).1
    rw [Matrix.mem_orthogonalGroup_iff] at this
    exact this
  have hd : Matrix.diagonal I.toFun * Matrix.diagonal (V3.toFun ⟨1.0 / I.x, 1.0 / I.y, 1.0 / I.z⟩) = 1 := by
    rw [Matrix.diagonal_mul_diagonal, ← Matrix.diagonal_one]
    congr 1
    funext i
    fin_cases i <;> simp [V3.toFun] <;> field_simp <;> norm_num
  calc R.toMat * diagonal I.toFun * R.toMatᵀ * (R.toMat * diagonal (V3.toFun ⟨1.0 / I.x, 1.0 / I.y, 1.0 / I.z⟩) * R.toMatᵀ)
      = R.toMat * (diagonal I.toFun * ((R.toMatᵀ * R.toMat) * diagonal (V3.toFun ⟨1.0 / I.x, 1.0 / I.y, 1.0 / I.z⟩))) *
          R.toMatᵀ := by simp only [Matrix.mul_assoc]
    _ = 1 := by rw [hRR, Matrix.one_mul, hd, Matrix.mul_one, hRR']

end Verif
