import Verif.Props.SoftNewton

/-! C72: momentum balance of the soft body step, and when the mass matrix can be inverted. -/

namespace Verif

open Soft Mech

/-- The linear momentum of nodal velocities u. -/
noncomputable def linMomentum (b : SoftBody) (rho : ℝ) (u : Fin b.n → V3) : V3 := ∑ a, nodeMass b.T b.vol0 rho a • u a

/-- The angular momentum about the origin. -/
noncomputable def angMomentum (b : SoftBody) (rho : ℝ) (x u : Fin b.n → V3) : V3 := ∑ a, V3.cross (x a) (nodeMass b.T b.vol0 rho a • u a)

theorem pinnedX_free {b : SoftBody} (hp : ∀ a, ¬ Pinned b a) : pinnedX b = b.x := by
  funext a
  simp only [pinnedX, if_neg (hp a)]

theorem pinnedU_free {b : SoftBody} (hp : ∀ a, ¬ Pinned b a) : pinnedU b = b.u := by
  funext a
  simp only [pinnedU, if_neg (hp a)]

theorem isForce_elastic {e : Soft.Engine} {k : String} {b : SoftBody} (hb : BodyOk e k b) {x u f : Fin b.n → V3} (h : IsForce e b x u f) :
    ∃ m lam mu Fe C, material e b = .ok m ∧ Mech.first_lame m.E m.nu = .ok lam ∧ Mech.second_lame m.E m.nu = .ok mu ∧
      elasticForces b.x0 x b.T b.invD0 lam mu m.pk1_stress = .ok Fe ∧ b.C_array = some C ∧
      ∀ a, f a = compute_gravity_forces b.T b.vol0 m.rho b.gravity a + Fe a + Soft.compute_traction_forces x b.traction_conditions a +
        Soft.compute_damping_forces b.T C u a := by
  obtain ⟨m, F, lam, mu, Fe, C, hm, hF, hl, hmu, hFe, hC, hf⟩ := h
  refine ⟨m, lam, mu, Fe, C, hm, hl, hmu, ?_, hC, hf⟩
  unfold elasticForces
  rw [hF]
  rw [hb.gradN0] at hFe
  exact hFe

/-- **C72** (linear momentum). In a successful step the momentum of a body without pinned nodes changes by the time step times the weight of the
body (at the current density), half the load on every loaded triangle (see C54) and minus the damping, plus the nodal contact impulses: elastic
forces change no momentum, whatever the constitutive model. -/
theorem C72_momentum {P : Plugins} {W : ℕ × (ℕ → ℕ → ℝ)} {dt : ℝ} {e e' : Soft.Engine} (hok : SoftOk e)
    (hW : compute_inverse_mass_matrix e = .ok W.2) (h : Soft.step P W dt e = .ok e') :
    ∃ fc, IsContactImpulse P { e with contact_points := e'.contact_points } fc ∧
      ∀ k b, HasBody e k b → (∀ a, ¬ Pinned b a) → ∃ (rho : ℝ) (m : Material) (C : _) (x' u' : Fin b.n → V3),
        HasBody e' k { b with x := x', u := u' } ∧ b.M_array = some (compute_mass_element_array rho b.vol0 true) ∧
        material e b = .ok m ∧ b.C_array = some C ∧
        linMomentum b rho u' - linMomentum b rho b.u = dt • (softMass b.vol0 m.rho • b.gravity +
          (b.traction_conditions.map fun t => (loadedArea b.x t / 2) • t.traction).sum - ∑ a, prod_mat_vec b.T C b.u a) +
          ∑ a : Fin b.n, fc (b.offset + a) := by
  obtain ⟨fc, hfc, hall⟩ := C72_newton hok hW h
  refine ⟨fc, hfc, fun k b hb hp => ?_⟩
  obtain ⟨rho, x', u', f, hb', hM, hf, hnode⟩ := hall k b hb
  rw [pinnedX_free hp, pinnedU_free hp] at hf
  obtain ⟨m, lam, mu, Fe, C, hm, -, -, hFe, hC, hfa⟩ := isForce_elastic (hok.bodyOk hb) hf
  refine ⟨rho, m, C, x', u', hb', hM, hm, hC, ?_⟩
  unfold linMomentum
  rw [← Finset.sum_sub_distrib]
  simp only [← smul_sub]
  rw [Finset.sum_congr rfl fun a _ => (hnode a (hp a)).1, Finset.sum_add_distrib, ← Finset.smul_sum]
  congr 2
  rw [Finset.sum_congr rfl fun a _ => hfa a]
  simp only [Finset.sum_add_distrib]
  rw [C54_total_gravity, C52_forces_sum_zero _ _ _ _ _ _ _ _ hFe, (C54_traction_total_partial _ _).2, add_zero, sub_eq_add_neg]
  congr 1
  simp only [Soft.compute_damping_forces, Pi.neg_apply, Finset.sum_neg_distrib]

/-- **C72** (angular momentum). In a successful step the angular momentum about the origin of a body without pinned nodes changes by the moment
of the forces and contact impulses at the old positions; for Saint Venant-Kirchhoff and stable neo-Hookean materials the elastic forces
contribute nothing. -/
theorem C72_angular_momentum {P : Plugins} {W : ℕ × (ℕ → ℕ → ℝ)} {dt : ℝ} {e e' : Soft.Engine} (hok : SoftOk e)
    (hW : compute_inverse_mass_matrix e = .ok W.2) (h : Soft.step P W dt e = .ok e') :
    ∃ fc, IsContactImpulse P { e with contact_points := e'.contact_points } fc ∧
      ∀ k b, HasBody e k b → (∀ a, ¬ Pinned b a) → ∃ (rho : ℝ) (m : Material) (C : _) (x' u' : Fin b.n → V3),
        HasBody e' k { b with x := x', u := u' } ∧ b.M_array = some (compute_mass_element_array rho b.vol0 true) ∧
        material e b = .ok m ∧ b.C_array = some C ∧
        (m.pk1_stress = SVK.pk1_stress ∨ m.pk1_stress = SNH.pk1_stress →
          angMomentum b rho x' u' - angMomentum b rho b.x b.u = ∑ a : Fin b.n, V3.cross (b.x a)
            (dt • (compute_gravity_forces b.T b.vol0 m.rho b.gravity a + Soft.compute_traction_forces b.x b.traction_conditions a +
              Soft.compute_damping_forces b.T C b.u a) + fc (b.offset + a))) := by
  obtain ⟨fc, hfc, hall⟩ := C72_newton hok hW h
  refine ⟨fc, hfc, fun k b hb hp => ?_⟩
  obtain ⟨rho, x', u', f, hb', hM, hf, hnode⟩ := hall k b hb
  rw [pinnedX_free hp, pinnedU_free hp] at hf
  have hbo := hok.bodyOk hb
  obtain ⟨m, lam, mu, Fe, C, hm, -, -, hFe, hC, hfa⟩ := isForce_elastic hbo hf
  refine ⟨rho, m, C, x', u', hb', hM, hm, hC, fun hpk => ?_⟩
  have ht : ∑ v, V3.cross (b.x v - 0) (Fe v) = 0 := by
    refine C52_no_torque b.x0 b.x b.T b.invD0 hbo.prepared lam mu Fe 0 ?_
    rcases hpk with hpk | hpk
    · left; rw [← hpk]; exact hFe
    · right; rw [← hpk]; exact hFe
  have hterm : ∀ a, V3.cross (x' a) (nodeMass b.T b.vol0 rho a • u' a) - V3.cross (b.x a) (nodeMass b.T b.vol0 rho a • b.u a) =
      V3.cross (b.x a) (dt • (compute_gravity_forces b.T b.vol0 m.rho b.gravity a +
        Soft.compute_traction_forces b.x b.traction_conditions a + Soft.compute_damping_forces b.T C b.u a) + fc (b.offset + a)) +
      dt • V3.cross (b.x a - 0) (Fe a) := by
    intro a
    obtain ⟨h1, h2⟩ := hnode a (hp a)
    rw [hfa a] at h1
    rw [h2]
    generalize nodeMass b.T b.vol0 rho a = M at *
    generalize compute_gravity_forces b.T b.vol0 m.rho b.gravity a = g at *
    generalize Soft.compute_traction_forces b.x b.traction_conditions a = t at *
    generalize Soft.compute_damping_forces b.T C b.u a = d at *
    generalize fc (b.offset + a) = c at *
    generalize Fe a = el at *
    generalize b.x a = X at *
    generalize u' a = U' at *
    generalize b.u a = U at *
    have hx := congrArg V3.x h1; have hy := congrArg V3.y h1; have hz := congrArg V3.z h1
    simp only [V3.smul_x, V3.smul_y, V3.smul_z, V3.add_x, V3.add_y, V3.add_z, V3.sub_x, V3.sub_y, V3.sub_z] at hx hy hz
    refine V3.ext ?_ ?_ ?_ <;> simp [V3.cross]
    · linear_combination X.y * hz - X.z * hy
    · linear_combination X.z * hx - X.x * hz
    · linear_combination X.x * hy - X.y * hx
  unfold angMomentum
  rw [← Finset.sum_sub_distrib, Finset.sum_congr rfl fun a _ => hterm a, Finset.sum_add_distrib, ← Finset.smul_sum, ht, smul_zero, add_zero]

/-- **C72** (contacts conserve momentum). The nodal contact impulses of a step sum to zero over all nodes of all bodies, if the barycentric weights
of every contact sum to one on both sides. -/
theorem C72_contacts_conserve {P : Plugins} {e : Soft.Engine} (hok : SoftOk e) {fc : ℕ → V3} (h : IsContactImpulse P e fc)
    (hw : ∀ cp ∈ e.contact_points, ∑ a, cp.omegaA a = 1 ∧ ∑ a, cp.omegaB a = 1) :
    ∑ q ∈ Finset.range e.number_of_nodes, fc q = 0 := by
  rcases h with ⟨-, rfl⟩ | ⟨J, _, _, _, lam, hJ, -, -, rfl⟩
  · simp
  · exact C73_action_reaction hok hJ hw lam

/-- **C72** (node masses). With positive volumes and a density that is not negative a node has positive mass exactly when the density is positive and
the node belongs to a tetrahedron; the node masses add up to the mass of the body. -/
theorem C72_node_mass {n K : ℕ} (T : Fin K → Fin 4 → Fin n) (vol0 : Fin K → ℝ) (hv : ∀ t, 0 < vol0 t) (rho : ℝ) (hr : 0 ≤ rho) :
    (∀ a, 0 ≤ nodeMass T vol0 rho a) ∧ (∀ a, 0 < nodeMass T vol0 rho a ↔ 0 < rho ∧ ∃ t p, T t p = a) ∧
      ∑ a, nodeMass T vol0 rho a = softMass vol0 rho := by
  have hnn : ∀ a t p, 0 ≤ if T t p = a then rho * vol0 t / 4 else 0 := by
    intro a t p
    split_ifs
    · have := hv t; positivity
    · exact le_rfl
  refine ⟨fun a => Finset.sum_nonneg fun t _ => Finset.sum_nonneg fun p _ => hnn a t p, fun a => ⟨fun h => ?_, ?_⟩, ?_⟩
  · unfold nodeMass at h
    by_contra hne
    have : ∑ t, ∑ p, (if T t p = a then rho * vol0 t / 4 else 0) = 0 := by
      refine Finset.sum_eq_zero fun t _ => Finset.sum_eq_zero fun p _ => ?_
      split_ifs with htp
      · have : rho = 0 := by
          by_contra h0
          exact hne ⟨lt_of_le_of_ne hr (Ne.symm h0), t, p, htp⟩
        rw [this]; ring
      · rfl
    linarith
  · rintro ⟨hr', t, p, rfl⟩
    unfold nodeMass
    refine Finset.sum_pos' (fun t' _ => Finset.sum_nonneg fun p' _ => hnn _ t' p') ⟨t, Finset.mem_univ _, ?_⟩
    refine Finset.sum_pos' (fun p' _ => hnn _ t p') ⟨p, Finset.mem_univ _, ?_⟩
    rw [if_pos rfl]
    have := hv t
    positivity
  · unfold nodeMass softMass
    rw [Finset.sum_comm]
    refine Finset.sum_congr rfl fun t _ => ?_
    rw [Finset.sum_comm]
    simp only [Finset.sum_ite_eq, Finset.mem_univ, if_true]
    rw [Finset.sum_const, Finset.card_univ, Fintype.card_fin]
    ring

/-- **C72** (the stepper can be made). Once every body has a material, the mass matrix of a consistent engine can be inverted exactly when every node
of every body has a mass other than zero; otherwise the first `simulate` raises RuntimeError. -/
theorem C72_invertible {e : Soft.Engine} (hok : SoftOk e) {B : List SoftBody} (hB : bodyList e = .ok B) {M : ℕ → ℕ → ℝ}
    (hM : compute_mass_matrix B = .ok M) :
    ((∀ k b rho, HasBody e k b → b.M_array = some (compute_mass_element_array rho b.vol0 true) → ∀ a, nodeMass b.T b.vol0 rho a ≠ 0) →
      ∃ W, compute_inverse_mass_matrix e = .ok W) ∧
    ((∃ k b rho a, HasBody e k b ∧ b.M_array = some (compute_mass_element_array rho b.vol0 true) ∧ nodeMass b.T b.vol0 rho a = 0) →
      compute_inverse_mass_matrix e = .error .runtimeError) := by
  have hinv : compute_inverse_mass_matrix e = sparseInv (e.number_of_nodes * 3) M := by
    unfold compute_inverse_mass_matrix
    rw [hB]
    simp only [bind, Except.bind]
    rw [hM]
  set A : Matrix (Fin (e.number_of_nodes * 3)) (Fin (e.number_of_nodes * 3)) ℝ := Matrix.of fun i j => M i j with hA
  have hglob := C55_global_mass hok hB hM
  have hlump : ∀ k b, HasBody e k b → ∃ rho, b.M_array = some (compute_mass_element_array rho b.vol0 true) := by
    intro k b hb
    have hbo := hok.bodyOk hb
    obtain ⟨A, hA, -⟩ := hglob.1 k b hb
    rcases hbo.material with ⟨-, h, -⟩ | ⟨m, rho, c, -, -, -, -, h, -⟩
    · rw [h] at hA; cases hA
    · exact ⟨rho, by rw [h, hbo.lumped]⟩
  have hindex : ∀ r : Fin (e.number_of_nodes * 3), ∃ k b, HasBody e k b ∧ ∃ (a : Fin b.n) (i : Fin 3), (r : ℕ) = (b.offset + a) * 3 + i := by
    intro r
    obtain ⟨k, b, hb, h1, h2⟩ := hok.cover (r / 3) (by have := r.2; omega)
    exact ⟨k, b, hb, ⟨r / 3 - b.offset, by omega⟩, ⟨r % 3, by omega⟩, by simp; omega⟩
  have hdiag : A = Matrix.diagonal fun r : Fin (e.number_of_nodes * 3) => M r r := by
    ext r c
    rw [hA, Matrix.of_apply]
    by_cases hrc : r = c
    · rw [hrc, Matrix.diagonal_apply_eq]
    · rw [Matrix.diagonal_apply_ne _ hrc]
      obtain ⟨k, b, hb, a, i, hr⟩ := hindex r
      obtain ⟨rho, hrho⟩ := hlump k b hb
      have := mass_row hok hB hM hb hrho a i (fun q => if q = c then 1 else 0)
      simp only [mul_ite, mul_one, mul_zero, Finset.sum_ite_eq', Finset.mem_range, c.2, if_true] at this
      rw [hr, this, if_neg]
      intro h
      exact hrc (Fin.ext (hr.trans h))
  have hrow : ∀ k b rho, HasBody e k b → b.M_array = some (compute_mass_element_array rho b.vol0 true) → ∀ (a : Fin b.n) (i : Fin 3),
      M ((b.offset + a) * 3 + i) ((b.offset + a) * 3 + i) = nodeMass b.T b.vol0 rho a := by
    intro k b rho hb hrho a i
    obtain ⟨A', hA', hM'⟩ := hglob.1 k b hb
    rw [hrho] at hA'
    injection hA' with hA'
    subst hA'
    rw [hM', blockEntry_lumped, if_pos ⟨rfl, rfl⟩]
  have hdet : A.det = ∏ r : Fin (e.number_of_nodes * 3), M r r := by rw [hdiag, Matrix.det_diagonal]
  rw [hinv]
  constructor
  · intro hne
    unfold sparseInv
    simp only
    rw [if_pos]
    · exact ⟨_, rfl⟩
    · change IsUnit A.det
      rw [hdet, isUnit_iff_ne_zero, Finset.prod_ne_zero_iff]
      intro r _
      obtain ⟨k, b, hb, a, i, hr⟩ := hindex r
      obtain ⟨rho, hrho⟩ := hlump k b hb
      rw [hr, hrow k b rho hb hrho a i]
      exact hne k b rho hb hrho a
  · rintro ⟨k, b, rho, a, hb, hrho, h0⟩
    unfold sparseInv
    simp only
    rw [if_neg]
    change ¬ IsUnit A.det
    rw [hdet, isUnit_iff_ne_zero, not_not, Finset.prod_eq_zero_iff]
    have hlt := hok.below k b hb
    have ha := a.2
    refine ⟨⟨(b.offset + a) * 3 + (0 : Fin 3), by simp; omega⟩, Finset.mem_univ _, ?_⟩
    rw [hrow k b rho hb hrho a 0, h0]

end Verif
