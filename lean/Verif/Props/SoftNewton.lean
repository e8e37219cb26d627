import Verif.Props.SoftContact

/-! C72: the semi-implicit step solves the equations of motion. -/

namespace Verif

open Soft

/-! ### Specification -/

open Classical in
/-- Where the node sits when the forces are evaluated: pinned nodes are first put back to their undeformed position. -/
noncomputable def pinnedX (b : SoftBody) : Fin b.n → V3 := fun a => if Pinned b a then b.x0 a else b.x a

open Classical in
/-- The velocities when the forces are evaluated: pinned nodes are at rest. -/
noncomputable def pinnedU (b : SoftBody) : Fin b.n → V3 := fun a => if Pinned b a then 0 else b.u a

/-- f is the total force on the nodes of b at positions x and velocities u: gravity, elastic, traction and damping forces of its material. -/
def IsForce (e : Soft.Engine) (b : SoftBody) (x u : Fin b.n → V3) (f : Fin b.n → V3) : Prop :=
  ∃ m F lam mu Fe C, material e b = .ok m ∧ compute_deformation_gradient x b.T b.invD0 = .ok F ∧
    Mech.first_lame m.E m.nu = .ok lam ∧ Mech.second_lame m.E m.nu = .ok mu ∧
    Soft.compute_elastic_forces b.T b.gradN0 F lam mu m.pk1_stress = .ok Fe ∧ b.C_array = some C ∧
    ∀ a, f a = compute_gravity_forces b.T b.vol0 m.rho b.gravity a + Fe a + Soft.compute_traction_forces x b.traction_conditions a +
      Soft.compute_damping_forces b.T C u a

/-- The mass of a node: a quarter of the mass of every tetrahedron at it. -/
noncomputable def nodeMass {n K : ℕ} (T : Fin K → Fin 4 → Fin n) (vol0 : Fin K → ℝ) (rho : ℝ) (a : Fin n) : ℝ :=
  ∑ t, ∑ p, if T t p = a then rho * vol0 t / 4 else 0

/-- fc are the nodal contact impulses of some contact solution: none without contacts. -/
def IsContactImpulse (P : Plugins) (e : Soft.Engine) (fc : ℕ → V3) : Prop :=
  (e.contact_points = [] ∧ fc = fun _ => 0) ∨
  ∃ J WJT b mu lam, compute_jacobian_matrix e = .ok J ∧ get_friction_coefficient_vector e = .ok mu ∧
    P.solve e.contact_points.length J WJT b mu = .ok lam ∧ fc = nodalImpulse e J lam

/-! ### Proofs -/

theorem sum_range_three (m : ℕ) (f : ℕ → ℝ) : ∑ c ∈ Finset.range (m * 3), f c = ∑ q ∈ Finset.range m, ∑ j : Fin 3, f (q * 3 + j) := by
  induction m with
  | zero => simp
  | succ m ih =>
    rw [Finset.sum_range_succ, ← ih, Nat.succ_mul, Finset.sum_range_succ, Finset.sum_range_succ, Finset.sum_range_succ, Fin.sum_univ_three]
    simp only [Fin.val_zero, Fin.val_one, Fin.val_two, add_zero]
    ring

/-- The inverse solves. -/
theorem sparseInv_mul {m : ℕ} {M W : ℕ → ℕ → ℝ} (h : sparseInv m M = .ok W) (v : ℕ → ℝ) {r : ℕ} (hr : r < m) :
    ∑ c ∈ Finset.range m, M r c * matVec m W v c = v r := by
  unfold sparseInv at h
  simp only at h
  split_ifs at h with hu
  injection h with h
  set A : Matrix (Fin m) (Fin m) ℝ := Matrix.of fun i j => M i j with hA
  have h1 := congrFun (congrArg (fun B => Matrix.mulVec B fun i : Fin m => v i) (Matrix.mul_nonsing_inv A hu)) ⟨r, hr⟩
  simp only [Matrix.one_mulVec, ← Matrix.mulVec_mulVec] at h1
  rw [← h1, Finset.sum_range]
  simp only [Matrix.mulVec, dotProduct]
  refine Finset.sum_congr rfl fun c _ => ?_
  rw [show A ⟨r, hr⟩ c = M r c from rfl]
  congr 1
  unfold matVec
  rw [Finset.sum_range]
  refine Finset.sum_congr rfl fun d _ => ?_
  rw [← h]
  simp only [c.2, d.2, and_self, dif_pos, Fin.eta]

/-- The lumped mass block. -/
theorem blockEntry_lumped {n K : ℕ} (T : Fin K → Fin 4 → Fin n) (vol0 : Fin K → ℝ) (rho : ℝ) (a a' : Fin n) (i j : Fin 3) :
    blockEntry T (compute_mass_element_array rho vol0 true) a a' i j = if a = a' ∧ i = j then nodeMass T vol0 rho a else 0 := by
  have hd : ∀ (c : ℝ) (M : M3) (i j : Fin 3), entry (c • M) i j = c * entry M i j := by
    intro c M i j
    fin_cases i <;> fin_cases j <;> simp [entry]
  have hI : ∀ i j : Fin 3, entry M3.identity i j = if i = j then 1 else 0 := by
    intro i j
    fin_cases i <;> fin_cases j <;> simp [entry, M3.identity]
  have hZ : ∀ i j : Fin 3, entry M3.zero i j = 0 := by
    intro i j
    fin_cases i <;> fin_cases j <;> simp [entry, M3.zero]
  unfold blockEntry nodeMass
  have hrow : ∀ t p, (∑ q, if T t p = a ∧ T t q = a' then entry (compute_mass_element_array rho vol0 true t p q) i j else 0) =
      if a = a' ∧ i = j then (if T t p = a then rho * vol0 t / 4 else 0) else 0 := by
    intro t p
    rw [Finset.sum_eq_single p]
    · simp only [compute_mass_element_array, hd, shapeProducts, if_true, hI]
      by_cases h1 : T t p = a
      · by_cases h2 : a = a'
        · subst h2
          rw [if_pos ⟨h1, h1⟩, if_pos h1]
          by_cases h3 : i = j
          · rw [if_pos h3, if_pos ⟨rfl, h3⟩]; ring
          · rw [if_neg h3, if_neg fun h => h3 h.2]; ring
        · rw [if_neg fun h => h2 (h.1.symm.trans h.2), if_neg fun h => h2 h.1]
      · rw [if_neg fun h => h1 h.1, if_neg h1, ite_self]
    · intro q _ hq
      simp only [compute_mass_element_array, hd, shapeProducts, if_true, if_neg (Ne.symm hq), hZ, mul_zero, ite_self]
    · intro h; exact absurd (Finset.mem_univ p) h
  simp only [hrow]
  split_ifs
  · rfl
  · simp

theorem inRange_add {b : SoftBody} (a : Fin b.n) : InRange b (b.offset + a) := ⟨by omega, by have := a.2; omega⟩

/-- In a built engine the global mass matrix is diagonal. -/
theorem mass_row {e : Soft.Engine} (hok : SoftOk e) {B : List SoftBody} (hB : bodyList e = .ok B) {M : ℕ → ℕ → ℝ}
    (h : compute_mass_matrix B = .ok M) {k : String} {b : SoftBody} (hb : HasBody e k b) {rho : ℝ}
    (hA : b.M_array = some (compute_mass_element_array rho b.vol0 true)) (a : Fin b.n) (i : Fin 3) (y : ℕ → ℝ) :
    ∑ c ∈ Finset.range (e.number_of_nodes * 3), M ((b.offset + a) * 3 + i) c * y c =
      nodeMass b.T b.vol0 rho a * y ((b.offset + a) * 3 + i) := by
  obtain ⟨h1, h2⟩ := C55_global_mass hok hB h
  obtain ⟨A, hA', hM⟩ := h1 k b hb
  rw [hA] at hA'
  injection hA' with hA'
  subst hA'
  rw [sum_range_three, Finset.sum_eq_single (b.offset + a), Finset.sum_eq_single i]
  · rw [hM, blockEntry_lumped, if_pos ⟨rfl, rfl⟩]
  · intro j _ hj
    rw [hM, blockEntry_lumped, if_neg fun h => hj h.2.symm, zero_mul]
  · intro h; exact absurd (Finset.mem_univ i) h
  · intro q hq hne
    refine Finset.sum_eq_zero fun j _ => ?_
    by_cases hr : InRange b q
    · obtain ⟨a', rfl⟩ : ∃ a' : Fin b.n, q = b.offset + a' := ⟨⟨q - b.offset, by unfold InRange at hr; omega⟩, by unfold InRange at hr; simp; omega⟩
      rw [hM, blockEntry_lumped, if_neg, zero_mul]
      rintro ⟨h, -⟩
      exact hne (by rw [h])
    · rw [h2, zero_mul]
      intro k' b' hb'
      by_cases hkk : k = k'
      · subst hkk
        have : b = b' := by
          have := hb.symm.trans hb'
          injection this with this
          injection this
        subst this
        exact .inr hr
      · left
        intro hin
        have := hok.disjoint k b k' b' hb hb' hkk
        have := a.2
        unfold InRange at hin
        omega
  · intro hn
    have := hok.below k b hb
    have := a.2
    exact absurd (Finset.mem_range.2 (by omega)) hn

/-- What the contact part adds to the velocities. -/
theorem contactVelocity_ok {P : Plugins} {e : Soft.Engine} {W : ℕ → ℕ → ℝ} {up WPc : ℕ → ℝ} (h : contactVelocity P e W up = .ok WPc) :
    ∃ fc, IsContactImpulse P e fc ∧ WPc = matVec (e.number_of_nodes * 3) W (flat fc) := by
  unfold contactVelocity at h
  split_ifs at h with hl
  · unfold contactResponse at h
    simp only [bind, Except.bind] at h
    cases hJ : compute_jacobian_matrix e with
    | error err => rw [hJ] at h; cases h
    | ok J =>
      rw [hJ] at h
      simp only at h
      split_ifs at h with hp
      cases hmu : get_friction_coefficient_vector e with
      | error err => rw [hmu] at h; cases h
      | ok mu =>
        rw [hmu] at h
        simp only at h
        generalize hs : P.solve _ _ _ _ _ = R at h
        cases R with
        | error err => cases h
        | ok sol =>
          simp only [pure, Except.pure, Except.ok.injEq] at h
          refine ⟨nodalImpulse e J sol, .inr ⟨J, _, _, mu, sol, hJ, hmu, hs, rfl⟩, ?_⟩
          rw [← h]
          funext r
          unfold matVec
          simp only [Finset.sum_mul]
          rw [Finset.sum_comm]
          refine Finset.sum_congr rfl fun c _ => ?_
          have : flat (nodalImpulse e J sol) c = ∑ r ∈ Finset.range (e.contact_points.length * 4), J r c * sol r := by
            have hc : c = c / 3 * 3 + (⟨c % 3, Nat.mod_lt _ (by norm_num)⟩ : Fin 3) := by simp; omega
            conv_lhs => rw [hc]
            rw [flat_node]
            unfold nodalImpulse
            rw [comp_unflat, ← hc]
          rw [this, Finset.mul_sum]
          exact Finset.sum_congr rfl fun q _ => by ring
  · injection h with h
    refine ⟨fun _ => 0, .inl ⟨List.length_eq_zero_iff.1 (by omega), rfl⟩, ?_⟩
    rw [← h]
    funext r
    unfold matVec flat
    refine (Finset.sum_eq_zero fun c _ => ?_).symm
    have : ∀ i : Fin 3, Soft.comp (0 : V3) i = 0 := by intro i; fin_cases i <;> rfl
    rw [this, mul_zero]

/-- The forces of one body within the global force vector. -/
theorem totalForces_body {e : Soft.Engine} (hok : SoftOk e) {B : List SoftBody} (hB : bodyList e = .ok B) {x u F : ℕ → V3}
    (h : totalForces e B x u = .ok F) {k : String} {b : SoftBody} (hb : HasBody e k b) :
    IsForce e b (readSlice b.n x b.offset) (readSlice b.n u b.offset) fun a => F (b.offset + a) := by
  have hap := bodyList_apart hok hB
  have hmem := (mem_bodyList hok.nodup hB b).2 ⟨k, hb⟩
  unfold totalForces at h
  simp only [bind, Except.bind] at h
  cases hFe : global_elastic_forces e B x with
  | error err => rw [hFe] at h; cases h
  | ok Fe =>
    rw [hFe] at h
    simp only at h
    cases hFd : global_damping_forces B u with
    | error err => rw [hFd] at h; cases h
    | ok Fd =>
      rw [hFd] at h
      simp only at h
      cases hFg : global_external_forces e B with
      | error err => rw [hFg] at h; cases h
      | ok Fg =>
        rw [hFg] at h
        simp only [pure, Except.pure, Except.ok.injEq] at h
        obtain ⟨fe, hfe, hFe⟩ := (gather hap (bodyElastic e x) hFe).1 b hmem
        obtain ⟨fd, hfd, hFd⟩ := (gather hap (fun b => do
          let C_array ← getArray b.C_array
          return Soft.compute_damping_forces b.T C_array (readSlice b.n u b.offset)) (by
            unfold global_damping_forces at hFd
            rw [← hFd]
            congr 1
            funext y c
            simp only [bind, Except.bind]
            cases getArray c.C_array <;> rfl)).1 b hmem
        obtain ⟨fg, hfg, hFg⟩ := (gather hap (fun b => do
          let m ← material e b
          return compute_gravity_forces b.T b.vol0 m.rho b.gravity) (by
            unfold global_external_forces at hFg
            rw [← hFg]
            congr 1
            funext y c
            simp only [bind, Except.bind]
            cases material e c <;> rfl)).1 b hmem
        have hFt := (gather_pure hap (fun b => Soft.compute_traction_forces (readSlice b.n x b.offset) b.traction_conditions)
          (fun _ => V3.zero)).1 b hmem
        unfold bodyElastic at hfe
        simp only [bind, Except.bind] at hfe hfd hfg
        cases hD : compute_deformation_gradient (readSlice b.n x b.offset) b.T b.invD0 with
        | error err => rw [hD] at hfe; cases hfe
        | ok D =>
          rw [hD] at hfe
          cases hm : material e b with
          | error err => rw [hm] at hfg; cases hfg
          | ok m =>
            rw [hm] at hfe hfg
            simp only at hfe hfg
            cases hl : Mech.first_lame m.E m.nu with
            | error err => rw [hl] at hfe; cases hfe
            | ok lam =>
              rw [hl] at hfe
              simp only at hfe
              cases hmu : Mech.second_lame m.E m.nu with
              | error err => rw [hmu] at hfe; cases hfe
              | ok mu =>
                rw [hmu] at hfe
                simp only at hfe
                cases hC : b.C_array with
                | none => rw [hC] at hfd; cases hfd
                | some C =>
                  rw [hC] at hfd
                  simp only [getArray, pure, Except.pure, Except.ok.injEq] at hfd hfg
                  refine ⟨m, D, lam, mu, fe, C, hm, hD, hl, hmu, hfe, hC, fun a => ?_⟩
                  rw [← h]
                  simp only
                  rw [hFe, hFd, hFg, ← hfd, ← hfg]
                  congr 2
                  exact hFt a

theorem readSlice_pinnedX {e : Soft.Engine} (hok : SoftOk e) {B : List SoftBody} (hB : bodyList e = .ok B) {k : String} {b : SoftBody}
    (hb : HasBody e k b) : readSlice b.n (apply_boundary_conditions_on_positions (get_position_vector B) B) b.offset = pinnedX b := by
  have hap := bodyList_apart hok hB
  have hmem := (mem_bodyList hok.nodup hB b).2 ⟨k, hb⟩
  obtain ⟨h1, h2⟩ := bc_position hap (fun c hc => by
    obtain ⟨k', hc⟩ := (mem_bodyList hok.nodup hB c).1 hc
    exact (hok.bodyOk hc).dirichlet) (get_position_vector B)
  funext a
  unfold readSlice pinnedX
  split_ifs with hp
  · exact h1 b hmem a hp
  · rw [h2 _ (free_node hap hmem hp)]
    exact (gather_pure hap (fun b => b.x) _).1 b hmem a

theorem readSlice_pinnedU {e : Soft.Engine} (hok : SoftOk e) {B : List SoftBody} (hB : bodyList e = .ok B) {k : String} {b : SoftBody}
    (hb : HasBody e k b) : readSlice b.n (apply_boundary_conditions_on_velocities (get_velocity_vector B) B) b.offset = pinnedU b := by
  have hap := bodyList_apart hok hB
  have hmem := (mem_bodyList hok.nodup hB b).2 ⟨k, hb⟩
  obtain ⟨h1, h2⟩ := bc_velocity hap (get_velocity_vector B)
  funext a
  unfold readSlice pinnedU
  split_ifs with hp
  · exact h1 b hmem a hp
  · rw [h2 _ (free_node hap hmem hp)]
    exact (gather_pure hap (fun b => b.u) _).1 b hmem a

/-- **C72** (Newton's law, node by node). A successful step of a consistent engine, with the inverse of the engine's mass matrix, finds contact
impulses `fc` (the solver's answer, spread to the nodes by the contact Jacobian; none without contacts) such that at every node that carries no
Dirichlet condition: mass times change of velocity is the time step times the force plus the contact impulse, and the new position is the old
one plus the time step times the new velocity.  The forces (gravity, elastic, traction and damping) are those of the old state with
the pinned nodes at rest at their undeformed positions.  The mass is that of the density at the time the material was given to the body. -/
theorem C72_newton {P : Plugins} {W : ℕ × (ℕ → ℕ → ℝ)} {dt : ℝ} {e e' : Soft.Engine} (hok : SoftOk e)
    (hW : compute_inverse_mass_matrix e = .ok W.2) (h : Soft.step P W dt e = .ok e') :
    ∃ fc, IsContactImpulse P { e with contact_points := e'.contact_points } fc ∧
      ∀ k b, HasBody e k b → ∃ (rho : ℝ) (x' u' f : Fin b.n → V3), HasBody e' k { b with x := x', u := u' } ∧
        b.M_array = some (compute_mass_element_array rho b.vol0 true) ∧ IsForce e b (pinnedX b) (pinnedU b) f ∧
        ∀ a, ¬ Pinned b a →
          nodeMass b.T b.vol0 rho a • (u' a - b.u a) = dt • f a + fc (b.offset + a) ∧ x' a = b.x a + dt • u' a := by
  obtain ⟨D⟩ := softStep_ok h
  have hcp : e'.contact_points = D.cps := congrArg Engine.contact_points D.he'
  obtain ⟨fc, hfc, hWPc⟩ := contactVelocity_ok D.hWPc
  rw [hcp]
  refine ⟨fc, hfc, fun k b hb => ?_⟩
  have hap := bodyList_apart hok D.hB
  have hmem := (mem_bodyList hok.nodup D.hB b).2 ⟨k, hb⟩
  unfold compute_inverse_mass_matrix at hW
  rw [D.hB] at hW
  simp only [bind, Except.bind] at hW
  cases hM : compute_mass_matrix D.B with
  | error err => rw [hM] at hW; cases hW
  | ok M =>
    rw [hM] at hW
    simp only at hW
    obtain ⟨rho, hA⟩ : ∃ rho, b.M_array = some (compute_mass_element_array rho b.vol0 true) := by
      have hbo := hok.bodyOk hb
      obtain ⟨A, hA, -⟩ := (C55_global_mass hok D.hB hM).1 k b hb
      rcases hbo.material with ⟨-, h, -⟩ | ⟨m, rho, c, -, -, -, -, h, -⟩
      · rw [h] at hA; cases hA
      · exact ⟨rho, by rw [h, hbo.lumped]⟩
    have hf := totalForces_body hok D.hB D.hF hb
    rw [readSlice_pinnedX hok D.hB hb, readSlice_pinnedU hok D.hB hb] at hf
    refine ⟨rho, readSlice b.n D.x b.offset, readSlice b.n D.u b.offset, _, (D.hasBody k _).2 ⟨b, hb, rfl⟩, hA, hf, fun a ha => ?_⟩
    have hfree := free_node hap hmem ha
    obtain ⟨-, hv⟩ := bc_velocity hap (get_velocity_vector D.B)
    have hx0 : apply_boundary_conditions_on_positions (get_position_vector D.B) D.B (b.offset + a) = b.x a := by
      have := congrFun (readSlice_pinnedX hok D.hB hb) a
      unfold readSlice pinnedX at this
      rw [this, if_neg ha]
    have hu0 : apply_boundary_conditions_on_velocities (get_velocity_vector D.B) D.B (b.offset + a) = b.u a := by
      have := congrFun (readSlice_pinnedU hok D.hB hb) a
      unfold readSlice pinnedU at this
      rw [this, if_neg ha]
    have hDu : D.u (b.offset + a) = unflat (fun r =>
        flat (apply_boundary_conditions_on_velocities (get_velocity_vector D.B) D.B) r + dt * matVec W.1 W.2 (flat D.F) r) (b.offset + a) +
        unflat D.WPc (b.offset + a) := by
      rw [D.hu, (bc_velocity hap _).2 _ hfree, (bc_velocity hap _).2 _ hfree]
    constructor
    · apply comp_ext
      intro i
      have hrow := mass_row hok D.hB hM hb hA a i
      have hlt : (b.offset + a) * 3 + (i : ℕ) < e.number_of_nodes * 3 := by
        have := hok.below k b hb
        have := a.2; have := i.2
        omega
      have h1 := sparseInv_mul hW (flat D.F) hlt
      have h2 := sparseInv_mul hW (flat fc) hlt
      rw [hrow, flat_node] at h1 h2
      have hadd : ∀ v w : V3, Soft.comp (v + w) i = Soft.comp v i + Soft.comp w i := by
        intro v w; fin_cases i <;> simp [Soft.comp]
      rw [comp_smul, comp_sub, hadd, comp_smul]
      unfold readSlice
      rw [hDu, hadd, comp_unflat, comp_unflat, flat_node, hu0, hWPc, D.hW, ← h1, ← h2]
      ring
    · unfold readSlice
      rw [D.hx, ((bc_position hap (fun c hc => by
        obtain ⟨k', hc⟩ := (mem_bodyList hok.nodup D.hB c).1 hc
        exact (hok.bodyOk hc).dirichlet)) _).2 _ hfree, hx0]

end Verif
