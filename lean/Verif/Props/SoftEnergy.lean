import Verif.Props.SoftElastic
import Mathlib.Analysis.Calculus.Deriv.Pow
import Mathlib.Analysis.Calculus.Deriv.Add
import Mathlib.Analysis.Calculus.Deriv.Mul
import Mathlib.Analysis.SpecialFunctions.Log.Deriv
import Mathlib.Analysis.Complex.ExponentialBounds

/-! C53: the stresses and forces of the soft body simulator against the elastic energy it reports. -/

namespace Verif

open Soft M3 Mech Topology

variable {n K : ℕ}

/-! ### Specification -/

/-- The sum of the products of the entries of two matrices. -/
def frob (A B : M3) : ℝ :=
  A.m00 * B.m00 + A.m01 * B.m01 + A.m02 * B.m02 + A.m10 * B.m10 + A.m11 * B.m11 + A.m12 * B.m12 +
    A.m20 * B.m20 + A.m21 * B.m21 + A.m22 * B.m22

/-- P is the gradient at F of the energy density psi: the derivative in every direction H is P : H. -/
def EnergyGradient (psi : M3 → Except PyErr ℝ) (F P : M3) : Prop :=
  ∃ ψ : M3 → ℝ, (∀ A, psi A = .ok (ψ A)) ∧ ∀ H, HasDerivAt (fun t : ℝ => ψ (F + t • H)) (frob P H) 0

/-- The total elastic energy at the positions x (solver.py:928-938). -/
noncomputable def elasticEnergy (x0 x : Fin n → V3) (T : Fin K → Fin 4 → Fin n) (invD0 : Fin K → M3) (lam mu : ℝ)
    (energy_density : M3 → ℝ → ℝ → Except PyErr ℝ) : Except PyErr ℝ := do
  let F ← compute_deformation_gradient x T invD0
  compute_elastic_energy (compute_volumes x0 T) F lam mu energy_density

/-! ### Proofs -/

theorem HasDerivAt.of_eq {f g : ℝ → ℝ} {a b x : ℝ} (h : HasDerivAt f a x) (hf : g = f) (hab : b = a) : HasDerivAt g b x := by
  subst hf; subst hab; exact h

theorem quad_deriv (a b c : ℝ) : HasDerivAt (fun t : ℝ => a + t * b + t ^ 2 * c) b 0 := by
  have h1 : HasDerivAt (fun t : ℝ => t * b) (1 * b) 0 := (hasDerivAt_id (0 : ℝ)).mul_const b
  have h2 : HasDerivAt (fun t : ℝ => t ^ 2 * c) ((2 : ℕ) * (0 : ℝ) ^ (2 - 1) * c) 0 := (hasDerivAt_pow 2 (0 : ℝ)).mul_const c
  have := (h1.const_add a).add h2
  exact HasDerivAt.of_eq this rfl (by simp)

theorem quadsq_deriv (a b c : ℝ) : HasDerivAt (fun t : ℝ => (a + t * b + t ^ 2 * c) ^ 2) (2 * a * b) 0 := by
  have := (quad_deriv a b c).pow 2
  exact HasDerivAt.of_eq this rfl (by simp)

theorem cubic_deriv (a b c d : ℝ) : HasDerivAt (fun t : ℝ => a + t * b + t ^ 2 * c + t ^ 3 * d) b 0 := by
  have h2 : HasDerivAt (fun t : ℝ => t ^ 3 * d) ((3 : ℕ) * (0 : ℝ) ^ (3 - 1) * d) 0 := (hasDerivAt_pow 3 (0 : ℝ)).mul_const d
  have := (quad_deriv a b c).add h2
  exact HasDerivAt.of_eq this rfl (by simp)

/-- The Green strain along a line of deformation gradients. -/
theorem green_line (F H : M3) (t : ℝ) : green_strain_tensor (F + t • H) = green_strain_tensor F +
    t • ((1 / 2 : ℝ) • (F.transpose.mul H + H.transpose.mul F)) + (t ^ 2) • ((1 / 2 : ℝ) • H.transpose.mul H) := by
  ext <;> simp [green_strain_tensor, right_cauchy_strain_tensor, mul, transpose, M3.identity] <;> ring

theorem svk_deriv (F H : M3) (lam mu : ℝ) : HasDerivAt (fun t : ℝ => 0.5 * lam * trace (green_strain_tensor (F + t • H)) ^ 2 +
      mu * tensordot (green_strain_tensor (F + t • H)) (green_strain_tensor (F + t • H)))
    (frob (F.mul ((lam * trace (green_strain_tensor F)) • M3.identity + (2 * mu) • green_strain_tensor F)) H) 0 := by
  have hE : (green_strain_tensor F).transpose = green_strain_tensor F := by
    ext <;> simp [green_strain_tensor, right_cauchy_strain_tensor, mul, transpose, M3.identity] <;> ring
  simp only [green_line]
  rw [show (0.5 : ℝ) = 1 / 2 by norm_num]
  generalize green_strain_tensor F = E at *
  generalize (1 / 2 : ℝ) • H.transpose.mul H = B
  generalize hAd : (1 / 2 : ℝ) • (F.transpose.mul H + H.transpose.mul F) = A
  have h := ((quadsq_deriv (trace E) (trace A) (trace B)).const_mul (1 / 2 * lam)).add
    ((((((((((quadsq_deriv E.m00 A.m00 B.m00).add (quadsq_deriv E.m01 A.m01 B.m01)).add (quadsq_deriv E.m02 A.m02 B.m02)).add
      (quadsq_deriv E.m10 A.m10 B.m10)).add (quadsq_deriv E.m11 A.m11 B.m11)).add (quadsq_deriv E.m12 A.m12 B.m12)).add
      (quadsq_deriv E.m20 A.m20 B.m20)).add (quadsq_deriv E.m21 A.m21 B.m21)).add (quadsq_deriv E.m22 A.m22 B.m22)).const_mul mu)
  refine HasDerivAt.of_eq h ?_ ?_
  · funext t
    simp only [Pi.add_apply, trace, tensordot, add_def, smul_def]
    ring
  · subst hAd
    simp only [transpose, M3.ext_iff] at hE
    obtain ⟨-, h1, h2, -, -, h3, -, -, -⟩ := hE
    simp only [frob, mul, trace, add_def, smul_def, transpose, M3.identity]
    simp only [← h1, ← h2, ← h3]
    ring

/-- **C53** (Saint Venant-Kirchhoff). For every deformation gradient and all parameters the stress `SVK.pk1_stress` is the gradient of
the energy density `SVK.energy_density`. -/
theorem C53_svk_stress_is_gradient (F : M3) (lam mu : ℝ) :
    ∃ P, SVK.pk1_stress F lam mu = .ok P ∧ EnergyGradient (fun A => SVK.energy_density A lam mu) F P :=
  ⟨_, rfl, _, fun _ => rfl, fun H => svk_deriv F H lam mu⟩

theorem snh_deriv (F H : M3) (mu la al : ℝ) : HasDerivAt (fun t : ℝ => 0.5 * mu * (trace ((F + t • H).transpose.mul (F + t • H)) - 3) +
      0.5 * la * (det (F + t • H) - al) ^ 2 - 0.5 * mu * Real.logb 2 (trace ((F + t • H).transpose.mul (F + t • H)) + 1))
    (frob ((mu * (1 - 1 / (Real.log 2 * (trace (F.transpose.mul F) + 1)))) • F + (la * (det F - al)) • dJdF F) H) 0 := by
  have hT : ∀ t : ℝ, trace ((F + t • H).transpose.mul (F + t • H)) = trace (F.transpose.mul F) + t * (2 * frob F H) + t ^ 2 * frob H H := by
    intro t; simp only [trace, transpose, mul, add_def, smul_def, frob]; ring
  have hD : ∀ t : ℝ, det (F + t • H) = det F + t * frob (dJdF F) H + t ^ 2 * frob F (dJdF H) + t ^ 3 * det H := by
    intro t; simp only [det, add_def, smul_def, frob, dJdF, make_from_cols, col0, col1, col2, V3.cross]; ring
  have hpos : 0 < trace (F.transpose.mul F) + 1 := by
    have : trace (F.transpose.mul F) = F.m00 ^ 2 + F.m01 ^ 2 + F.m02 ^ 2 + F.m10 ^ 2 + F.m11 ^ 2 + F.m12 ^ 2 + F.m20 ^ 2 + F.m21 ^ 2 + F.m22 ^ 2 := by
      simp [trace, transpose, mul]; ring
    rw [this]; positivity
  simp only [hT, hD]
  rw [show (0.5 : ℝ) = 1 / 2 by norm_num]
  have hfr : frob ((mu * (1 - 1 / (Real.log 2 * (trace (F.transpose.mul F) + 1)))) • F + (la * (det F - al)) • dJdF F) H =
      mu * (1 - 1 / (Real.log 2 * (trace (F.transpose.mul F) + 1))) * frob F H + la * (det F - al) * frob (dJdF F) H := by
    simp only [frob, add_def, smul_def]; ring
  rw [hfr]
  generalize trace (F.transpose.mul F) = I at *
  generalize det F = J
  generalize frob (dJdF F) H = j1
  generalize frob F (dJdF H) = j2
  generalize det H = j3
  generalize frob F H = f
  generalize frob H H = s
  have h1 := ((quad_deriv (I - 3) (2 * f) s).const_mul (1 / 2 * mu))
  have h2 := (((cubic_deriv (J - al) j1 j2 j3).pow 2).const_mul (1 / 2 * la))
  have h3 := (((quad_deriv (I + 1) (2 * f) s).log (by simpa using hpos.ne')).div_const (Real.log 2)).const_mul (1 / 2 * mu)
  have h := (h1.add h2).sub h3
  have hl : Real.log 2 ≠ 0 := (Real.log_pos (by norm_num)).ne'
  have hne := hpos.ne'
  refine HasDerivAt.of_eq h ?_ ?_
  · funext t
    simp only [Pi.add_apply, Pi.sub_apply, Pi.pow_apply, Real.logb]
    have e1 : I + t * (2 * f) + t ^ 2 * s + 1 = I + 1 + t * (2 * f) + t ^ 2 * s := by ring
    rw [e1]
    ring
  · simp only [zero_mul, add_zero, ne_eq, OfNat.ofNat_ne_zero, not_false_eq_true, zero_pow]
    field_simp
    ring

/-- **C53** (stable neo-Hookean, what the code does). The gradient of `SNH.energy_density` is the stress of `SNH.pk1_stress` plus
mu (1 - 1/ln 2)/(I_C + 1) F with mu the modified second parameter 4/3 mu_in: the energy uses the logarithm to base 2 where the stress
was derived from the natural logarithm. -/
theorem C53_snh_gradient_partial (F : M3) (lam mu : ℝ) (h : lam + 5 / 6 * mu ≠ 0) :
    ∃ P, SNH.pk1_stress F lam mu = .ok P ∧
      EnergyGradient (fun A => SNH.energy_density A lam mu) F
        (P + ((4 / 3 * mu) * ((1 - 1 / Real.log 2) / (trace (F.transpose.mul F) + 1))) • F) := by
  have hl : snhLambda lam mu ≠ 0 := by unfold snhLambda; norm_num; exact h
  have hm : snhMu mu = 4 / 3 * mu := by unfold snhMu; norm_num
  refine ⟨_, if_neg hl, _, fun A => if_neg hl, fun H => ?_⟩
  have := snh_deriv F H (snhMu mu) (snhLambda lam mu) (snhAlpha lam mu)
  refine HasDerivAt.of_eq this rfl ?_
  rw [hm]
  have hl2 : Real.log 2 ≠ 0 := (Real.log_pos (by norm_num)).ne'
  have hpos : trace (F.transpose.mul F) + 1 ≠ 0 := by
    have : trace (F.transpose.mul F) = F.m00 ^ 2 + F.m01 ^ 2 + F.m02 ^ 2 + F.m10 ^ 2 + F.m11 ^ 2 + F.m12 ^ 2 + F.m20 ^ 2 + F.m21 ^ 2 + F.m22 ^ 2 := by
      simp [trace, transpose, mul]; ring
    rw [this]; positivity
  have hc : 4 / 3 * mu * (1 - 1 / (Real.log 2 * (trace (F.transpose.mul F) + 1))) =
      4 / 3 * mu * (1 - 1 / (trace (F.transpose.mul F) + 1)) +
        4 / 3 * mu * ((1 - 1 / Real.log 2) / (trace (F.transpose.mul F) + 1)) := by
    field_simp
    ring
  rw [hc]
  generalize 4 / 3 * mu * (1 - 1 / (trace (F.transpose.mul F) + 1)) = a
  generalize 4 / 3 * mu * ((1 - 1 / Real.log 2) / (trace (F.transpose.mul F) + 1)) = b
  generalize snhLambda lam mu * _ = c
  simp only [frob, add_def, smul_def]
  ring

theorem energyGradient_unique {psi : M3 → Except PyErr ℝ} {F P Q : M3} (hP : EnergyGradient psi F P) (hQ : EnergyGradient psi F Q) :
    P = Q := by
  obtain ⟨ψ, h1, h2⟩ := hP
  obtain ⟨φ, h3, h4⟩ := hQ
  have : ψ = φ := funext fun A => by have := h1 A; rw [h3] at this; exact (Except.ok.inj this).symm
  subst this
  have h := fun H => (h2 H).unique (h4 H)
  have e00 := h ⟨1, 0, 0, 0, 0, 0, 0, 0, 0⟩
  have e01 := h ⟨0, 1, 0, 0, 0, 0, 0, 0, 0⟩
  have e02 := h ⟨0, 0, 1, 0, 0, 0, 0, 0, 0⟩
  have e10 := h ⟨0, 0, 0, 1, 0, 0, 0, 0, 0⟩
  have e11 := h ⟨0, 0, 0, 0, 1, 0, 0, 0, 0⟩
  have e12 := h ⟨0, 0, 0, 0, 0, 1, 0, 0, 0⟩
  have e20 := h ⟨0, 0, 0, 0, 0, 0, 1, 0, 0⟩
  have e21 := h ⟨0, 0, 0, 0, 0, 0, 0, 1, 0⟩
  have e22 := h ⟨0, 0, 0, 0, 0, 0, 0, 0, 1⟩
  simp [frob] at e00 e01 e02 e10 e11 e12 e20 e21 e22
  ext <;> assumption

/-- **C53** (finding). For stable neo-Hookean the stress is not the gradient of the reported energy: for no non-zero second parameter
and at no non-zero deformation gradient. (At rest the stress vanishes but the energy is not stationary.) -/
theorem C53_snh_not_gradient (F P : M3) (lam mu : ℝ) (h : lam + 5 / 6 * mu ≠ 0) (hmu : mu ≠ 0) (hF : F ≠ 0)
    (hP : SNH.pk1_stress F lam mu = .ok P) : ¬ EnergyGradient (fun A => SNH.energy_density A lam mu) F P := by
  intro hg
  obtain ⟨P', hP', hg'⟩ := C53_snh_gradient_partial F lam mu h
  rw [hP] at hP'
  cases hP'
  have he := energyGradient_unique hg hg'
  have hne : (4 / 3 * mu) * ((1 - 1 / Real.log 2) / (trace (F.transpose.mul F) + 1)) ≠ 0 := by
    have hpos : trace (F.transpose.mul F) + 1 ≠ 0 := by
      have : trace (F.transpose.mul F) = F.m00 ^ 2 + F.m01 ^ 2 + F.m02 ^ 2 + F.m10 ^ 2 + F.m11 ^ 2 + F.m12 ^ 2 + F.m20 ^ 2 + F.m21 ^ 2 + F.m22 ^ 2 := by
        simp [trace, transpose, mul]; ring
      rw [this]; positivity
    refine mul_ne_zero (mul_ne_zero (by norm_num) hmu) (div_ne_zero ?_ hpos)
    have h2 := Real.log_two_lt_d9
    have h3 : 0 < Real.log 2 := Real.log_pos (by norm_num)
    intro h0
    have : 1 / Real.log 2 = 1 := by linarith
    rw [div_eq_one_iff_eq h3.ne'] at this
    linarith
  generalize (4 / 3 * mu) * ((1 - 1 / Real.log 2) / (trace (F.transpose.mul F) + 1)) = c at *
  apply hF
  rw [M3.ext_iff] at he
  simp only [add_def, smul_def, left_eq_add, mul_eq_zero, hne, false_or] at he
  obtain ⟨a1, a2, a3, a4, a5, a6, a7, a8, a9⟩ := he
  ext <;> simpa

theorem energy_sum (vol0 : Fin K → ℝ) (F : Fin K → M3) (lam mu : ℝ) (psi : M3 → ℝ → ℝ → Except PyErr ℝ) (ψ : Fin K → ℝ)
    (h : ∀ e, psi (F e) lam mu = .ok (ψ e)) : compute_elastic_energy vol0 F lam mu psi = .ok (∑ e, ψ e * vol0 e) := by
  unfold compute_elastic_energy
  rw [Fin.sum_univ_def]
  have : ∀ (L : List (Fin K)) (s : ℝ), L.foldlM (fun energy e => do
      let psi_mid ← psi (F e) lam mu
      return energy + psi_mid * vol0 e) s = (.ok (s + (L.map fun e => ψ e * vol0 e).sum) : Except PyErr ℝ) := by
    intro L
    induction L with
    | nil => intro s; simp [pure, Except.pure]
    | cons a L ih =>
      intro s
      rw [List.foldlM_cons, h]
      simp only [bind, Except.bind, pure, Except.pure] at ih ⊢
      rw [ih]
      simp [add_assoc]
  rw [this, zero_add]

theorem edge_line (x h : Fin n → V3) (T : Fin 4 → Fin n) (t : ℝ) (B : M3) :
    (edgeMatrix fun a => x (T a) + t • h (T a)).mul B = (edgeMatrix fun a => x (T a)).mul B + t • (edgeMatrix fun a => h (T a)).mul B := by
  ext <;> simp [edgeMatrix, make_from_cols, mul] <;> ring

theorem tensordot_eq_frob (A B : M3) : tensordot A B = frob A B := rfl

/-- Forces are minus the energy gradient whenever the stress is the gradient of the energy density. -/
theorem force_gradient {x0 x : Fin n → V3} {T : Fin K → Fin 4 → Fin n} {invD0 : Fin K → M3} (hp : Prepared x0 T invD0) {lam mu : ℝ}
    {pk1 : M3 → ℝ → ℝ → Except PyErr M3} {psi : M3 → ℝ → ℝ → Except PyErr ℝ}
    (hg : ∀ F P, pk1 F lam mu = .ok P → EnergyGradient (fun A => psi A lam mu) F P) {Fe : Fin n → V3}
    (hf : elasticForces x0 x T invD0 lam mu pk1 = .ok Fe) (h : Fin n → V3) :
    ∃ E : ℝ → ℝ, (∀ᶠ t in 𝓝 0, elasticEnergy x0 (fun v => x v + t • h v) T invD0 lam mu psi = .ok (E t)) ∧
      HasDerivAt E (-∑ v, V3.dot (Fe v) (h v)) 0 := by
  obtain ⟨h1, P, hP, hv⟩ := elasticForces_iff.1 hf
  by_cases hK : K = 0
  · subst hK
    refine ⟨fun _ => 0, Filter.Eventually.of_forall fun t => ?_, ?_⟩
    · unfold elasticEnergy
      rw [gradient_iff.2 ⟨fun e => e.elim0, rfl⟩]
      exact (energy_sum (compute_volumes x0 T) (fun e => e.elim0) lam mu psi (fun _ => 0) fun e => e.elim0).trans (by simp)
    · simp only [hv, elastic_work hp]
      simpa using hasDerivAt_const (0 : ℝ) (0 : ℝ)
  obtain ⟨ψ, hψ, -⟩ := hg _ _ (hP ⟨0, Nat.pos_of_ne_zero hK⟩)
  have hpsi : ∀ A, psi A lam mu = .ok (ψ A) := hψ
  have hd : ∀ e, ∀ H, HasDerivAt (fun t : ℝ => ψ ((edgeMatrix fun a => x (T e a)).mul (invD0 e) + t • H)) (frob (P e) H) 0 := by
    intro e H
    obtain ⟨φ, hφ, hφ2⟩ := hg _ _ (hP e)
    have : φ = ψ := funext fun A => Except.ok.inj ((hφ A).symm.trans (hpsi A))
    subst this
    exact hφ2 H
  refine ⟨fun t => ∑ e, ψ ((edgeMatrix fun a => x (T e a)).mul (invD0 e) + t • (edgeMatrix fun a => h (T e a)).mul (invD0 e)) *
    compute_volumes x0 T e, ?_, ?_⟩
  · have hev : ∀ᶠ t : ℝ in 𝓝 0, ∀ e, 0 < edgeTriple (fun a => x (T e a) + t • h (T e a)) := by
      rw [Filter.eventually_all]
      intro e
      have hc : Continuous fun t : ℝ => edgeTriple (fun a => x (T e a) + t • h (T e a)) := by
        simp only [edgeTriple, V3.dot, V3.cross, V3.add_x, V3.add_y, V3.add_z, V3.sub_x, V3.sub_y, V3.sub_z, V3.smul_x, V3.smul_y,
          V3.smul_z]
        fun_prop
      refine hc.continuousAt.eventually_const_lt ?_
      have := h1 e
      simpa using this
    filter_upwards [hev] with t ht
    unfold elasticEnergy
    rw [gradient_iff.2 ⟨ht, rfl⟩]
    refine energy_sum _ _ lam mu psi _ fun e => ?_
    rw [← edge_line, hpsi]
  · simp only [hv]
    rw [elastic_work hp, neg_neg]
    have := HasDerivAt.fun_sum (u := Finset.univ) fun e (_ : e ∈ Finset.univ) =>
      (hd e ((edgeMatrix fun a => h (T e a)).mul (invD0 e))).mul_const (compute_volumes x0 T e)
    refine HasDerivAt.of_eq this rfl ?_
    exact Finset.sum_congr rfl fun e _ => by rw [mul_comm]; rfl

/-- **C53** (whole body, Saint Venant-Kirchhoff). The elastic forces are minus the gradient of the total elastic energy: in every
direction h of nodal displacements the energy the simulator reports is defined near the current positions and its derivative is minus the
power of the elastic forces. -/
theorem C53_svk_force_is_gradient (x0 x : Fin n → V3) (T : Fin K → Fin 4 → Fin n) (invD0 : Fin K → M3) (hp : Prepared x0 T invD0)
    (lam mu : ℝ) (Fe : Fin n → V3) (hf : elasticForces x0 x T invD0 lam mu SVK.pk1_stress = .ok Fe) (h : Fin n → V3) :
    ∃ E : ℝ → ℝ, (∀ᶠ t in 𝓝 0, elasticEnergy x0 (fun v => x v + t • h v) T invD0 lam mu SVK.energy_density = .ok (E t)) ∧
      HasDerivAt E (-∑ v, V3.dot (Fe v) (h v)) 0 := by
  refine force_gradient hp (fun F P hP => ?_) hf h
  obtain ⟨P', hP', hg⟩ := C53_svk_stress_is_gradient F lam mu
  rw [hP] at hP'
  cases hP'
  exact hg

/-- **C53** (the stored energy). For non-negative parameters the Saint Venant-Kirchhoff energy density is non-negative; for positive second
parameter it vanishes exactly when F preserves lengths (Fᵀ F = I), in particular at rest. -/
theorem C53_svk_energy_nonneg (F : M3) (lam mu : ℝ) (hl : 0 ≤ lam) (hm : 0 < mu) :
    ∃ ψ, SVK.energy_density F lam mu = .ok ψ ∧ 0 ≤ ψ ∧ (ψ = 0 ↔ F.transpose.mul F = M3.identity) := by
  have hsq : ∀ E : M3, tensordot E E = E.m00 ^ 2 + E.m01 ^ 2 + E.m02 ^ 2 + E.m10 ^ 2 + E.m11 ^ 2 + E.m12 ^ 2 + E.m20 ^ 2 + E.m21 ^ 2 +
      E.m22 ^ 2 := by intro E; simp [tensordot]; ring
  refine ⟨_, rfl, ?_, ?_⟩
  · rw [hsq, show (0.5 : ℝ) = 1 / 2 by norm_num]; positivity
  · rw [show (0.5 : ℝ) = 1 / 2 by norm_num]
    constructor
    · intro h
      have h1 : 0 ≤ 1 / 2 * lam * trace (green_strain_tensor F) ^ 2 := by positivity
      have h2 : 0 ≤ tensordot (green_strain_tensor F) (green_strain_tensor F) := by rw [hsq]; positivity
      have h3 : tensordot (green_strain_tensor F) (green_strain_tensor F) = 0 := by
        by_contra hne
        have : 0 < mu * tensordot (green_strain_tensor F) (green_strain_tensor F) := mul_pos hm (lt_of_le_of_ne h2 (Ne.symm hne))
        linarith
      rw [hsq] at h3
      have hE : green_strain_tensor F = 0 := by
        generalize green_strain_tensor F = E at *
        have p0 := sq_nonneg E.m00; have p1 := sq_nonneg E.m01; have p2 := sq_nonneg E.m02
        have p3 := sq_nonneg E.m10; have p4 := sq_nonneg E.m11; have p5 := sq_nonneg E.m12
        have p6 := sq_nonneg E.m20; have p7 := sq_nonneg E.m21; have p8 := sq_nonneg E.m22
        ext <;> exact pow_eq_zero_iff (two_ne_zero) |>.1 (by linarith)
      have hE' := hE
      unfold green_strain_tensor right_cauchy_strain_tensor at hE'
      generalize F.transpose.mul F = C at *
      rw [M3.ext_iff] at hE'
      simp only [smul_def, sub_def, zero_def] at hE'
      obtain ⟨a1, a2, a3, a4, a5, a6, a7, a8, a9⟩ := hE'
      ext <;> linarith
    · intro h
      have : green_strain_tensor F = 0 := by
        unfold green_strain_tensor right_cauchy_strain_tensor
        rw [h, sub_self]
        ext <;> simp
      rw [this]
      simp [trace, tensordot]

/-- A concrete instance: the stretched tetrahedron of `ex_forces` meets the hypotheses of `C53_svk_force_is_gradient`. -/
theorem ex_C53 : ∃ Fe, elasticForces exX0 exX exT (fun _ => M3.identity) 1 1 SVK.pk1_stress = .ok Fe ∧ Fe 0 ≠ 0 ∧
    ∃ E : ℝ → ℝ, HasDerivAt E (-∑ v, V3.dot (Fe v) (exX v)) 0 := by
  obtain ⟨Fe, hf, h0, -⟩ := ex_forces
  obtain ⟨E, -, hE⟩ := C53_svk_force_is_gradient exX0 exX exT _ ex_prepared 1 1 Fe hf exX
  refine ⟨Fe, hf, fun h => ?_, E, hE⟩
  rw [h] at h0
  norm_num at h0

end Verif
