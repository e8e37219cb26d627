import Verif.Model.Materials
import Verif.Lemmas.Quaternion

namespace Verif

open Matrix Mech

/-- The nine names of the documentation's table. -/
def materialNames : List String :=
  ["cartilage", "cortical bone", "cancellous bone", "rubber", "concrete", "copper", "steel", "aluminium", "glass"]

/-- Parameters of a compressible elastic material with mass. -/
def Sensible (P : ℝ × ℝ × ℝ) : Prop := 0 < P.1 ∧ 0 < P.2.1 ∧ P.2.1 < 1 / 2 ∧ 0 < P.2.2

/-- Whatever name is asked for, also an unknown one or none, the parameters are those of a compressible elastic material with mass, and both
Lamé parameters exist and are positive. -/
theorem C120_materials (name : Option String) : Sensible (create_material_parameters name) ∧
    ∃ lam mu, first_lame (create_material_parameters name).1 (create_material_parameters name).2.1 = .ok lam ∧
      second_lame (create_material_parameters name).1 (create_material_parameters name).2.1 = .ok mu ∧ 0 < lam ∧ 0 < mu := by
  have h : Sensible (create_material_parameters name) := by
    unfold Sensible
    cases name with
    | none => simp only [create_material_parameters]; norm_num
    | some name => simp only [create_material_parameters]; split_ifs <;> norm_num
  refine ⟨h, ?_⟩
  obtain ⟨h1, h2, h3, -⟩ := h
  generalize create_material_parameters name = P at *
  have e1 : 0 < (1 + P.2.1) * (1 - 2 * P.2.1) := mul_pos (by linarith) (by linarith)
  have e2 : 0 < 2 * (1 + P.2.1) := by linarith
  refine ⟨(P.2.1 * P.1) / ((1 + P.2.1) * (1 - 2 * P.2.1)), P.1 / (2 * (1 + P.2.1)), ?_, ?_, div_pos (mul_pos h2 h1) e1, div_pos h1 e2⟩
  · unfold first_lame; rw [if_neg e1.ne']
  · unfold second_lame; rw [if_neg e2.ne']

/-- The name is read without regard to case; a name that is not one of the nine gives, silently, the same parameters as no name; and no two
of the nine give the same parameters. -/
theorem C120_names : (∀ s t : String, s.toLower = t.toLower → create_material_parameters (some s) = create_material_parameters (some t)) ∧
    (∀ s : String, s.toLower ∉ materialNames → create_material_parameters (some s) = create_material_parameters none) ∧
    (materialNames.map fun s => create_material_parameters (some s)).Nodup := by
  refine ⟨fun s t h => ?_, fun s h => ?_, ?_⟩
  · simp only [create_material_parameters, h]
  · simp only [materialNames, List.mem_cons, List.not_mem_nil, or_false, not_or] at h
    obtain ⟨h1, h2, h3, h4, h5, h6, h7, h8, h9⟩ := h
    simp only [create_material_parameters, h1, h2, h3, h4, h5, h6, h7, h8, h9, if_false]
  · have e : ∀ s ∈ materialNames, s.toLower = s := by decide +kernel
    simp only [materialNames, List.mem_cons, List.not_mem_nil, or_false, forall_eq_or_imp, forall_eq] at e
    obtain ⟨e1, e2, e3, e4, e5, e6, e7, e8, e9⟩ := e
    simp only [materialNames, List.map_cons, List.map_nil, create_material_parameters, e1, e2, e3, e4, e5, e6, e7, e8, e9,
      String.reduceEq, if_true, if_false]
    simp only [List.nodup_cons, List.mem_cons, Prod.mk.injEq, not_or, List.not_mem_nil, not_and, not_false_eq_true, and_true,
      List.nodup_nil]
    norm_num

/-- An upper case name. -/
example : create_material_parameters (some "Steel") = create_material_parameters (some "STEEL") := C120_names.1 _ _ (by decide +kernel)

/-- A misspelt one. -/
example : create_material_parameters (some "aluminum") = create_material_parameters none := C120_names.2.1 _ (by decide +kernel)

theorem cauchyOne_spec {F S σ : M3} (h : cauchyOne F S = .ok σ) :
    F.det ≠ 0 ∧ F.det • σ.toMat = F.toMat * S.toMat * F.toMatᵀ := by
  unfold cauchyOne at h
  dsimp only at h
  split_ifs at h with c
  simp only [Except.ok.injEq] at h
  refine ⟨c, ?_⟩
  have e : F.toMat * S.toMat * F.toMatᵀ = (F.mul (S.mul F.transpose)).toMat := by
    rw [M3.toMat_mul, M3.toMat_mul, M3.toMat_transpose, Matrix.mul_assoc]
  rw [e, ← h]
  ext i j
  fin_cases i <;> fin_cases j <;> simp [M3.toMat] <;> field_simp

theorem cauchyOne_ok {F S : M3} (h : F.det ≠ 0) : ∃ σ, cauchyOne F S = .ok σ := by
  unfold cauchyOne
  dsimp only
  rw [if_neg h]
  exact ⟨_, rfl⟩

theorem cauchyOne_unique {F S σ : M3} (hF : F.det ≠ 0) (h : F.det • σ.toMat = F.toMat * S.toMat * F.toMatᵀ) : cauchyOne F S = .ok σ := by
  obtain ⟨τ, hτ⟩ := cauchyOne_ok (S := S) hF
  rw [hτ, M3.toMat_injective (smul_right_injective _ hF ((cauchyOne_spec hτ).2.trans h.symm))]

/-- What the stress of one matrix means: it is defined for an invertible F only; det F · σ = F S Fᵀ; it is symmetric when S is; and the force
on a deformed parallelogram (Fa)×(Fb) is the force the first Piola-Kirchhoff stress F S gives on the undeformed one a×b. -/
def StressOf (F S σ : M3) : Prop :=
  F.det ≠ 0 ∧ F.det • σ.toMat = F.toMat * S.toMat * F.toMatᵀ ∧ (S.toMatᵀ = S.toMat → σ.toMatᵀ = σ.toMat) ∧
    ∀ a b : Fin 3 → ℝ, σ.toMat *ᵥ (crossProduct (F.toMat *ᵥ a) (F.toMat *ᵥ b)) = (F.toMat * S.toMat) *ᵥ (crossProduct a b)

theorem cauchyOne_stress {F S σ : M3} (h : cauchyOne F S = .ok σ) : StressOf F S σ := by
  obtain ⟨hd, he⟩ := cauchyOne_spec h
  refine ⟨hd, he, fun hS => smul_right_injective _ hd ?_, fun a b => smul_right_injective _ hd ?_⟩
  · show F.det • σ.toMatᵀ = F.det • σ.toMat
    rw [← Matrix.transpose_smul, he, Matrix.transpose_mul, Matrix.transpose_mul, Matrix.transpose_transpose, hS, Matrix.mul_assoc]
  · show F.det • (σ.toMat *ᵥ _) = F.det • ((F.toMat * S.toMat) *ᵥ _)
    rw [← Matrix.smul_mulVec, he, ← Matrix.mulVec_mulVec]
    have e : F.toMatᵀ *ᵥ (crossProduct (F.toMat *ᵥ a) (F.toMat *ᵥ b)) = F.det • crossProduct a b := by
      ext i
      fin_cases i <;> simp [M3.toMat, M3.det, Matrix.mulVec, cross_apply, dotProduct, Fin.sum_univ_three] <;> ring
    rw [e, Matrix.mulVec_smul]

theorem broadcast_same {F S : List M3} (h : F.length = S.length) : broadcast F S = .ok (F.zip S) := by
  unfold broadcast
  rw [if_pos h]

theorem cauchy_zip {F S σ : List M3} (hl : F.length = S.length) : cauchy_stress_tensor F S = .ok σ ↔
    (F.zip S).mapM (fun p => cauchyOne p.1 p.2) = .ok σ := by
  unfold cauchy_stress_tensor
  rw [broadcast_same hl]
  rfl

theorem cauchy_cons (f s : M3) (F S : List M3) (σ : List M3) :
    ((f :: F).zip (s :: S)).mapM (fun p => cauchyOne p.1 p.2) = .ok σ ↔
    ∃ t σ', cauchyOne f s = .ok t ∧ (F.zip S).mapM (fun p => cauchyOne p.1 p.2) = .ok σ' ∧ σ = t :: σ' := by
  rw [List.zip_cons_cons, List.mapM_cons]
  cases h1 : cauchyOne f s with
  | error e => simp [bind, Except.bind]
  | ok t =>
    cases h2 : (F.zip S).mapM (fun p => cauchyOne p.1 p.2) with
    | error e => simp [bind, Except.bind]
    | ok T =>
      simp only [bind, Except.bind, pure, Except.pure, Except.ok.injEq]
      constructor
      · rintro rfl; exact ⟨_, _, rfl, rfl, rfl⟩
      · rintro ⟨t', T', rfl, rfl, rfl⟩; rfl

/-- The stack of stresses: one for each pair of matrices, each the stress of its pair; the call succeeds exactly when every F is invertible. -/
theorem C120_cauchy (F S : List M3) (hl : F.length = S.length) :
    ((∃ σ, cauchy_stress_tensor F S = .ok σ) ↔ ∀ f ∈ F, f.det ≠ 0) ∧
    ∀ σ, cauchy_stress_tensor F S = .ok σ → σ.length = F.length ∧ ∀ (i : ℕ) (f s t : M3), F[i]? = some f → S[i]? = some s → σ[i]? = some t → StressOf f s t := by
  simp only [cauchy_zip hl]
  induction F generalizing S with
  | nil =>
    cases S with
    | cons s S => cases hl
    | nil => exact ⟨⟨fun _ f hf => absurd hf (List.not_mem_nil), fun _ => ⟨[], rfl⟩⟩, fun σ h => by cases h; simp⟩
  | cons f F ih =>
    cases S with
    | nil => cases hl
    | cons s S =>
      obtain ⟨i1, i2⟩ := ih S (Nat.succ.inj hl)
      simp only [cauchy_cons]
      refine ⟨⟨?_, fun h => ?_⟩, ?_⟩
      · rintro ⟨_, t, σ', h1, h2, -⟩ g hg
        rcases List.mem_cons.1 hg with rfl | hg
        · exact (cauchyOne_spec h1).1
        · exact i1.1 ⟨_, h2⟩ g hg
      · obtain ⟨t, ht⟩ := cauchyOne_ok (S := s) (h f List.mem_cons_self)
        obtain ⟨T, hT⟩ := i1.2 fun g hg => h g (List.mem_cons_of_mem _ hg)
        exact ⟨_, t, T, ht, hT, rfl⟩
      · rintro _ ⟨t, T, h1, h2, rfl⟩
        obtain ⟨j1, j2⟩ := i2 T h2
        refine ⟨by simp [j1], fun i => ?_⟩
        cases i with
        | zero =>
          intro f' s' t' e1 e2 e3
          simp only [List.getElem?_cons_zero, Option.some.injEq] at e1 e2 e3
          subst e1; subst e2; subst e3
          exact cauchyOne_stress h1
        | succ i =>
          intro f' s' t' e1 e2 e3
          simp only [List.getElem?_cons_succ] at e1 e2 e3
          exact j2 i f' s' t' e1 e2 e3

theorem rotation_det {R : M3} (h : IsRotation R) : R.toMat.det = 1 := (Matrix.mem_specialOrthogonalGroup_iff.1 h).2

/-- The stress does not depend on the observer: turning the deformed bodies by a rotation R turns every stress with them, to R σ Rᵀ. -/
theorem C120_objective (R : M3) (hR : IsRotation R) (F S σ : List M3) (hl : F.length = S.length) (h : cauchy_stress_tensor F S = .ok σ) :
    cauchy_stress_tensor (F.map fun f => R.mul f) S = .ok (σ.map fun t => (R.mul t).mul R.transpose) := by
  rw [cauchy_zip hl] at h
  rw [cauchy_zip (by simpa using hl)]
  induction F generalizing S σ with
  | nil =>
    cases S with
    | cons s S => cases hl
    | nil => cases h; rfl
  | cons f F ih =>
    cases S with
    | nil => cases hl
    | cons s S =>
      rw [cauchy_cons] at h
      obtain ⟨t, T, h1, h2, rfl⟩ := h
      rw [List.map_cons, cauchy_cons]
      obtain ⟨hd, he⟩ := cauchyOne_spec h1
      have e1 : (R.mul f).det = f.det := by rw [← M3.toMat_det, M3.toMat_mul, Matrix.det_mul, rotation_det hR, one_mul, M3.toMat_det]
      refine ⟨_, _, cauchyOne_unique (σ := (R.mul t).mul R.transpose) (by rw [e1]; exact hd) ?_, ih S T (Nat.succ.inj hl) h2, rfl⟩
      rw [e1, M3.toMat_mul, M3.toMat_mul, M3.toMat_mul, M3.toMat_transpose, Matrix.transpose_mul, ← Matrix.smul_mul, ← Matrix.mul_smul, he]
      simp only [Matrix.mul_assoc]

/-- A stretched element under a uniaxial stress. -/
example : ∃ σ, cauchy_stress_tensor [⟨2, 0, 0, 0, 1, 0, 0, 0, 1⟩] [⟨3, 0, 0, 0, 0, 0, 0, 0, 0⟩] = .ok σ :=
  (C120_cauchy [⟨2, 0, 0, 0, 1, 0, 0, 0, 1⟩] [⟨3, 0, 0, 0, 0, 0, 0, 0, 0⟩] rfl).1.2 fun f hf => by
    rw [List.mem_singleton.1 hf]
    norm_num [M3.det]

end Verif
