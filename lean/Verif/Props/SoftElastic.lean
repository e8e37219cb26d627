import Verif.Lemmas.Soft
import Mathlib.Tactic.FieldSimp
import Mathlib.Tactic.Positivity

/-! C52: elastic forces of the soft body simulator. -/

namespace Verif

open Soft M3 Mech

variable {n K : ℕ}

/-! ### Specification -/

/-- The soft body as `create_soft_body` prepares it: material positions x0 and tetrahedra T, with the precomputed inverse
edge matrices (this succeeds exactly when no tetrahedron is degenerate or inverted). -/
def Prepared (x0 : Fin n → V3) (T : Fin K → Fin 4 → Fin n) (invD0 : Fin K → M3) : Prop :=
  compute_inverse_D0 x0 T = .ok invD0

/-- Elastic nodal forces at the spatial positions x, as the simulator computes them (solver.py:704-723): deformation gradients,
then nodal forces. -/
noncomputable def elasticForces (x0 x : Fin n → V3) (T : Fin K → Fin 4 → Fin n) (invD0 : Fin K → M3) (lam mu : ℝ)
    (pk1_stress : M3 → ℝ → ℝ → Except PyErr M3) : Except PyErr (Fin n → V3) := do
  let F ← compute_deformation_gradient x T invD0
  compute_elastic_forces T (compute_outward_face_vectors x0 T) F lam mu pk1_stress

/-! ### Proofs -/

theorem V3.dot_sum_left {ι : Type*} (s : Finset ι) (f : ι → V3) (h : V3) : V3.dot (∑ i ∈ s, f i) h = ∑ i ∈ s, V3.dot (f i) h :=
  map_sum (⟨⟨fun v => V3.dot v h, by simp [V3.dot]⟩, fun a b => V3.dot_add_left a b h⟩ : V3 →+ ℝ) f s

theorem V3.dot_sum_right {ι : Type*} (s : Finset ι) (f : ι → V3) (h : V3) : V3.dot h (∑ i ∈ s, f i) = ∑ i ∈ s, V3.dot h (f i) := by
  rw [V3.dot_comm, V3.dot_sum_left]
  exact Finset.sum_congr rfl fun i _ => V3.dot_comm _ _

theorem V3.sum_x {ι : Type*} (s : Finset ι) (f : ι → V3) : (∑ i ∈ s, f i).x = ∑ i ∈ s, (f i).x :=
  map_sum (⟨⟨fun v => v.x, rfl⟩, fun _ _ => rfl⟩ : V3 →+ ℝ) f s
theorem V3.sum_y {ι : Type*} (s : Finset ι) (f : ι → V3) : (∑ i ∈ s, f i).y = ∑ i ∈ s, (f i).y :=
  map_sum (⟨⟨fun v => v.y, rfl⟩, fun _ _ => rfl⟩ : V3 →+ ℝ) f s
theorem V3.sum_z {ι : Type*} (s : Finset ι) (f : ι → V3) : (∑ i ∈ s, f i).z = ∑ i ∈ s, (f i).z :=
  map_sum (⟨⟨fun v => v.z, rfl⟩, fun _ _ => rfl⟩ : V3 →+ ℝ) f s

theorem mulVec_sum {ι : Type*} (A : M3) (s : Finset ι) (f : ι → V3) : A.mulVec (∑ i ∈ s, f i) = ∑ i ∈ s, A.mulVec (f i) :=
  map_sum (⟨⟨fun v => A.mulVec v, mulVec_zero A⟩, fun a b => mulVec_add A a b⟩ : V3 →+ V3) f s

/-- Scattered element contributions tested with a field on the nodes. -/
theorem scatter_dot (T : Fin K → Fin 4 → Fin n) (a : Fin K → Fin 4 → V3) (h : Fin n → V3) :
    ∑ v, V3.dot (∑ e, ∑ i, if T e i = v then a e i else 0) (h v) = ∑ e, ∑ i, V3.dot (a e i) (h (T e i)) := by
  have h0 : ∀ v : V3, V3.dot 0 v = 0 := fun v => by simp [V3.dot]
  simp only [V3.dot_sum_left]
  rw [Finset.sum_comm]
  refine Finset.sum_congr rfl fun e _ => ?_
  rw [Finset.sum_comm]
  refine Finset.sum_congr rfl fun i _ => ?_
  have : ∀ v, V3.dot (if T e i = v then a e i else 0) (h v) = if T e i = v then V3.dot (a e i) (h v) else 0 := by
    intro v; split_ifs <;> simp [h0]
  simp only [this, Finset.sum_ite_eq, Finset.mem_univ, if_true]

theorem scatter_sum {A : Type*} [AddCommGroup A] (T : Fin K → Fin 4 → Fin n) (a : Fin K → Fin 4 → A) :
    ∑ v, (∑ e, ∑ i, if T e i = v then a e i else 0) = ∑ e, ∑ i, a e i := by
  rw [Finset.sum_comm]
  refine Finset.sum_congr rfl fun e _ => ?_
  rw [Finset.sum_comm]
  refine Finset.sum_congr rfl fun i _ => ?_
  simp

theorem faceVectors_sum (p : Fin 4 → V3) : ∑ i, faceVectors (p 0) (p 1) (p 2) (p 3) i = 0 := by
  simp only [Fin.sum_univ_four, faceVectors, Matrix.cons_val]
  generalize p 0 = a; generalize p 1 = b; generalize p 2 = c; generalize p 3 = d
  ext <;> simp [V3.cross] <;> ring

/-- Work of the face forces of one tetrahedron. -/
theorem face_work (P : M3) (p q : Fin 4 → V3) {B : M3} (hB : (edgeMatrix p).mul B = M3.identity) :
    ∑ i, V3.dot (P.mulVec (faceVectors (p 0) (p 1) (p 2) (p 3) i)) (q i) =
      -(edgeTriple p / 6) * tensordot P ((edgeMatrix q).mul B) := by
  have hG : ∀ G : M3, G.mul (edgeMatrix p) = (-(edgeTriple p / 6)) • M3.identity → G = (-(edgeTriple p / 6)) • B := by
    intro G hG
    have : G.mul ((edgeMatrix p).mul B) = ((-(edgeTriple p / 6)) • M3.identity).mul B := by rw [← mul_assoc', hG]
    rw [hB, mul_identity] at this
    rw [this]
    ext <;> simp [mul, M3.identity]
  have hg := hG (make_from_rows (faceVectors (p 0) (p 1) (p 2) (p 3) 1) (faceVectors (p 0) (p 1) (p 2) (p 3) 2)
    (faceVectors (p 0) (p 1) (p 2) (p 3) 3)) (by
      simp only [faceVectors, Matrix.cons_val, edgeMatrix, edgeTriple]
      generalize p 0 = a; generalize p 1 = b; generalize p 2 = c; generalize p 3 = d
      ext <;> simp [V3.cross, V3.dot, mul, make_from_rows, make_from_cols, M3.identity] <;> ring)
  have hs := faceVectors_sum p
  generalize faceVectors (p 0) (p 1) (p 2) (p 3) = g at *
  generalize -(edgeTriple p / 6) = s at *
  have h0 : g 0 = -(g 1 + g 2 + g 3) := by
    rw [Fin.sum_univ_four] at hs
    rw [eq_neg_iff_add_eq_zero, ← hs]; abel
  have : s * tensordot P ((edgeMatrix q).mul B) = tensordot P ((edgeMatrix q).mul (s • B)) := by
    simp [tensordot, mul]; ring
  rw [this, ← hg, Fin.sum_univ_four, h0]
  simp only [edgeMatrix]
  generalize q 0 = a; generalize q 1 = b; generalize q 2 = c; generalize q 3 = d
  generalize g 1 = g1; generalize g 2 = g2; generalize g 3 = g3
  simp [tensordot, V3.dot, mulVec, mul, make_from_rows, make_from_cols]
  ring

theorem edgeTriple_eq_det (p : Fin 4 → V3) : edgeTriple p = (edgeMatrix p).det := by
  simp [edgeTriple, edgeMatrix, V3.dot, V3.cross, M3.det, make_from_cols]; ring

theorem compute_D_ok {x : Fin n → V3} {T : Fin K → Fin 4 → Fin n} {D : Fin K → M3} :
    compute_D x T = .ok D ↔ (∀ e, 0 < edgeTriple (fun a => x (T e a))) ∧ D = fun e => edgeMatrix fun a => x (T e a) := by
  unfold compute_D
  by_cases h : ∃ e, edgeTriple (fun a => x (T e a)) ≤ 0
  · rw [if_pos h]
    obtain ⟨e, he⟩ := h
    constructor
    · intro h; cases h
    · intro h; exact absurd (h.1 e) (not_lt.2 he)
  · rw [if_neg h]
    push Not at h
    rw [Except.ok.injEq]
    exact ⟨fun hh => ⟨h, hh.symm⟩, fun hh => hh.2.symm⟩

theorem prepared_iff {x0 : Fin n → V3} {T : Fin K → Fin 4 → Fin n} {B : Fin K → M3} : Prepared x0 T B ↔
    (∀ e, 0 < edgeTriple (fun a => x0 (T e a))) ∧ ∀ e, (edgeMatrix fun a => x0 (T e a)).mul (B e) = M3.identity := by
  unfold Prepared compute_inverse_D0
  cases hD : compute_D x0 T with
  | error er =>
    simp only [bind, Except.bind]
    constructor
    · intro h; cases h
    · rintro ⟨h1, -⟩
      rw [(compute_D_ok (D := fun e => edgeMatrix fun a => x0 (T e a))).2 ⟨h1, rfl⟩] at hD
      cases hD
  | ok D =>
    obtain ⟨h1, rfl⟩ := compute_D_ok.1 hD
    simp only [bind, Except.bind]
    rw [tabulateM_ok]
    constructor
    · intro h
      exact ⟨h1, fun e => (inv_ok (h e)).2.1⟩
    · rintro ⟨-, h2⟩ e
      exact inv_eq (h2 e)

theorem gradient_iff {x : Fin n → V3} {T : Fin K → Fin 4 → Fin n} {B F : Fin K → M3} :
    compute_deformation_gradient x T B = .ok F ↔ (∀ e, 0 < edgeTriple (fun a => x (T e a))) ∧
      F = fun e => (edgeMatrix fun a => x (T e a)).mul (B e) := by
  unfold compute_deformation_gradient
  cases hD : compute_D x T with
  | error er =>
    simp only [bind, Except.bind]
    constructor
    · intro h; cases h
    · rintro ⟨h1, -⟩
      rw [(compute_D_ok (D := fun e => edgeMatrix fun a => x (T e a))).2 ⟨h1, rfl⟩] at hD
      cases hD
  | ok D =>
    obtain ⟨h1, rfl⟩ := compute_D_ok.1 hD
    simp only [bind, Except.bind, pure, Except.pure, Except.ok.injEq]
    exact ⟨fun h => ⟨h1, h.symm⟩, fun h => h.2.symm⟩

theorem elasticForces_iff {x0 x : Fin n → V3} {T : Fin K → Fin 4 → Fin n} {B : Fin K → M3} {lam mu : ℝ}
    {pk1 : M3 → ℝ → ℝ → Except PyErr M3} {Fe : Fin n → V3} :
    elasticForces x0 x T B lam mu pk1 = .ok Fe ↔ (∀ e, 0 < edgeTriple (fun a => x (T e a))) ∧ ∃ P : Fin K → M3,
      (∀ e, pk1 ((edgeMatrix fun a => x (T e a)).mul (B e)) lam mu = .ok (P e)) ∧
      ∀ v, Fe v = ∑ e, ∑ i, if T e i = v then (P e).mulVec (compute_outward_face_vectors x0 T e i) else 0 := by
  unfold elasticForces
  cases hF : compute_deformation_gradient x T B with
  | error er =>
    simp only [bind, Except.bind]
    constructor
    · intro h; cases h
    · rintro ⟨h1, -⟩
      rw [gradient_iff.2 ⟨h1, rfl⟩] at hF
      cases hF
  | ok F =>
    obtain ⟨h1, rfl⟩ := gradient_iff.1 hF
    simp only [bind, Except.bind]
    rw [elastic_iff]
    exact ⟨fun h => ⟨h1, h⟩, fun h => h.2⟩

/-- The work of the elastic forces along nodal displacements h. -/
theorem elastic_work {x0 : Fin n → V3} {T : Fin K → Fin 4 → Fin n} {B : Fin K → M3} (hB : Prepared x0 T B) (P : Fin K → M3)
    (h : Fin n → V3) :
    ∑ v, V3.dot (∑ e, ∑ i, if T e i = v then (P e).mulVec (compute_outward_face_vectors x0 T e i) else 0) (h v) =
      -∑ e, compute_volumes x0 T e * tensordot (P e) ((edgeMatrix fun a => h (T e a)).mul (B e)) := by
  rw [scatter_dot, ← Finset.sum_neg_distrib]
  refine Finset.sum_congr rfl fun e _ => ?_
  have := face_work (P e) (fun a => x0 (T e a)) (fun a => h (T e a)) ((prepared_iff.1 hB).2 e)
  rw [neg_mul] at this
  exact this

/-- **C52** (internal forces conserve linear momentum). For every mesh, every deformation and every constitutive model whatsoever
(any function from deformation gradients to stresses), the elastic nodal forces sum to zero. -/
theorem C52_forces_sum_zero (x0 x : Fin n → V3) (T : Fin K → Fin 4 → Fin n) (invD0 : Fin K → M3) (lam mu : ℝ)
    (pk1_stress : M3 → ℝ → ℝ → Except PyErr M3) (Fe : Fin n → V3)
    (h : elasticForces x0 x T invD0 lam mu pk1_stress = .ok Fe) : ∑ v, Fe v = 0 := by
  obtain ⟨-, P, -, hv⟩ := elasticForces_iff.1 h
  simp only [hv]
  rw [scatter_sum T fun e i => (P e).mulVec (compute_outward_face_vectors x0 T e i)]
  refine Finset.sum_eq_zero fun e _ => ?_
  have := faceVectors_sum fun a => x0 (T e a)
  rw [← mulVec_sum]
  unfold compute_outward_face_vectors
  rw [this, mulVec_zero]

/-- The stress tensor P of a deformation gradient F does no work on rigid rotations: P Fᵀ (Kirchhoff stress) is symmetric. -/
def SymmetricStress (pk1_stress : M3 → ℝ → ℝ → Except PyErr M3) : Prop :=
  ∀ F lam mu P, pk1_stress F lam mu = .ok P → (P.mul F.transpose).transpose = P.mul F.transpose

theorem svk_symmetric : SymmetricStress SVK.pk1_stress := by
  intro F lam mu P h
  simp only [SVK.pk1_stress, Except.ok.injEq] at h
  subst h
  ext <;> simp [mul, transpose, green_strain_tensor, right_cauchy_strain_tensor, trace, M3.identity] <;> ring

theorem snh_symmetric : SymmetricStress SNH.pk1_stress := by
  intro F lam mu P h
  simp only [SNH.pk1_stress] at h
  by_cases h0 : snhLambda lam mu = 0
  · rw [if_pos h0] at h; cases h
  rw [if_neg h0] at h
  cases h
  generalize snhMu mu * _ = a
  generalize snhLambda lam mu * _ = b
  ext <;> simp [mul, transpose, dJdF, make_from_cols, col0, col1, col2, V3.cross] <;> ring

theorem torque_free {x0 x : Fin n → V3} {T : Fin K → Fin 4 → Fin n} {invD0 : Fin K → M3} (hp : Prepared x0 T invD0) {lam mu : ℝ}
    {pk1_stress : M3 → ℝ → ℝ → Except PyErr M3} (hs : SymmetricStress pk1_stress) {Fe : Fin n → V3}
    (h : elasticForces x0 x T invD0 lam mu pk1_stress = .ok Fe) (o : V3) : ∑ v, V3.cross (x v - o) (Fe v) = 0 := by
  have hz : ∀ w : V3, ∑ v, V3.dot (Fe v) (V3.cross w (x v - o)) = 0 := by
    intro w
    obtain ⟨-, P, hP, hv⟩ := elasticForces_iff.1 h
    simp only [hv]
    rw [elastic_work hp P fun v => V3.cross w (x v - o), neg_eq_zero]
    refine Finset.sum_eq_zero fun e _ => ?_
    have hsy := hs _ _ _ _ (hP e)
    have hW : edgeMatrix (fun a => V3.cross w (x (T e a) - o)) =
        (⟨0, -w.z, w.y, w.z, 0, -w.x, -w.y, w.x, 0⟩ : M3).mul (edgeMatrix fun a => x (T e a)) := by
      ext <;> simp [edgeMatrix, make_from_cols, mul, V3.cross] <;> ring
    rw [hW, mul_assoc']
    generalize (edgeMatrix fun a => x (T e a)).mul (invD0 e) = F at *
    generalize P e = Q at *
    refine mul_eq_zero_of_right _ ?_
    simp only [transpose, mul, M3.mk.injEq] at hsy
    obtain ⟨-, h1, h2, -, -, h3, -, -, -⟩ := hsy
    simp only [tensordot, mul]
    linear_combination w.z * h1 - w.y * h2 + w.x * h3
  have hc : ∀ a b w : V3, V3.dot (V3.cross a b) w = V3.dot b (V3.cross w a) := by
    intro a b w; simp [V3.dot, V3.cross]; ring
  refine V3.dot_self_eq_zero.1 ?_
  rw [V3.dot_sum_left]
  simp only [hc]
  exact hz _

/-- **C52** (internal forces conserve angular momentum). For the Saint Venant-Kirchhoff and the stable neo-Hookean material the
elastic forces have no moment about any point o, in every deformation. -/
theorem C52_no_torque (x0 x : Fin n → V3) (T : Fin K → Fin 4 → Fin n) (invD0 : Fin K → M3) (hp : Prepared x0 T invD0)
    (lam mu : ℝ) (Fe : Fin n → V3) (o : V3)
    (h : elasticForces x0 x T invD0 lam mu SVK.pk1_stress = .ok Fe ∨ elasticForces x0 x T invD0 lam mu SNH.pk1_stress = .ok Fe) :
    ∑ v, V3.cross (x v - o) (Fe v) = 0 := by
  rcases h with h | h
  · exact torque_free hp svk_symmetric h o
  · exact torque_free hp snh_symmetric h o

/-- Rigidly moved positions x = R x0 + t. -/
def rigidMove (R : M3) (t : V3) (x : Fin n → V3) : Fin n → V3 := fun v => R.mulVec (x v) + t

theorem edge_rigid (R : M3) (t : V3) (x : Fin n → V3) (T : Fin 4 → Fin n) :
    edgeMatrix (fun a => rigidMove R t x (T a)) = R.mul (edgeMatrix fun a => x (T a)) := by
  ext <;> simp [edgeMatrix, make_from_cols, mul, rigidMove, mulVec] <;> ring

theorem triple_rigid {R : M3} (hR : R.det = 1) (t : V3) (x : Fin n → V3) (T : Fin 4 → Fin n) :
    edgeTriple (fun a => rigidMove R t x (T a)) = edgeTriple fun a => x (T a) := by
  rw [edgeTriple_eq_det, edgeTriple_eq_det, edge_rigid, det_mul', hR, one_mul]

/-- **C52** (deformation gradient of a rigid motion). When a body is moved rigidly from rest by any rotation R and translation t, the
deformation gradient of every tetrahedron is exactly R. With R the identity: at rest and under translations it is the identity. -/
theorem C52_rigid_gradient (x0 : Fin n → V3) (T : Fin K → Fin 4 → Fin n) (invD0 : Fin K → M3) (hp : Prepared x0 T invD0)
    (R : M3) (hR : IsRotation R) (t : V3) :
    compute_deformation_gradient (rigidMove R t x0) T invD0 = .ok fun _ => R := by
  obtain ⟨h1, h2⟩ := prepared_iff.1 hp
  obtain ⟨-, hd⟩ := (isRotation_iff R).1 hR
  refine gradient_iff.2 ⟨fun e => ?_, funext fun e => ?_⟩
  · rw [triple_rigid hd]; exact h1 e
  · rw [edge_rigid, mul_assoc', h2 e, mul_identity]

/-- **C52** (rotations are stress free). The stress of a rotation is zero: always for Saint Venant-Kirchhoff, and for stable
neo-Hookean unless its modified first parameter vanishes, in which case the code divides by zero. -/
theorem C52_rotation_stress_free (R : M3) (hR : IsRotation R) (lam mu : ℝ) :
    SVK.pk1_stress R lam mu = .ok 0 ∧ (lam + 5 / 6 * mu ≠ 0 → SNH.pk1_stress R lam mu = .ok 0) := by
  obtain ⟨ho, hd⟩ := (isRotation_iff R).1 hR
  constructor
  · simp only [SVK.pk1_stress, green_strain_tensor, right_cauchy_strain_tensor, ho]
    congr 1
    ext <;> simp [mul, trace, M3.identity]
  · intro h0
    have hl : snhLambda lam mu = lam + 5 / 6 * mu := by unfold snhLambda; norm_num
    have hm : snhMu mu = 4 / 3 * mu := by unfold snhMu; norm_num
    have hadj : dJdF R = R := by
      have h1 : R.transpose.mul (dJdF R) = R.det • M3.identity := by
        ext <;> simp [mul, transpose, dJdF, make_from_cols, col0, col1, col2, V3.cross, det, M3.identity] <;> ring
      have h2 : R.mul R.transpose = M3.identity := toMat_one_mul_comm ho
      have h3 : R.mul (R.transpose.mul (dJdF R)) = dJdF R := by rw [← mul_assoc', h2, identity_mul]
      rw [← h3, h1, hd]
      ext <;> simp [mul, M3.identity]
    have ht : trace (R.transpose.mul R) = 3 := by rw [ho]; simp [trace, M3.identity]; norm_num
    simp only [SNH.pk1_stress]
    rw [if_neg (by rw [hl]; exact h0), hadj, hd, ht]
    congr 1
    have : snhMu mu * (1 - 1 / (3 + 1)) + snhLambda lam mu * (1 - snhAlpha lam mu) = 0 := by
      unfold snhAlpha
      rw [hl, hm]
      generalize lam + 5 / 6 * mu = l at *
      field_simp
      ring
    generalize snhMu mu * (1 - 1 / (3 + 1)) = a at *
    generalize snhLambda lam mu * (1 - snhAlpha lam mu) = b at *
    ext <;> simp only [add_def, smul_def, zero_def] <;> simp only [← add_mul, this, zero_mul]

/-- **C52** (rest and rigid motions are force free). In every rigidly moved rest configuration all elastic nodal forces are zero. -/
theorem C52_rigid_no_force (x0 : Fin n → V3) (T : Fin K → Fin 4 → Fin n) (invD0 : Fin K → M3) (hp : Prepared x0 T invD0)
    (R : M3) (hR : IsRotation R) (t : V3) (lam mu : ℝ) :
    elasticForces x0 (rigidMove R t x0) T invD0 lam mu SVK.pk1_stress = .ok 0 ∧
    (lam + 5 / 6 * mu ≠ 0 → elasticForces x0 (rigidMove R t x0) T invD0 lam mu SNH.pk1_stress = .ok 0) := by
  obtain ⟨hs, hn⟩ := C52_rotation_stress_free R hR lam mu
  obtain ⟨h1, h2⟩ := gradient_iff.1 (C52_rigid_gradient x0 T invD0 hp R hR t)
  have hF : ∀ e, (edgeMatrix fun a => rigidMove R t x0 (T e a)).mul (invD0 e) = R := fun e => (congrFun h2 e).symm
  constructor
  · refine elasticForces_iff.2 ⟨h1, fun _ => 0, fun e => by rw [hF, hs], fun v => ?_⟩
    simp only [zero_mulVec, ite_self, Finset.sum_const_zero]; rfl
  · intro h0
    refine elasticForces_iff.2 ⟨h1, fun _ => 0, fun e => by rw [hF, hn h0], fun v => ?_⟩
    simp only [zero_mulVec, ite_self, Finset.sum_const_zero]; rfl

theorem svk_objective (F R : M3) (hR : R.transpose.mul R = M3.identity) (lam mu : ℝ) :
    SVK.pk1_stress (R.mul F) lam mu = (SVK.pk1_stress F lam mu).map R.mul := by
  have hC : right_cauchy_strain_tensor (R.mul F) = right_cauchy_strain_tensor F := by
    unfold right_cauchy_strain_tensor
    rw [transpose_mul', mul_assoc', ← mul_assoc' R.transpose, hR, identity_mul]
  have hE : green_strain_tensor (R.mul F) = green_strain_tensor F := by unfold green_strain_tensor; rw [hC]
  simp only [SVK.pk1_stress, hE, Except.map, mul_assoc']

theorem dJdF_rotate (F R : M3) (hR : IsRotation R) : dJdF (R.mul F) = R.mul (dJdF F) := by
  obtain ⟨ho, hd⟩ := (isRotation_iff R).1 hR
  have hadj : dJdF R = R := by
    have h1 : R.transpose.mul (dJdF R) = R.det • M3.identity := by
      ext <;> simp [mul, transpose, dJdF, make_from_cols, col0, col1, col2, V3.cross, det, M3.identity] <;> ring
    have h2 : R.mul R.transpose = M3.identity := toMat_one_mul_comm ho
    have h3 : R.mul (R.transpose.mul (dJdF R)) = dJdF R := by rw [← mul_assoc', h2, identity_mul]
    rw [← h3, h1, hd]
    ext <;> simp [mul, M3.identity]
  have h : dJdF (R.mul F) = (dJdF R).mul (dJdF F) := by
    ext <;> simp [mul, dJdF, make_from_cols, col0, col1, col2, V3.cross] <;> ring
  rw [h, hadj]

theorem snh_objective (F R : M3) (hR : IsRotation R) (lam mu : ℝ) :
    SNH.pk1_stress (R.mul F) lam mu = (SNH.pk1_stress F lam mu).map R.mul := by
  obtain ⟨ho, hd⟩ := (isRotation_iff R).1 hR
  simp only [SNH.pk1_stress]
  by_cases h0 : snhLambda lam mu = 0
  · rw [if_pos h0, if_pos h0]; rfl
  rw [if_neg h0, if_neg h0]
  have hC : (R.mul F).transpose.mul (R.mul F) = F.transpose.mul F := by
    rw [transpose_mul', mul_assoc', ← mul_assoc' R.transpose, ho, identity_mul]
  rw [hC, det_mul', hd, one_mul, dJdF_rotate F R hR]
  simp only [Except.map, Except.ok.injEq]
  generalize snhMu mu * _ = a
  generalize snhLambda lam mu * _ = b
  generalize dJdF F = G
  ext <;> simp [mul] <;> ring

/-- **C52** (frame indifference). Moving any deformed configuration x rigidly rotates the elastic forces with it. -/
theorem C52_frame_indifference (x0 x : Fin n → V3) (T : Fin K → Fin 4 → Fin n) (invD0 : Fin K → M3)
    (R : M3) (hR : IsRotation R) (t : V3) (lam mu : ℝ) (Fe : Fin n → V3) :
    (elasticForces x0 x T invD0 lam mu SVK.pk1_stress = .ok Fe →
      elasticForces x0 (rigidMove R t x) T invD0 lam mu SVK.pk1_stress = .ok fun v => R.mulVec (Fe v)) ∧
    (elasticForces x0 x T invD0 lam mu SNH.pk1_stress = .ok Fe →
      elasticForces x0 (rigidMove R t x) T invD0 lam mu SNH.pk1_stress = .ok fun v => R.mulVec (Fe v)) := by
  have key : ∀ pk1 : M3 → ℝ → ℝ → Except PyErr M3, (∀ F, pk1 (R.mul F) lam mu = (pk1 F lam mu).map R.mul) →
      elasticForces x0 x T invD0 lam mu pk1 = .ok Fe →
      elasticForces x0 (rigidMove R t x) T invD0 lam mu pk1 = .ok fun v => R.mulVec (Fe v) := by
    intro pk1 hpk h
    obtain ⟨h1, P, hP, hv⟩ := elasticForces_iff.1 h
    refine elasticForces_iff.2 ⟨fun e => ?_, fun e => R.mul (P e), fun e => ?_, fun v => ?_⟩
    · rw [triple_rigid ((isRotation_iff R).1 hR).2]; exact h1 e
    · rw [edge_rigid, mul_assoc', hpk, hP]; rfl
    · rw [hv, mulVec_sum]
      refine Finset.sum_congr rfl fun e _ => ?_
      rw [mulVec_sum]
      refine Finset.sum_congr rfl fun i _ => ?_
      split_ifs
      · rw [mul_mulVec]
      · rw [mulVec_zero]
  exact ⟨key _ fun F => svk_objective F R ((isRotation_iff R).1 hR).1 lam mu, key _ fun F => snh_objective F R hR lam mu⟩

/-- **C52** (finding). The corotational material, which is the default of a new material, cannot be evaluated: `pk1_stress` and
`energy_density` raise for every deformation gradient, so the elastic forces of any body with at least one tetrahedron raise. -/
theorem C52_cor_always_fails (eigh : M3 → V3 × M3) :
    (∀ F lam mu, COR.pk1_stress eigh F lam mu = .error .valueError) ∧
    (∀ F lam mu, COR.energy_density eigh F lam mu = .error .valueError) ∧
    ∀ (x0 x : Fin n → V3) (T : Fin K → Fin 4 → Fin n) (invD0 : Fin K → M3) (lam mu : ℝ), 0 < K →
      ∀ Fe, elasticForces x0 x T invD0 lam mu (COR.pk1_stress eigh) ≠ .ok Fe := by
  have h1 : ∀ F lam mu, COR.pk1_stress eigh F lam mu = .error .valueError := fun _ _ _ => rfl
  refine ⟨h1, fun _ _ _ => rfl, ?_⟩
  intro x0 x T invD0 lam mu hK Fe h
  obtain ⟨-, P, hP, -⟩ := elasticForces_iff.1 h
  have := hP ⟨0, hK⟩
  rw [h1] at this
  cases this

/-! ### A concrete body: one tetrahedron -/

/-- The unit corner tetrahedron. -/
def exX0 : Fin 4 → V3 := ![⟨0, 0, 0⟩, ⟨1, 0, 0⟩, ⟨0, 1, 0⟩, ⟨0, 0, 1⟩]
def exT : Fin 1 → Fin 4 → Fin 4 := ![![0, 1, 2, 3]]

theorem ex_edge : (edgeMatrix fun a => exX0 (exT 0 a)) = M3.identity := by
  ext <;> simp [edgeMatrix, make_from_cols, exX0, exT, M3.identity]

theorem ex_prepared : Prepared exX0 exT fun _ => M3.identity := by
  refine prepared_iff.2 ⟨fun e => ?_, fun e => ?_⟩
  · rw [Subsingleton.elim e 0, edgeTriple_eq_det, ex_edge]; simp [det, M3.identity]
  · rw [Subsingleton.elim e 0, ex_edge, mul_identity]

/-- The body stretched to twice its length along the first axis: the forces are defined and pull the first two nodes together. -/
def exX : Fin 4 → V3 := ![⟨0, 0, 0⟩, ⟨2, 0, 0⟩, ⟨0, 1, 0⟩, ⟨0, 0, 1⟩]

theorem ex_forces : ∃ Fe, elasticForces exX0 exX exT (fun _ => M3.identity) 1 1 SVK.pk1_stress = .ok Fe ∧
    (Fe 0).x = 3 / 2 ∧ (Fe 1).x = -(3 / 2) := by
  have hE : (edgeMatrix fun a => exX (exT 0 a)).mul M3.identity = ⟨2, 0, 0, 0, 1, 0, 0, 0, 1⟩ := by
    rw [mul_identity]
    ext <;> simp [edgeMatrix, make_from_cols, exX, exT]
  refine ⟨_, elasticForces_iff.2 ⟨fun e => ?_, fun _ => (⟨2, 0, 0, 0, 1, 0, 0, 0, 1⟩ : M3).mul
      (((1 : ℝ) * trace (green_strain_tensor ⟨2, 0, 0, 0, 1, 0, 0, 0, 1⟩)) • M3.identity + ((2 : ℝ) * 1) •
        green_strain_tensor ⟨2, 0, 0, 0, 1, 0, 0, 0, 1⟩), fun e => ?_, fun v => rfl⟩, ?_, ?_⟩
  · rw [Subsingleton.elim e 0, edgeTriple_eq_det]; simp [det, edgeMatrix, make_from_cols, exX, exT]
  · rw [Subsingleton.elim e 0, hE]; rfl
  · simp [Fin.sum_univ_four, exT, mulVec, mul, trace, green_strain_tensor, right_cauchy_strain_tensor, transpose, M3.identity,
      compute_outward_face_vectors, faceVectors, exX0, V3.cross]
    norm_num
  · simp [Fin.sum_univ_four, exT, mulVec, mul, trace, green_strain_tensor, right_cauchy_strain_tensor, transpose, M3.identity,
      compute_outward_face_vectors, faceVectors, exX0, V3.cross]
    norm_num

end Verif
