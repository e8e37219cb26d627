import Verif.Props.SoftElastic

/-! C54: mass, gravity, damping and traction of the soft body simulator. -/

namespace Verif

open Soft M3 Mech

variable {n K : ℕ}

/-! ### Specification -/

/-- Total mass of a body. -/
noncomputable def softMass (vol0 : Fin K → ℝ) (rho : ℝ) : ℝ := ∑ e, rho * vol0 e

/-- The area of the loaded triangle at the current positions. -/
noncomputable def loadedArea (x : Fin n → V3) (t : TractionCondition n) : ℝ :=
  V3.norm (V3.cross (x t.j - x t.i) (x t.k - x t.i)) / 2

/-! ### Proofs -/

theorem shapeProducts_sum (l : Bool) : ∑ i, ∑ j, shapeProducts l i j = M3.identity := by
  cases l <;> simp only [Fin.sum_univ_four, shapeProducts] <;> ext <;> simp [M3.identity, M3.zero] <;> norm_num

/-- The row sums: each node gets a quarter. -/
theorem shapeProducts_row (l : Bool) (i : Fin 4) (g : V3) : ∑ j, (shapeProducts l i j).mulVec g = (1 / 4 : ℝ) • g := by
  cases l <;> fin_cases i <;> simp only [Fin.sum_univ_four, shapeProducts] <;> ext <;>
    simp [mulVec, M3.identity, M3.zero] <;> ring

/-- **C54** (element mass). The sixteen blocks of the mass matrix of a tetrahedron add up to density times volume times the identity,
lumped or consistent. -/
theorem C54_element_mass (rho : ℝ) (vol : Fin K → ℝ) (is_lumped : Bool) (e : Fin K) :
    ∑ i, ∑ j, compute_mass_element_array rho vol is_lumped e i j = (rho * vol e) • M3.identity := by
  cases is_lumped <;> simp only [compute_mass_element_array, Fin.sum_univ_four, shapeProducts] <;> ext <;>
    simp [M3.identity, M3.zero] <;> ring

/-- **C54** (volumes). The volumes of a body that could be prepared are positive. -/
theorem C54_volume_pos (x0 : Fin n → V3) (T : Fin K → Fin 4 → Fin n) (invD0 : Fin K → M3) (hp : Prepared x0 T invD0) (e : Fin K) :
    0 < compute_volumes x0 T e := by
  have := (prepared_iff.1 hp).1 e
  unfold edgeTriple at this
  unfold compute_volumes
  positivity

theorem sum_smul_V3 {ι : Type*} (s : Finset ι) (f : ι → ℝ) (g : V3) : ∑ i ∈ s, f i • g = (∑ i ∈ s, f i) • g := by
  rw [← Finset.sum_smul]

/-- **C54** (total gravity). The gravity forces of a body add up to its total mass times gravity. -/
theorem C54_total_gravity (T : Fin K → Fin 4 → Fin n) (vol0 : Fin K → ℝ) (rho : ℝ) (g : V3) :
    ∑ v, compute_gravity_forces T vol0 rho g v = softMass vol0 rho • g := by
  simp only [gravity_apply]
  rw [scatter_sum T fun e _ => (rho * vol0 e / 4) • g, softMass, Finset.sum_smul]
  refine Finset.sum_congr rfl fun e _ => ?_
  rw [Finset.sum_const, Finset.card_univ, Fintype.card_fin]
  ext <;> simp [← Nat.cast_smul_eq_nsmul ℝ] <;> ring

/-- **C54** (gravity is weight). Node by node the gravity force is the mass matrix (lumped or consistent) applied to the constant field g. -/
theorem C54_gravity_is_weight (T : Fin K → Fin 4 → Fin n) (vol0 : Fin K → ℝ) (rho : ℝ) (is_lumped : Bool) (g : V3) :
    prod_mat_vec T (compute_mass_element_array rho vol0 is_lumped) (fun _ => g) = compute_gravity_forces T vol0 rho g := by
  funext v
  rw [prod_mat_vec_apply, gravity_apply]
  refine Finset.sum_congr rfl fun e _ => Finset.sum_congr rfl fun i _ => ?_
  by_cases h : T e i = v
  · simp only [if_pos h, compute_mass_element_array, smul_mulVec]
    rw [← Finset.smul_sum, ← Finset.smul_sum, shapeProducts_row, smul_smul, smul_smul]
    congr 1
    ring
  · simp only [if_neg h, Finset.sum_const_zero]

theorem quadForm_eq (T : Fin K → Fin 4 → Fin n) (A : Fin K → Fin 4 → Fin 4 → M3) (u w : Fin n → V3) :
    ∑ v, V3.dot (prod_mat_vec T A u v) (w v) = ∑ e, ∑ i, ∑ j, V3.dot ((A e i j).mulVec (u (T e j))) (w (T e i)) := by
  simp only [prod_mat_vec_apply]
  have : ∀ v, (∑ e, ∑ i, ∑ j, if T e i = v then (A e i j).mulVec (u (T e j)) else 0) =
      ∑ e, ∑ i, if T e i = v then ∑ j, (A e i j).mulVec (u (T e j)) else 0 := by
    intro v
    refine Finset.sum_congr rfl fun e _ => Finset.sum_congr rfl fun i _ => ?_
    split_ifs <;> simp
  simp only [this]
  rw [scatter_dot T (fun e i => ∑ j, (A e i j).mulVec (u (T e j))) w]
  simp only [V3.dot_sum_left]

theorem shape_symm (l : Bool) (a b : Fin 4 → V3) :
    ∑ i, ∑ j, V3.dot ((shapeProducts l i j).mulVec (a j)) (b i) = ∑ i, ∑ j, V3.dot ((shapeProducts l i j).mulVec (b j)) (a i) := by
  cases l <;> simp only [Fin.sum_univ_four, shapeProducts] <;> simp [V3.dot, mulVec, M3.identity, M3.zero] <;> ring

theorem shape_form (l : Bool) (a : Fin 4 → V3) : ∑ i, ∑ j, V3.dot ((shapeProducts l i j).mulVec (a j)) (a i) =
    if l then (V3.dot (a 0) (a 0) + V3.dot (a 1) (a 1) + V3.dot (a 2) (a 2) + V3.dot (a 3) (a 3)) / 4
    else (V3.dot (a 0) (a 0) + V3.dot (a 1) (a 1) + V3.dot (a 2) (a 2) + V3.dot (a 3) (a 3) +
      V3.dot (a 0 + a 1 + a 2 + a 3) (a 0 + a 1 + a 2 + a 3)) / 20 := by
  cases l <;> simp only [Fin.sum_univ_four, shapeProducts] <;> simp [V3.dot, mulVec, M3.identity, M3.zero] <;> ring

theorem shape_form_ge (l : Bool) (a : Fin 4 → V3) :
    (V3.dot (a 0) (a 0) + V3.dot (a 1) (a 1) + V3.dot (a 2) (a 2) + V3.dot (a 3) (a 3)) / 20 ≤
      ∑ i, ∑ j, V3.dot ((shapeProducts l i j).mulVec (a j)) (a i) := by
  rw [shape_form]
  have h0 := V3.dot_self_nonneg (a 0); have h1 := V3.dot_self_nonneg (a 1)
  have h2 := V3.dot_self_nonneg (a 2); have h3 := V3.dot_self_nonneg (a 3)
  have h4 := V3.dot_self_nonneg (a 0 + a 1 + a 2 + a 3)
  cases l
  · simp only [Bool.false_eq_true, if_false]; linarith
  · simp only [if_true]; linarith

theorem massForm (T : Fin K → Fin 4 → Fin n) (vol : Fin K → ℝ) (rho : ℝ) (l : Bool) (u w : Fin n → V3) :
    ∑ v, V3.dot (prod_mat_vec T (compute_mass_element_array rho vol l) u v) (w v) =
      ∑ e, (rho * vol e) * ∑ i, ∑ j, V3.dot ((shapeProducts l i j).mulVec (u (T e j))) (w (T e i)) := by
  rw [quadForm_eq]
  refine Finset.sum_congr rfl fun e _ => ?_
  simp only [compute_mass_element_array, smul_mulVec, V3.dot_smul_left, Finset.mul_sum]
  refine Finset.sum_congr rfl fun i _ => Finset.sum_congr rfl fun j _ => by ring

/-- **C54** (the mass matrix is symmetric). -/
theorem C54_mass_symmetric (T : Fin K → Fin 4 → Fin n) (vol0 : Fin K → ℝ) (rho : ℝ) (is_lumped : Bool) (u w : Fin n → V3) :
    ∑ v, V3.dot (prod_mat_vec T (compute_mass_element_array rho vol0 is_lumped) u v) (w v) =
      ∑ v, V3.dot (prod_mat_vec T (compute_mass_element_array rho vol0 is_lumped) w v) (u v) := by
  rw [massForm, massForm]
  exact Finset.sum_congr rfl fun e _ => by rw [shape_symm is_lumped (fun j => u (T e j)) (fun j => w (T e j))]

/-- **C54** (the mass matrix is positive definite). With positive density and volumes, and every node in some tetrahedron, the quadratic
form of the mass matrix is positive at every non-zero velocity field; so the matrix the stepper inverts is invertible. -/
theorem C54_mass_positive (T : Fin K → Fin 4 → Fin n) (vol0 : Fin K → ℝ) (rho : ℝ) (is_lumped : Bool) (hr : 0 < rho)
    (hv : ∀ e, 0 < vol0 e) (hT : ∀ v, ∃ e i, T e i = v) (u : Fin n → V3) (hu : u ≠ 0) :
    0 < ∑ v, V3.dot (prod_mat_vec T (compute_mass_element_array rho vol0 is_lumped) u v) (u v) := by
  rw [massForm]
  have hnn : ∀ e, (0 : ℝ) ≤ ∑ i, ∑ j, V3.dot ((shapeProducts is_lumped i j).mulVec (u (T e j))) (u (T e i)) := by
    intro e
    refine le_trans ?_ (shape_form_ge is_lumped fun j => u (T e j))
    have h0 := V3.dot_self_nonneg (u (T e 0)); have h1 := V3.dot_self_nonneg (u (T e 1))
    have h2 := V3.dot_self_nonneg (u (T e 2)); have h3 := V3.dot_self_nonneg (u (T e 3))
    positivity
  obtain ⟨v, hv'⟩ := Function.ne_iff.1 hu
  obtain ⟨e, i, rfl⟩ := hT v
  refine Finset.sum_pos' (fun e _ => mul_nonneg (mul_pos hr (hv e)).le (hnn e)) ⟨e, Finset.mem_univ _, ?_⟩
  refine mul_pos (mul_pos hr (hv e)) (lt_of_lt_of_le ?_ (shape_form_ge is_lumped fun j => u (T e j)))
  have hp : 0 < V3.dot (u (T e i)) (u (T e i)) :=
    lt_of_le_of_ne (V3.dot_self_nonneg _) (Ne.symm fun h => hv' (V3.dot_self_eq_zero.1 h))
  have h0 := V3.dot_self_nonneg (u (T e 0)); have h1 := V3.dot_self_nonneg (u (T e 1))
  have h2 := V3.dot_self_nonneg (u (T e 2)); have h3 := V3.dot_self_nonneg (u (T e 3))
  have : V3.dot (u (T e i)) (u (T e i)) ≤ V3.dot (u (T e 0)) (u (T e 0)) + V3.dot (u (T e 1)) (u (T e 1)) +
      V3.dot (u (T e 2)) (u (T e 2)) + V3.dot (u (T e 3)) (u (T e 3)) := by
    have hi : ∀ i : Fin 4, i = 0 ∨ i = 1 ∨ i = 2 ∨ i = 3 := by decide
    obtain rfl | rfl | rfl | rfl := hi i
    all_goals linarith
  linarith

theorem damping_eq_mass (c : ℝ) (vol : Fin K → ℝ) (l : Bool) : compute_damping_element_array c vol l = compute_mass_element_array c vol l :=
  rfl

/-- **C54** (damping dissipates). With a non-negative damping coefficient the damping forces never do positive work. -/
theorem C54_damping_dissipates (T : Fin K → Fin 4 → Fin n) (vol0 : Fin K → ℝ) (c : ℝ) (is_lumped : Bool) (hc : 0 ≤ c)
    (hv : ∀ e, 0 ≤ vol0 e) (u : Fin n → V3) :
    ∑ v, V3.dot (compute_damping_forces T (compute_damping_element_array c vol0 is_lumped) u v) (u v) ≤ 0 := by
  have : ∀ v, V3.dot (compute_damping_forces T (compute_damping_element_array c vol0 is_lumped) u v) (u v) =
      -V3.dot (prod_mat_vec T (compute_mass_element_array c vol0 is_lumped) u v) (u v) := by
    intro v
    simp only [compute_damping_forces, damping_eq_mass, Pi.neg_apply]
    simp [V3.dot]; ring
  simp only [this, Finset.sum_neg_distrib]
  rw [massForm, neg_nonpos]
  refine Finset.sum_nonneg fun e _ => mul_nonneg (mul_nonneg hc (hv e)) ?_
  refine le_trans ?_ (shape_form_ge is_lumped fun j => u (T e j))
  have h0 := V3.dot_self_nonneg (u (T e 0)); have h1 := V3.dot_self_nonneg (u (T e 1))
  have h2 := V3.dot_self_nonneg (u (T e 2)); have h3 := V3.dot_self_nonneg (u (T e 3))
  positivity

theorem tractionStep_apply (x Ft : Fin n → V3) (t : TractionCondition n) (v : Fin n) : tractionStep x Ft t v = Ft v +
    ((if t.i = v then (loadedArea x t / 6) • t.traction else 0) + (if t.j = v then (loadedArea x t / 6) • t.traction else 0) +
      (if t.k = v then (loadedArea x t / 6) • t.traction else 0)) := by
  have hA : V3.norm ((1 / 2 : ℝ) • V3.cross (x t.j - x t.i) (x t.k - x t.i)) = loadedArea x t := by
    unfold loadedArea
    generalize V3.cross (x t.j - x t.i) (x t.k - x t.i) = c
    unfold V3.norm
    rw [V3.dot_smul_left, V3.dot_smul_right, show (1 / 2 : ℝ) * (1 / 2 * V3.dot c c) = V3.dot c c / 2 ^ 2 by ring,
      Real.sqrt_div (V3.dot_self_nonneg _), Real.sqrt_sq (by norm_num)]
  simp only [tractionStep, addAt_apply, hA]
  have e1 : (loadedArea x t / 24) • ((2 : ℝ) • t.traction + t.traction + t.traction) = (loadedArea x t / 6) • t.traction := by
    ext <;> simp <;> ring
  have e2 : (loadedArea x t / 24) • (t.traction + (2 : ℝ) • t.traction + t.traction) = (loadedArea x t / 6) • t.traction := by
    ext <;> simp <;> ring
  have e3 : (loadedArea x t / 24) • (t.traction + t.traction + (2 : ℝ) • t.traction) = (loadedArea x t / 6) • t.traction := by
    ext <;> simp <;> ring
  rw [e1, e2, e3]
  abel

/-- **C54** (traction, what the code does). Each loaded triangle adds a sixth of its area times the load to each of its three nodes, so
the traction forces add up to HALF the loaded area times the load. Missing for the full claim: the other half (see the next theorem). -/
theorem C54_traction_total_partial (x : Fin n → V3) (cs : List (TractionCondition n)) :
    (∀ v, compute_traction_forces x cs v = (cs.map fun t => ((if t.i = v then (loadedArea x t / 6) • t.traction else 0) +
      (if t.j = v then (loadedArea x t / 6) • t.traction else 0) + (if t.k = v then (loadedArea x t / 6) • t.traction else 0))).sum) ∧
    ∑ v, compute_traction_forces x cs v = (cs.map fun t => (loadedArea x t / 2) • t.traction).sum := by
  have h1 : ∀ v, compute_traction_forces x cs v = (cs.map fun t => ((if t.i = v then (loadedArea x t / 6) • t.traction else 0) +
      (if t.j = v then (loadedArea x t / 6) • t.traction else 0) + (if t.k = v then (loadedArea x t / 6) • t.traction else 0))).sum := by
    intro v
    unfold compute_traction_forces
    rw [foldl_add _ _ (tractionStep_apply x)]
    exact zero_add _
  refine ⟨h1, ?_⟩
  simp only [h1]
  clear h1
  induction cs with
  | nil => simp
  | cons t cs ih =>
    simp only [List.map_cons, List.sum_cons, Finset.sum_add_distrib, ih, Finset.sum_ite_eq, Finset.mem_univ, if_true]
    congr 1
    ext <;> simp <;> ring

/-- **C54** (finding). The total traction force of a loaded triangle is not its area times the load, unless one of these is zero. -/
theorem C54_traction_not_full (x : Fin n → V3) (t : TractionCondition n) (hA : loadedArea x t ≠ 0) (hl : t.traction ≠ 0) :
    ∑ v, compute_traction_forces x [t] v ≠ loadedArea x t • t.traction := by
  rw [(C54_traction_total_partial x [t]).2]
  simp only [List.map_cons, List.map_nil, List.sum_cons, List.sum_nil, add_zero]
  intro h
  apply hl
  have hx := congrArg V3.x h; have hy := congrArg V3.y h; have hz := congrArg V3.z h
  simp only [V3.smul_x, V3.smul_y, V3.smul_z] at hx hy hz
  have key : ∀ a : ℝ, loadedArea x t / 2 * a = loadedArea x t * a → a = 0 := by
    intro a ha
    have : loadedArea x t * a = 0 := by linarith
    exact (mul_eq_zero.1 this).resolve_left hA
  ext
  · exact key _ hx
  · exact key _ hy
  · exact key _ hz

/-! ### Energies -/

theorem foldl_real_sum (f : Fin K → ℝ) : (List.finRange K).foldl (fun s e => s + f e) 0 = ∑ e, f e := by
  rw [Fin.sum_univ_def]
  have : ∀ (L : List (Fin K)) (s : ℝ), L.foldl (fun s e => s + f e) s = s + (L.map f).sum := by
    intro L
    induction L with
    | nil => simp
    | cons a L ih => intro s; rw [List.foldl_cons, ih]; simp [add_assoc]
  rw [this, zero_add]

theorem kinetic_sum (T : Fin K → Fin 4 → Fin n) (vol0 : Fin K → ℝ) (rho : ℝ) (u : Fin n → V3) :
    body_kinetic_energy T vol0 rho u = ∑ e, (rho * vol0 e) * (V3.dot (u (T e 0) + u (T e 1) + u (T e 2) + u (T e 3))
      (u (T e 0) + u (T e 1) + u (T e 2) + u (T e 3)) / 32) := by
  unfold body_kinetic_energy
  rw [foldl_real_sum (fun e => rho * vol0 e * V3.dot (V3.divs (u (T e 0) + u (T e 1) + u (T e 2) + u (T e 3)) 4.0)
    (V3.divs (u (T e 0) + u (T e 1) + u (T e 2) + u (T e 3)) 4.0) / 2.0)]
  refine Finset.sum_congr rfl fun e _ => ?_
  generalize u (T e 0) + u (T e 1) + u (T e 2) + u (T e 3) = s
  rw [V3.divs_eq_smul, V3.dot_smul_left, V3.dot_smul_right, show (4.0 : ℝ) = 4 by norm_num, show (2.0 : ℝ) = 2 by norm_num]
  ring

/-- **C54** (kinetic energy). The reported kinetic energy is non-negative, never exceeds half the quadratic form of the mass matrix, and
for a body moving with one velocity v it is half the total mass times |v|². -/
theorem C54_kinetic_energy (T : Fin K → Fin 4 → Fin n) (vol0 : Fin K → ℝ) (rho : ℝ) (hr : 0 ≤ rho) (hv : ∀ e, 0 ≤ vol0 e)
    (is_lumped : Bool) (u : Fin n → V3) :
    0 ≤ body_kinetic_energy T vol0 rho u ∧
    body_kinetic_energy T vol0 rho u ≤
      (∑ v, V3.dot (prod_mat_vec T (compute_mass_element_array rho vol0 is_lumped) u v) (u v)) / 2 ∧
    ∀ v, body_kinetic_energy T vol0 rho (fun _ => v) = softMass vol0 rho * V3.dot v v / 2 := by
  refine ⟨?_, ?_, fun v => ?_⟩
  · rw [kinetic_sum]
    refine Finset.sum_nonneg fun e _ => mul_nonneg (mul_nonneg hr (hv e)) (div_nonneg (V3.dot_self_nonneg _) (by norm_num))
  · rw [kinetic_sum, massForm, Finset.sum_div]
    refine Finset.sum_le_sum fun e _ => ?_
    rw [mul_div_assoc]
    refine mul_le_mul_of_nonneg_left ?_ (mul_nonneg hr (hv e))
    rw [shape_form is_lumped fun j => u (T e j)]
    generalize u (T e 0) = a; generalize u (T e 1) = b; generalize u (T e 2) = c; generalize u (T e 3) = d
    have hab : V3.dot (a + b + c + d) (a + b + c + d) ≤ 4 * (V3.dot a a + V3.dot b b + V3.dot c c + V3.dot d d) := by
      simp only [V3.dot, V3.add_x, V3.add_y, V3.add_z]
      nlinarith [sq_nonneg (a.x - b.x), sq_nonneg (a.x - c.x), sq_nonneg (a.x - d.x), sq_nonneg (b.x - c.x), sq_nonneg (b.x - d.x),
        sq_nonneg (c.x - d.x), sq_nonneg (a.y - b.y), sq_nonneg (a.y - c.y), sq_nonneg (a.y - d.y), sq_nonneg (b.y - c.y),
        sq_nonneg (b.y - d.y), sq_nonneg (c.y - d.y), sq_nonneg (a.z - b.z), sq_nonneg (a.z - c.z), sq_nonneg (a.z - d.z),
        sq_nonneg (b.z - c.z), sq_nonneg (b.z - d.z), sq_nonneg (c.z - d.z)]
    cases is_lumped
    · simp only [Bool.false_eq_true, if_false]; linarith
    · simp only [if_true]; linarith
  · rw [kinetic_sum, softMass, Finset.sum_mul, Finset.sum_div]
    refine Finset.sum_congr rfl fun e _ => ?_
    simp only [V3.dot, V3.add_x, V3.add_y, V3.add_z]
    ring

/-- **C54** (potential energy). The gravity forces are minus the gradient of the reported potential energy: for all displacements h the
energy changes by exactly minus the work of the gravity forces. -/
theorem C54_potential_energy (T : Fin K → Fin 4 → Fin n) (vol0 : Fin K → ℝ) (rho : ℝ) (g : V3) (x h : Fin n → V3) :
    body_potential_energy T vol0 rho g (x + h) = body_potential_energy T vol0 rho g x -
      ∑ v, V3.dot (compute_gravity_forces T vol0 rho g v) (h v) := by
  have hp : ∀ x : Fin n → V3, body_potential_energy T vol0 rho g x =
      ∑ e, -((rho * vol0 e / 4) * V3.dot g (x (T e 0) + x (T e 1) + x (T e 2) + x (T e 3))) := by
    intro x
    unfold body_potential_energy
    rw [foldl_real_sum (fun e => rho * vol0 e * V3.dot (-g) (V3.divs (x (T e 0) + x (T e 1) + x (T e 2) + x (T e 3)) 4.0))]
    refine Finset.sum_congr rfl fun e _ => ?_
    rw [V3.divs_eq_smul, V3.dot_smul_right, show (4.0 : ℝ) = 4 by norm_num]
    simp [V3.dot]; ring
  simp only [gravity_apply]
  rw [hp, hp, scatter_dot T (fun e _ => (rho * vol0 e / 4) • g), ← Finset.sum_sub_distrib]
  refine Finset.sum_congr rfl fun e _ => ?_
  simp only [Fin.sum_univ_four, Pi.add_apply, V3.dot, V3.add_x, V3.add_y, V3.add_z, V3.smul_x, V3.smul_y, V3.smul_z]
  ring

/-! ### Concrete instances -/

/-- The unit corner tetrahedron satisfies the hypotheses of `C54_mass_positive`: its volume is 1/6 and it has all four nodes. -/
theorem ex_mass : compute_volumes exX0 exT 0 = 1 / 6 ∧ (∀ v, ∃ e i, exT e i = v) ∧
    0 < ∑ v, V3.dot (prod_mat_vec exT (compute_mass_element_array 1000 (compute_volumes exX0 exT) true) exX v) (exX v) := by
  have h2 : ∀ v, ∃ e i, exT e i = v := by
    intro v; refine ⟨0, v, ?_⟩; fin_cases v <;> rfl
  refine ⟨?_, h2, ?_⟩
  · simp [compute_volumes, exX0, exT, V3.dot, V3.cross]
  · refine C54_mass_positive _ _ _ _ (by norm_num) (C54_volume_pos _ _ _ ex_prepared) h2 _ ?_
    intro h
    have := congrArg V3.x (congrFun h 1)
    simp [exX] at this

/-- A loaded face of the unit corner tetrahedron: area 1/2, load (0, 0, 1); the total traction force is only (0, 0, 1/4). -/
theorem ex_traction : ∑ v, compute_traction_forces exX0 [⟨0, 1, 2, ⟨0, 0, 1⟩⟩] v = ⟨0, 0, 1 / 4⟩ ∧
    loadedArea exX0 ⟨0, 1, 2, ⟨0, 0, 1⟩⟩ = 1 / 2 := by
  have hA : loadedArea exX0 ⟨0, 1, 2, ⟨0, 0, 1⟩⟩ = 1 / 2 := by
    simp [loadedArea, exX0, V3.cross, V3.norm, V3.dot]
  refine ⟨?_, hA⟩
  rw [(C54_traction_total_partial _ _).2]
  simp only [List.map_cons, List.map_nil, List.sum_cons, List.sum_nil, add_zero, hA]
  ext <;> simp
  norm_num

end Verif
