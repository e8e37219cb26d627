import Verif.Props.SceneShape

/-! C116: `PCA` and `direction_of_most_variance`. -/

namespace Verif

open Rigid SMesh Matrix

/-- The sample variance of a list of numbers. -/
noncomputable def sampleVariance (a : List ℝ) : ℝ :=
  (a.map fun t => (t - a.sum / a.length) ^ 2).sum / ((a.length : ℝ) - 1)

/-- How much the points vary in a direction: the sample variance of their coordinates along it. -/
noncomputable def varianceAlong (P : List V3) (d : V3) : ℝ := sampleVariance (P.map fun p => V3.dot d p)

/-- covariance of two functions of the points -/
noncomputable def covFun (P : List V3) (f g : V3 → ℝ) : ℝ := covEntry (P.map f) (P.map g)

theorem covFun_eq (P : List V3) (f g : V3 → ℝ) : covFun P f g =
    (P.map fun p => (f p - (P.map f).sum / P.length) * (g p - (P.map g).sum / P.length)).sum / ((P.length : ℝ) - 1) := by
  simp only [covFun, covEntry, List.length_map]
  congr 2
  generalize (P.map f).sum / P.length = a
  generalize (P.map g).sum / P.length = b
  induction P with
  | nil => rfl
  | cons p P ih => simp [ih]

theorem covFun_comm (P : List V3) (f g : V3 → ℝ) : covFun P f g = covFun P g f := covEntry_comm _ _ (by simp)

theorem covFun_add (P : List V3) (f g h : V3 → ℝ) : covFun P (fun p => f p + g p) h = covFun P f h + covFun P g h := by
  simp only [covFun_eq]
  rw [← add_div, ← List.sum_map_add]
  congr 3
  funext p
  rw [List.sum_map_add]
  ring

theorem covFun_smul (P : List V3) (a : ℝ) (f h : V3 → ℝ) : covFun P (fun p => a * f p) h = a * covFun P f h := by
  simp only [covFun_eq]
  rw [List.sum_map_mul_left]
  generalize (P.map f).sum = sf
  generalize (P.map h).sum / P.length = mh
  have e : (P.map fun p => (a * f p - a * sf / P.length) * (h p - mh)).sum = a * (P.map fun p => (f p - sf / P.length) * (h p - mh)).sum := by
    rw [← List.sum_map_mul_left]
    congr 2
    funext p
    ring
  rw [e, mul_div_assoc]

theorem covFun_shift (P : List V3) (a : ℝ) (f h : V3 → ℝ) : covFun P (fun p => f p - a) h = covFun P f h := by
  simp only [covFun_eq]
  congr 1
  cases P with
  | nil => rfl
  | cons p0 P =>
    have hn : ((p0 :: P).length : ℝ) ≠ 0 := by simp; positivity
    generalize p0 :: P = L at hn
    have : (L.map fun p => f p - a).sum / L.length = (L.map f).sum / L.length - a := by
      have e : (L.map fun p => f p - a).sum = (L.map f).sum - L.length * a := by
        clear hn
        induction L with
        | nil => simp
        | cons q L ih => simp [ih]; ring
      rw [e]
      field_simp
    rw [this]
    congr 2
    funext p
    ring

theorem sampleVariance_eq (P : List V3) (f : V3 → ℝ) : sampleVariance (P.map f) = covFun P f f := by
  rw [covFun_eq, sampleVariance, List.map_map, List.length_map]
  congr 3
  funext p
  simp only [Function.comp]
  ring

/-- The covariance matrix gives the variance in every direction. -/
theorem variance_cov (P : List V3) (d : V3) : varianceAlong P d = V3.dot d ((cov (P.map (· - vmean P))).mulVec d) := by
  have shift : ∀ f : V3 → ℝ, ∀ a, covFun P (fun p => f p - a) = covFun P f := fun f a => by
    funext h
    exact covFun_shift P a f h
  have key : ∀ f g : V3 → ℝ, ∀ a b, covFun P (fun p => f p - a) (fun p => g p - b) = covFun P f g := by
    intro f g a b
    rw [shift, covFun_comm, shift, covFun_comm]
  have entry : ∀ (f g : V3 → ℝ) (a b : ℝ) (hf : ∀ p, f (p - vmean P) = f p - a) (hg : ∀ p, g (p - vmean P) = g p - b),
      covEntry ((P.map (· - vmean P)).map f) ((P.map (· - vmean P)).map g) = covFun P f g := by
    intro f g a b hf hg
    rw [List.map_map, List.map_map]
    have e1 : f ∘ (· - vmean P) = fun p => f p - a := by funext p; exact hf p
    have e2 : g ∘ (· - vmean P) = fun p => g p - b := by funext p; exact hg p
    rw [e1, e2]
    exact key f g a b
  have hx : ∀ p, (p - vmean P).x = p.x - (vmean P).x := fun p => rfl
  have hy : ∀ p, (p - vmean P).y = p.y - (vmean P).y := fun p => rfl
  have hz : ∀ p, (p - vmean P).z = p.z - (vmean P).z := fun p => rfl
  simp only [cov, M3.mulVec, V3.dot]
  rw [entry V3.x V3.x _ _ hx hx, entry V3.x V3.y _ _ hx hy, entry V3.x V3.z _ _ hx hz, entry V3.y V3.x _ _ hy hx, entry V3.y V3.y _ _ hy hy,
    entry V3.y V3.z _ _ hy hz, entry V3.z V3.x _ _ hz hx, entry V3.z V3.y _ _ hz hy, entry V3.z V3.z _ _ hz hz]
  have lin : ∀ h : V3 → ℝ, covFun P (fun p => d.x * p.x + d.y * p.y + d.z * p.z) h =
      d.x * covFun P V3.x h + d.y * covFun P V3.y h + d.z * covFun P V3.z h := by
    intro h
    rw [covFun_add P (fun p => d.x * p.x + d.y * p.y) (fun p => d.z * p.z), covFun_add P (fun p => d.x * p.x) (fun p => d.y * p.y),
      covFun_smul P d.x (fun p => p.x), covFun_smul P d.y (fun p => p.y), covFun_smul P d.z (fun p => p.z)]
  unfold varianceAlong V3.dot
  rw [sampleVariance_eq, lin, covFun_comm P V3.x, covFun_comm P V3.y, covFun_comm P V3.z, lin, lin, lin,
    covFun_comm P V3.y V3.x, covFun_comm P V3.z V3.x, covFun_comm P V3.z V3.y]
  ring

/-- `PCA`: the variance along a column of the returned matrix is the returned value; the columns are orthonormal; and no unit direction has more
variance than the column of the largest value. -/
theorem C116_pca_partial {eig : Eig} (he : EigSpec eig) (P : List V3) :
    let r := PCA eig P
    let column : Fin 3 → V3 := fun k => ⟨r.2.2.toMat 0 k, r.2.2.toMat 1 k, r.2.2.toMat 2 k⟩
    r.1 = vmean P ∧ (∀ k, varianceAlong P (column k) = r.2.1 k) ∧ (∀ j k, V3.dot (column j) (column k) = if j = k then 1 else 0) ∧
      ∀ k, (∀ j, r.2.1 j ≤ r.2.1 k) → ∀ d : V3, V3.dot d d = 1 → varianceAlong P d ≤ varianceAlong P (column k) := by
  intro r column
  obtain ⟨h1, h2⟩ := he _ (cov_symm (P.map (· - vmean P)))
  have hv : ∀ d, varianceAlong P d = V3.dot d ((cov (P.map (· - vmean P))).mulVec d) := variance_cov P
  have hr : r = (vmean P, (eig (cov (P.map (· - vmean P)))).1, (eig (cov (P.map (· - vmean P)))).2) := rfl
  generalize cov (P.map (· - vmean P)) = A at *
  generalize hQ : (eig A).2 = Q at *
  generalize hl : (eig A).1 = l at *
  clear_value r
  subst hr
  have hQt : Q.toMat * Q.toMatᵀ = 1 := mul_eq_one_comm.1 h1
  have orth : ∀ j k, Q.toMat 0 j * Q.toMat 0 k + Q.toMat 1 j * Q.toMat 1 k + Q.toMat 2 j * Q.toMat 2 k = if j = k then 1 else 0 := by
    intro j k
    have := congrFun (congrFun h1 j) k
    simpa [Matrix.mul_apply, Fin.sum_univ_three, Matrix.transpose_apply, Matrix.one_apply] using this
  have eigen : ∀ i k, A.toMat i 0 * Q.toMat 0 k + A.toMat i 1 * Q.toMat 1 k + A.toMat i 2 * Q.toMat 2 k = Q.toMat i k * l k := by
    intro i k
    have := congrFun (congrFun h2 i) k
    rw [Matrix.mul_diagonal, Matrix.mul_apply, Fin.sum_univ_three] at this
    exact this
  have quad : ∀ d : V3, V3.dot d (A.mulVec d) = d.x * (A.toMat 0 0 * d.x + A.toMat 0 1 * d.y + A.toMat 0 2 * d.z) +
      d.y * (A.toMat 1 0 * d.x + A.toMat 1 1 * d.y + A.toMat 1 2 * d.z) + d.z * (A.toMat 2 0 * d.x + A.toMat 2 1 * d.y + A.toMat 2 2 * d.z) := by
    intro d
    simp [V3.dot, M3.mulVec, M3.toMat]
  have hcol : ∀ k, varianceAlong P (column k) = l k := by
    intro k
    rw [hv, quad]
    show Q.toMat 0 k * (A.toMat 0 0 * Q.toMat 0 k + A.toMat 0 1 * Q.toMat 1 k + A.toMat 0 2 * Q.toMat 2 k) +
      Q.toMat 1 k * (A.toMat 1 0 * Q.toMat 0 k + A.toMat 1 1 * Q.toMat 1 k + A.toMat 1 2 * Q.toMat 2 k) +
      Q.toMat 2 k * (A.toMat 2 0 * Q.toMat 0 k + A.toMat 2 1 * Q.toMat 1 k + A.toMat 2 2 * Q.toMat 2 k) = l k
    rw [eigen, eigen, eigen]
    have := orth k k
    rw [if_pos rfl] at this
    linear_combination l k * this
  refine ⟨rfl, hcol, fun j k => orth j k, fun k hk d hd => ?_⟩
  rw [hcol k, hv]
  -- the coordinates of d in the basis of the columns
  let y : Fin 3 → ℝ := fun j => Q.toMat 0 j * d.x + Q.toMat 1 j * d.y + Q.toMat 2 j * d.z
  have hA : A.toMat = Q.toMat * Matrix.diagonal l * Q.toMatᵀ := by
    rw [← h2, Matrix.mul_assoc, hQt, Matrix.mul_one]
  have hq : V3.dot d (A.mulVec d) = l 0 * y 0 ^ 2 + l 1 * y 1 ^ 2 + l 2 * y 2 ^ 2 := by
    have e : ∀ i j, A.toMat i j = Q.toMat i 0 * l 0 * Q.toMat j 0 + Q.toMat i 1 * l 1 * Q.toMat j 1 + Q.toMat i 2 * l 2 * Q.toMat j 2 := by
      intro i j
      rw [hA, Matrix.mul_apply, Fin.sum_univ_three]
      simp only [Matrix.mul_diagonal, Matrix.transpose_apply]
    rw [quad]
    simp only [e, y]
    ring
  have hy : y 0 ^ 2 + y 1 ^ 2 + y 2 ^ 2 = 1 := by
    have e : ∀ i j, Q.toMat i 0 * Q.toMat j 0 + Q.toMat i 1 * Q.toMat j 1 + Q.toMat i 2 * Q.toMat j 2 = if i = j then 1 else 0 := by
      intro i j
      have := congrFun (congrFun hQt i) j
      simpa [Matrix.mul_apply, Fin.sum_univ_three, Matrix.transpose_apply, Matrix.one_apply] using this
    have e00 := e 0 0
    have e11 := e 1 1
    have e22 := e 2 2
    have e01 := e 0 1
    have e02 := e 0 2
    have e12 := e 1 2
    simp at e00 e11 e22 e01 e02 e12
    rw [← hd]
    simp only [y, V3.dot]
    linear_combination d.x ^ 2 * e00 + d.y ^ 2 * e11 + d.z ^ 2 * e22 + 2 * d.x * d.y * e01 + 2 * d.x * d.z * e02 + 2 * d.y * d.z * e12
  rw [hq]
  have b0 := mul_le_mul_of_nonneg_right (hk 0) (sq_nonneg (y 0))
  have b1 := mul_le_mul_of_nonneg_right (hk 1) (sq_nonneg (y 1))
  have b2 := mul_le_mul_of_nonneg_right (hk 2) (sq_nonneg (y 2))
  dsimp only at b0 b1 b2 ⊢
  have : l k = l k * (y 0 ^ 2 + y 1 ^ 2 + y 2 ^ 2) := by rw [hy, mul_one]
  rw [this]
  linarith

/-- Six points spread most along (39,20,48), less along (-52,15,36), least along (0,-60,25); the three directions are perpendicular. -/
def spread : List V3 :=
  [⟨117, 60, 144⟩, ⟨-117, -60, -144⟩, ⟨-104, 30, 72⟩, ⟨104, -30, -72⟩, ⟨0, -60, 25⟩, ⟨0, 60, -25⟩]

theorem spread_mean : vmean spread = 0 := by
  refine V3.ext ?_ ?_ ?_ <;> simp [vmean, spread, V3.divs] <;> norm_num

theorem spread_variance (d : V3) : varianceAlong spread d = 2 / 5 *
    (9 * (39 * d.x + 20 * d.y + 48 * d.z) ^ 2 + 4 * (-52 * d.x + 15 * d.y + 36 * d.z) ^ 2 + (-60 * d.y + 25 * d.z) ^ 2) := by
  simp [varianceAlong, sampleVariance, spread, V3.dot]
  ring

theorem spread_cov : cov (spread.map (· - vmean spread)) =
    ⟨2 / 5 * (9 * 39 ^ 2 + 4 * 52 ^ 2), 2 / 5 * (9 * 39 * 20 - 4 * 52 * 15), 2 / 5 * (9 * 39 * 48 - 4 * 52 * 36),
     2 / 5 * (9 * 39 * 20 - 4 * 52 * 15), 2 / 5 * (9 * 20 ^ 2 + 4 * 15 ^ 2 + 60 ^ 2), 2 / 5 * (9 * 20 * 48 + 4 * 15 * 36 - 60 * 25),
     2 / 5 * (9 * 39 * 48 - 4 * 52 * 36), 2 / 5 * (9 * 20 * 48 + 4 * 15 * 36 - 60 * 25), 2 / 5 * (9 * 48 ^ 2 + 4 * 36 ^ 2 + 25 ^ 2)⟩ := by
  rw [spread_mean]
  simp [cov, covEntry, spread]
  norm_num

/-- Only the two opposite unit vectors along (39,20,48) have the most variance. -/
theorem spread_most {d : V3} (hd : V3.dot d d = 1) (h : 2 / 5 * (9 * 65 ^ 4) ≤ 65 ^ 2 * varianceAlong spread d) :
    65 ^ 2 * d.x ^ 2 = 39 ^ 2 ∧ 65 ^ 2 * d.y ^ 2 = 20 ^ 2 ∧ 65 ^ 2 * d.z ^ 2 = 48 ^ 2 ∧
      -52 * d.x + 15 * d.y + 36 * d.z = 0 ∧ -60 * d.y + 25 * d.z = 0 := by
  rw [spread_variance] at h
  simp only [V3.dot] at hd
  have e : (39 * d.x + 20 * d.y + 48 * d.z) ^ 2 + (-52 * d.x + 15 * d.y + 36 * d.z) ^ 2 + (-60 * d.y + 25 * d.z) ^ 2 = 65 ^ 2 := by
    linear_combination 65 ^ 2 * hd
  have hb : (-52 * d.x + 15 * d.y + 36 * d.z) ^ 2 = 0 := by
    nlinarith [sq_nonneg (-52 * d.x + 15 * d.y + 36 * d.z), sq_nonneg (-60 * d.y + 25 * d.z)]
  have hc : (-60 * d.y + 25 * d.z) ^ 2 = 0 := by
    nlinarith [sq_nonneg (-52 * d.x + 15 * d.y + 36 * d.z), sq_nonneg (-60 * d.y + 25 * d.z)]
  have hb' := pow_eq_zero_iff (two_ne_zero) |>.1 hb
  have hc' := pow_eq_zero_iff (two_ne_zero) |>.1 hc
  have hz : d.z = 60 / 25 * d.y := by linarith
  have hx : d.x = (15 * d.y + 36 * d.z) / 52 := by linarith
  have hyy : 65 ^ 2 * d.y ^ 2 = 20 ^ 2 := by
    rw [hx, hz] at hd
    nlinarith
  refine ⟨?_, hyy, ?_, hb', hc'⟩
  · rw [hx, hz]; nlinarith
  · rw [hz]; nlinarith

/-- `direction_of_most_variance` returns a row of the eigenvector matrix where the directions are its columns.  Whatever eigenvectors the library
finds for these six points — whichever order, whichever signs — the returned unit vector is not the direction of most variance. -/
theorem C116_row_wrong {eig : Eig} (he : EigSpec eig) :
    V3.dot (direction_of_most_variance eig spread) (direction_of_most_variance eig spread) = 1 ∧
    V3.dot (⟨39 / 65, 20 / 65, 48 / 65⟩ : V3) ⟨39 / 65, 20 / 65, 48 / 65⟩ = 1 ∧
    varianceAlong spread (direction_of_most_variance eig spread) < varianceAlong spread ⟨39 / 65, 20 / 65, 48 / 65⟩ := by
  obtain ⟨-, hcol, horth, hmost⟩ := C116_pca_partial he spread
  obtain ⟨h1, h2⟩ := he _ (cov_symm (spread.map (· - vmean spread)))
  have hu : V3.dot (⟨39 / 65, 20 / 65, 48 / 65⟩ : V3) ⟨39 / 65, 20 / 65, 48 / 65⟩ = 1 := by norm_num [V3.dot]
  have hrow : direction_of_most_variance eig spread = matRow (PCA eig spread).2.2 (argmax3 (PCA eig spread).2.1) := rfl
  have hp : (PCA eig spread).2 = eig (cov (spread.map (· - vmean spread))) := rfl
  rw [spread_cov] at h1 h2 hp
  rw [hrow]
  simp only [hp] at hcol horth hmost ⊢
  clear hrow hp
  generalize eig _ = r at *
  obtain ⟨l, Q⟩ := r
  dsimp only at *
  have hmax : ∀ j, l j ≤ l (argmax3 l) := by
    intro j
    unfold argmax3
    split_ifs with c1 c2
    · fin_cases j <;> simp [c1.1, c1.2]
    · have : l 0 ≤ l 1 := by
        by_contra c
        exact c1 ⟨by linarith, by linarith⟩
      fin_cases j <;> simp [c2, this]
    · have : l 0 ≤ l 2 := by
        by_contra c
        exact c1 ⟨by linarith, by linarith⟩
      fin_cases j <;> simp [this]; linarith
  have hQt : Q.toMat * Q.toMatᵀ = 1 := mul_eq_one_comm.1 h1
  have hk := hmost _ hmax _ hu
  generalize argmax3 l = k at *
  have hrr : V3.dot (matRow Q k) (matRow Q k) = 1 := by
    have := congrFun (congrFun hQt k) k
    rw [Matrix.mul_apply, Fin.sum_univ_three] at this
    fin_cases k <;> simpa [matRow, V3.dot, M3.toMat, M3.row0, M3.row1, M3.row2] using this
  refine ⟨hrr, hu, ?_⟩
  have hv1 : 65 ^ 2 * varianceAlong spread ⟨39 / 65, 20 / 65, 48 / 65⟩ = 2 / 5 * (9 * 65 ^ 4) := by
    rw [spread_variance]; norm_num
  by_contra hge
  push Not at hge
  have hckk := horth k k
  rw [if_pos rfl] at hckk
  obtain ⟨c1, c2, c3, cb, cc⟩ := spread_most hckk (by linarith)
  obtain ⟨r1, r2, r3, -, -⟩ := spread_most hrr (by linarith)
  dsimp only at c1 c2 c3 cb cc
  -- every other column is one of the two other directions
  have other : ∀ j, j ≠ k → (65 ^ 2 * Q.toMat 0 j ^ 2 = 52 ^ 2 ∧ 65 ^ 2 * Q.toMat 1 j ^ 2 = 15 ^ 2 ∧ 65 ^ 2 * Q.toMat 2 j ^ 2 = 36 ^ 2) ∨
      (65 ^ 2 * Q.toMat 0 j ^ 2 = 0 ∧ 65 ^ 2 * Q.toMat 1 j ^ 2 = 60 ^ 2 ∧ 65 ^ 2 * Q.toMat 2 j ^ 2 = 25 ^ 2) := by
    intro j hj
    have e0 := congrFun (congrFun h2 0) j
    have e1 := congrFun (congrFun h2 1) j
    have e2 := congrFun (congrFun h2 2) j
    have ok := horth j k
    have oj := horth j j
    rw [if_neg hj] at ok
    rw [if_pos rfl] at oj
    rw [Matrix.mul_diagonal, Matrix.mul_apply, Fin.sum_univ_three] at e0 e1 e2
    simp only [V3.dot] at ok oj
    generalize Q.toMat 0 j = x at *
    generalize Q.toMat 1 j = y at *
    generalize Q.toMat 2 j = z at *
    generalize Q.toMat 0 k = X at *
    generalize Q.toMat 1 k = Y at *
    generalize Q.toMat 2 k = Z at *
    simp [M3.toMat] at e0 e1 e2
    have hY : Y ≠ 0 := by
      rintro rfl
      norm_num at c2
    have hZ : Z = 60 / 25 * Y := by linarith
    have hX : X = 39 / 20 * Y := by linarith
    have ha : 39 * x + 20 * y + 48 * z = 0 := by
      have : Y * (39 * x + 20 * y + 48 * z) = 0 := by
        rw [hX, hZ] at ok
        linarith
      exact (mul_eq_zero.1 this).resolve_left hY
    have hb : (2 / 5 * (4 * 65 ^ 2)) * (-52 * x + 15 * y + 36 * z) = l j * (-52 * x + 15 * y + 36 * z) := by
      linear_combination -52 * e0 + 15 * e1 + 36 * e2
    have hc : (2 / 5 * 65 ^ 2) * (-60 * y + 25 * z) = l j * (-60 * y + 25 * z) := by
      linear_combination -60 * e1 + 25 * e2
    have hbc : (-52 * x + 15 * y + 36 * z) * (-60 * y + 25 * z) = 0 := by
      linear_combination (1 / 5070) * ((-60 * y + 25 * z) * hb - (-52 * x + 15 * y + 36 * z) * hc)
    rcases mul_eq_zero.1 hbc with hb0 | hc0
    · right
      have hx : x = 0 := by linarith
      have hz : z = -25 / 60 * y := by linarith
      rw [hx, hz] at oj
      rw [hx, hz]
      refine ⟨by ring, by linarith, by linarith⟩
    · left
      have hz : z = 60 / 25 * y := by linarith
      have hx : x = -52 / 15 * y := by linarith
      rw [hx, hz] at oj
      rw [hx, hz]
      refine ⟨by linarith, by linarith, by linarith⟩
  fin_cases k
  · have := other 1 (by decide)
    simp [matRow, M3.row0, M3.toMat] at r1 r2 r3 this
    rcases this with ⟨a, b, c⟩ | ⟨a, b, c⟩
    · linarith
    · norm_num [a] at r2
  · have := other 0 (by decide)
    simp [matRow, M3.row1, M3.toMat] at r1 r2 r3 this
    rcases this with ⟨a, b, c⟩ | ⟨a, b, c⟩ <;> linarith
  · have := other 0 (by decide)
    simp [matRow, M3.row2, M3.toMat] at r1 r2 r3 this
    rcases this with ⟨a, b, c⟩ | ⟨a, b, c⟩ <;> linarith

/-- A lawful `np.linalg.eig` exists, so the two theorems above speak of something. -/
example : ∃ eig : Eig, EigSpec eig ∧ varianceAlong spread (direction_of_most_variance eig spread) < varianceAlong spread ⟨39 / 65, 20 / 65, 48 / 65⟩ := by
  obtain ⟨eig, he⟩ := eigSpec_exists
  exact ⟨eig, he, (C116_row_wrong he).2.2⟩

end Verif
