import Verif.Model.Polynomial
import Mathlib.Analysis.Calculus.Deriv.Pow
import Mathlib.Analysis.Calculus.Deriv.Add
import Mathlib.Analysis.Calculus.Deriv.Mul
import Mathlib.Data.Nat.Choose.Sum

/-! C13: polynomial calculus. -/

namespace Verif
open PyPoly

theorem powers_eq (order : ℤ) (h : 0 ≤ order) : poly2_make_monomial_powers order =
    .ok ((List.range (order.toNat + 1)).flatMap fun p =>
      (List.range (p + 1)).map fun j => (p - j, j)) := by
  unfold poly2_make_monomial_powers; rw [if_neg (by omega)]

theorem powers_length (n : ℕ) : ((List.range n).flatMap fun p =>
    (List.range (p + 1)).map fun j => (p - j, j)).length = Nat.choose (n + 1) 2 := by
  induction n with
  | zero => simp
  | succ n ih =>
    rw [List.range_succ, List.flatMap_append, List.length_append, ih]
    simp
    rw [Nat.choose_succ_succ (n + 1) 1]
    simp; omega

/-- C13: the power table of a polynomial of any order lists each exponent pair of total degree at
most the order exactly once, and has the advertised number of rows; a negative order is rejected. -/
theorem C13_power_table (order : ℤ) (h : 0 ≤ order) :
    ∃ L, poly2_make_monomial_powers order = .ok L ∧ L.Nodup ∧
      (∀ i j : ℕ, (i, j) ∈ L ↔ (i : ℤ) + j ≤ order) ∧
      number_of_monomial_terms 2 order = .ok L.length := by
  refine ⟨_, powers_eq order h, ?_, ?_, ?_⟩
  · rw [List.nodup_flatMap]
    constructor
    · intro p _
      apply List.Nodup.map_on _ List.nodup_range
      intro a _ b _ hab
      exact (Prod.ext_iff.mp hab).2
    · apply List.Pairwise.imp_of_mem _ List.nodup_range
      intro a b _ _ hab
      simp only [Function.onFun, List.disjoint_left, List.mem_map, List.mem_range, not_exists,
        not_and]
      rintro ⟨i, j⟩ ⟨k, hk, he⟩ l hl he2
      simp only [Prod.mk.injEq] at he he2
      omega
  · intro i j
    simp only [List.mem_flatMap, List.mem_map, List.mem_range, Prod.mk.injEq]
    constructor
    · rintro ⟨p, hp, k, hk, h1, h2⟩; omega
    · intro hij
      exact ⟨i + j, by omega, j, by omega, by omega, rfl⟩
  · rw [powers_length]
    unfold number_of_monomial_terms
    rw [if_neg (by omega), if_neg (by omega), if_neg (by omega)]
    congr 2
    omega

theorem C13_power_table_negative (order d : ℤ) (h : order < 0) :
    poly2_make_monomial_powers order = .error .valueError ∧
    number_of_monomial_terms d order = .error .valueError ∧
    Poly.init d order = .error .valueError := by
  have h1 : poly2_make_monomial_powers order = .error .valueError := by
    unfold poly2_make_monomial_powers; rw [if_pos h]
  refine ⟨h1, by unfold number_of_monomial_terms; rw [if_pos h], ?_⟩
  unfold Poly.init
  split_ifs
  · rw [h1]; rfl
  · rfl

/-- A polynomial whose arrays have the sizes its constructor gives them (coefficients may have been
reassigned, powers changed by `derivative`). -/
def Poly2WF (P : Poly) : Prop := 0 ≤ P.order ∧
  P.powers.length = Nat.choose (P.order.toNat + 2) 2 ∧ P.coefficients.length = P.powers.length

/-- the mathematical value of a list of (coefficient, exponents) terms -/
noncomputable def termsValue (x y : ℝ) : List (ℝ × (ℕ × ℕ)) → ℝ
  | [] => 0
  | (c, (i, j)) :: ts => c * x ^ i * y ^ j + termsValue x y ts

theorem zipWith_sum_eq (x y : ℝ) (cs : List ℝ) (ps : List (ℕ × ℕ)) :
    (List.zipWith (fun c (p : ℕ × ℕ) => c * (x ^ p.1 * y ^ p.2)) cs ps).sum
      = termsValue x y (cs.zip ps) := by
  induction cs generalizing ps with
  | nil => simp [termsValue]
  | cons c cs ih =>
    cases ps with
    | nil => simp [termsValue]
    | cons p ps => simp only [List.zipWith_cons_cons, List.sum_cons, List.zip_cons_cons, termsValue, ih]; ring

/-- C13: constructing and evaluating. A fresh polynomial is well formed with all coefficients one;
only dimension two exists; evaluation is the sum of the terms. -/
theorem C13_evaluate (order : ℤ) (h : 0 ≤ order) :
    (∃ P, Poly.init 2 order = .ok P ∧ Poly2WF P ∧ ∀ c ∈ P.coefficients, c = 1) ∧
    (∀ d, d ≠ 2 → Poly.init d order = .error .valueError) ∧
    (∀ P, Poly2WF P → ∀ x y, evaluate P [x, y] = .ok (termsValue x y (P.coefficients.zip P.powers))) ∧
    (∀ P, ∀ xs : List ℝ, xs.length ≠ 2 → evaluate P xs = .error .valueError) := by
  refine ⟨?_, ?_, ?_, ?_⟩
  · set L := (List.range (order.toNat + 1)).flatMap fun p =>
      (List.range (p + 1)).map fun j => (p - j, j) with hL
    refine ⟨⟨order, L, List.replicate L.length 1⟩, ?_, ?_, ?_⟩
    · unfold Poly.init
      rw [if_pos rfl, powers_eq order h]; rfl
    · refine ⟨h, ?_, by simp⟩
      exact powers_length _
    · intro c hc; exact List.eq_of_mem_replicate hc
  · intro d hd; unfold Poly.init; rw [if_neg hd]
  · intro P hP x y
    simp only [evaluate, hP.2.2, if_true, zipWith_sum_eq]
  · intro P xs hxs
    match xs with
    | [] => rfl
    | [_] => rfl
    | [_, _] => simp at hxs
    | _ :: _ :: _ :: _ => rfl

theorem hasDerivAt_terms (ps : List (ℕ × ℕ)) (cs : List ℝ) (hl : cs.length = ps.length) (x y : ℝ) :
    HasDerivAt (fun x => termsValue x y (cs.zip ps)) (termsValue x y
      ((List.zipWith (fun (t : ℕ × ℕ) c => (col 0 t : ℝ) * c) ps cs).zip (ps.map (dTerm 0)))) x ∧
    HasDerivAt (fun y => termsValue x y (cs.zip ps)) (termsValue x y
      ((List.zipWith (fun (t : ℕ × ℕ) c => (col 1 t : ℝ) * c) ps cs).zip (ps.map (dTerm 1)))) y := by
  induction ps generalizing cs with
  | nil => simp [termsValue, hasDerivAt_const]
  | cons p ps ih =>
    cases cs with
    | nil => simp at hl
    | cons c cs =>
      obtain ⟨i, j⟩ := p
      simp at hl
      have ih := ih cs hl
      simp only [List.zip_cons_cons, List.zipWith_cons_cons, List.map_cons, termsValue]
      constructor
      · refine HasDerivAt.add ?_ ih.1
        have h1 := ((hasDerivAt_pow i x).const_mul c).mul_const (y ^ j)
        refine h1.congr_deriv ?_
        rcases i with _ | i
        · simp [dTerm, col]
        · simp [dTerm, col]; left; ring
      · refine HasDerivAt.add ?_ ih.2
        have h1 := (hasDerivAt_pow j y).const_mul (c * x ^ i)
        refine h1.congr_deriv ?_
        rcases j with _ | j
        · simp [dTerm, col]
        · simp only [dTerm, col]; push_cast; simp; ring

/-- C13: `derivative` returns the two true partial derivatives, at every point, and they are again
well-formed polynomials, so it can be iterated. -/
theorem C13_derivative (P : Poly) (hP : Poly2WF P) :
    ∃ dx dy, derivative P = .ok [dx, dy] ∧ Poly2WF dx ∧ Poly2WF dy ∧
      ∃ f fx fy : ℝ → ℝ → ℝ,
        (∀ x y, evaluate P [x, y] = .ok (f x y)) ∧
        (∀ x y, evaluate dx [x, y] = .ok (fx x y)) ∧
        (∀ x y, evaluate dy [x, y] = .ok (fy x y)) ∧
        (∀ x y, HasDerivAt (fun t => f t y) (fx x y) x) ∧
        (∀ x y, HasDerivAt (fun t => f x t) (fy x y) y) := by
  obtain ⟨h0, h1, h2⟩ := hP
  obtain ⟨⟨Q, hQ, hQW, hQ1⟩, -, hev, -⟩ := C13_evaluate P.order h0
  have hQo : Q.order = P.order := by
    have := hQ
    unfold Poly.init at this
    rw [if_pos rfl, powers_eq _ h0] at this
    injection this with this
    rw [← this]
  have hQl : Q.powers.length = P.powers.length := by rw [h1, hQW.2.1, hQo]
  have hd : ∀ d, derivativeD P d = .ok ⟨P.order, P.powers.map (dTerm d),
      List.zipWith (fun (t : ℕ × ℕ) c => (col d t : ℝ) * c) P.powers P.coefficients⟩ := by
    intro d
    unfold derivativeD
    rw [hQ]
    show (if _ then _ else _) = _
    rw [if_pos ⟨by omega, by omega⟩]
    rw [List.drop_of_length_le (by omega), List.drop_of_length_le (by rw [hQW.2.2]; omega)]
    simp [hQo]
  have hW : ∀ d, Poly2WF ⟨P.order, P.powers.map (dTerm d),
      List.zipWith (fun (t : ℕ × ℕ) c => (col d t : ℝ) * c) P.powers P.coefficients⟩ := by
    intro d
    refine ⟨h0, by simpa using h1, by simp [h2]⟩
  refine ⟨_, _, ?_, hW 0, hW 1, ?_⟩
  · unfold derivative
    rw [hd, hd]; rfl
  · refine ⟨_, _, _, hev P ⟨h0, h1, h2⟩, hev _ (hW 0), hev _ (hW 1), ?_, ?_⟩
    · intro x y; exact (hasDerivAt_terms P.powers P.coefficients h2 x y).1
    · intro x y; exact (hasDerivAt_terms P.powers P.coefficients h2 x y).2

/-- `solve` is a correct linear solver on the system (V, B): the result has as many entries as there
are columns and every row's inner product with it is the right-hand side. -/
def SolvesSystem (V : List (List ℝ)) (B A : List ℝ) : Prop :=
  A.length = V.length ∧ ∀ (i : ℕ) row b, V[i]? = some row → B[i]? = some b →
    (List.zipWith (· * ·) row A).sum = b

/-- C13: `interpolate` returns a polynomial through all of the first K data points, provided the
linear solver solves the Vandermonde system it is handed. -/
theorem C13_interpolate (solve : List (List ℝ) → List ℝ → List ℝ) (order : ℤ) (ho : 0 < order)
    (x : List (ℝ × ℝ)) (v : List ℝ) (K : ℕ) (hK : K = Nat.choose (order.toNat + 2) 2)
    (hx : K ≤ x.length) (hv : K ≤ v.length)
    (hsolve : ∀ V, make_vandermonde_matrix order (x.take K) = .ok V →
      SolvesSystem V (v.take K) (solve V (v.take K))) :
    ∃ P, interpolate solve order x v = .ok P ∧ Poly2WF P ∧
      ∀ (i : ℕ) a b c, i < K → x[i]? = some (a, b) → v[i]? = some c → evaluate P [a, b] = .ok c := by
  have h0 : 0 ≤ order := ho.le
  obtain ⟨⟨Q, hQ, hQW, hQ1⟩, -, hev, -⟩ := C13_evaluate order h0
  have hQo : Q = ⟨order, Q.powers, Q.coefficients⟩ ∧ poly2_make_monomial_powers order = .ok Q.powers := by
    have := hQ
    unfold Poly.init at this
    rw [if_pos rfl, powers_eq _ h0] at this
    injection this with this
    rw [powers_eq _ h0]
    rw [← this]
    exact ⟨rfl, rfl⟩
  have hQord : Q.order = order := by rw [hQo.1]
  have hn : number_of_monomial_terms 2 order = .ok K := by
    unfold number_of_monomial_terms
    rw [if_neg (by omega), if_neg (by omega), if_neg (by omega), hK]
    congr 2
    omega
  have hV : make_vandermonde_matrix order (x.take K) = .ok
      ((x.take K).map fun p => Q.powers.map fun q => p.1 ^ q.1 * p.2 ^ q.2) := by
    unfold make_vandermonde_matrix
    rw [if_neg (by omega), hn, hQo.2]
    simp only [bind, Except.bind]
    rw [if_neg (by simp; omega), List.take_take, min_self]
  have hS := hsolve _ hV
  refine ⟨⟨order, Q.powers, solve ((x.take K).map fun p => Q.powers.map fun q => p.1 ^ q.1 * p.2 ^ q.2) (v.take K)⟩, ?_, ?_, ?_⟩
  · unfold interpolate
    rw [if_neg (by omega), hn]
    simp only [bind, Except.bind]
    rw [if_neg (by omega), if_neg (by omega), hV, hQ]
    rw [hQo.1]
  · refine ⟨h0, by rw [hQW.2.1, hQord], ?_⟩
    rw [hS.1]
    simp [hx, hQW.2.1, hQord, hK]
    omega
  · intro i a b c hi hxi hvi
    have h1 := hS.2 i _ c (by
      rw [List.getElem?_map, List.getElem?_take_of_lt hi, hxi]; rfl)
      (by rw [List.getElem?_take_of_lt hi, hvi])
    rw [hev]
    · rw [← zipWith_sum_eq, ← h1]
      congr 2
      simp only [List.zipWith_map_left]
      rw [List.zipWith_comm]
      congr 1
      funext p c
      ring
    · refine ⟨h0, by rw [hQW.2.1, hQord], ?_⟩
      rw [hS.1]
      simp [hx, hQW.2.1, hQord, hK]
      omega

/-- non-trivial instance: 3 + 2 x + 5 y has order 1 and is well formed. -/
example : Poly2WF ⟨1, [(0,0),(1,0),(0,1)], [3, 2, 5]⟩ := by
  refine ⟨by norm_num, ?_, rfl⟩
  simp

end Verif
