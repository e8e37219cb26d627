import Verif.Model.Vec
import Mathlib.Data.Nat.Choose.Basic

/-! Model of `rainbow/math/polynomial.py`. -/

namespace Verif.PyPoly

/-- polynomial.py:17-32 `Helpers.number_of_monomial_terms`. -/
def number_of_monomial_terms (dimension order : ℤ) : Except PyErr ℕ :=
  if order < 0 then .error .valueError
  else if dimension < 1 then .error .valueError
  else if dimension > 3 then .error .valueError
  else .ok (Nat.choose (order + dimension).toNat dimension.toNat)

/-- polynomial.py:34-50 `Helpers.poly2_make_monomial_powers`. Rows [i, j] are pairs. -/
def poly2_make_monomial_powers (order : ℤ) : Except PyErr (List (ℕ × ℕ)) :=
  if order < 0 then .error .valueError
  else .ok ((List.range (order.toNat + 1)).flatMap fun p =>
    (List.range (p + 1)).map fun j => (p - j, j))

/-- polynomial.py:88-139 `Poly`: dimension, order, powers (K-by-2 array), coefficients.
`terms` is `powers.shape[0]`. Only dimension 2 can be constructed. -/
structure Poly where
  order : ℤ
  powers : List (ℕ × ℕ)
  coefficients : List ℝ

/-- polynomial.py:93-139 `Poly.__init__`. -/
def Poly.init (dimension order : ℤ) : Except PyErr Poly :=
  if dimension = 2 then do
    let powers ← poly2_make_monomial_powers order
    .ok ⟨order, powers, List.replicate powers.length 1⟩
  else .error .valueError

/-- polynomial.py:229-269 `evaluate` for P.dimension == 2 (`np.multiply` raises ValueError when the
coefficient vector has another length; broadcasting of length one is not modelled). -/
noncomputable def evaluate (P : Poly) (x : List ℝ) : Except PyErr ℝ :=
  match x with
  | [x0, x1] =>
    if P.coefficients.length = P.powers.length then
      .ok (List.zipWith (fun c (p : ℕ × ℕ) => c * (x0 ^ p.1 * x1 ^ p.2)) P.coefficients P.powers).sum
    else .error .valueError
  | _ => .error .valueError

/-- polynomial.py:336-339, one row: decrement column d of the powers. -/
def dTerm (d : ℕ) (p : ℕ × ℕ) : ℕ × ℕ :=
  if d = 0 then (if p.1 ≠ 0 then p.1 - 1 else 0, p.2)
  else (p.1, if p.2 ≠ 0 then p.2 - 1 else 0)

/-- term[d]. -/
def col (d : ℕ) (p : ℕ × ℕ) : ℕ := if d = 0 then p.1 else p.2

/-- polynomial.py:322-340 `derivative`, the d-th returned polynomial: a fresh `Poly(2, order)`
whose first rows are overwritten row by row. IndexError when P has more rows than the fresh one. -/
noncomputable def derivativeD (P : Poly) (d : ℕ) : Except PyErr Poly := do
  let dP ← Poly.init 2 P.order
  if P.powers.length ≤ dP.powers.length ∧ P.powers.length ≤ P.coefficients.length then
    .ok ⟨dP.order, P.powers.map (dTerm d) ++ dP.powers.drop P.powers.length,
      List.zipWith (fun (t : ℕ × ℕ) c => (col d t : ℝ) * c) P.powers P.coefficients
        ++ dP.coefficients.drop P.powers.length⟩
  else .error .indexError

/-- polynomial.py:322-340 `derivative`: the list of both partial derivatives. -/
noncomputable def derivative (P : Poly) : Except PyErr (List Poly) := do
  let a ← derivativeD P 0
  let b ← derivativeD P 1
  .ok [a, b]

/-- polynomial.py:52-85 `Helpers.make_vandermonde_matrix` for two-dimensional points (rows of x are
pairs); a K-by-K matrix as a list of rows. -/
noncomputable def make_vandermonde_matrix (order : ℤ) (x : List (ℝ × ℝ)) :
    Except PyErr (List (List ℝ)) := do
  if order ≤ 0 then .error .valueError
  let K ← number_of_monomial_terms 2 order
  if x.length < K then .error .valueError
  let powers ← poly2_make_monomial_powers order
  .ok ((x.take K).map fun p => powers.map fun q => p.1 ^ q.1 * p.2 ^ q.2)

/-- polynomial.py:158-226 `interpolate` for two-dimensional points and one column of values.
`solve` stands for `scipy.linalg.solve`. -/
noncomputable def interpolate (solve : List (List ℝ) → List ℝ → List ℝ) (order : ℤ)
    (x : List (ℝ × ℝ)) (v : List ℝ) : Except PyErr Poly := do
  if order ≤ 0 then .error .valueError
  let K ← number_of_monomial_terms 2 order
  if x.length < K then .error .valueError
  if v.length < K then .error .valueError
  let V ← make_vandermonde_matrix order (x.take K)
  let B := v.take K
  let A := solve V B
  let P ← Poly.init 2 order
  .ok { P with coefficients := A }

end Verif.PyPoly
