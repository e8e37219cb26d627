import Verif.Model.Vec

/-! Model of rainbow/util/test_tools.py. -/

namespace Verif.TestTools

/-- An index of an array of the given shape. -/
def IsIndex (shape i : List ℕ) : Prop := List.Forall₂ (· < ·) i shape

/-- A numpy array of finite numbers: its shape and its entries by index. -/
structure Arr where
  shape : List ℕ
  get : List ℕ → ℝ

/-- The entry at an index of the common shape: an array without dimensions has the same entry everywhere. -/
def Arr.at (a : Arr) (i : List ℕ) : ℝ := if a.shape = [] then a.get [] else a.get i

open Classical in
/-- test_tools.py:9-18 `is_array_equal`: `np.testing.assert_allclose(arr1, arr2, rtol=10**-dec, atol=10**-dec)` returns None or raises AssertionError (also for different
shapes, unless one array has no dimensions); `None == None` is True. -/
noncomputable def is_array_equal (arr1 arr2 : Arr) (dec : ℤ := 8) : Except PyErr Bool :=
  if arr1.shape = arr2.shape ∨ arr1.shape = [] ∨ arr2.shape = [] then
    let shape := if arr1.shape = [] then arr2.shape else arr1.shape
    if ∀ i, IsIndex shape i → |arr1.at i - arr2.at i| ≤ (10 : ℝ) ^ (-dec) + (10 : ℝ) ^ (-dec) * |arr2.at i| then .ok true
    else .error .assertionError
  else .error .assertionError

open Classical in
/-- test_tools.py:21-29 `is_array_not_equal`: `np.any(np.not_equal(arr1, arr2))`; only for arrays of the same shape or without dimensions (other shapes that numpy
can broadcast are left out and raise here as shapes that do not match do there). -/
noncomputable def is_array_not_equal (arr1 arr2 : Arr) : Except PyErr Bool :=
  if arr1.shape = arr2.shape ∨ arr1.shape = [] ∨ arr2.shape = [] then
    let shape := if arr1.shape = [] then arr2.shape else arr1.shape
    .ok (decide (∃ i, IsIndex shape i ∧ arr1.at i ≠ arr2.at i))
  else .error .valueError

/-- `np.linspace(a, b, n)` -/
noncomputable def linspace (a b : ℝ) (n : ℕ) : List ℝ := (List.range n).map fun (i : ℕ) => if n = 1 then a else a + i * ((b - a) / ((n : ℝ) - 1))

/-- test_tools.py:32-47 `psu_rand_array_gen` with the two samples of `random_sample` and the permutation `shuffle` chooses; the values in row order.  `min_lim` and `max_lim` are
not used by the code. -/
noncomputable def psu_rand_array_gen (sample1 sample2 : ℝ) (shuffle : List ℝ → List ℝ) (size : ℕ × ℕ) (_min_lim _max_lim : ℝ) : List ℝ :=
  let length := size.1 * size.2
  let min_value := 10 * sample1
  let max_value := min_value * sample2
  shuffle (linspace min_value max_value length)

end Verif.TestTools
