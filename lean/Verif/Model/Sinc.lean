import Verif.Model.Vec
import Mathlib.Analysis.SpecialFunctions.Trigonometric.Basic

/-! math/functions.py: `sinc`. -/

namespace Verif

/-- functions.py:4-24 `sinc` (one number; `np.where` keeps the first branch where |x| < tiny, the second elsewhere). -/
noncomputable def sinc (x : ℝ) : ℝ :=
  let tiny := 1.0e-4
  let factor := 0.166666666666666666667
  if |x| < tiny then 1.0 - x * x * factor else Real.sin x / x

end Verif
