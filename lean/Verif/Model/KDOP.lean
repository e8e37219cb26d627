import Verif.Model.Vec
import Mathlib.Data.EReal.Basic
import Mathlib.Data.EReal.Operations

/-! Model of `rainbow/geometry/kdop.py`. Interval ends are extended reals because a fresh interval
is [+inf, -inf]. -/

namespace Verif

/-- kdop.py:9-12 `Interval`. -/
@[ext] structure Interval where
  lower : EReal
  upper : EReal

/-- kdop.py:10-12 `Interval.__init__`. -/
noncomputable def Interval.init : Interval := ⟨⊤, ⊥⟩

/-- kdop.py:15-18 `KDOP`: K and the list of K slabs (slab k for k ≥ K is never read; it keeps the
value of a fresh interval). -/
@[ext] structure KDOP where
  K : ℕ
  slabs : ℕ → Interval

namespace KDOP

/-- kdop.py:16-18 `KDOP.__init__`. -/
noncomputable def init (K : ℕ) : KDOP := ⟨K, fun _ => Interval.init⟩

open Classical in
/-- kdop.py:21-38 `overlap`. -/
noncomputable def overlap (A B : KDOP) : Except PyErr Bool :=
  if A.K ≠ B.K then .error .runtimeError
  else .ok (decide (∀ k < A.K,
    ¬ ((A.slabs k).upper < (B.slabs k).lower ∨ (B.slabs k).upper < (A.slabs k).lower)))

/-- kdop.py:41-50 `get_direction_table`; None for other K. -/
def get_direction_table (K : ℕ) : Option (ℕ → V3) :=
  if K = 3 then some fun k => match k with
    | 0 => ⟨1, 0, 0⟩ | 1 => ⟨0, 1, 0⟩ | _ => ⟨0, 0, 1⟩
  else if K = 4 then some fun k => match k with
    | 0 => ⟨1, 1, 1⟩ | 1 => ⟨1, 1, -1⟩ | 2 => ⟨1, -1, 1⟩ | _ => ⟨1, -1, -1⟩
  else none

open Classical in
/-- kdop.py:68-71, the inner loop over the vertices for one direction. -/
noncomputable def fitSlab (d : V3) (V : List V3) : Interval :=
  V.foldl (fun I v => ⟨min I.lower (V3.dot d v : ℝ), max I.upper (V3.dot d v : ℝ)⟩) Interval.init

/-- kdop.py:53-74 `make`; with an unsupported K `np.matmul(None, ...)` raises TypeError (numpy:
ValueError/TypeError; recorded as typeError). -/
noncomputable def make (K : ℕ) (V : List V3) (envelope : ℝ := 0) : Except PyErr KDOP :=
  match get_direction_table K with
  | none => .error .typeError
  | some dir => .ok ⟨K, fun k => if k < K then
      let I := fitSlab (dir k) V
      ⟨I.lower - (envelope : EReal), I.upper + (envelope : EReal)⟩ else Interval.init⟩

open Classical in
/-- kdop.py:77-94 `union`. -/
noncomputable def union (A B : KDOP) : Except PyErr KDOP :=
  if A.K ≠ B.K then .error .runtimeError
  else .ok ⟨A.K, fun k => if k < A.K then
      ⟨min (A.slabs k).lower (B.slabs k).lower, max (A.slabs k).upper (B.slabs k).upper⟩
    else Interval.init⟩

end KDOP
end Verif
