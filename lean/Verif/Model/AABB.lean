import Verif.Model.Vec

/-! Model of `rainbow/geometry/aabb.py`. -/

namespace Verif

/-- aabb.py:30-32 `AABB`. -/
@[ext] structure AABB where
  min_point : V3
  max_point : V3

namespace AABB

open Classical in
/-- elementwise maximum -/
noncomputable def vmax (a b : V3) : V3 := ⟨max a.x b.x, max a.y b.y, max a.z b.z⟩
open Classical in
/-- elementwise minimum -/
noncomputable def vmin (a b : V3) : V3 := ⟨min a.x b.x, min a.y b.y, min a.z b.z⟩

/-- aabb.py:34-46 `create_from_vertices`; np.max over axis 0 raises ValueError on an empty array. -/
noncomputable def create_from_vertices (vertices : List V3) : Except PyErr AABB :=
  match vertices with
  | [] => .error .valueError
  | v :: vs => .ok ⟨vs.foldl vmin v, vs.foldl vmax v⟩

/-- np.any(a < b) -/
def anyLt (a b : V3) : Prop := a.x < b.x ∨ a.y < b.y ∨ a.z < b.z

/-- scalar subtracted from every component (`a -= boundary`) -/
def shift (a : V3) (d : ℝ) : V3 := ⟨a.x + d, a.y + d, a.z + d⟩

/-- aabb.py:48-71 `is_overlap`. -/
def is_overlap (a b : AABB) (boundary : ℝ := 0) : Prop :=
  if boundary ≠ 0 then
    ¬ (anyLt (shift a.max_point boundary) (shift b.min_point (-boundary))
      ∨ anyLt (shift b.max_point boundary) (shift a.min_point (-boundary)))
  else ¬ (anyLt a.max_point b.min_point ∨ anyLt b.max_point a.min_point)

end AABB
end Verif
