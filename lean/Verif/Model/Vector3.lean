import Verif.Model.Vec

/-! Model of `rainbow/math/vector3.py` (frame construction and comparisons). -/

namespace Verif.V3

open Classical in
/-- vector3.py:93-99: choice of the tangent guess.  Three consecutive `if`s, later ones
override earlier ones (they overlap on ties). `a` is the vector of absolute values. -/
noncomputable def tangentGuess (a : V3) : V3 :=
  let t := if a.x ≤ a.y ∧ a.x ≤ a.z then i else zero
  let t := if a.y ≤ a.x ∧ a.y ≤ a.z then j else t
  let t := if a.z ≤ a.x ∧ a.z ≤ a.y then k else t
  t

/-- vector3.py:75-113 `make_orthonormal_vectors`; returns (t, b, n).
(If none of the three `if`s fired Python would raise NameError; they are exhaustive on reals.) -/
noncomputable def make_orthonormal_vectors (n0 : V3) : V3 × V3 × V3 :=
  let n := divs n0 (norm n0)
  let t := tangentGuess ⟨|n.x|, |n.y|, |n.z|⟩
  let b := cross n t
  let b := divs b (norm b)
  let t := cross b n
  (t, b, n)

open Classical in
/-- vector3.py:127-133 `max_abs_component`. -/
noncomputable def max_abs_component (a : V3) : Fin 3 :=
  if |a.x| > |a.y| ∧ |a.x| > |a.z| then 0
  else if |a.y| > |a.z| then 1
  else 2

open Classical in
/-- vector3.py:140-156 `less`. -/
noncomputable def less (a b : V3) : Bool :=
  if a.x > b.x then false
  else if a.x < b.x then true
  else if a.y > b.y then false
  else if a.y < b.y then true
  else if a.z > b.z then false
  else if a.z < b.z then true
  else false

open Classical in
/-- vector3.py:162-178 `greather`. -/
noncomputable def greather (a b : V3) : Bool :=
  if a.x > b.x then true
  else if a.x < b.x then false
  else if a.y > b.y then true
  else if a.y < b.y then false
  else if a.z > b.z then true
  else if a.z < b.z then false
  else false

/-- vector3.py:181-182 `less_than_equal`. -/
noncomputable def less_than_equal (a b : V3) : Bool := !(greather a b)

/-- vector3.py:185-186 `greather_than_equal`. -/
noncomputable def greather_than_equal (a b : V3) : Bool := !(less a b)

end Verif.V3
