import Verif.Model.Grid3

/-! Model of `rainbow/geometry/mean_curvature.py`. -/

namespace Verif.Curvature

/-- The values at a node and its 18 neighbours, mean_curvature.py:33-51; in the names p is +1 and m is -1. -/
structure Stencil where
  d000 : ℝ
  dp00 : ℝ
  dm00 : ℝ
  d0p0 : ℝ
  d0m0 : ℝ
  d00p : ℝ
  d00m : ℝ
  dpp0 : ℝ
  dmp0 : ℝ
  dpm0 : ℝ
  dmm0 : ℝ
  dp0p : ℝ
  dm0p : ℝ
  dp0m : ℝ
  dm0m : ℝ
  d0pp : ℝ
  d0pm : ℝ
  d0mp : ℝ
  d0mm : ℝ

/-- mean_curvature.py:33-51: reading the stencil (`d000` without the factor 2). -/
def stencil (phi : Grid) (i j k : ℕ) : Except PyErr Stencil := do
  let d000 ← phi.get_node_value i j k
  let dp00 ← phi.get_node_value (i + 1) j k
  let dm00 ← phi.get_node_value (i - 1) j k
  let d0p0 ← phi.get_node_value i (j + 1) k
  let d0m0 ← phi.get_node_value i (j - 1) k
  let d00p ← phi.get_node_value i j (k + 1)
  let d00m ← phi.get_node_value i j (k - 1)
  let dpp0 ← phi.get_node_value (i + 1) (j + 1) k
  let dmp0 ← phi.get_node_value (i - 1) (j + 1) k
  let dpm0 ← phi.get_node_value (i + 1) (j - 1) k
  let dmm0 ← phi.get_node_value (i - 1) (j - 1) k
  let dp0p ← phi.get_node_value (i + 1) j (k + 1)
  let dm0p ← phi.get_node_value (i - 1) j (k + 1)
  let dp0m ← phi.get_node_value (i + 1) j (k - 1)
  let dm0m ← phi.get_node_value (i - 1) j (k - 1)
  let d0pp ← phi.get_node_value i (j + 1) (k + 1)
  let d0pm ← phi.get_node_value i (j + 1) (k - 1)
  let d0mp ← phi.get_node_value i (j - 1) (k + 1)
  let d0mm ← phi.get_node_value i (j - 1) (k - 1)
  .ok ⟨d000, dp00, dm00, d0p0, d0m0, d00p, d00m, dpp0, dmp0, dpm0, dmm0, dp0p, dm0p, dp0m, dm0m, d0pp, d0pm, d0mp, d0mm⟩

/-- mean_curvature.py:53-55: the gradient. -/
noncomputable def grad (d : Stencil) (h : V3) : V3 :=
  ⟨(d.dp00 - d.dm00) * (1 / (2 * h.x)), (d.d0p0 - d.d0m0) * (1 / (2 * h.y)), (d.d00p - d.d00m) * (1 / (2 * h.z))⟩

/-- mean_curvature.py:56-61: Dxx, Dyy, Dzz, Dxy, Dxz, Dyz. -/
structure Second where
  xx : ℝ
  yy : ℝ
  zz : ℝ
  xy : ℝ
  xz : ℝ
  yz : ℝ

/-- mean_curvature.py:17-25, 56-61: the second differences. -/
noncomputable def second (d : Stencil) (h : V3) : Second where
  xx := (d.dp00 + d.dm00 - 2 * d.d000) * (1 / (h.x * h.x))
  yy := (d.d0p0 + d.d0m0 - 2 * d.d000) * (1 / (h.y * h.y))
  zz := (d.d00p + d.d00m - 2 * d.d000) * (1 / (h.z * h.z))
  xy := (d.dpp0 - d.dmp0 - d.dpm0 + d.dmm0) * (1 / (4 * h.x * h.y))
  xz := (d.dp0p - d.dm0p - d.dp0m + d.dm0m) * (1 / (4 * h.x * h.z))
  yz := (d.d0pp - d.d0pm - d.d0mp + d.d0mm) * (1 / (4 * h.y * h.z))

open Classical in
/-- mean_curvature.py:63-66: the length of the gradient, 1 if it is below 0.5. -/
noncomputable def gradLength (g : V3) : ℝ := if V3.norm g < 0.5 then 1 else V3.norm g

/-- mean_curvature.py:68-74: the numerator over the denominator. -/
noncomputable def quotient (g : V3) (D : Second) : ℝ :=
  (D.xx * (g.y ^ 2 + g.z ^ 2) + D.yy * (g.x ^ 2 + g.z ^ 2) + D.zz * (g.x ^ 2 + g.y ^ 2)
    - 2 * (D.xy * g.x * g.y + D.xz * g.x * g.z + D.yz * g.y * g.z)) / gradLength g ^ 3

/-- `np.clip`. -/
noncomputable def clip (x lo hi : ℝ) : ℝ := min (max x lo) hi

/-- mean_curvature.py:27-28: `kappa_max`. -/
noncomputable def kappaMax (h : V3) : ℝ := 1 / min (min h.x h.y) h.z

/-- mean_curvature.py:53-76: the value for one stencil. -/
noncomputable def kappa (d : Stencil) (h : V3) : ℝ :=
  clip (quotient (grad d h) (second d h)) (-kappaMax h) (kappaMax h)

/-- mean_curvature.py:30-32: the inner nodes in loop order. -/
def innerLoop (g : Grid) : List (ℕ × ℕ × ℕ) :=
  (List.range' 1 (g.K - 2)).flatMap fun k => (List.range' 1 (g.J - 2)).flatMap fun j => (List.range' 1 (g.I - 2)).map fun i => (i, j, k)

/-- mean_curvature.py:5-77 `create_from_sdf`.  A zero spacing (infinities in the code) is excluded in the theorems. -/
noncomputable def create_from_sdf (phi : Grid) : Except PyErr Grid := do
  let kgrid ← Grid.init phi.min_coord phi.max_coord phi.I phi.J phi.K
  match phi.values with
  | none => .error .attributeError
  | some vals => do
    let v ← (innerLoop phi).foldlM (fun (v : List ℝ) n => do
      let d ← stencil phi n.1 n.2.1 n.2.2
      let row_idx := kgrid.get_linear_index n.1 n.2.1 n.2.2
      if row_idx < v.length then .ok (v.set row_idx (kappa d phi.spacing)) else (.error .indexError : Except PyErr (List ℝ)))
      (List.replicate vals.length 0)
    .ok { kgrid with values := some v }

end Verif.Curvature
