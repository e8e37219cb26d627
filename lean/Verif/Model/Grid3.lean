import Verif.Model.Vec
import Mathlib.Algebra.Order.Floor.Ring

/-! Model of `rainbow/geometry/grid3.py`. -/

namespace Verif

/-- grid3.py:16-46 `Grid`. `values` is None or a flat array. -/
structure Grid where
  min_coord : V3
  max_coord : V3
  I : ℕ
  J : ℕ
  K : ℕ
  spacing : V3
  values : Option (List ℝ)

namespace Grid

open Classical in
/-- grid3.py:16-46 `Grid.__init__`. -/
noncomputable def init (min_coord max_coord : V3) (I J K : ℤ) : Except PyErr Grid :=
  if max_coord.x < min_coord.x ∨ max_coord.y < min_coord.y ∨ max_coord.z < min_coord.z then
    .error .valueError
  else if I < 2 then .error .valueError
  else if J < 2 then .error .valueError
  else if K < 2 then .error .valueError
  else
    let dims := max_coord - min_coord
    .ok ⟨min_coord, max_coord, I.toNat, J.toNat, K.toNat,
      ⟨dims.x / ((I : ℝ) - 1), dims.y / ((J : ℝ) - 1), dims.z / ((K : ℝ) - 1)⟩, none⟩

/-- grid3.py:48-61 `is_valid_node_index`. -/
def is_valid_node_index (g : Grid) (i j k : ℤ) : Bool :=
  if i < 0 ∨ j < 0 ∨ k < 0 then false
  else if i ≥ g.I ∨ j ≥ g.J ∨ k ≥ g.K then false
  else true

/-- grid3.py:63-72 `get_linear_index`. -/
def get_linear_index (g : Grid) (i j k : ℕ) : ℕ := i + g.I * (j + g.J * k)

/-- grid3.py:74-87 `get_node_value`: TypeError on None, IndexError beyond the array. -/
def get_node_value (g : Grid) (i j k : ℕ) : Except PyErr ℝ :=
  match g.values with
  | none => .error .typeError
  | some v => match v[g.get_linear_index i j k]? with
    | none => .error .indexError
    | some x => .ok x

/-- grid3.py:89-106 `get_node_coord`. -/
def get_node_coord (g : Grid) (i j k : ℕ) : V3 :=
  ⟨g.min_coord.x + g.spacing.x * i, g.min_coord.y + g.spacing.y * j, g.min_coord.z + g.spacing.z * k⟩

/-- one component of the cell index: np.clip(int(floor(..)), 0, n - 2) -/
noncomputable def clipCell (x lo h : ℝ) (n : ℕ) : ℕ := (max 0 (min ⌊(x - lo) / h⌋ ((n : ℤ) - 2))).toNat

/-- grid3.py:108-123 `get_enclosing_cell_idx`. (Division by a zero spacing gives nan and then
ValueError in the code.) -/
noncomputable def get_enclosing_cell_idx (g : Grid) (p : V3) : Except PyErr (ℕ × ℕ × ℕ) :=
  open Classical in
  if g.spacing.x = 0 ∨ g.spacing.y = 0 ∨ g.spacing.z = 0 then .error .valueError
  else .ok (clipCell p.x g.min_coord.x g.spacing.x g.I, clipCell p.y g.min_coord.y g.spacing.y g.J,
    clipCell p.z g.min_coord.z g.spacing.z g.K)

/-- The eight nodal values of a cell; grid3.py:145-153, 200-207. -/
structure Cell8 where
  d000 : ℝ
  d001 : ℝ
  d010 : ℝ
  d011 : ℝ
  d100 : ℝ
  d101 : ℝ
  d110 : ℝ
  d111 : ℝ

/-- grid3.py:145-153: reading the nodal values of cell (i,j,k). -/
def cell8 (g : Grid) (i j k : ℕ) : Except PyErr Cell8 := do
  let d000 ← g.get_node_value i j k
  let d001 ← g.get_node_value i j (k + 1)
  let d010 ← g.get_node_value i (j + 1) k
  let d011 ← g.get_node_value i (j + 1) (k + 1)
  let d100 ← g.get_node_value (i + 1) j k
  let d101 ← g.get_node_value (i + 1) j (k + 1)
  let d110 ← g.get_node_value (i + 1) (j + 1) k
  let d111 ← g.get_node_value (i + 1) (j + 1) (k + 1)
  .ok ⟨d000, d001, d010, d011, d100, d101, d110, d111⟩

/-- grid3.py:171-178: the interpolation in local coordinates. -/
def interp (d : Cell8) (s t u : ℝ) : ℝ :=
  let x00 := (d.d100 - d.d000) * s + d.d000
  let x01 := (d.d101 - d.d001) * s + d.d001
  let x10 := (d.d110 - d.d010) * s + d.d010
  let x11 := (d.d111 - d.d011) * s + d.d011
  let y0 := (x10 - x00) * t + x00
  let y1 := (x11 - x01) * t + x01
  (y1 - y0) * u + y0

/-- grid3.py:126-178 `get_value`. -/
noncomputable def get_value (g : Grid) (p : V3) : Except PyErr ℝ := do
  let c ← g.get_enclosing_cell_idx p
  let d ← g.cell8 c.1 c.2.1 c.2.2
  let s := (p.x - ((c.1 : ℝ) * g.spacing.x + g.min_coord.x)) / g.spacing.x
  let t := (p.y - ((c.2.1 : ℝ) * g.spacing.y + g.min_coord.y)) / g.spacing.y
  let u := (p.z - ((c.2.2 : ℝ) * g.spacing.z + g.min_coord.z)) / g.spacing.z
  .ok (interp d s t u)

/-- grid3.py:224-250: the derivative formula in local coordinates. -/
noncomputable def gradFormula (d : Cell8) (s t u : ℝ) (h : V3) : V3 :=
  let x00 := (d.d100 - d.d000) * s + d.d000
  let x01 := (d.d101 - d.d001) * s + d.d001
  let x10 := (d.d110 - d.d010) * s + d.d010
  let x11 := (d.d111 - d.d011) * s + d.d011
  let y0 := (x10 - x00) * t + x00
  let y1 := (x11 - x01) * t + x01
  let dx00_ds := d.d100 - d.d000
  let dx01_ds := d.d101 - d.d001
  let dx10_ds := d.d110 - d.d010
  let dx11_ds := d.d111 - d.d011
  let dy0_ds := (dx10_ds - dx00_ds) * t + dx00_ds
  let dy1_ds := (dx11_ds - dx01_ds) * t + dx01_ds
  let dy0_dt := x10 - x00
  let dy1_dt := x11 - x01
  let dp_ds := (dy1_ds - dy0_ds) * u + dy0_ds
  let dp_dt := (dy1_dt - dy0_dt) * u + dy0_dt
  let dp_du := y1 - y0
  ⟨dp_ds * (1 / h.x), dp_dt * (1 / h.y), dp_du * (1 / h.z)⟩

open Classical in
/-- grid3.py:181-258 `get_gradient`. The local coordinates are divided by `min_coord`, not by
`spacing`. A zero component of min_coord makes numpy produce inf/nan; reported as an error here. -/
noncomputable def get_gradient (g : Grid) (p : V3) : Except PyErr V3 := do
  let c ← g.get_enclosing_cell_idx p
  let d ← g.cell8 c.1 c.2.1 c.2.2
  if g.min_coord.x = 0 ∨ g.min_coord.y = 0 ∨ g.min_coord.z = 0 then .error .zeroDivision
  else
    let s := (p.x - ((c.1 : ℝ) * g.spacing.x + g.min_coord.x)) / g.min_coord.x
    let t := (p.y - ((c.2.1 : ℝ) * g.spacing.y + g.min_coord.y)) / g.min_coord.y
    let u := (p.z - ((c.2.2 : ℝ) * g.spacing.z + g.min_coord.z)) / g.min_coord.z
    .ok (gradFormula d s t u g.spacing)

/-- the index triples in loop order, grid3.py:270-272 -/
def nodeLoop (g : Grid) : List (ℕ × ℕ × ℕ) :=
  (List.range g.K).flatMap fun k => (List.range g.J).flatMap fun j => (List.range g.I).map fun i =>
    (i, j, k)

/-- grid3.py:261-275 `eval_on_grid` (assignment beyond the array would be an IndexError). -/
def eval_on_grid (g : Grid) (func : V3 → ℝ) : Except PyErr Grid := do
  let v ← g.nodeLoop.foldlM (fun (v : List ℝ) n =>
    let row_idx := g.get_linear_index n.1 n.2.1 n.2.2
    if row_idx < v.length then .ok (v.set row_idx (func (g.get_node_coord n.1 n.2.1 n.2.2)))
    else (.error .indexError : Except PyErr (List ℝ))) (List.replicate (g.I * g.J * g.K) 0)
  .ok { g with values := some v }

/-- grid3.py:305-319 `get_nodes_array`. -/
def get_nodes_array (g : Grid) : Except PyErr (List V3) :=
  g.nodeLoop.foldlM (fun (v : List V3) n =>
    let row_idx := g.get_linear_index n.1 n.2.1 n.2.2
    if row_idx < v.length then .ok (v.set row_idx (g.get_node_coord n.1 n.2.1 n.2.2))
    else (.error .indexError : Except PyErr (List V3))) (List.replicate (g.I * g.J * g.K) 0)

open Classical in
/-- grid3.py:278-302 `is_inside`. -/
noncomputable def is_inside (g : Grid) (p : V3) (boundary : ℝ := 1 / 2) : Except PyErr Bool :=
  if boundary < 0 then .error .valueError
  else if p.x > g.max_coord.x - boundary then .ok false
  else if p.y > g.max_coord.y - boundary then .ok false
  else if p.z > g.max_coord.z - boundary then .ok false
  else if p.x < g.min_coord.x + boundary then .ok false
  else if p.y < g.min_coord.y + boundary then .ok false
  else if p.z < g.min_coord.z + boundary then .ok false
  else .ok true

end Grid
end Verif
