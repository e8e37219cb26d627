import Verif.Model.SoftMech
import Verif.Model.Dict
import Mathlib.LinearAlgebra.Matrix.Notation

/-! Model of `ElementArrayUtil` and `Native` in `rainbow/simulators/prox_soft_bodies/solver.py`. An N-by-3 array is a function
`Fin n → V3`, the tetrahedra a function `Fin K → Fin 4 → Fin n`: array shapes and the validity of the node indices are in the types
(negative numpy indices are not modelled). -/

namespace Verif.Soft

open M3

variable {n K : ℕ}

/-- `y[i] += v`. -/
def addAt {A : Type*} [Add A] (y : Fin n → A) (i : Fin n) (v : A) : Fin n → A := Function.update y i (y i + v)

/-- solver.py:44, 54-58: `prod_mat_vec` on an N-by-3 array. -/
noncomputable def prod_mat_vec (T : Fin K → Fin 4 → Fin n) (A_array : Fin K → Fin 4 → Fin 4 → M3) (x : Fin n → V3) : Fin n → V3 :=
  (List.finRange K).foldl (fun y e => (List.finRange 4).foldl (fun y i => (List.finRange 4).foldl (fun y j =>
    addAt y (T e i) ((A_array e i j).mulVec (x (T e j)))) y) y) 0

/-- `v[k]` of a 3-vector. -/
def comp (v : V3) : Fin 3 → ℝ := ![v.x, v.y, v.z]

/-- The three entries of `x[o : o + 3]` as a vector. -/
def slice (x : ℕ → ℝ) (o : ℕ) : V3 := ⟨x o, x (o + 1), x (o + 2)⟩

/-- `y[o : o + 3] += v`. -/
def addSlice (y : ℕ → ℝ) (o : ℕ) (v : V3) : ℕ → ℝ := fun q =>
  if q = o then y q + v.x else if q = o + 1 then y q + v.y else if q = o + 2 then y q + v.z else y q

/-- solver.py:44-53: `prod_mat_vec` on a flat array of 3N numbers. -/
noncomputable def prod_mat_vec_flat (T : Fin K → Fin 4 → Fin n) (A_array : Fin K → Fin 4 → Fin 4 → M3) (x : ℕ → ℝ) : ℕ → ℝ :=
  (List.finRange K).foldl (fun y e => (List.finRange 4).foldl (fun y i => (List.finRange 4).foldl (fun y j =>
    addSlice y ((T e i : ℕ) * 3) ((A_array e i j).mulVec (slice x ((T e j : ℕ) * 3)))) y) y) (fun _ => 0)

/-- solver.py:70-80: the table built by `assembly_coo`. -/
noncomputable def cooTable (T : Fin K → Fin 4 → Fin n) (A_array : Fin K → Fin 4 → Fin 4 → M3) : Dict (Fin n × Fin n) M3 :=
  (List.finRange K).foldl (fun lut e => (List.finRange 4).foldl (fun lut i => (List.finRange 4).foldl (fun lut j =>
    match lut.get? (T e i, T e j) with
    | some v => lut.setItem (T e i, T e j) (v + A_array e i j)
    | none => lut.setItem (T e i, T e j) (A_array e i j)) lut) lut) Dict.empty

/-- `value[i, j]`. -/
def entry (A : M3) : Fin 3 → Fin 3 → ℝ := ![![A.m00, A.m01, A.m02], ![A.m10, A.m11, A.m12], ![A.m20, A.m21, A.m22]]

/-- solver.py:62-93 `assembly_coo`: the triplets (row, column, value) in the order they are written. -/
noncomputable def assembly_coo (T : Fin K → Fin 4 → Fin n) (A_array : Fin K → Fin 4 → Fin 4 → M3) : List (ℕ × ℕ × ℝ) :=
  (cooTable T A_array).entries.flatMap fun kv => (List.finRange 3).flatMap fun (i : Fin 3) => (List.finRange 3).map fun (j : Fin 3) =>
    ((kv.1.1 : ℕ) * 3 + i, (kv.1.2 : ℕ) * 3 + j, entry kv.2 i j)

/-- `scipy.sparse.csr_matrix((data, (row, col)))`: triplets with the same position are summed. -/
def csr (L : List (ℕ × ℕ × ℝ)) (r c : ℕ) : ℝ := ((L.filter fun t => t.1 = r ∧ t.2.1 = c).map (·.2.2)).sum

/-- solver.py:96-107 `assembly_csr` (all positions are below 3N). -/
noncomputable def assembly_csr (T : Fin K → Fin 4 → Fin n) (A_array : Fin K → Fin 4 → Fin 4 → M3) : ℕ → ℕ → ℝ := csr (assembly_coo T A_array)

/-- solver.py:136-153: the four face vectors of one tetrahedron. -/
noncomputable def faceVectors (ri rj rk rm : V3) : Fin 4 → V3 :=
  let u_ji := rj - ri
  let u_kj := rk - rj
  let u_ik := ri - rk
  let u_mi := rm - ri
  let u_mj := rm - rj
  ![(1 / 6 : ℝ) • V3.cross u_kj u_mj, (1 / 6 : ℝ) • V3.cross u_ik u_mi, (1 / 6 : ℝ) • V3.cross u_ji u_mi, (1 / 6 : ℝ) • V3.cross u_kj u_ji]

/-- solver.py:122-155 `compute_outward_face_vectors`. -/
noncomputable def compute_outward_face_vectors (x : Fin n → V3) (T : Fin K → Fin 4 → Fin n) : Fin K → Fin 4 → V3 := fun e =>
  faceVectors (x (T e 0)) (x (T e 1)) (x (T e 2)) (x (T e 3))

/-- volume_mesh.py:229-244 `compute_volumes` on these arrays (the list version is in Model/VolumeMesh.lean). -/
noncomputable def compute_volumes (x : Fin n → V3) (T : Fin K → Fin 4 → Fin n) : Fin K → ℝ := fun e =>
  V3.dot (x (T e 3) - x (T e 0)) (V3.cross (x (T e 1) - x (T e 0)) (x (T e 2) - x (T e 0))) / 6

/-- solver.py:172-189: the edge matrix of one tetrahedron. -/
def edgeMatrix (p : Fin 4 → V3) : M3 := make_from_cols (p 1 - p 0) (p 2 - p 0) (p 3 - p 0)

/-- solver.py:176: the test for a degenerate tetrahedron. -/
def edgeTriple (p : Fin 4 → V3) : ℝ := V3.dot (p 3 - p 0) (V3.cross (p 1 - p 0) (p 2 - p 0))

open Classical in
/-- solver.py:158-190 `compute_D`: stops at the first degenerate tetrahedron. -/
noncomputable def compute_D (x : Fin n → V3) (T : Fin K → Fin 4 → Fin n) : Except PyErr (Fin K → M3) :=
  if ∃ e, edgeTriple (fun a => x (T e a)) ≤ 0 then .error .runtimeError
  else .ok fun e => edgeMatrix fun a => x (T e a)

open Classical in
/-- `for e in range(len(T)): out[e] = f(e)` where f may raise. -/
noncomputable def tabulateM {A : Type*} [Inhabited A] (f : Fin K → Except PyErr A) : Except PyErr (Fin K → A) :=
  (List.finRange K).foldlM (fun out e => do
    let a ← f e
    return Function.update out e a) (fun _ => default)

instance : Inhabited M3 := ⟨M3.zero⟩

/-- solver.py:193-206 `compute_inverse_D0`. -/
noncomputable def compute_inverse_D0 (x0 : Fin n → V3) (T : Fin K → Fin 4 → Fin n) : Except PyErr (Fin K → M3) := do
  let D0 ← compute_D x0 T
  tabulateM fun e => inv (D0 e)

/-- solver.py:209-222 `compute_deformation_gradient`. -/
noncomputable def compute_deformation_gradient (x : Fin n → V3) (T : Fin K → Fin 4 → Fin n) (invD0 : Fin K → M3) :
    Except PyErr (Fin K → M3) := do
  let D ← compute_D x T
  return fun e => (D e).mul (invD0 e)

/-- solver.py:237-257 (276-296): the array NN. -/
noncomputable def shapeProducts (is_lumped : Bool) (i j : Fin 4) : M3 :=
  if is_lumped then (if i = j then (1 / 4 : ℝ) • M3.identity else M3.zero)
  else (if i = j then (1 / 10 : ℝ) • M3.identity else (1 / 20 : ℝ) • M3.identity)

/-- solver.py:225-261 `compute_mass_element_array`. -/
noncomputable def compute_mass_element_array (rho : ℝ) (vol : Fin K → ℝ) (is_lumped : Bool) : Fin K → Fin 4 → Fin 4 → M3 :=
  fun e i j => vol e • (rho • shapeProducts is_lumped i j)

/-- solver.py:264-300 `compute_damping_element_array`. -/
noncomputable def compute_damping_element_array (c : ℝ) (vol : Fin K → ℝ) (is_lumped : Bool) : Fin K → Fin 4 → Fin 4 → M3 :=
  fun e i j => vol e • (c • shapeProducts is_lumped i j)

/-- types.py:117-137 `TractionCondition`. -/
structure TractionCondition (n : ℕ) where
  i : Fin n
  j : Fin n
  k : Fin n
  traction : V3

/-- solver.py:317-354: one trip. -/
noncomputable def tractionStep (x : Fin n → V3) (Ft : Fin n → V3) (t : TractionCondition n) : Fin n → V3 :=
  let A_vec := (1 / 2 : ℝ) • V3.cross (x t.j - x t.i) (x t.k - x t.i)
  let A := V3.norm A_vec
  let load := t.traction
  let Ft := addAt Ft t.i ((A / 24) • ((2 : ℝ) • load + load + load))
  let Ft := addAt Ft t.j ((A / 24) • (load + (2 : ℝ) • load + load))
  addAt Ft t.k ((A / 24) • (load + load + (2 : ℝ) • load))

/-- solver.py:303-355 `compute_traction_forces` (Id is the identity matrix). -/
noncomputable def compute_traction_forces (x : Fin n → V3) (cs : List (TractionCondition n)) : Fin n → V3 :=
  cs.foldl (tractionStep x) 0

/-- solver.py:376-382: one trip. -/
noncomputable def elasticStep (T : Fin K → Fin 4 → Fin n) (gradN0 : Fin K → Fin 4 → V3) (F : Fin K → M3) (lam mu : ℝ)
    (pk1_stress : M3 → ℝ → ℝ → Except PyErr M3) (Fe : Fin n → V3) (e : Fin K) : Except PyErr (Fin n → V3) := do
  let P ← pk1_stress (F e) lam mu
  let Fe := addAt Fe (T e 0) (P.mulVec (gradN0 e 0))
  let Fe := addAt Fe (T e 1) (P.mulVec (gradN0 e 1))
  let Fe := addAt Fe (T e 2) (P.mulVec (gradN0 e 2))
  return addAt Fe (T e 3) (P.mulVec (gradN0 e 3))

/-- solver.py:358-383 `compute_elastic_forces`. -/
noncomputable def compute_elastic_forces (T : Fin K → Fin 4 → Fin n) (gradN0 : Fin K → Fin 4 → V3) (F : Fin K → M3) (lam mu : ℝ)
    (pk1_stress : M3 → ℝ → ℝ → Except PyErr M3) : Except PyErr (Fin n → V3) :=
  (List.finRange K).foldlM (elasticStep T gradN0 F lam mu pk1_stress) 0

/-- solver.py:386-402 `compute_elastic_energy`. -/
noncomputable def compute_elastic_energy (vol0 : Fin K → ℝ) (F : Fin K → M3) (lam mu : ℝ) (energy_density : M3 → ℝ → ℝ → Except PyErr ℝ) :
    Except PyErr ℝ :=
  (List.finRange K).foldlM (fun energy e => do
    let psi_mid ← energy_density (F e) lam mu
    return energy + psi_mid * vol0 e) 0

/-- solver.py:405-415 `compute_damping_forces`. -/
noncomputable def compute_damping_forces (T : Fin K → Fin 4 → Fin n) (Carray : Fin K → Fin 4 → Fin 4 → M3) (u : Fin n → V3) : Fin n → V3 :=
  -(prod_mat_vec T Carray u)

/-- solver.py:418-437 `compute_gravity_forces`. -/
noncomputable def compute_gravity_forces (T : Fin K → Fin 4 → Fin n) (vol0 : Fin K → ℝ) (rho : ℝ) (g : V3) : Fin n → V3 :=
  (List.finRange K).foldl (fun Fg e =>
    let dF := (rho * vol0 e / 4.0) • g
    addAt (addAt (addAt (addAt Fg (T e 0) dF) (T e 1) dF) (T e 2) dF) (T e 3) dF) 0

/-- solver.py:854, 859-865: the kinetic energy of one body that is not fixed (midpoint rule). -/
noncomputable def body_kinetic_energy (T : Fin K → Fin 4 → Fin n) (vol0 : Fin K → ℝ) (rho : ℝ) (u : Fin n → V3) : ℝ :=
  (List.finRange K).foldl (fun kinetic e =>
    let v_mid := V3.divs (u (T e 0) + u (T e 1) + u (T e 2) + u (T e 3)) 4.0
    kinetic + (rho * vol0 e) * V3.dot v_mid v_mid / 2.0) 0

/-- solver.py:888, 893-900: the potential energy of one body that is not fixed. -/
noncomputable def body_potential_energy (T : Fin K → Fin 4 → Fin n) (vol0 : Fin K → ℝ) (rho : ℝ) (gravity : V3) (x : Fin n → V3) : ℝ :=
  let up_dir := -gravity
  (List.finRange K).foldl (fun potential e =>
    let x_mid := V3.divs (x (T e 0) + x (T e 1) + x (T e 2) + x (T e 3)) 4.0
    potential + (rho * vol0 e) * V3.dot up_dir x_mid) 0

end Verif.Soft
