import Verif.Model.SoftApi
import Verif.Model.While
import Mathlib.LinearAlgebra.Matrix.NonsingularInverse

/-! Model of the global part of `rainbow/simulators/prox_soft_bodies/solver.py` (lines 440-1162) and of `simulate` in `api.py`.

A global N-by-3 array is a function `ℕ → V3` of the global node number, a flat array of 3N numbers a function `ℕ → ℝ`, a sparse matrix a
function `ℕ → ℕ → ℝ`.  That every slice used lies below N is property C71.  Collision detection and the contact solver are parameters:
`detect` gives the contact points of an engine, `solve K J WJT b mu` the contact impulses.  Timers and debug output are left out. -/

namespace Verif.Soft

/-- The two functions the stepper calls and this file does not model. -/
structure Plugins where
  detect : Engine → Except PyErr (List ContactPoint)
  solve : ℕ → (ℕ → ℕ → ℝ) → (ℕ → ℕ → ℝ) → (ℕ → ℝ) → List ℝ → Except PyErr (ℕ → ℝ)

/-- `y[o : o + n] = f`. -/
def writeSlice {n : ℕ} (y : ℕ → V3) (o : ℕ) (f : Fin n → V3) : ℕ → V3 := fun q =>
  if h : o ≤ q ∧ q - o < n then f ⟨q - o, h.2⟩ else y q

/-- `y[o : o + n]`. -/
def readSlice (n : ℕ) (y : ℕ → V3) (o : ℕ) : Fin n → V3 := fun i => y (o + i)

/-- `np.reshape(x, (-1))` of an N-by-3 array. -/
def flat (x : ℕ → V3) : ℕ → ℝ := fun r => comp (x (r / 3)) ⟨r % 3, Nat.mod_lt _ (by norm_num)⟩

/-- `np.reshape(y, (-1, 3))`. -/
def unflat (y : ℕ → ℝ) : ℕ → V3 := fun q => slice y (q * 3)

/-- `A.dot(v)` for a matrix with m columns. -/
def matVec (m : ℕ) (A : ℕ → ℕ → ℝ) (v : ℕ → ℝ) : ℕ → ℝ := fun r => ∑ c ∈ Finset.range m, A r c * v c

/-- The bodies as the loops `for body in engine.bodies.values()` meet them: they use the arrays of every body. -/
def bodyList (e : Engine) : Except PyErr (List SoftBody) :=
  e.bodies.values.mapM fun s => match s with
    | .ready b => .ok b
    | .broken => .error .typeError

/-- solver.py:620-630 `get_position_vector`. -/
def get_position_vector (B : List SoftBody) : ℕ → V3 := B.foldl (fun x b => writeSlice x b.offset b.x) (fun _ => V3.zero)

/-- solver.py:633-643 `get_velocity_vector`. -/
def get_velocity_vector (B : List SoftBody) : ℕ → V3 := B.foldl (fun u b => writeSlice u b.offset b.u) (fun _ => V3.zero)

/-- Assignments in a loop over all bodies. -/
def mapBodies (e : Engine) (f : SoftBody → SoftBody) : Engine :=
  { e with bodies := ⟨e.bodies.entries.map fun kv => (kv.1, match kv.2 with
      | .ready b => .ready (f b)
      | .broken => .broken)⟩ }

/-- solver.py:596-605 `set_velocity_vector` (a view of the new array, which nothing else refers to). -/
def set_velocity_vector (u : ℕ → V3) (e : Engine) : Engine := mapBodies e fun b => { b with u := readSlice b.n u b.offset }

/-- solver.py:608-617 `set_position_vector`. -/
def set_position_vector (x : ℕ → V3) (e : Engine) : Engine := mapBodies e fun b => { b with x := readSlice b.n x b.offset }

/-- solver.py:1000-1013 `apply_boundary_conditions_on_positions`: where a node is listed twice the last value counts. -/
def apply_boundary_conditions_on_positions (x : ℕ → V3) (B : List SoftBody) : ℕ → V3 :=
  B.foldl (fun x b => b.dirichlet_conditions.foldl (fun x d => Function.update x (d.1 + b.offset) d.2) x) x

/-- solver.py:1016-1028 `apply_boundary_conditions_on_velocities`. -/
def apply_boundary_conditions_on_velocities (u : ℕ → V3) (B : List SoftBody) : ℕ → V3 :=
  B.foldl (fun u b => b.dirichlet_conditions.foldl (fun u d => Function.update u (d.1 + b.offset) V3.zero) u) u

/-- `body.M_array` (`body.C_array`) used as an array: None raises TypeError. -/
def getArray {A : Type} : Option A → Except PyErr A
  | none => .error .typeError
  | some a => .ok a

/-- `body.material_description`: the attributes of None raise AttributeError. -/
def material (e : Engine) (b : SoftBody) : Except PyErr Material :=
  match b.material_description with
  | none => .error .attributeError
  | some name => match e.materials.get? name with
    | none => .error .keyError
    | some m => .ok m

/-- solver.py:661-681: the triplets of one body, shifted by three times its offset. -/
noncomputable def massEntries (b : SoftBody) : Except PyErr (List (ℕ × ℕ × ℝ)) := do
  let M_array ← getArray b.M_array
  return (assembly_coo b.T M_array).map fun t => (t.1 + b.offset * 3, t.2.1 + b.offset * 3, t.2.2)

/-- solver.py:646-684 `compute_mass_matrix`. -/
noncomputable def compute_mass_matrix (B : List SoftBody) : Except PyErr (ℕ → ℕ → ℝ) := do
  let entries ← B.mapM massEntries
  return csr entries.flatten

open Classical in
/-- `scipy.sparse.linalg.inv`: the inverse matrix, RuntimeError for a singular one. -/
noncomputable def sparseInv (m : ℕ) (M : ℕ → ℕ → ℝ) : Except PyErr (ℕ → ℕ → ℝ) :=
  let A : Matrix (Fin m) (Fin m) ℝ := Matrix.of fun i j => M i j
  if IsUnit A.det then .ok fun r c => if h : r < m ∧ c < m then A⁻¹ ⟨r, h.1⟩ ⟨c, h.2⟩ else 0
  else .error .runtimeError

/-- solver.py:814-836 `compute_inverse_mass_matrix`. -/
noncomputable def compute_inverse_mass_matrix (e : Engine) : Except PyErr (ℕ → ℕ → ℝ) := do
  let B ← bodyList e
  let M ← compute_mass_matrix B
  sparseInv (e.number_of_nodes * 3) M

/-- solver.py:704-721: the elastic forces of one body at the global positions x. -/
noncomputable def bodyElastic (e : Engine) (x : ℕ → V3) (b : SoftBody) : Except PyErr (Fin b.n → V3) := do
  let F ← compute_deformation_gradient (readSlice b.n x b.offset) b.T b.invD0
  let m ← material e b
  let lambda_in ← Mech.first_lame m.E m.nu
  let mu_in ← Mech.second_lame m.E m.nu
  compute_elastic_forces b.T b.gradN0 F lambda_in mu_in m.pk1_stress

/-- solver.py:687-728 `compute_elastic_forces`. -/
noncomputable def global_elastic_forces (e : Engine) (B : List SoftBody) (x : ℕ → V3) : Except PyErr (ℕ → V3) :=
  B.foldlM (fun forces b => do
    let Fe ← bodyElastic e x b
    return writeSlice forces b.offset Fe) (fun _ => V3.zero)

/-- solver.py:731-755 `compute_traction_forces`. -/
noncomputable def global_traction_forces (B : List SoftBody) (x : ℕ → V3) : ℕ → V3 :=
  B.foldl (fun forces b => writeSlice forces b.offset (Soft.compute_traction_forces (readSlice b.n x b.offset) b.traction_conditions))
    (fun _ => V3.zero)

/-- solver.py:758-785 `compute_damping_forces`. -/
noncomputable def global_damping_forces (B : List SoftBody) (u : ℕ → V3) : Except PyErr (ℕ → V3) :=
  B.foldlM (fun forces b => do
    let C_array ← getArray b.C_array
    return writeSlice forces b.offset (Soft.compute_damping_forces b.T C_array (readSlice b.n u b.offset))) (fun _ => V3.zero)

/-- solver.py:788-811 `compute_external_forces`. -/
noncomputable def global_external_forces (e : Engine) (B : List SoftBody) : Except PyErr (ℕ → V3) :=
  B.foldlM (fun forces b => do
    let m ← material e b
    return writeSlice forces b.offset (compute_gravity_forces b.T b.vol0 m.rho b.gravity)) (fun _ => V3.zero)

/-- `body.T[idx] + body.offset` for the body called name: the four global node numbers. -/
def globalTet (e : Engine) (name : String) (idx : ℕ) : Except PyErr (Fin 4 → ℕ) := do
  let b ← e.findBody name
  if h : idx < b.K then return fun a => (b.T ⟨idx, h⟩ a : ℕ) + b.offset
  else .error .indexError

/-- solver.py:523-524: the rows of the contact frame: normal, two tangents and a zero row. -/
noncomputable def contactFrame (n : V3) : Fin 4 → V3 :=
  let stn := V3.make_orthonormal_vectors n
  ![stn.2.2, stn.1, stn.2.1, V3.zero]

/-- solver.py:515-587: the triplets of contact k: rows 4k, ..., 4k+3; in each row the four nodes of A, then those of B. -/
noncomputable def contactEntries (e : Engine) (k : ℕ) (cp : ContactPoint) : Except PyErr (List (ℕ × ℕ × ℝ)) := do
  let nodesA ← globalTet e cp.bodyA cp.idx_tetA
  let nodesB ← globalTet e cp.bodyB cp.idx_tetB
  let C := contactFrame cp.n
  return (List.finRange 4).flatMap fun (i : Fin 4) =>
    ((List.finRange 4).flatMap fun (a : Fin 4) => (List.finRange 3).map fun (j : Fin 3) =>
      (k * 4 + (i : ℕ), nodesA a * 3 + (j : ℕ), -(comp (C i) j * cp.omegaA a))) ++
    ((List.finRange 4).flatMap fun (a : Fin 4) => (List.finRange 3).map fun (j : Fin 3) =>
      (k * 4 + (i : ℕ), nodesB a * 3 + (j : ℕ), comp (C i) j * cp.omegaB a))

/-- solver.py:496-593 `compute_jacobian_matrix`. -/
noncomputable def compute_jacobian_matrix (e : Engine) : Except PyErr (ℕ → ℕ → ℝ) := do
  let entries ← e.contact_points.zipIdx.mapM fun p => contactEntries e p.2 p.1
  return csr entries.flatten

/-- solver.py:468-478 `get_friction_coefficient_vector`: one entry. -/
def frictionOf (e : Engine) (cp : ContactPoint) : Except PyErr ℝ := do
  let A ← e.findBody cp.bodyA
  let B ← e.findBody cp.bodyB
  let mA ← material e A
  let mB ← material e B
  match e.get_interaction mA.name mB.name with
  | none => .error .attributeError
  | some mu => .ok mu

/-- solver.py:458-478 `get_friction_coefficient_vector`. -/
def get_friction_coefficient_vector (e : Engine) : Except PyErr (List ℝ) := e.contact_points.mapM (frictionOf e)

/-- solver.py:481-493 `get_largest_penetration_error`. -/
noncomputable def get_largest_penetration_error (e : Engine) : ℝ := -(e.contact_points.foldl (fun p cp => min p cp.g) 0)

/-- solver.py:1107-1124: contacts exist: the velocity change `WJT.dot(sol)`. -/
noncomputable def contactResponse (P : Plugins) (e : Engine) (W : ℕ → ℕ → ℝ) (u_prime : ℕ → ℝ) : Except PyErr (ℕ → ℝ) := do
  let J ← compute_jacobian_matrix e
  let m := e.number_of_nodes * 3
  let WJT : ℕ → ℕ → ℝ := fun r q => ∑ c ∈ Finset.range m, W r c * J q c
  if e.params.use_pre_stabilization then .error .valueError
  else
    let mu ← get_friction_coefficient_vector e
    let b := matVec m J u_prime
    let sol ← P.solve e.contact_points.length J WJT b mu
    return matVec (e.contact_points.length * 4) WJT sol

/-- solver.py:1104-1124: WPc. -/
noncomputable def contactVelocity (P : Plugins) (e : Engine) (W : ℕ → ℕ → ℝ) (u_prime : ℕ → ℝ) : Except PyErr (ℕ → ℝ) :=
  if e.contact_points.length > 0 then contactResponse P e W u_prime else .ok fun _ => 0

open Classical in
/-- solver.py:943-997 `apply_post_stabilization`.  `g` has 3K entries but J has 4K rows: the first product `WJT.dot(x)` of the solver
(gauss_seidel_solver.py:14, 103; jacobi_solver.py:46, 69; or line 981 when no iteration is made) raises ValueError. -/
noncomputable def apply_post_stabilization (e : Engine) : Except PyErr Engine :=
  if ∃ cp ∈ e.contact_points, cp.g < -e.params.min_gap_value ∧ cp.g ≠ 0 then .error .valueError else .ok e

/-- solver.py:1139-1150. -/
noncomputable def postStep (e : Engine) : Except PyErr Engine :=
  if e.params.use_post_stabilization then (if e.contact_points.length > 0 then apply_post_stabilization e else .ok e) else .ok e

/-- `F_tot` (solver.py:1073-1079). -/
noncomputable def totalForces (e : Engine) (B : List SoftBody) (x u : ℕ → V3) : Except PyErr (ℕ → V3) := do
  let Fe ← global_elastic_forces e B x
  let Ft := global_traction_forces B x
  let Fd ← global_damping_forces B u
  let Fext ← global_external_forces e B
  return fun q => Fext q + Fe q + Ft q + Fd q

/-- `self.W.dot(F_tot)` raises ValueError when W was made for another number of nodes (solver.py:1090). -/
noncomputable def applyW (W : ℕ × (ℕ → ℕ → ℝ)) (e : Engine) (F : ℕ → ℝ) : Except PyErr (ℕ → ℝ) :=
  if W.1 = e.number_of_nodes * 3 then .ok (matVec W.1 W.2 F) else .error .valueError

/-- solver.py:1042-1162 `SemiImplicitStepper.step`. -/
noncomputable def step (P : Plugins) (W : ℕ × (ℕ → ℕ → ℝ)) (dt : ℝ) (e : Engine) : Except PyErr Engine := do
  let B ← bodyList e
  let x := apply_boundary_conditions_on_positions (get_position_vector B) B
  let u := apply_boundary_conditions_on_velocities (get_velocity_vector B) B
  let F_tot ← totalForces e B x u
  let WF ← applyW W e (flat F_tot)
  let u_prime : ℕ → ℝ := fun r => flat u r + dt * WF r
  let contact_points ← P.detect e
  let e := { e with contact_points := contact_points }
  let WPc ← contactVelocity P e W.2 u_prime
  let u_prime := apply_boundary_conditions_on_velocities (unflat u_prime) B
  let u : ℕ → V3 := fun q => u_prime q + unflat WPc q
  let u := apply_boundary_conditions_on_velocities u B
  let x : ℕ → V3 := fun q => x q + dt • u q
  let x := apply_boundary_conditions_on_positions x B
  let e := set_position_vector x (set_velocity_vector u e)
  let e ← postStep e
  return { e with params := { e.params with time_stamp := e.params.time_stamp + 1 } }

open Classical in
/-- api.py:401-404: one trip of the loop of `simulate`; the state is the engine and `T_left`. -/
noncomputable def simTrip (P : Plugins) (W : ℕ × (ℕ → ℕ → ℝ)) : LoopStep (Engine × ℝ) := fun s =>
  if s.2 = 0 then .ok none
  else
    let dt := min s.2 s.1.params.time_step
    match step P W dt s.1 with
    | .error e => .error e
    | .ok e => .ok (some (e, s.2 - dt))

/-- api.py:398-399 with solver.py:1034-1040: the stepper of the engine, made at the first call. -/
noncomputable def getStepper (e : Engine) : Except PyErr (ℕ × (ℕ → ℕ → ℝ)) :=
  match e.stepper with
  | some W => .ok W
  | none => (compute_inverse_mass_matrix e).map fun W => (e.number_of_nodes * 3, W)

open Classical in
/-- api.py:389-404 `simulate`. -/
noncomputable def simulate (P : Plugins) (e : Engine) (T : ℝ) : Except PyErr Engine :=
  if T ≤ 0 then .error .valueError
  else do
    let W ← getStepper e
    let s ← whileLoop (simTrip P W) ({ e with stepper := some W }, T)
    return s.1

/-- solver.py:838-870 `compute_kinetic_energy`. -/
noncomputable def compute_kinetic_energy (e : Engine) : Except PyErr ℝ := do
  let B ← bodyList e
  B.foldlM (fun kinetic b =>
    if b.is_fixed then .ok kinetic
    else do
      let m ← material e b
      return kinetic + body_kinetic_energy b.T b.vol0 m.rho b.u) 0

/-- solver.py:873-905 `compute_potential_energy`. -/
noncomputable def compute_potential_energy (e : Engine) : Except PyErr ℝ := do
  let B ← bodyList e
  B.foldlM (fun potential b =>
    if b.is_fixed then .ok potential
    else do
      let m ← material e b
      return potential + body_potential_energy b.T b.vol0 m.rho b.gravity b.x) 0

/-- solver.py:929-941: the elastic energy of one body. -/
noncomputable def bodyElasticEnergy (e : Engine) (b : SoftBody) : Except PyErr ℝ := do
  let F ← compute_deformation_gradient b.x b.T b.invD0
  let m ← material e b
  let lambda_in ← Mech.first_lame m.E m.nu
  let mu_in ← Mech.second_lame m.E m.nu
  Soft.compute_elastic_energy b.vol0 F lambda_in mu_in m.energy_density

/-- solver.py:908-942 `compute_elastic_energy`. -/
noncomputable def global_elastic_energy (e : Engine) : Except PyErr ℝ := do
  let B ← bodyList e
  B.foldlM (fun elastic b =>
    if b.is_fixed then .ok elastic
    else do
      let E ← bodyElasticEnergy e b
      return elastic + E) 0

end Verif.Soft
