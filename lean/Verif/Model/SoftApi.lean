import Verif.Model.SoftFem
import Verif.Model.Vector3

/-! Model of `rainbow/simulators/prox_soft_bodies/types.py` and `api.py` (without `simulate`, see SoftStep.lean).

A material is shared by reference in Python: bodies hold its name here and look it up, which is the same because an entry of
`engine.materials` is never replaced.  Left out: signed distance grids, bounding volumes, the hash grid, mesh neighbours and owners, which
only collision detection reads. -/

namespace Verif.Soft

/-- types.py:140-151 `MaterialDescription`; the constitutive model is the pair of its static methods. -/
structure Material where
  pk1_stress : M3 → ℝ → ℝ → Except PyErr M3
  energy_density : M3 → ℝ → ℝ → Except PyErr ℝ
  c : ℝ
  rho : ℝ
  E : ℝ
  nu : ℝ
  name : String

/-- types.py:145-151 `MaterialDescription.__init__`. -/
noncomputable def Material.init (eigh : M3 → V3 × M3) : Material :=
  ⟨Mech.COR.pk1_stress eigh, Mech.COR.energy_density eigh, 0, 1000, 10 ^ 5, 0.3, "default"⟩

/-- types.py:154-196 `SoftBody` with n nodes and K tetrahedra. -/
structure SoftBody where
  n : ℕ
  K : ℕ
  name : String
  idx : ℕ
  offset : ℕ
  T : Fin K → Fin 4 → Fin n
  surface : List (Fin n × Fin n × Fin n)
  x0 : Fin n → V3
  vol0 : Fin K → ℝ
  gradN0 : Fin K → Fin 4 → V3
  invD0 : Fin K → M3
  dirichlet_conditions : List (Fin n × V3)
  traction_conditions : List (TractionCondition n)
  M_array : Option (Fin K → Fin 4 → Fin 4 → M3)
  C_array : Option (Fin K → Fin 4 → Fin 4 → M3)
  x : Fin n → V3
  u : Fin n → V3
  material_description : Option String
  gravity : V3
  is_lumped : Bool
  is_fixed : Bool

/-- A value of `engine.bodies`: a finished body, or the object left behind by a `create_soft_body` that raised (its arrays are None). -/
inductive Slot
  | ready (b : SoftBody)
  | broken

/-- types.py:66-102 `ContactPoint`. -/
structure ContactPoint where
  bodyA : String
  bodyB : String
  idx_tetA : ℕ
  idx_tetB : ℕ
  omegaA : Fin 4 → ℝ
  omegaB : Fin 4 → ℝ
  p : V3
  n : V3
  g : ℝ

/-- types.py:199-264 `Parameters` (the fields read by the code modelled here). -/
structure Params where
  time_step : ℝ
  use_pre_stabilization : Bool
  use_post_stabilization : Bool
  min_gap_value : ℝ
  time_stamp : ℕ

/-- types.py:266-292 `Engine`.  An interaction is its `mu[0]`.  The stepper is its matrix W with its size (solver.py:1030-1040). -/
structure Engine where
  materials : Dict String Material
  surfaces_interactions : Dict (String × String) ℝ
  params : Params
  bodies : Dict String Slot
  contact_points : List ContactPoint
  number_of_nodes : ℕ
  stepper : Option (ℕ × (ℕ → ℕ → ℝ))

/-- types.py:37, 47: `key = (A, B) if A < B else (B, A)`. -/
def interactionKey (A B : String) : String × String := if A < B then (A, B) else (B, A)

namespace Engine

/-- api.py:15-21 `create_engine`. -/
noncomputable def create_engine (eigh : M3 → V3 × M3) : Engine where
  materials := Dict.empty.setItem "default" (Material.init eigh)
  surfaces_interactions := Dict.empty.setItem ("default", "default") 1
  params := ⟨0.001, false, false, 0.001, 0⟩
  bodies := Dict.empty
  contact_points := []
  number_of_nodes := 0
  stepper := none

/-- types.py:32-40 `get_interaction` (None when there is none). -/
def get_interaction (e : Engine) (A B : String) : Option ℝ := e.surfaces_interactions.get? (interactionKey A B)

/-- types.py:42-50 `exist_interaction`. -/
def exist_interaction (e : Engine) (A B : String) : Bool := e.surfaces_interactions.mem (interactionKey A B)

/-- api.py:36-98 `create_soft_body` after the name test, on the mesh (V, T) after `axis_sort` (property C32) and with the result of
`compute_surface` (property C31): the finished body, or the exception of `compute_inverse_D0`. -/
noncomputable def makeBody (e : Engine) (name : String) {n K : ℕ} (V : Fin n → V3) (T : Fin K → Fin 4 → Fin n)
    (surface : List (Fin n × Fin n × Fin n)) : Except PyErr SoftBody := do
  let invD0 ← compute_inverse_D0 V T
  return { n := n, K := K, name := name, idx := e.bodies.len, offset := e.number_of_nodes, T := T, surface := surface, x0 := V,
           vol0 := compute_volumes V T, gradN0 := compute_outward_face_vectors V T, invD0 := invD0,
           dirichlet_conditions := [], traction_conditions := [], M_array := none, C_array := none, x := V, u := fun _ => V3.zero,
           material_description := none, gravity := ⟨0, -9.82, 0⟩, is_lumped := true, is_fixed := false }

/-- api.py:24-98 `create_soft_body`: the engine after the call and the exception, if any.  The body is entered into `engine.bodies` (line
42) before the computations that can raise. -/
noncomputable def create_soft_body (e : Engine) (body_name : String) {n K : ℕ} (V : Fin n → V3) (T : Fin K → Fin 4 → Fin n)
    (surface : List (Fin n × Fin n × Fin n)) : Engine × Option PyErr :=
  if e.bodies.mem body_name then (e, some .runtimeError)
  else
    match makeBody e body_name V T surface with
    | .error err => ({ e with bodies := e.bodies.setItem body_name .broken }, some err)
    | .ok b => ({ e with bodies := e.bodies.setItem body_name (.ready b), number_of_nodes := e.number_of_nodes + n }, none)

/-- `if body_name not in engine.bodies: raise ValueError` and `body = engine.bodies[body_name]`; every use of a body without arrays is
taken to raise TypeError (`set_type` and `set_gravity` do not touch the arrays and succeed in Python, without effect on anything). -/
def findBody (e : Engine) (name : String) : Except PyErr SoftBody :=
  match e.bodies.get? name with
  | none => .error .valueError
  | some .broken => .error .typeError
  | some (.ready b) => .ok b

/-- Assignments to fields of the body object. -/
def putBody (e : Engine) (name : String) (b : SoftBody) : Engine := { e with bodies := e.bodies.setItem name (.ready b) }

open Classical in
/-- api.py:117-121: the loop. -/
noncomputable def dirichletLoop {n : ℕ} (x0 : Fin n → V3) (phi : V3 → ℝ) (L : List (Fin n × V3)) : List (Fin n × V3) :=
  (List.finRange n).foldl (fun L i => if phi (x0 i) ≤ 0 then L ++ [(i, x0 i)] else L) L

/-- api.py:102-121 `create_dirichlet_conditions`. -/
noncomputable def create_dirichlet_conditions (e : Engine) (body_name : String) (phi : V3 → ℝ) : Except PyErr Engine := do
  let b ← e.findBody body_name
  return e.putBody body_name { b with dirichlet_conditions := dirichletLoop b.x0 phi b.dirichlet_conditions }

open Classical in
/-- api.py:141-149: the loop. -/
noncomputable def tractionLoop {n : ℕ} (x0 : Fin n → V3) (surface : List (Fin n × Fin n × Fin n)) (phi : V3 → ℝ) (load : V3)
    (L : List (TractionCondition n)) : List (TractionCondition n) :=
  surface.foldl (fun L t => if phi (x0 t.1) ≤ 0 ∧ phi (x0 t.2.1) ≤ 0 ∧ phi (x0 t.2.2) ≤ 0 then L ++ [⟨t.1, t.2.1, t.2.2, load⟩] else L) L

/-- api.py:124-149 `create_traction_conditions` (the type test on load is left out). -/
noncomputable def create_traction_conditions (e : Engine) (body_name : String) (phi : V3 → ℝ) (load : V3) : Except PyErr Engine := do
  let b ← e.findBody body_name
  return e.putBody body_name { b with traction_conditions := tractionLoop b.x0 b.surface phi load b.traction_conditions }

/-- api.py:152-167 `set_velocity`. -/
def set_velocity (e : Engine) (body_name : String) (v : V3) : Except PyErr Engine := do
  let b ← e.findBody body_name
  return e.putBody body_name { b with u := fun _ => v }

/-- api.py:170-183 `get_material_coordinates`, as rows. -/
def get_material_coordinates (e : Engine) (body_name : String) : Except PyErr (List V3) := do
  let b ← e.findBody body_name
  return (List.finRange b.n).map b.x0

/-- api.py:186-201 `set_spatial_coordinates`. -/
def set_spatial_coordinates (e : Engine) (body_name : String) (x : List V3) : Except PyErr Engine := do
  let b ← e.findBody body_name
  if x.length ≠ b.n then .error .valueError
  else return e.putBody body_name { b with x := fun i => x.getD i 0 }

/-- api.py:204-221 `set_type`; `none` is any string other than "fixed" and "free". -/
def set_type (e : Engine) (body_name : String) (fixed : Option Bool) : Except PyErr Engine := do
  let b ← e.findBody body_name
  match fixed with
  | none => .error .valueError
  | some f => return e.putBody body_name { b with is_fixed := f }

open Classical in
/-- api.py:224-252 `create_surfaces_interaction` (mu a number). -/
noncomputable def create_surfaces_interaction (e : Engine) (material_A material_B : String) (mu : ℝ) : Except PyErr Engine :=
  if ¬ e.materials.mem material_A then .error .valueError
  else if ¬ e.materials.mem material_B then .error .valueError
  else if e.exist_interaction material_A material_B then .error .runtimeError
  else if mu < 0.0 then .error .runtimeError
  else .ok { e with surfaces_interactions := e.surfaces_interactions.setItem (interactionKey material_A material_B) mu }

/-- api.py:255-267 `create_material`. -/
noncomputable def create_material (eigh : M3 → V3 × M3) (e : Engine) (material_name : String) : Except PyErr Engine :=
  if e.materials.mem material_name then .error .valueError
  else .ok { e with materials := e.materials.setItem material_name { Material.init eigh with name := material_name } }

/-- `if material_name not in engine.materials: raise ValueError`, then `engine.materials[material_name]`. -/
def findMaterial (e : Engine) (name : String) : Except PyErr Material :=
  match e.materials.get? name with
  | none => .error .valueError
  | some m => .ok m

/-- api.py:270-295 `set_material`. -/
noncomputable def set_material (e : Engine) (body_name material_name : String) : Except PyErr Engine := do
  let b ← e.findBody body_name
  let material ← e.findMaterial material_name
  return e.putBody body_name { b with
    material_description := some material_name
    M_array := some (compute_mass_element_array material.rho b.vol0 b.is_lumped)
    C_array := some (compute_damping_element_array material.c b.vol0 b.is_lumped) }

/-- Assignments to fields of the material object. -/
def putMaterial (e : Engine) (name : String) (m : Material) : Engine := { e with materials := e.materials.setItem name m }

open Classical in
/-- api.py:298-316 `set_elasticity`. -/
noncomputable def set_elasticity (e : Engine) (material_name : String) (E nu : ℝ) : Except PyErr Engine := do
  let m ← e.findMaterial material_name
  if E ≤ 0 then .error .valueError
  else if nu < 0 ∨ nu > 0.5 then .error .valueError
  else return e.putMaterial material_name { m with E := E, nu := nu }

open Classical in
/-- api.py:319-333 `set_viscosity`. -/
noncomputable def set_viscosity (e : Engine) (material_name : String) (c : ℝ) : Except PyErr Engine := do
  let m ← e.findMaterial material_name
  if c < 0 then .error .valueError
  else return e.putMaterial material_name { m with c := c }

open Classical in
/-- api.py:336-350 `set_mass_density`. -/
noncomputable def set_mass_density (e : Engine) (material_name : String) (rho : ℝ) : Except PyErr Engine := do
  let m ← e.findMaterial material_name
  if rho < 0 then .error .valueError
  else return e.putMaterial material_name { m with rho := rho }

/-- api.py:353-369 `set_constitutive_model` (the attribute tests are left out). -/
def set_constitutive_model (e : Engine) (material_name : String) (pk1_stress : M3 → ℝ → ℝ → Except PyErr M3)
    (energy_density : M3 → ℝ → ℝ → Except PyErr ℝ) : Except PyErr Engine := do
  let m ← e.findMaterial material_name
  return e.putMaterial material_name { m with pk1_stress := pk1_stress, energy_density := energy_density }

/-- api.py:372-386 `set_gravity`. -/
def set_gravity (e : Engine) (body_name : String) (g : V3) : Except PyErr Engine := do
  let b ← e.findBody body_name
  return e.putBody body_name { b with gravity := g }

end Engine

end Verif.Soft
