import Verif.Model.RigidBody

/-! Model of `rainbow/simulators/prox_rigid_bodies/constraints/contacts.py`, `hinges.py`, `post_stabilization.py`.
The loops of `sweep` are in Model/ProxSolver.lean. -/

namespace Verif.Rigid

open Matrix ProxSolver

variable {N : ℕ}

/-- `sparse.csr_matrix((data, (row, col)))`: entries given more than once are added up. -/
def csr {R C : Type} [DecidableEq R] [DecidableEq C] (data : List (R × C × ℝ)) : Matrix R C ℝ :=
  fun i j => (data.map fun e => if e.1 = i ∧ e.2.1 = j then e.2.2 else 0).sum

/-- contacts.py:159-182, hinges.py:152-176: the twelve entries written for one row: linear and angular part of body A,
then linear and angular part of body B. -/
def rowEntries {R : Type} (row : R) (A B : Fin N) (Av Aw Bv Bw : V3) : List (R × Vel N × ℝ) :=
  [(row, (A, 0), Av.x), (row, (A, 1), Av.y), (row, (A, 2), Av.z),
   (row, (A, 3), Aw.x), (row, (A, 4), Aw.y), (row, (A, 5), Aw.z),
   (row, (B, 0), Bv.x), (row, (B, 1), Bv.y), (row, (B, 2), Bv.z),
   (row, (B, 3), Bw.x), (row, (B, 4), Bw.y), (row, (B, 5), Bw.z)]

/-- contacts.py:131-182: the entries of contact k. -/
noncomputable def contactEntries {K : ℕ} (bodies : Fin N → RigidBody) (k : Fin K) (cp : ContactPoint N) :
    List ((Fin K × Fin 4) × Vel N × ℝ) :=
  let rA := cp.p - (bodies cp.bodyA).r
  let rB := cp.p - (bodies cp.bodyB).r
  let (vs, vt, vn) := V3.make_orthonormal_vectors cp.n
  let JA_v : Fin 4 → V3 := ![-vn, -vs, -vt, -V3.zero]
  let JA_w : Fin 4 → V3 := ![-V3.cross rA vn, -V3.cross rA vs, -V3.cross rA vt, -vn]
  let JB_v : Fin 4 → V3 := ![vn, vs, vt, V3.zero]
  let JB_w : Fin 4 → V3 := ![V3.cross rB vn, V3.cross rB vs, V3.cross rB vt, vn]
  (List.finRange 4).flatMap fun i => rowEntries (k, i) cp.bodyA cp.bodyB (JA_v i) (JA_w i) (JB_v i) (JB_w i)

/-- contacts.py:110-187 `_compute_jacobian_matrix`. -/
noncomputable def contactJacobian (bodies : Fin N → RigidBody) (cps : List (ContactPoint N)) :
    Matrix (Fin cps.length × Fin 4) (Vel N) ℝ :=
  csr ((List.finRange cps.length).flatMap fun k => contactEntries bodies k (cps.get k))

open Classical in
/-- contacts.py:189-220 `_compute_error_vector`. -/
noncomputable def contactError (p : Params) (dt : ℝ) (cps : List (ContactPoint N))
    (v : Fin cps.length × Fin 4 → ℝ) : Fin cps.length × Fin 4 → ℝ :=
  if p.use_pre_stabilization = false then 0
  else
    let rate := p.gap_reduction / dt
    let upper := -p.max_gap_value / dt
    let lower := -p.min_gap_value
    fun i => if i.2 = 0 ∧ (cps.get i.1).g < lower ∧ v (i.1, 0) ≤ 0 then max upper (rate * (cps.get i.1).g) else 0

open Classical in
/-- contacts.py:223-235 `get_largest_penetration`. -/
noncomputable def get_largest_penetration (cps : List (ContactPoint N)) : ℝ :=
  -(cps.foldl (fun gap cp => min gap cp.g) 0.0)

/-- contacts.py:238-256 `_get_friction_coefficient_vector`: the list of the `mu[k]` (an exception of `get_interaction`
is passed on). -/
def frictionVector (L : SurfacesInteractionLibrary) (bodies : Fin N → RigidBody) (cps : List (ContactPoint N)) :
    Except PyErr (List ℝ) :=
  cps.mapM fun cp => do
    let behavior ← L.get_interaction (bodies cp.bodyA).material (bodies cp.bodyB).material
    return behavior.mu.x

/-- contacts.py:259-287 `_get_restitution_vector`: the entries 4k; the others are zero. -/
def restitutionVector (L : SurfacesInteractionLibrary) (p : Params) (bodies : Fin N → RigidBody)
    (cps : List (ContactPoint N)) : Except PyErr (List ℝ) :=
  if p.use_bounce = false then .ok (cps.map fun _ => 0)
  else cps.mapM fun cp => do
    let behavior ← L.get_interaction (bodies cp.bodyA).material (bodies cp.bodyB).material
    return behavior.epsilon

/-- What `Contacts.initialize` leaves in the object: J, WJT, b (in `data`), g, e and mu. -/
structure ContactProblem (N K : ℕ) where
  data : Data K 4 (Vel N)
  g : Fin K × Fin 4 → ℝ
  e : Fin K × Fin 4 → ℝ
  mu : Fin K → ℝ

/-- contacts.py:31-55 `initialize`.  (`diag`, `r`, `x`, `sol` are set by `Data.problem`.) -/
noncomputable def Contacts.initialize (dt : ℝ) (s : StateStorage N) (w : World N) :
    Except PyErr (ContactProblem N w.contact_points.length) := do
  let cps := w.contact_points
  let J := contactJacobian w.bodies cps
  let WJT := s.W * Jᵀ
  let v := J *ᵥ s.u
  let g := contactError w.params dt cps v
  let el ← restitutionVector w.surfaces_interactions w.params w.bodies cps
  let mul ← frictionVector w.surfaces_interactions w.bodies cps
  let e : Fin cps.length × Fin 4 → ℝ := fun i => if i.2 = 0 then el.getD i.1 0 else 0
  let b := (1 + e) * v + J *ᵥ (dt • s.delta_u_ext) + g
  return ⟨⟨J, WJT, b⟩, g, e, fun k => mul.getD k 0⟩

/-! ### hinges.py -/

/-- hinges.py:133-176: the entries of hinge k. -/
noncomputable def hingeEntries {K : ℕ} (bodies : Fin N → RigidBody) (k : Fin K) (h : Hinge N) :
    List ((Fin K × Fin 5) × Vel N × ℝ) :=
  let arm_p := Quat.rotate (bodies h.parent).q h.arm_p
  let arm_c := Quat.rotate (bodies h.child).q h.arm_c
  let n_p := Quat.rotate (bodies h.parent).q h.axis_p
  let (t_p, b_p, _) := V3.make_orthonormal_vectors n_p
  let I := M3.identity
  let Sp := -M3.star arm_p
  let nI := -M3.identity
  let Sc := M3.star arm_c
  let JA_v : Fin 5 → V3 := ![I.row0, I.row1, I.row2, V3.zero, V3.zero]
  let JA_w : Fin 5 → V3 := ![Sp.row0, Sp.row1, Sp.row2, t_p, b_p]
  let JB_v : Fin 5 → V3 := ![nI.row0, nI.row1, nI.row2, V3.zero, V3.zero]
  let JB_w : Fin 5 → V3 := ![Sc.row0, Sc.row1, Sc.row2, -t_p, -b_p]
  (List.finRange 5).flatMap fun i => rowEntries (k, i) h.parent h.child (JA_v i) (JA_w i) (JB_v i) (JB_w i)

/-- hinges.py:104-185 `_compute_jacobian_matrix`. -/
noncomputable def hingeJacobian (bodies : Fin N → RigidBody) (hs : List (Hinge N)) :
    Matrix (Fin hs.length × Fin 5) (Vel N) ℝ :=
  csr ((List.finRange hs.length).flatMap fun k => hingeEntries bodies k (hs.get k))

/-- hinges.py:201-214: the five error entries of one hinge before scaling. -/
noncomputable def hingeGap (bodies : Fin N → RigidBody) (h : Hinge N) : Fin 5 → ℝ :=
  let r_p := Quat.rotate (bodies h.parent).q h.arm_p + (bodies h.parent).r
  let r_c := Quat.rotate (bodies h.child).q h.arm_c + (bodies h.child).r
  let n_p := Quat.rotate (bodies h.parent).q h.axis_p
  let (t_p, b_p, n_p) := V3.make_orthonormal_vectors n_p
  let n_c := Quat.rotate (bodies h.child).q h.axis_c
  let u := V3.cross n_p n_c
  let d := r_c - r_p
  ![d.x, d.y, d.z, V3.dot t_p u, V3.dot b_p u]

/-- hinges.py:188-218 `_compute_error_vector`. -/
noncomputable def hingeError (p : Params) (dt : ℝ) (bodies : Fin N → RigidBody) (hs : List (Hinge N)) :
    Fin hs.length × Fin 5 → ℝ :=
  if p.use_pre_stabilization = false then 0
  else
    let rate := p.gap_reduction / dt
    fun i => hingeGap bodies (hs.get i.1) i.2 * rate

/-- hinges.py:28-48 `initialize`. -/
noncomputable def Hinges.initialize (dt : ℝ) (s : StateStorage N) (w : World N) : Data w.hinges.length 5 (Vel N) :=
  let J := hingeJacobian w.bodies w.hinges
  let WJT := s.W * Jᵀ
  let g := hingeError w.params dt w.bodies w.hinges
  ⟨J, WJT, J *ᵥ s.u + J *ᵥ (dt • s.delta_u_ext) + g⟩

/-! ### post_stabilization.py -/

open Classical in
/-- post_stabilization.py:88-106 `_compute_error_vector`. -/
noncomputable def postError (p : Params) (cps : List (ContactPoint N)) : Fin cps.length × Fin 4 → ℝ :=
  fun i => if i.2 = 0 ∧ (cps.get i.1).g < -p.min_gap_value then (cps.get i.1).g else 0

/-- post_stabilization.py:18-37: the projection problem reuses J and WJT of the contact problem; its right-hand side is
the error vector. -/
noncomputable def PostStabilization.initialize (w : World N) (D : Data w.contact_points.length 4 (Vel N)) :
    Data w.contact_points.length 4 (Vel N) := { D with b := postError w.params w.contact_points }

end Verif.Rigid
