import Verif.Model.Prox
import Mathlib.LinearAlgebra.Matrix.Notation
import Mathlib.Analysis.Normed.Group.Constructions
import Mathlib.Analysis.Normed.Group.Real

/-! Model of the proximal solvers: `rainbow/simulators/proximal_contact/solver_interface.py`,
`gauss_seidel_solver.py`, `jacobi_solver.py`, and of `rainbow/simulators/prox_rigid_bodies/gauss_seidel_solver.py` with
the `Problem` classes of `prox_rigid_bodies/constraints`.

A vector of length B·K is a function on `Fin K × Fin B`: entry (k, c) is numpy's index B·k + c.  Sparse matrices are
dense Mathlib matrices, `A.dot(v)` is `A *ᵥ v`, `np.linalg.norm(v, np.inf)` is Mathlib's supremum norm (numpy raises
ValueError on an empty vector; modelled).  Timers are left out. -/

namespace Verif.ProxSolver

open Matrix

/-- The data of one constraint problem with K blocks of B rows on the velocity components M
(solver_interface.py:23-40; problem.py and the fields set by `initialize` of contacts.py, hinges.py,
post_stabilization.py). -/
structure Data (K B : ℕ) (M : Type) where
  J : Matrix (Fin K × Fin B) M ℝ
  WJT : Matrix M (Fin K × Fin B) ℝ
  b : Fin K × Fin B → ℝ

variable {K B : ℕ} {M : Type} [Fintype M]

/-- solver_interface.py:47-48, contacts.py:52-53, hinges.py:45-46: `delassus_diag` with zeros replaced by one. -/
noncomputable def diag (D : Data K B M) : Fin K × Fin B → ℝ :=
  open Classical in fun q =>
    let d := ∑ i, D.J q i * D.WJT i q
    if d = 0 then 1 else d

/-- solver_interface.py:43-49 `compute_initial_r_factor`. -/
noncomputable def compute_initial_r_factor (D : Data K B M) : Fin K × Fin B → ℝ := fun q => 0.1 / diag D q

/-- contacts.py:55, hinges.py:48, post_stabilization.py:35: `self.r = 1.0 / self.diag`. -/
noncomputable def initial_r (D : Data K B M) : Fin K × Fin B → ℝ := fun q => 1.0 / diag D q

/-- Write block k of a vector: `x[block] = x_b`. -/
def setBlock (x : Fin K × Fin B → ℝ) (k : Fin K) (xb : Fin B → ℝ) : Fin K × Fin B → ℝ :=
  fun q => if q.1 = k then xb q.2 else x q

/-- `WJT.tocsr()[:, block].dot(delta)`. -/
def blockDot (D : Data K B M) (k : Fin K) (delta : Fin B → ℝ) : M → ℝ :=
  fun i => ∑ c, D.WJT i (k, c) * delta c

/-- gauss_seidel_solver.py:17-45 (also contacts.py:79-117, hinges.py:67-102, post_stabilization.py:55-83): the body of
the loop over the blocks on the pair (x, w).  `prox k z` computes the new block from z_b. -/
noncomputable def gsBlock (D : Data K B M) (prox : Fin K → (Fin B → ℝ) → (Fin B → ℝ)) (r : Fin K × Fin B → ℝ)
    (s : (Fin K × Fin B → ℝ) × (M → ℝ)) (k : Fin K) : (Fin K × Fin B → ℝ) × (M → ℝ) :=
  let x := s.1
  let w := s.2
  let z_b := fun c => x (k, c) - r (k, c) * ((D.J *ᵥ w) (k, c) + D.b (k, c))
  let x_b := prox k z_b
  let delta := fun c => x_b c - x (k, c)
  (setBlock x k x_b, w + blockDot D k delta)

/-- gauss_seidel_solver.py:13-45 `GaussSeidelSolver.sweep`; contacts.py:72-117, hinges.py:60-102 and
post_stabilization.py:48-83 `sweep`. -/
noncomputable def gsSweep (D : Data K B M) (prox : Fin K → (Fin B → ℝ) → (Fin B → ℝ)) (r x : Fin K × Fin B → ℝ) :
    Fin K × Fin B → ℝ :=
  ((List.finRange K).foldl (gsBlock D prox r) (x, D.WJT *ᵥ x)).1

/-- gauss_seidel_solver.py:35-39, contacts.py:96-100: normal force, then friction limited by the new normal force. -/
noncomputable def contactProx {β : Type} (friction : V3 → β → ℝ → V3) (mu : Fin K → β) (k : Fin K)
    (z : Fin 4 → ℝ) : Fin 4 → ℝ :=
  let x_n := max 0.0 (z 0)
  let f := friction ⟨z 1, z 2, z 3⟩ (mu k) x_n
  ![x_n, f.x, f.y, f.z]

/-- post_stabilization.py:71-72: only a normal component. -/
noncomputable def normalProx (_k : Fin K) (z : Fin 4 → ℝ) : Fin 4 → ℝ := ![max 0.0 (z 0), 0, 0, 0]

/-- hinges.py:88: `x_b -= r_b (J w + b)`, no projection. -/
def freeProx (_k : Fin K) (z : Fin 5 → ℝ) : Fin 5 → ℝ := z

/-- jacobi_solver.py:7-39 `sweep_worker` with 46-48/69-71.  Each trip of the prange loop reads and writes only its own
block, and z is computed before the loop, so the result is the pointwise one for every schedule. -/
noncomputable def jacobiSweep {β : Type} (D : Data K 4 M) (friction : V3 → β → ℝ → V3) (mu : Fin K → β)
    (hybrid : Bool) (r x : Fin K × Fin 4 → ℝ) : Fin K × Fin 4 → ℝ :=
  let w := D.WJT *ᵥ x
  let z := fun q => x q - r q * ((D.J *ᵥ w) q + D.b q)
  fun q =>
    let x_n := max 0.0 (z (q.1, 0))
    let x_b_0 := if hybrid then x_n else x (q.1, 0)
    let f := friction ⟨z (q.1, 1), z (q.1, 2), z (q.1, 3)⟩ (mu q.1) x_b_0
    ![x_n, f.x, f.y, f.z] q.2

/-- gauss_seidel_solver.py:65-84: one trip of the prange loop of `sweep_worker` for the contact k = block_start // 4 on
(x, delta_ws). -/
noncomputable def workerTrip {β : Type} (D : Data K 4 M) (friction : V3 → β → ℝ → V3) (mu : Fin K → β)
    (r : Fin K × Fin 4 → ℝ) (w : M → ℝ) (s : (Fin K × Fin 4 → ℝ) × (Fin K → M → ℝ)) (k : Fin K) :
    (Fin K × Fin 4 → ℝ) × (Fin K → M → ℝ) :=
  let x := s.1
  let z_b := fun c => x (k, c) - r (k, c) * ((D.J *ᵥ w) (k, c) + D.b (k, c))
  let x_b := contactProx friction mu k z_b
  let delta := fun c => x_b c - x (k, c)
  (setBlock x k x_b, Function.update s.2 k (blockDot D k delta))

/-- gauss_seidel_solver.py:106-110: `w = w0.copy(); for i in range(block_start // 4): w += delta_ws[i]`. -/
def groupW (w0 : M → ℝ) (delta_ws : Fin K → M → ℝ) (first : Fin K) : M → ℝ :=
  w0 + ∑ i ∈ Finset.univ.filter (fun i => i < first), delta_ws i

/-- gauss_seidel_solver.py:103-122: the loop over the colour groups of `ParallelGaussSeidelSolver.sweep`.  A group is the
list of its contact numbers, in the order the trips of the prange loop happen to run; `color_group[0]` is the first
contact of the stored list, passed separately. -/
noncomputable def parallelSweep {β : Type} (D : Data K 4 M) (friction : V3 → β → ℝ → V3) (mu : Fin K → β)
    (groups : List (Fin K × List (Fin K))) (r x : Fin K × Fin 4 → ℝ) : Fin K × Fin 4 → ℝ :=
  let w0 := D.WJT *ᵥ x
  (groups.foldl (fun s g => g.2.foldl (workerTrip D friction mu r (groupW w0 s.2 g.1)) s) (x, fun _ => 0)).1

/-! ### The outer loop of the proximal_contact package -/

/-- The fields of `engine.params` read by the solvers. -/
structure Params where
  absolute_tolerance : ℝ
  relative_tolerance : ℝ
  nu_reduce : ℝ
  nu_increase : ℝ
  too_small_merit_change : ℝ
  max_iterations : ℕ

/-- What `stats` records about one iteration: "lambda", "residuals" and "reject" (solver_interface.py:63, 97-98). -/
structure Iterate (ι : Type) where
  x : ι → ℝ
  merit : ℝ
  reject : Bool

/-- The mutable state of `SolverInterface.solve`; `last_merit = none` stands for np.Inf. -/
structure State (ι : Type) where
  x : ι → ℝ
  sol : ι → ℝ
  r : ι → ℝ
  last_merit : Option ℝ
  log : List (Iterate ι)

/-- The returned solution and the stats: "lambda"/"residuals"/"reject" (the part written), "iterations", "exitcode". -/
structure Result (ι : Type) where
  sol : ι → ℝ
  log : List (Iterate ι)
  iterations : ℕ
  exitcode : ℕ

/-- solver_interface.py:58, gauss_seidel_solver.py:56 (rigid bodies): `merit > last_merit`. -/
def diverged (merit : ℝ) : Option ℝ → Prop
  | none => False
  | some l => merit > l

/-- solver_interface.py:66: `last_merit - merit < too_small_merit_change`; inf - merit is inf. -/
def tooSlow (p : Params) (merit : ℝ) : Option ℝ → Prop
  | none => False
  | some l => l - merit < p.too_small_merit_change

/-- solver_interface.py:108: `abs(merit - last) < relative_tolerance * last`.  For last = inf the left side is inf and
the right side inf, -inf or nan, so the comparison is false. -/
def relConverged (p : Params) (merit : ℝ) : Option ℝ → Prop
  | none => False
  | some l => |merit - l| < p.relative_tolerance * l

open Classical in
/-- solver_interface.py:133-146: the loop of `solve` with `check_convergence` (86-115) and
`update_r_factor_and_handle_sol_state` (51-70); the first argument counts the remaining iterations. -/
noncomputable def solveLoop {ι : Type} [Fintype ι] (p : Params) (sweep : (ι → ℝ) → (ι → ℝ) → (ι → ℝ)) :
    ℕ → State ι → Result ι
  | 0, s => ⟨s.sol, s.log, p.max_iterations, 0⟩
  | n + 1, s =>
    let x := sweep s.r s.x
    let merit := ‖x - s.sol‖
    if merit < p.absolute_tolerance then ⟨s.sol, s.log ++ [⟨x, merit, false⟩], s.log.length, 1⟩
    else if relConverged p merit s.last_merit then ⟨s.sol, s.log ++ [⟨x, merit, false⟩], s.log.length, 2⟩
    else if diverged merit s.last_merit then
      solveLoop p sweep n
        { x := s.sol, sol := s.sol, r := p.nu_reduce • s.r, last_merit := s.last_merit,
          log := s.log ++ [⟨x, merit, true⟩] }
    else
      solveLoop p sweep n
        { x := x, sol := x, r := if tooSlow p merit s.last_merit then p.nu_increase • s.r else s.r,
          last_merit := some merit, log := s.log ++ [⟨x, merit, false⟩] }

open Classical in
/-- solver_interface.py:117-146 `solve`: x and sol start at zero (35-38), last_merit at infinity (40).  The norm of an
empty vector raises ValueError. -/
noncomputable def solve {ι : Type} [Fintype ι] (p : Params) (sweep : (ι → ℝ) → (ι → ℝ) → (ι → ℝ)) (r0 : ι → ℝ) :
    Except PyErr (Result ι) :=
  if IsEmpty ι ∧ 0 < p.max_iterations then .error .valueError
  else .ok (solveLoop p sweep p.max_iterations ⟨0, 0, r0, none, []⟩)

/-! ### The outer loop of prox_rigid_bodies -/

/-- The mutable part of a `Problem` object (problem.py:33-37).  `last_merit` is its entry of `last_merit_values`
(gauss_seidel_solver.py:41), kept with the problem here. -/
structure PState (ι : Type) where
  x : ι → ℝ
  sol : ι → ℝ
  r : ι → ℝ
  last_merit : Option ℝ

/-- A `Problem` object (problem.py:22-103) whose solution changes a vector with components M: `sweep` reads r and x and
overwrites x; `finalize` is `finalize_solution` as a function of `sol`. -/
structure Prob (M : Type) where
  ι : Type
  [fin : Fintype ι]
  sweep : (ι → ℝ) → (ι → ℝ) → (ι → ℝ)
  finalize : (ι → ℝ) → (M → ℝ)
  st : PState ι

attribute [instance] Prob.fin

open Classical in
/-- gauss_seidel_solver.py:47-75: the body of the loop over the problems for one problem, with `compute_merit_value`,
`change_r_factors`, `rollback_iterate` and `accept_iterate` of problem.py:39-69. -/
noncomputable def PState.step {ι : Type} [Fintype ι] (p : Params) (sweep : (ι → ℝ) → (ι → ℝ) → (ι → ℝ)) (s : PState ι) :
    PState ι :=
  let x := sweep s.r s.x
  let merit := ‖x - s.sol‖
  if diverged merit s.last_merit then
    { x := s.sol, sol := s.sol, r := p.nu_reduce • s.r, last_merit := s.last_merit }
  else
    { x := x, sol := x, r := if tooSlow p merit s.last_merit then p.nu_increase • s.r else s.r,
      last_merit := some merit }

/-- The same on the object. -/
noncomputable def Prob.step (p : Params) (q : Prob M) : Prob M := { q with st := q.st.step p q.sweep }

open Classical in
/-- gauss_seidel_solver.py:63, 75: what the problem contributes to the global merit. -/
noncomputable def Prob.contribution (q : Prob M) : ℝ :=
  let merit := ‖q.sweep q.st.r q.st.x - q.st.sol‖
  if diverged merit q.st.last_merit then q.st.last_merit.getD 0 else merit

/-- gauss_seidel_solver.py:44-75: one iteration over all problems, and the global merit. -/
noncomputable def rigidIteration (p : Params) (Ps : List (Prob M)) : List (Prob M) × ℝ :=
  (Ps.map (Prob.step p), Ps.foldl (fun g q => max g q.contribution) 0)

/-- What `solve` leaves behind: the problems, "residuals" (the part written), "iterations", "exitcode". -/
structure RigidResult (M : Type) where
  problems : List (Prob M)
  residuals : List ℝ
  iterations : ℕ
  exitcode : ℕ

open Classical in
/-- gauss_seidel_solver.py:43-101: the iteration loop; the first argument counts the remaining iterations. -/
noncomputable def rigidLoop (p : Params) : ℕ → List (Prob M) → Option ℝ → List ℝ → RigidResult M
  | 0, Ps, _, res => ⟨Ps, res, p.max_iterations, 0⟩
  | n + 1, Ps, glast, res =>
    let s := rigidIteration p Ps
    if s.2 < p.absolute_tolerance then ⟨s.1, res ++ [s.2], res.length, 1⟩
    else if relConverged p s.2 glast then ⟨s.1, res ++ [s.2], res.length, 2⟩
    else rigidLoop p n s.1 (some s.2) (res ++ [s.2])

open Classical in
/-- gauss_seidel_solver.py:14-101 `solve`.  A problem with no rows makes `compute_merit_value` raise ValueError. -/
noncomputable def rigidSolve (p : Params) (Ps : List (Prob M)) : Except PyErr (RigidResult M) :=
  if (∃ q ∈ Ps, IsEmpty q.ι) ∧ 0 < p.max_iterations then .error .valueError
  else .ok (rigidLoop p p.max_iterations (Ps.map fun q => { q with st := { q.st with last_merit := none } }) none [])

/-- contacts.py:57-64, hinges.py:50-57, post_stabilization.py:39-46 `finalize_solution`. -/
def Data.finalize_solution (D : Data K B M) (sol : Fin K × Fin B → ℝ) : M → ℝ := D.WJT *ᵥ sol

/-- contacts.py:55-58, hinges.py:48-52, post_stabilization.py:35-38: the problem after `initialize`. -/
noncomputable def Data.problem (D : Data K B M) (prox : Fin K → (Fin B → ℝ) → (Fin B → ℝ)) : Prob M where
  ι := Fin K × Fin B
  sweep := gsSweep D prox
  finalize := D.finalize_solution
  st := ⟨0, 0, initial_r D, none⟩

end Verif.ProxSolver
