import Verif.Model.Constraints
import Verif.Lemmas.Quaternion
import Verif.Spec.Rigid

/-! The assembled Jacobians in closed form. -/

namespace Verif.Rigid

open Matrix

variable {N K B : ℕ}

/-- Row of a two-body constraint. -/
def pairRow (A Bd : Fin N) (av aw bv bw : V3) : Vel N → ℝ := fun j =>
  (if j.1 = A then six av aw j.2 else 0) + (if j.1 = Bd then six bv bw j.2 else 0)

theorem csr_append {R C : Type} [DecidableEq R] [DecidableEq C] (d e : List (R × C × ℝ)) :
    csr (d ++ e) = csr d + csr e := by
  funext i j
  simp [csr]

theorem csr_flatMap {R C ι : Type} [DecidableEq R] [DecidableEq C] (l : List ι) (f : ι → List (R × C × ℝ)) :
    csr (l.flatMap f) = (l.map fun k => csr (f k)).sum := by
  induction l with
  | nil => funext i j; simp [csr]
  | cons a l ih => rw [List.flatMap_cons, csr_append, ih]; simp

theorem list_sum_apply {R C ι : Type} (l : List ι) (f : ι → Matrix R C ℝ) (i : R) (j : C) :
    (l.map f).sum i j = (l.map fun k => f k i j).sum := by
  induction l with
  | nil => simp
  | cons a l ih => simp [ih]

theorem csr_rowEntries {R : Type} [DecidableEq R] (row i : R) (A Bd : Fin N) (av aw bv bw : V3) (j : Vel N) :
    csr (rowEntries row A Bd av aw bv bw) i j = if row = i then pairRow A Bd av aw bv bw j else 0 := by
  obtain ⟨n, c⟩ := j
  by_cases hr : row = i
  · rw [if_pos hr]
    simp only [csr, rowEntries, pairRow, List.map_cons, List.map_nil, List.sum_cons, List.sum_nil, hr, true_and,
      Prod.mk.injEq]
    by_cases hA : A = n <;> by_cases hB : Bd = n <;>
      simp only [hA, hB, true_and, false_and, if_true, if_false, eq_comm (a := n)] <;> fin_cases c <;>
      simp [six]
  · rw [if_neg hr]
    simp [csr, rowEntries, hr]

theorem csr_assembled (A Bd : Fin K → Fin N) (av aw bv bw : Fin K → Fin B → V3) (k : Fin K) (i : Fin B) (j : Vel N) :
    csr ((List.finRange K).flatMap fun k => (List.finRange B).flatMap fun i =>
      rowEntries (k, i) (A k) (Bd k) (av k i) (aw k i) (bv k i) (bw k i)) (k, i) j =
    pairRow (A k) (Bd k) (av k i) (aw k i) (bv k i) (bw k i) j := by
  rw [csr_flatMap, list_sum_apply]
  rw [show ((List.finRange K).map fun l => csr ((List.finRange B).flatMap fun i =>
      rowEntries (l, i) (A l) (Bd l) (av l i) (aw l i) (bv l i) (bw l i)) (k, i) j) =
      (List.finRange K).map fun l => if l = k then pairRow (A k) (Bd k) (av k i) (aw k i) (bv k i) (bw k i) j else 0
      from ?_]
  · rw [← List.ofFn_eq_map, List.sum_ofFn]
    simp
  · apply List.map_congr_left
    intro l _
    rw [csr_flatMap, list_sum_apply]
    simp only [csr_rowEntries, Prod.mk.injEq]
    by_cases hl : l = k
    · subst hl
      simp only [true_and, if_true]
      rw [← List.ofFn_eq_map, List.sum_ofFn]
      simp
    · simp [hl]

theorem pairRow_dot (A Bd : Fin N) (av aw bv bw : V3) (u : Vel N → ℝ) :
    ∑ j, pairRow A Bd av aw bv bw j * u j =
      V3.dot av (lin u A) + V3.dot aw (ang u A) + V3.dot bv (lin u Bd) + V3.dot bw (ang u Bd) := by
  unfold pairRow
  simp only [add_mul, Finset.sum_add_distrib, Fintype.sum_prod_type, ite_mul, zero_mul]
  have h : ∀ (P : Fin N) (a b : V3), ∑ x : Fin N, ∑ y : Fin 6, (if x = P then six a b y * u (x, y) else 0) =
      V3.dot a (lin u P) + V3.dot b (ang u P) := by
    intro P a b
    rw [Finset.sum_eq_single P]
    · simp only [if_true, Fin.sum_univ_six, six, V3.dot, lin, ang]
      simp
      ring
    · intro x _ hx
      simp [hx]
    · simp
  rw [h, h]
  ring

/-- The frame of `make_orthonormal_vectors`. -/
noncomputable def frameS (n : V3) : V3 := (V3.make_orthonormal_vectors n).1
noncomputable def frameT (n : V3) : V3 := (V3.make_orthonormal_vectors n).2.1
noncomputable def frameN (n : V3) : V3 := (V3.make_orthonormal_vectors n).2.2

theorem contactJacobian_row (bodies : Fin N → RigidBody) (cps : List (ContactPoint N)) (k : Fin cps.length)
    (i : Fin 4) (j : Vel N) :
    contactJacobian bodies cps (k, i) j =
      let cp := cps.get k
      let rA := cp.p - (bodies cp.bodyA).r
      let rB := cp.p - (bodies cp.bodyB).r
      pairRow cp.bodyA cp.bodyB
        ((![-frameN cp.n, -frameS cp.n, -frameT cp.n, -V3.zero] : Fin 4 → V3) i)
        ((![-V3.cross rA (frameN cp.n), -V3.cross rA (frameS cp.n), -V3.cross rA (frameT cp.n), -frameN cp.n]
          : Fin 4 → V3) i)
        ((![frameN cp.n, frameS cp.n, frameT cp.n, V3.zero] : Fin 4 → V3) i)
        ((![V3.cross rB (frameN cp.n), V3.cross rB (frameS cp.n), V3.cross rB (frameT cp.n), frameN cp.n]
          : Fin 4 → V3) i) j :=
  csr_assembled (fun k => (cps.get k).bodyA) (fun k => (cps.get k).bodyB) _ _ _ _ k i j

theorem hingeJacobian_row (bodies : Fin N → RigidBody) (hs : List (Hinge N)) (k : Fin hs.length)
    (i : Fin 5) (j : Vel N) :
    hingeJacobian bodies hs (k, i) j =
      let h := hs.get k
      let ap := Quat.rotate (bodies h.parent).q h.arm_p
      let ac := Quat.rotate (bodies h.child).q h.arm_c
      let n := Quat.rotate (bodies h.parent).q h.axis_p
      pairRow h.parent h.child
        ((![⟨1, 0, 0⟩, ⟨0, 1, 0⟩, ⟨0, 0, 1⟩, V3.zero, V3.zero] : Fin 5 → V3) i)
        ((![(-M3.star ap).row0, (-M3.star ap).row1, (-M3.star ap).row2, frameS n, frameT n] : Fin 5 → V3) i)
        ((![(-M3.identity).row0, (-M3.identity).row1, (-M3.identity).row2, V3.zero, V3.zero] : Fin 5 → V3) i)
        ((![(M3.star ac).row0, (M3.star ac).row1, (M3.star ac).row2, -frameS n, -frameT n] : Fin 5 → V3) i) j :=
  csr_assembled (fun k => (hs.get k).parent) (fun k => (hs.get k).child) _ _ _ _ k i j

end Verif.Rigid
