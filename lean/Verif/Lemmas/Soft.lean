import Verif.Model.SoftFem
import Verif.Lemmas.Quaternion
import Verif.Lemmas.Vec
import Mathlib.Algebra.BigOperators.Fin
import Mathlib.Tactic.LinearCombination

/-! Closed forms of the scatter loops of the soft body simulator. -/

namespace Verif

namespace M3

instance : AddCommGroup M3 where
  add_assoc A B C := by simp only [add_def]; ext <;> simp <;> ring
  zero_add A := by simp only [add_def, zero_def]; ext <;> simp
  add_zero A := by simp only [add_def, zero_def]; ext <;> simp
  add_comm A B := by simp only [add_def]; ext <;> simp <;> ring
  neg_add_cancel A := by simp only [add_def, zero_def, neg_def]; ext <;> simp
  sub_eq_add_neg A B := by simp only [add_def, sub_def, neg_def]; ext <;> simp <;> ring
  nsmul := nsmulRec
  zsmul := zsmulRec

theorem mulVec_add (A : M3) (v w : V3) : A.mulVec (v + w) = A.mulVec v + A.mulVec w := by
  ext <;> simp [mulVec] <;> ring
theorem mulVec_sub (A : M3) (v w : V3) : A.mulVec (v - w) = A.mulVec v - A.mulVec w := by
  ext <;> simp [mulVec] <;> ring
theorem mulVec_zero (A : M3) : A.mulVec 0 = 0 := by ext <;> simp [mulVec]
theorem add_mulVec (A B : M3) (v : V3) : (A + B).mulVec v = A.mulVec v + B.mulVec v := by
  ext <;> simp [mulVec] <;> ring
theorem zero_mulVec (v : V3) : (0 : M3).mulVec v = 0 := by ext <;> simp [mulVec]
theorem mulVec_smul (A : M3) (s : ℝ) (v : V3) : A.mulVec (s • v) = s • A.mulVec v := by
  ext <;> simp [mulVec] <;> ring
theorem smul_mulVec (A : M3) (s : ℝ) (v : V3) : (s • A).mulVec v = s • A.mulVec v := by
  ext <;> simp [mulVec] <;> ring
theorem identity_mulVec (v : V3) : M3.identity.mulVec v = v := by ext <;> simp [mulVec, identity]
theorem mul_mulVec (A B : M3) (v : V3) : (A.mul B).mulVec v = A.mulVec (B.mulVec v) := by
  ext <;> simp [mulVec, mul] <;> ring
theorem mul_assoc' (A B C : M3) : (A.mul B).mul C = A.mul (B.mul C) := by
  ext <;> simp [mul] <;> ring
theorem mul_identity (A : M3) : A.mul M3.identity = A := by ext <;> simp [mul, identity]
theorem identity_mul (A : M3) : M3.identity.mul A = A := by ext <;> simp [mul, identity]
theorem transpose_mul' (A B : M3) : (A.mul B).transpose = B.transpose.mul A.transpose := by
  ext <;> simp [mul, transpose] <;> ring
theorem det_mul' (A B : M3) : (A.mul B).det = A.det * B.det := by simp [det, mul]; ring

end M3

namespace Soft

open M3

variable {n K : ℕ}

theorem addAt_apply {A : Type*} [AddCommGroup A] (y : Fin n → A) (i v : Fin n) (a : A) :
    addAt y i a v = y v + if i = v then a else 0 := by
  unfold addAt
  by_cases h : i = v
  · subst h; simp
  · rw [Function.update_of_ne (Ne.symm h), if_neg h, add_zero]

/-- A loop whose every trip adds c e v to entry v. -/
theorem foldl_add {ι J : Type*} {A : Type*} [AddCommGroup A] (step : (J → A) → ι → J → A) (c : ι → J → A)
    (h : ∀ y e v, step y e v = y v + c e v) (L : List ι) (y : J → A) (v : J) :
    L.foldl step y v = y v + (L.map fun e => c e v).sum := by
  induction L generalizing y with
  | nil => simp
  | cons e L ih => rw [List.foldl_cons, ih, h, List.map_cons, List.sum_cons, add_assoc]

theorem foldl_finRange_add {m : ℕ} {J : Type*} {A : Type*} [AddCommGroup A] (step : (J → A) → Fin m → J → A)
    (c : Fin m → J → A) (h : ∀ y e v, step y e v = y v + c e v) (y : J → A) (v : J) :
    (List.finRange m).foldl step y v = y v + ∑ e, c e v := by
  rw [foldl_add step c h, Fin.sum_univ_def]

theorem prod_mat_vec_apply (T : Fin K → Fin 4 → Fin n) (A : Fin K → Fin 4 → Fin 4 → M3) (x : Fin n → V3) (v : Fin n) :
    prod_mat_vec T A x v = ∑ e, ∑ i, ∑ j, if T e i = v then (A e i j).mulVec (x (T e j)) else 0 := by
  unfold prod_mat_vec
  rw [foldl_finRange_add _ (fun e v => ∑ i, ∑ j, if T e i = v then (A e i j).mulVec (x (T e j)) else 0)]
  · simp
  · intro y e v
    rw [foldl_finRange_add _ (fun i v => ∑ j, if T e i = v then (A e i j).mulVec (x (T e j)) else 0)]
    intro y i v
    rw [foldl_finRange_add _ (fun j v => if T e i = v then (A e i j).mulVec (x (T e j)) else 0)]
    intro y j v
    rw [addAt_apply]

theorem gravity_apply (T : Fin K → Fin 4 → Fin n) (vol0 : Fin K → ℝ) (rho : ℝ) (g : V3) (v : Fin n) :
    compute_gravity_forces T vol0 rho g v = ∑ e, ∑ i, if T e i = v then (rho * vol0 e / 4) • g else 0 := by
  unfold compute_gravity_forces
  rw [foldl_finRange_add _ (fun e v => ∑ i, if T e i = v then (rho * vol0 e / 4) • g else 0)]
  · simp
  · intro y e v
    rw [show (4.0 : ℝ) = 4 by norm_num]
    simp only [addAt_apply, Fin.sum_univ_four]
    abel

/-- A fold in `Except` whose every trip adds c e v. -/
theorem foldlM_add {ι J S : Type*} {A : Type*} [AddCommGroup A] (get : ι → Except PyErr S) (c : S → ι → J → A)
    (step : (J → A) → ι → Except PyErr (J → A))
    (h : ∀ y e y', step y e = .ok y' ↔ ∃ s, get e = .ok s ∧ y' = fun v => y v + c s e v) (L : List ι) (y y' : J → A) :
    L.foldlM step y = .ok y' ↔ ∃ s : List S, L.mapM get = .ok s ∧
      y' = fun v => y v + ((L.zip s).map fun p => c p.2 p.1 v).sum := by
  induction L generalizing y with
  | nil =>
    constructor
    · intro hh
      simp only [List.foldlM_nil, pure, Except.pure, Except.ok.injEq] at hh
      exact ⟨[], rfl, by subst hh; simp⟩
    · rintro ⟨s, hs, rfl⟩
      simp [pure, Except.pure]
  | cons e L ih =>
    rw [List.foldlM_cons, List.mapM_cons]
    cases hst : step y e with
    | error er =>
      have hg : ∀ s, get e ≠ .ok s := fun s hs => by
        have := (h y e _).2 ⟨s, hs, rfl⟩
        rw [hst] at this; cases this
      cases hge : get e with
      | ok s => exact absurd hge (hg s)
      | error _ => simp [bind, Except.bind]
    | ok y1 =>
      obtain ⟨s0, hs0, hy1⟩ := (h y e y1).1 hst
      rw [hs0]
      simp only [bind, Except.bind, pure, Except.pure]
      rw [ih]
      cases hL : L.mapM get with
      | error _ => simp
      | ok sl =>
        simp only [Except.ok.injEq, exists_eq_left']
        rw [hy1]
        simp [List.zip_cons_cons, add_assoc]

theorem mapM_finRange_ok {S : Type*} {m : ℕ} (get : Fin m → Except PyErr S) (s : List S) :
    (List.finRange m).mapM get = .ok s ↔ ∃ f : Fin m → S, (∀ e, get e = .ok (f e)) ∧ s = (List.finRange m).map f := by
  constructor
  · intro h
    have key : ∀ (L : List (Fin m)) (s : List S), L.mapM get = .ok s → ∀ e ∈ L, ∃ a, get e = .ok a := by
      intro L
      induction L with
      | nil => simp
      | cons a L ih =>
        intro s h e he
        rw [List.mapM_cons] at h
        cases hg : get a with
        | error _ => rw [hg] at h; cases h
        | ok b =>
          rw [hg] at h
          cases hL : L.mapM get with
          | error _ => rw [hL] at h; cases h
          | ok l =>
            rcases List.mem_cons.1 he with rfl | he
            · exact ⟨b, hg⟩
            · exact ih l hL e he
    choose f hf using fun e => key _ _ h e (List.mem_finRange e)
    refine ⟨f, hf, ?_⟩
    have : ∀ L : List (Fin m), L.mapM get = .ok (L.map f) := by
      intro L
      induction L with
      | nil => rfl
      | cons a L ih => rw [List.mapM_cons, hf, ih]; rfl
    rw [this] at h
    cases h; rfl
  · rintro ⟨f, hf, rfl⟩
    have : ∀ L : List (Fin m), L.mapM get = .ok (L.map f) := by
      intro L
      induction L with
      | nil => rfl
      | cons a L ih => rw [List.mapM_cons, hf, ih]; rfl
    exact this _

theorem zip_self_sum {ι S A : Type*} [AddCommGroup A] (L : List ι) (f : ι → S) (g : ι × S → A) :
    ((L.zip (L.map f)).map g).sum = (L.map fun e => g (e, f e)).sum := by
  induction L with
  | nil => rfl
  | cons a L ih => simp [ih]

/-- What `compute_elastic_forces` returns. -/
theorem elastic_iff (T : Fin K → Fin 4 → Fin n) (gradN0 : Fin K → Fin 4 → V3) (F : Fin K → M3) (lam mu : ℝ)
    (pk1 : M3 → ℝ → ℝ → Except PyErr M3) (Fe : Fin n → V3) :
    compute_elastic_forces T gradN0 F lam mu pk1 = .ok Fe ↔ ∃ P : Fin K → M3, (∀ e, pk1 (F e) lam mu = .ok (P e)) ∧
      ∀ v, Fe v = ∑ e, ∑ i, if T e i = v then (P e).mulVec (gradN0 e i) else 0 := by
  unfold compute_elastic_forces
  rw [foldlM_add (fun e => pk1 (F e) lam mu) (fun P e v => ∑ i, if T e i = v then P.mulVec (gradN0 e i) else 0)]
  · constructor
    · rintro ⟨s, hs, rfl⟩
      obtain ⟨f, hf, rfl⟩ := (mapM_finRange_ok _ _).1 hs
      refine ⟨f, hf, fun v => ?_⟩
      dsimp only
      rw [zip_self_sum, Fin.sum_univ_def]
      exact zero_add _
    · rintro ⟨P, hP, hv⟩
      refine ⟨_, (mapM_finRange_ok _ _).2 ⟨P, hP, rfl⟩, funext fun v => ?_⟩
      rw [zip_self_sum, hv, Fin.sum_univ_def]
      exact (zero_add _).symm
  · intro y e y'
    unfold elasticStep
    cases pk1 (F e) lam mu with
    | error _ => simp [bind, Except.bind]
    | ok P =>
      simp only [bind, Except.bind, pure, Except.pure, Except.ok.injEq, exists_eq_left']
      constructor
      · rintro rfl
        funext v
        simp only [addAt_apply, Fin.sum_univ_four]
        abel
      · rintro rfl
        funext v
        simp only [addAt_apply, Fin.sum_univ_four]
        abel

theorem tabulateM_ok {A : Type*} [Inhabited A] (f : Fin K → Except PyErr A) (g : Fin K → A) :
    tabulateM f = .ok g ↔ ∀ e, f e = .ok (g e) := by
  unfold tabulateM
  have key : ∀ (L : List (Fin K)) (out g : Fin K → A), L.Nodup → (L.foldlM (fun out e => do
      let a ← f e
      return Function.update out e a) out = .ok g ↔ (∀ e ∈ L, f e = .ok (g e)) ∧ ∀ e, e ∉ L → g e = out e) := by
    intro L
    induction L with
    | nil =>
      intro out g _
      simp only [List.foldlM_nil, pure, Except.pure, Except.ok.injEq, List.not_mem_nil, false_imp_iff, implies_true, true_and,
        not_false_eq_true, true_imp_iff]
      exact ⟨fun h e => by rw [h], fun h => funext fun e => (h e).symm⟩
    | cons a L ih =>
      intro out g hn
      rw [List.nodup_cons] at hn
      rw [List.foldlM_cons]
      cases ha : f a with
      | error er =>
        simp only [bind, Except.bind]
        constructor
        · intro h; cases h
        · intro h; have := h.1 a (by simp); rw [ha] at this; cases this
      | ok b =>
        simp only [bind, Except.bind, pure, Except.pure]
        have := ih (Function.update out a b) g hn.2
        simp only [bind, Except.bind, pure, Except.pure] at this
        rw [this]
        constructor
        · rintro ⟨h1, h2⟩
          have hga : g a = b := by rw [h2 a hn.1]; simp
          refine ⟨?_, ?_⟩
          · intro e he
            rcases List.mem_cons.1 he with rfl | he
            · rw [ha, hga]
            · exact h1 e he
          · intro e he
            rw [List.mem_cons, not_or] at he
            rw [h2 e he.2, Function.update_of_ne he.1]
        · rintro ⟨h1, h2⟩
          have hga : g a = b := by
            have := h1 a (by simp); rw [ha] at this; cases this; rfl
          refine ⟨fun e he => h1 e (by simp [he]), fun e he => ?_⟩
          by_cases h : e = a
          · subst h; simp [hga]
          · rw [h2 e (by simp [h, he]), Function.update_of_ne h]
  rw [key _ _ _ (List.nodup_finRange K)]
  simp

end Soft

namespace M3

theorem toMat_one_mul_comm {A B : M3} (h : A.mul B = M3.identity) : B.mul A = M3.identity := by
  apply M3.toMat_injective
  have h' := congrArg M3.toMat h
  rw [M3.toMat_mul, M3.toMat_identity] at *
  exact mul_eq_one_comm.1 h'

theorem inv_ok {A B : M3} (h : inv A = .ok B) : A.det ≠ 0 ∧ A.mul B = M3.identity ∧ B.mul A = M3.identity := by
  unfold inv at h
  by_cases hd : A.det = 0
  · rw [if_pos hd] at h; cases h
  rw [if_neg hd] at h
  cases h
  have key : A.mul (make_from_cols (cramer A ⟨1, 0, 0⟩) (cramer A ⟨0, 1, 0⟩) (cramer A ⟨0, 0, 1⟩)) = M3.identity := by
    have h1 := mulVec_cramer hd ⟨1, 0, 0⟩
    have h2 := mulVec_cramer hd ⟨0, 1, 0⟩
    have h3 := mulVec_cramer hd ⟨0, 0, 1⟩
    generalize cramer A ⟨1, 0, 0⟩ = a at *
    generalize cramer A ⟨0, 1, 0⟩ = b at *
    generalize cramer A ⟨0, 0, 1⟩ = c at *
    simp only [mulVec, V3.mk.injEq] at h1 h2 h3
    ext <;> simp only [mul, make_from_cols, M3.identity] <;> grind
  exact ⟨hd, key, toMat_one_mul_comm key⟩

theorem inv_exists {A : M3} (h : A.det ≠ 0) : ∃ B, inv A = .ok B := ⟨_, if_neg h⟩

theorem inv_eq {A B : M3} (h : A.mul B = M3.identity) : inv A = .ok B := by
  have hd : A.det ≠ 0 := by
    intro h0
    have := congrArg det h
    rw [det_mul', h0, zero_mul] at this
    simp [det, M3.identity] at this
  obtain ⟨C, hC⟩ := inv_exists hd
  obtain ⟨-, -, h2⟩ := inv_ok hC
  have : C = B := by
    rw [← mul_identity C, ← h, ← mul_assoc', h2, identity_mul]
  rw [hC, this]

end M3

end Verif
