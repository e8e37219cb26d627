import Verif.Props.IKHessianCode

/-! Property C78: finite differences of the objective of inverse kinematics.

The specification is `objectiveOf`: the program that sets all joint angles, updates the skeleton and evaluates the objective. -/

namespace Verif

open IK

namespace IK

/-- The program "set all joint angles to v, update the skeleton, evaluate the objective". -/
noncomputable def objectiveOf (limit : ℕ) (S : Skeleton) (cs : List Chain) (v : List ℝ) : Except PyErr ℝ := do
  let S ← set_joint_angles S v
  let S ← update_skeleton limit S
  compute_objective cs S

/-- S' is what remains of S when the poses are those of the joint angles w, and the joint angles are v. -/
def PosesOf (limit : ℕ) (S : Skeleton) (w v : List ℝ) (S' : Skeleton) : Prop :=
  ∃ S1 S2, set_joint_angles S w = .ok S1 ∧ update_skeleton limit S1 = .ok S2 ∧ set_joint_angles S2 v = .ok S'

/-- The central second difference, in the angles i and j, of a function of all angles at v. -/
noncomputable def secondDiff (F : List ℝ → ℝ) (v : List ℝ) (i j : ℕ) (a b h : ℝ) : ℝ :=
  if i = j then (F (v.set i (a + h)) - 2 * F v + F (v.set i (a - h))) / (h * h)
  else (F ((v.set i (a + h)).set j (b + h)) - F ((v.set i (a + h)).set j (b - h)) - F ((v.set i (a - h)).set j (b + h)) +
    F ((v.set i (a - h)).set j (b - h))) / (4 * h * h)

/-! ### Proofs -/

/-- A skeleton of the shape of S with joint angles w. -/
structure HasAngles (S T : Skeleton) (w : List ℝ) : Prop where
  built : IK.Built T
  shape : SameShape S T
  angles : T.flatMap Bone.angles = w

theorem sameData_of_angles {S T : Skeleton} (h : SameShape S T) (ha : S.flatMap Bone.angles = T.flatMap Bone.angles) : SameData S T := by
  unfold SameData
  refine List.ext_getElem? fun k => ?_
  have hl := h.length
  have h1 : (S.map Bone.shape)[k]? = (T.map Bone.shape)[k]? := by rw [h]
  have h2 : ∀ o, o < 3 → (S[k]?).map (fun b => b.angle o) = (T[k]?).map fun b => b.angle o := by
    intro o ho
    rw [← flatMap_angles_get S k o ho, ha, flatMap_angles_get T k o ho]
  rw [List.getElem?_map, List.getElem?_map] at h1 ⊢
  have e0 := h2 0 (by omega)
  have e1 := h2 1 (by omega)
  have e2 := h2 2 (by omega)
  cases hs : S[k]? with
  | none =>
    rw [hs] at h1
    cases ht : T[k]? with
    | none => rfl
    | some c => rw [ht] at h1; cases h1
  | some b =>
    rw [hs] at h1 e0 e1 e2
    cases ht : T[k]? with
    | none => rw [ht] at h1; cases h1
    | some c =>
      rw [ht] at h1 e0 e1 e2
      simp only [Option.map_some, Option.some.injEq, Bone.angle] at h1 e0 e1 e2 ⊢
      unfold Bone.data
      simp only [if_true, if_neg (by omega : ¬ (1 = 0)), if_neg (by omega : ¬ (2 = 0)), if_neg (by omega : ¬ (2 = 1))] at e0 e1 e2
      rw [h1, e0, e1, e2]

theorem sameStill_shape {S T : Skeleton} (h : SameStill S T) : SameShape S T := by
  unfold SameShape
  unfold SameStill at h
  have := congrArg (List.map (fun x : (ℕ × Option ℕ × List ℕ × V3 × (Fin 3 → Axis)) × V3 × Quat => x.1)) h
  simpa [List.map_map, Function.comp_def, Bone.still] using this

theorem HasAngles.get {S T : Skeleton} {w : List ℝ} (h : HasAngles S T w) : get_joint_angles T = .ok w := by rw [C58_get h.built, h.angles]

theorem HasAngles.length {S T : Skeleton} {w : List ℝ} (h : HasAngles S T w) : w.length = S.length * 3 := by
  rw [← h.angles, flatMap_angles_length, h.shape.length]

theorem HasAngles.get_angle {S T : Skeleton} {w : List ℝ} (h : HasAngles S T w) {i : ℕ} {a : ℝ} (hi : w[i]? = some a) : get_angle i T = .ok a :=
  ((C58_angle h.built h.get i 0).1 a).2 hi

theorem HasAngles.set_angle {S T : Skeleton} {w : List ℝ} (h : HasAngles S T w) {i : ℕ} (hi : i < w.length) (x : ℝ) :
    ∃ T', IK.set_angle i x T = .ok T' ∧ HasAngles S T' (w.set i x) ∧ SameStill T T' := by
  obtain ⟨-, h2, h3⟩ := C58_angle h.built h.get i x
  obtain ⟨T', hT'⟩ := h2.2 hi
  obtain ⟨h4, h5⟩ := h3 T' hT'
  have hB : IK.Built T' := .angle h.built hT'
  rw [C58_get hB] at h5
  injection h5 with h5
  exact ⟨T', hT', ⟨hB, h.shape.trans (sameStill_shape h4), h5⟩, h4⟩

theorem update_ok_of_shape {S T : Skeleton} {limit : ℕ} (hS : IK.Built S) (hu : ∃ S1, update_skeleton limit S = .ok S1) (hT : IK.Built T)
    (h : SameShape S T) : ∃ T1, update_skeleton limit T = .ok T1 := by
  rw [C57_success hS] at hu
  rw [C57_success hT]
  refine ⟨?_, fun L j hL => hu.2 L j ⟨hL.1, hL.2.1, ?_⟩⟩
  · intro hc
    have := h.length
    rw [hc] at this
    exact hu.1 (List.eq_nil_of_length_eq_zero this.symm)
  · have := hL.2.2
    simp only [h.parentOf] at this
    exact this

theorem HasAngles.update {S T : Skeleton} {w : List ℝ} {limit : ℕ} (hS : IK.Built S) (hu : ∃ S1, update_skeleton limit S = .ok S1) (h : HasAngles S T w) :
    ∃ S1 T1, set_joint_angles S w = .ok S1 ∧ update_skeleton limit S1 = .ok T1 ∧ update_skeleton limit T = .ok T1 ∧ HasAngles S T1 w := by
  obtain ⟨S1, hS1⟩ := (C58_set hS w).1.2 h.length.ge
  obtain ⟨h1, h2⟩ := (C58_set hS w).2 S1 hS1
  have hB1 : IK.Built S1 := .angles hS hS1
  rw [C58_get hB1, List.take_of_length_le h.length.le] at h2
  injection h2 with h2
  obtain ⟨U1, hU1⟩ := update_ok_of_shape hS hu hB1 (sameStill_shape h1)
  obtain ⟨T1, hT1⟩ := update_ok_of_shape hS hu h.built h.shape
  obtain ⟨d1, p1⟩ := C57_update hB1 hU1
  obtain ⟨d2, p2⟩ := C57_update h.built hT1
  have hd : SameData S1 T := sameData_of_angles ((sameStill_shape h1).symm.trans h.shape) (h2.trans h.angles.symm)
  have he : U1 = T1 := C57_unique (.update hB1 hU1) (d1.symm.trans (hd.trans d2)) p1 p2
  subst he
  refine ⟨S1, U1, hS1, hU1, hT1, ⟨.update h.built hT1, h.shape.trans d2.shape, ?_⟩⟩
  have hang : ∀ {A B : Skeleton}, SameData A B → A.flatMap Bone.angles = B.flatMap Bone.angles := by
    intro A B hAB
    have e : ∀ C : Skeleton, C.flatMap Bone.angles = (C.map Bone.data).flatMap fun d => [d.2.1, d.2.2.1, d.2.2.2] := by
      intro C
      rw [List.flatMap_map]
      rfl
    rw [e A, e B, hAB]
  rw [← hang d2, h.angles]

theorem objective_good {S : Skeleton} (h0 : S ≠ []) (cs : List Chain) (hcs : ∀ c ∈ cs, GoodChain S c) : ∃ f, compute_objective cs S = .ok f :=
  ⟨_, objective_ok cs (endOf S) fun c hc => endOf_ok h0 (hcs c hc)⟩

theorem goodChain_congr {S T : Skeleton} (h : SameShape S T) {c : Chain} (hc : GoodChain S c) : GoodChain T c := by
  obtain ⟨j, h1, h2, h3⟩ := hc
  refine ⟨j, h1, h2, ?_⟩
  simp only [h.parentOf]
  exact h3

theorem HasAngles.objective {S T : Skeleton} {w : List ℝ} {limit : ℕ} (hS : IK.Built S) (hu : ∃ S1, update_skeleton limit S = .ok S1) (cs : List Chain)
    (hcs : ∀ c ∈ cs, GoodChain S c) (h : HasAngles S T w) :
    ∃ f S1 T1, updateObjective limit cs T = .ok (f, T1) ∧ objectiveOf limit S cs w = .ok f ∧ set_joint_angles S w = .ok S1 ∧
      update_skeleton limit S1 = .ok T1 ∧ HasAngles S T1 w := by
  obtain ⟨S1, T1, h1, h2, h3, h4⟩ := h.update hS hu
  have h0 : T1 ≠ [] := by
    intro hc
    have := h4.shape.length
    rw [hc] at this
    exact ((C57_success hS limit).1 hu).1 (List.eq_nil_of_length_eq_zero this.symm)
  obtain ⟨f, hf⟩ := objective_good h0 cs fun c hc => goodChain_congr h4.shape (hcs c hc)
  refine ⟨f, S1, T1, ?_, ?_, h1, h2, h4⟩
  · unfold updateObjective
    simp only [bind, Except.bind]
    rw [h3]
    dsimp only
    rw [hf]
    rfl
  · unfold objectiveOf
    simp only [bind, Except.bind]
    rw [h1]
    dsimp only
    rw [h2]
    exact hf

/-- The objective as a function of all angles. -/
theorem objectiveOf_fun {S : Skeleton} {limit : ℕ} (hS : IK.Built S) (hu : ∃ S1, update_skeleton limit S = .ok S1) (cs : List Chain)
    (hcs : ∀ c ∈ cs, GoodChain S c) : ∃ F : List ℝ → ℝ, ∀ w, w.length = S.length * 3 → objectiveOf limit S cs w = .ok (F w) := by
  have : ∀ w, ∃ f, w.length = S.length * 3 → objectiveOf limit S cs w = .ok f := by
    intro w
    by_cases hw : w.length = S.length * 3
    · obtain ⟨S1, hS1⟩ := (C58_set hS w).1.2 hw.ge
      obtain ⟨h1, h2⟩ := (C58_set hS w).2 S1 hS1
      have hB1 : IK.Built S1 := .angles hS hS1
      rw [C58_get hB1, List.take_of_length_le hw.le] at h2
      injection h2 with h2
      obtain ⟨f, -, -, -, hf, -⟩ := HasAngles.objective hS hu cs hcs ⟨hB1, sameStill_shape h1, h2⟩
      exact ⟨f, fun _ => hf⟩
    · exact ⟨0, fun h => absurd h hw⟩
  choose F hF using this
  exact ⟨F, hF⟩

/-- The poses of T are those for the angles w. -/
def Poses (limit : ℕ) (S : Skeleton) (w : List ℝ) (T : Skeleton) : Prop :=
  ∃ S1 S2, set_joint_angles S w = .ok S1 ∧ update_skeleton limit S1 = .ok S2 ∧ SameStill S2 T

theorem Poses.of {limit : ℕ} {S T : Skeleton} {w v : List ℝ} (h : Poses limit S w T) (hT : HasAngles S T v) (hS : IK.Built S) : PosesOf limit S w v T := by
  obtain ⟨S1, S2, h1, h2, h3⟩ := h
  have hB : IK.Built S2 := .update (.angles hS h1) h2
  have hl := sameStill_length h3
  have hlen : v.length = S2.length * 3 := by rw [hT.length, ← hl, hT.shape.length]
  obtain ⟨S3, hS3⟩ := (C58_set hB v).1.2 hlen.ge
  obtain ⟨h4, h5⟩ := (C58_set hB v).2 S3 hS3
  rw [C58_get (.angles hB hS3), List.take_of_length_le hlen.le] at h5
  injection h5 with h5
  have : S3 = T := still_angles_ext (h4.symm.trans h3) (h5.trans hT.angles.symm)
  exact ⟨S1, S2, h1, h2, this ▸ hS3⟩

theorem HasAngles.objectiveF {S T : Skeleton} {w : List ℝ} {limit : ℕ} (hS : IK.Built S) (hu : ∃ S1, update_skeleton limit S = .ok S1) (cs : List Chain)
    (hcs : ∀ c ∈ cs, GoodChain S c) {F : List ℝ → ℝ} (hF : ∀ w, w.length = S.length * 3 → objectiveOf limit S cs w = .ok (F w)) (h : HasAngles S T w) :
    ∃ T1, updateObjective limit cs T = .ok (F w, T1) ∧ HasAngles S T1 w ∧ Poses limit S w T1 := by
  obtain ⟨f, S1, T1, h1, h2, h3, h4, h5⟩ := h.objective hS hu cs hcs
  rw [hF w h.length] at h2
  injection h2 with h2
  subst h2
  exact ⟨T1, h1, h5, S1, T1, h3, h4, rfl⟩

theorem Poses.still {limit : ℕ} {S T T' : Skeleton} {w : List ℝ} (h : Poses limit S w T) (h' : SameStill T T') : Poses limit S w T' := by
  obtain ⟨S1, S2, h1, h2, h3⟩ := h
  exact ⟨S1, S2, h1, h2, Eq.trans h3 h'⟩

section
variable {S : Skeleton} {limit : ℕ} (hS : IK.Built S) (hu : ∃ S1, update_skeleton limit S = .ok S1) (cs : List Chain)
    (hcs : ∀ c ∈ cs, GoodChain S c) {F : List ℝ → ℝ} (hF : ∀ w, w.length = S.length * 3 → objectiveOf limit S cs w = .ok (F w))
include hS hu hcs hF

theorem first_derivative_ok {T : Skeleton} {v : List ℝ} (hT : HasAngles S T v) {i : ℕ} {a : ℝ} (hi : v[i]? = some a) (h : ℝ) :
    ∃ T', first_derivative limit cs T i h = .ok ((F (v.set i (a + h)) - F (v.set i (a - h))) / (2 * h), T') ∧ HasAngles S T' v ∧
      Poses limit S (v.set i (a - h)) T' := by
  have hil : i < v.length := (List.getElem?_eq_some_iff.1 hi).1
  obtain ⟨T1, h1, a1, -⟩ := hT.set_angle hil (a + h)
  obtain ⟨T2, h2, a2, -⟩ := a1.objectiveF hS hu cs hcs hF
  obtain ⟨T3, h3, a3, -⟩ := a2.set_angle (by simpa using hil) (a - h) (i := i)
  rw [List.set_set] at a3
  obtain ⟨T4, h4, a4, p4⟩ := a3.objectiveF hS hu cs hcs hF
  obtain ⟨T5, h5, a5, s5⟩ := a4.set_angle (by simpa using hil) a (i := i)
  have hv : (v.set i (a - h)).set i a = v := by
    rw [List.set_set]
    obtain ⟨h1, h2⟩ := List.getElem?_eq_some_iff.1 hi
    rw [← h2, List.set_getElem_self]
  rw [hv] at a5
  refine ⟨T5, ?_, a5, p4.still s5⟩
  unfold first_derivative
  simp only [bind, Except.bind]
  rw [hT.get_angle hi]; dsimp only
  rw [h1]; dsimp only
  rw [h2]; dsimp only
  rw [h3]; dsimp only
  rw [h4]; dsimp only
  rw [h5]
  rfl

theorem second_diag_ok {T : Skeleton} {v : List ℝ} (hT : HasAngles S T v) {i : ℕ} {a : ℝ} (hi : v[i]? = some a) (h : ℝ) :
    ∃ T', second_derivative_diag limit cs T i h = .ok ((F (v.set i (a + h)) - 2 * F v + F (v.set i (a - h))) / (h * h), T') ∧ HasAngles S T' v ∧
      Poses limit S (v.set i (a - h)) T' := by
  have hil : i < v.length := (List.getElem?_eq_some_iff.1 hi).1
  obtain ⟨T0, h0, a0, -⟩ := hT.objectiveF hS hu cs hcs hF
  obtain ⟨T1, h1, a1, -⟩ := a0.set_angle hil (a + h)
  obtain ⟨T2, h2, a2, -⟩ := a1.objectiveF hS hu cs hcs hF
  obtain ⟨T3, h3, a3, -⟩ := a2.set_angle (by simpa using hil) (a - h) (i := i)
  rw [List.set_set] at a3
  obtain ⟨T4, h4, a4, p4⟩ := a3.objectiveF hS hu cs hcs hF
  obtain ⟨T5, h5, a5, s5⟩ := a4.set_angle (by simpa using hil) a (i := i)
  have hv : (v.set i (a - h)).set i a = v := by
    rw [List.set_set]
    obtain ⟨h1, h2⟩ := List.getElem?_eq_some_iff.1 hi
    rw [← h2, List.set_getElem_self]
  rw [hv] at a5
  refine ⟨T5, ?_, a5, p4.still s5⟩
  unfold second_derivative_diag
  simp only [bind, Except.bind]
  rw [h0]; dsimp only
  rw [a0.get_angle hi]; dsimp only
  rw [h1]; dsimp only
  rw [h2]; dsimp only
  rw [h3]; dsimp only
  rw [h4]; dsimp only
  rw [h5]
  rfl

theorem objectiveAt_ok {T : Skeleton} {v : List ℝ} {i j : ℕ} (hil : i < v.length) (hjl : j < v.length) (hij : i ≠ j) {x y : ℝ}
    (hT : HasAngles S T ((v.set i x).set j y)) (x' y' : ℝ) :
    ∃ T', objectiveAt limit cs i j x' y' T = .ok (F ((v.set i x').set j y'), T') ∧ HasAngles S T' ((v.set i x').set j y') ∧
      Poses limit S ((v.set i x').set j y') T' := by
  obtain ⟨T1, h1, a1, -⟩ := hT.set_angle (by simpa using hil) x' (i := i)
  rw [List.set_comm _ _ hij.symm, List.set_set] at a1
  obtain ⟨T2, h2, a2, -⟩ := a1.set_angle (by simpa using hjl) y' (i := j)
  rw [List.set_set] at a2
  obtain ⟨T3, h3, a3, p3⟩ := a2.objectiveF hS hu cs hcs hF
  refine ⟨T3, ?_, a3, p3⟩
  unfold objectiveAt
  simp only [bind, Except.bind]
  rw [h1]; dsimp only
  rw [h2]
  exact h3

theorem set_pair_self {v : List ℝ} {i j : ℕ} {a b : ℝ} (hi : v[i]? = some a) (hj : v[j]? = some b) : (v.set i a).set j b = v := by
  obtain ⟨h1, h2⟩ := List.getElem?_eq_some_iff.1 hi
  obtain ⟨h3, h4⟩ := List.getElem?_eq_some_iff.1 hj
  rw [← h2, List.set_getElem_self, ← h4, List.set_getElem_self]

theorem second_mixed_ok {T : Skeleton} {v : List ℝ} (hT : HasAngles S T v) {i j : ℕ} (hij : i ≠ j) {a b : ℝ} (hi : v[i]? = some a) (hj : v[j]? = some b)
    (h : ℝ) : ∃ T', second_derivative_mixed limit cs T i j h = .ok ((F ((v.set i (a + h)).set j (b + h)) - F ((v.set i (a + h)).set j (b - h)) -
      F ((v.set i (a - h)).set j (b + h)) + F ((v.set i (a - h)).set j (b - h))) / (4 * h * h), T') ∧ HasAngles S T' v := by
  have hil : i < v.length := (List.getElem?_eq_some_iff.1 hi).1
  have hjl : j < v.length := (List.getElem?_eq_some_iff.1 hj).1
  have hv : (v.set i a).set j b = v := set_pair_self hS hu cs hcs hF hi hj
  have hT' : HasAngles S T ((v.set i a).set j b) := hv.symm ▸ hT
  obtain ⟨T1, h1, a1, -⟩ := objectiveAt_ok hS hu cs hcs hF hil hjl hij hT' (a + h) (b + h)
  obtain ⟨T2, h2, a2, -⟩ := objectiveAt_ok hS hu cs hcs hF hil hjl hij a1 (a - h) (b + h)
  obtain ⟨T3, h3, a3, -⟩ := objectiveAt_ok hS hu cs hcs hF hil hjl hij a2 (a + h) (b - h)
  obtain ⟨T4, h4, a4, -⟩ := objectiveAt_ok hS hu cs hcs hF hil hjl hij a3 (a - h) (b - h)
  obtain ⟨T5, h5, a5, s5⟩ := a4.set_angle (by simpa using hil) a (i := i)
  rw [List.set_comm _ _ hij.symm, List.set_set] at a5
  obtain ⟨T6, h6, a6, s6⟩ := a5.set_angle (by simpa using hjl) b (i := j)
  rw [List.set_set, hv] at a6
  refine ⟨T6, ?_, a6⟩
  unfold second_derivative_mixed
  simp only [bind, Except.bind]
  rw [hT.get_angle hi]; dsimp only
  rw [hT.get_angle hj]; dsimp only
  rw [h1]; dsimp only
  rw [h2]; dsimp only
  rw [h3]; dsimp only
  rw [h4]; dsimp only
  rw [h5]; dsimp only
  rw [h6]
  rfl

theorem second_ok {T : Skeleton} {v : List ℝ} (hT : HasAngles S T v) {i j : ℕ} {a b : ℝ} (hi : v[i]? = some a) (hj : v[j]? = some b)
    (h : ℝ) : ∃ T', second_derivative limit cs T i j h = .ok (secondDiff F v i j a b h, T') ∧ HasAngles S T' v ∧
      (i = j → Poses limit S (v.set i (a - h)) T') := by
  unfold second_derivative secondDiff
  by_cases hij : i = j
  · rw [if_pos hij, if_pos hij]
    obtain ⟨T', h1, h2, h3⟩ := second_diag_ok hS hu cs hcs hF hT hi h
    exact ⟨T', h1, h2, fun _ => h3⟩
  · rw [if_neg hij, if_neg hij]
    obtain ⟨T', h1, h2⟩ := second_mixed_ok hS hu cs hcs hF hT hij hi hj h
    exact ⟨T', h1, h2, fun h => absurd h hij⟩

end

/-- A loop that appends one value a pass and keeps an invariant. -/
theorem collect_loop {α β : Type*} (I : Skeleton → Prop) (f : Skeleton → α → Except PyErr (β × Skeleton)) (g : α → β)
    (L : List α) (hf : ∀ a ∈ L, ∀ T, I T → ∃ T', f T a = .ok (g a, T') ∧ I T') (A : List β) (T : Skeleton) (hT : I T) :
    ∃ T', L.foldlM (fun (s : List β × Skeleton) a => do
      let (d, S) ← f s.2 a
      return (s.1 ++ [d], S)) (A, T) = .ok (A ++ L.map g, T') ∧ I T' := by
  induction L generalizing A T with
  | nil => exact ⟨T, by simp [pure, Except.pure], hT⟩
  | cons a L ih =>
    obtain ⟨T1, h1, h2⟩ := hf a List.mem_cons_self T hT
    obtain ⟨T2, h3, h4⟩ := ih (fun b hb => hf b (List.mem_cons_of_mem _ hb)) (A ++ [g a]) T1 h2
    refine ⟨T2, ?_, h4⟩
    simp only [List.foldlM_cons, bind, Except.bind] at h3 ⊢
    rw [h1]
    simp only [pure, Except.pure] at h3 ⊢
    rw [h3]
    simp

/-- The same, with a stronger fact after the last pass. -/
theorem collect_loop_last {α β : Type*} (I : Skeleton → Prop) (Q : Skeleton → Prop) (f : Skeleton → α → Except PyErr (β × Skeleton)) (g : α → β)
    (L : List α) (z : α) (hf : ∀ a ∈ L ++ [z], ∀ T, I T → ∃ T', f T a = .ok (g a, T') ∧ I T' ∧ (a = z → Q T')) (A : List β) (T : Skeleton) (hT : I T) :
    ∃ T', (L ++ [z]).foldlM (fun (s : List β × Skeleton) a => do
      let (d, S) ← f s.2 a
      return (s.1 ++ [d], S)) (A, T) = .ok (A ++ (L ++ [z]).map g, T') ∧ I T' ∧ Q T' := by
  obtain ⟨T1, h1, h2⟩ := collect_loop I f g L (fun a ha T hT => by
    obtain ⟨T', x, y, -⟩ := hf a (List.mem_append_left _ ha) T hT
    exact ⟨T', x, y⟩) A T hT
  obtain ⟨T2, h3, h4, h5⟩ := hf z (by simp) T1 h2
  refine ⟨T2, ?_, h4, h5 rfl⟩
  rw [List.foldlM_append]
  simp only [bind, Except.bind] at h1 ⊢
  rw [h1]
  simp only [List.foldlM_cons, List.foldlM_nil, bind, Except.bind]
  rw [h3]
  simp [pure, Except.pure]

end IK

/-- **C78** (finite difference gradient). For every skeleton that can be updated, every list of chains that are paths of the skeleton and every step h,
`compute_finite_difference_gradient` succeeds; entry i is the central difference of the objective in angle i, all other angles unchanged.  Afterwards all joint
angles are as before, but the poses are those of the last evaluation: with the last angle h smaller. -/
theorem C78_gradient {S : Skeleton} {limit : ℕ} (hS : IK.Built S) (hu : ∃ S1, update_skeleton limit S = .ok S1) (cs : List Chain)
    (hcs : ∀ c ∈ cs, ∃ j, IsPath S c.bones j) {v : List ℝ} (hv : get_joint_angles S = .ok v) :
    ∃ F : List ℝ → ℝ, (∀ w, w.length = v.length → objectiveOf limit S cs w = .ok (F w)) ∧
      ∀ h, h ≠ 0 → ∃ g S', compute_finite_difference_gradient limit cs S h = .ok (g, S') ∧ g.length = v.length ∧
        (∀ i a, v[i]? = some a → g[i]? = some ((F (v.set i (a + h)) - F (v.set i (a - h))) / (2 * h))) ∧
        get_joint_angles S' = .ok v ∧ ∀ z, v.getLast? = some z → PosesOf limit S (v.set (v.length - 1) (z - h)) v S' := by
  obtain ⟨F, hF⟩ := objectiveOf_fun hS hu cs hcs
  have hvS := hv
  rw [C58_get hS] at hvS
  injection hvS with hvS
  have hA : HasAngles S S v := ⟨hS, .refl S, hvS⟩
  have hl := hA.length
  have hn : S ≠ [] := ((C57_success hS limit).1 hu).1
  have hpos : 0 < S.length := List.length_pos_iff.2 hn
  refine ⟨F, fun w hw => hF w (hw.trans hl), fun h _ => ?_⟩
  have hr : List.range (S.length * 3) = List.range (S.length * 3 - 1) ++ [S.length * 3 - 1] := by
    conv_lhs => rw [show S.length * 3 = (S.length * 3 - 1) + 1 by omega]
    exact List.range_succ
  have hget : ∀ i, i < v.length → v[i]? = some (v.getD i 0) := by
    intro i hi
    rw [List.getD_eq_getElem?_getD, List.getElem?_eq_getElem hi]
    rfl
  obtain ⟨S', h1, h2, h3⟩ := collect_loop_last (fun T => HasAngles S T v)
    (fun T => Poses limit S (v.set (S.length * 3 - 1) (v.getD (S.length * 3 - 1) 0 - h)) T)
    (fun T i => first_derivative limit cs T i h)
    (fun i => (F (v.set i (v.getD i 0 + h)) - F (v.set i (v.getD i 0 - h))) / (2 * h)) (List.range (S.length * 3 - 1)) (S.length * 3 - 1)
    (fun i hi T hT => by
      rw [← hr, List.mem_range] at hi
      obtain ⟨T', x, y, z⟩ := first_derivative_ok hS hu cs hcs hF hT (hget i (by omega)) h
      exact ⟨T', x, y, fun e => e ▸ z⟩) [] S hA
  rw [← hr] at h1
  refine ⟨_, S', h1, by simp [hl], fun i a hi => ?_, h2.get, fun z hz => ?_⟩
  · have hil := (List.getElem?_eq_some_iff.1 hi).1
    rw [List.nil_append, List.getElem?_map, List.getElem?_range (by omega)]
    have := hget i hil
    rw [hi] at this
    injection this with this
    simp only [Option.map_some, ← this]
  · have e1 : v.length - 1 = S.length * 3 - 1 := by omega
    have e2 : v.getD (S.length * 3 - 1) 0 = z := by
      have := hget (S.length * 3 - 1) (by omega)
      rw [List.getLast?_eq_getElem?, e1, this] at hz
      injection hz
    rw [e2] at h3
    rw [e1]
    exact h3.of h2 hS

/-- **C78** (finite difference Hessian). For every skeleton that can be updated, every list of chains that are paths of the skeleton and every step h,
`compute_finite_difference_hessian` succeeds; its entry (i, j) is the central second difference of the objective in the angles i and j; the matrix is
symmetric.  Afterwards all joint angles are as before, but the poses are those of the last evaluation: with the last angle h smaller. -/
theorem C78_hessian {S : Skeleton} {limit : ℕ} (hS : IK.Built S) (hu : ∃ S1, update_skeleton limit S = .ok S1) (cs : List Chain)
    (hcs : ∀ c ∈ cs, ∃ j, IsPath S c.bones j) {v : List ℝ} (hv : get_joint_angles S = .ok v) :
    ∃ F : List ℝ → ℝ, (∀ w, w.length = v.length → objectiveOf limit S cs w = .ok (F w)) ∧
      ∀ h, h ≠ 0 → ∃ H S', compute_finite_difference_hessian limit cs S h = .ok (H, S') ∧ H.length = v.length ∧ (∀ row ∈ H, row.length = v.length) ∧
        (∀ i j a b, v[i]? = some a → v[j]? = some b → ∃ row, H[i]? = some row ∧ row[j]? = some (secondDiff F v i j a b h)) ∧
        (∀ (i j : ℕ) (x : ℝ), (H[i]?.bind fun row => row[j]?) = some x → (H[j]?.bind fun row => row[i]?) = some x) ∧
        get_joint_angles S' = .ok v ∧ ∀ z, v.getLast? = some z → PosesOf limit S (v.set (v.length - 1) (z - h)) v S' := by
  obtain ⟨F, hF⟩ := objectiveOf_fun hS hu cs hcs
  have hvS := hv
  rw [C58_get hS] at hvS
  injection hvS with hvS
  have hA : HasAngles S S v := ⟨hS, .refl S, hvS⟩
  have hl := hA.length
  have hn : S ≠ [] := ((C57_success hS limit).1 hu).1
  have hpos : 0 < S.length := List.length_pos_iff.2 hn
  refine ⟨F, fun w hw => hF w (hw.trans hl), fun h _ => ?_⟩
  have hr : List.range (S.length * 3) = List.range (S.length * 3 - 1) ++ [S.length * 3 - 1] := by
    conv_lhs => rw [show S.length * 3 = (S.length * 3 - 1) + 1 by omega]
    exact List.range_succ
  have hget : ∀ i, i < v.length → v[i]? = some (v.getD i 0) := by
    intro i hi
    rw [List.getD_eq_getElem?_getD, List.getElem?_eq_getElem hi]
    rfl
  have hrow : ∀ i, i < S.length * 3 → ∀ T, HasAngles S T v → ∃ T', finiteRow limit cs (S.length * 3) T i h =
      .ok ((List.range (S.length * 3)).map fun j => secondDiff F v i j (v.getD i 0) (v.getD j 0) h, T') ∧ HasAngles S T' v ∧
      (i = S.length * 3 - 1 → Poses limit S (v.set (S.length * 3 - 1) (v.getD (S.length * 3 - 1) 0 - h)) T') := by
    intro i hi T hT
    obtain ⟨S', h1, h2, h3⟩ := collect_loop_last (fun T => HasAngles S T v)
      (fun T => i = S.length * 3 - 1 → Poses limit S (v.set (S.length * 3 - 1) (v.getD (S.length * 3 - 1) 0 - h)) T)
      (fun T j => second_derivative limit cs T i j h)
      (fun j => secondDiff F v i j (v.getD i 0) (v.getD j 0) h) (List.range (S.length * 3 - 1)) (S.length * 3 - 1)
      (fun j hj T hT => by
        rw [← hr, List.mem_range] at hj
        obtain ⟨T', x, y, z⟩ := second_ok hS hu cs hcs hF hT (hget i (by omega)) (hget j (by omega)) h
        exact ⟨T', x, y, fun e e' => by rw [← e']; exact z (e'.trans e.symm)⟩) [] T hT
    rw [← hr] at h1
    exact ⟨S', h1, h2, h3⟩
  obtain ⟨S', h1, h2, h3⟩ := collect_loop_last (fun T => HasAngles S T v)
    (fun T => Poses limit S (v.set (S.length * 3 - 1) (v.getD (S.length * 3 - 1) 0 - h)) T)
    (fun T i => finiteRow limit cs (S.length * 3) T i h)
    (fun i => (List.range (S.length * 3)).map fun j => secondDiff F v i j (v.getD i 0) (v.getD j 0) h) (List.range (S.length * 3 - 1)) (S.length * 3 - 1)
    (fun i hi T hT => by
      rw [← hr, List.mem_range] at hi
      obtain ⟨T', x, y, z⟩ := hrow i hi T hT
      exact ⟨T', x, y, z⟩) [] S hA
  rw [← hr] at h1
  have hent : ∀ i, i < S.length * 3 → ((List.range (S.length * 3)).map fun i => (List.range (S.length * 3)).map fun j =>
      secondDiff F v i j (v.getD i 0) (v.getD j 0) h)[i]? = some ((List.range (S.length * 3)).map fun j => secondDiff F v i j (v.getD i 0) (v.getD j 0) h) := by
    intro i hi
    rw [List.getElem?_map, List.getElem?_range hi]
    rfl
  refine ⟨_, S', h1, by simp [hl], ?_, fun i j a b hi hj => ?_, fun i j x hx => ?_, h2.get, fun z hz => ?_⟩
  · intro row hrow
    rw [List.nil_append] at hrow
    obtain ⟨i, -, rfl⟩ := List.mem_map.1 hrow
    simp [hl]
  · have hil := (List.getElem?_eq_some_iff.1 hi).1
    have hjl := (List.getElem?_eq_some_iff.1 hj).1
    refine ⟨_, by rw [List.nil_append]; exact hent i (by omega), ?_⟩
    rw [List.getElem?_map, List.getElem?_range (by omega)]
    have e1 := hget i hil
    have e2 := hget j hjl
    rw [hi] at e1
    rw [hj] at e2
    injection e1 with e1
    injection e2 with e2
    simp only [Option.map_some, ← e1, ← e2]
  · rw [List.nil_append] at hx ⊢
    have hil : i < S.length * 3 := by
      by_contra hc
      rw [List.getElem?_eq_none (by simpa using hc)] at hx
      cases hx
    rw [hent i hil] at hx
    have hx2 : ((List.range (S.length * 3)).map fun j => secondDiff F v i j (v.getD i 0) (v.getD j 0) h)[j]? = some x := hx
    have hjl : j < S.length * 3 := by
      have := (List.getElem?_eq_some_iff.1 hx2).1
      simpa using this
    rw [List.getElem?_map, List.getElem?_range hjl] at hx2
    rw [hent j hjl]
    show ((List.range (S.length * 3)).map fun k => secondDiff F v j k (v.getD j 0) (v.getD k 0) h)[i]? = some x
    rw [List.getElem?_map, List.getElem?_range hil, ← hx2]
    simp only [Option.map_some, Option.some.injEq]
    unfold secondDiff
    by_cases hij : i = j
    · subst hij; rfl
    · rw [if_neg hij, if_neg fun h => hij h.symm]
      rw [List.set_comm _ _ hij, List.set_comm _ _ hij, List.set_comm _ _ hij, List.set_comm _ _ hij]
      ring
  · have e1 : v.length - 1 = S.length * 3 - 1 := by omega
    have e2 : v.getD (S.length * 3 - 1) 0 = z := by
      have := hget (S.length * 3 - 1) (by omega)
      rw [List.getLast?_eq_getElem?, e1, this] at hz
      injection hz
    rw [e2] at h3
    rw [e1]
    exact h3.of h2 hS

end Verif
