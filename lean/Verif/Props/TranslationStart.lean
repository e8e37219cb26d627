import Verif.Props.TranslationCD
import Verif.Props.RefitFresh

/-! C131 from the start: refitting a hierarchy does not depend on the volumes stored in it, so hierarchies made by `make_bvh` (in the frame of the body) serve every origin. -/

namespace Verif

open Rigid Collision BVH

variable {N : ℕ}

namespace Translation

/-- Refitting does not read the volumes stored before. -/
theorem refit_fresh (V : List V3) (T : List (List ℕ)) (K : ℕ) (env : ℝ) (c : V3) {s : SubTree} (h : Fresh s) :
    refit_sub_tree V T (s.shift c) K env = refit_sub_tree V T s K env := by
  refine refit_agree V T K env s.size h.1 ⟨rfl, rfl, fun j => rfl, fun j hj => ?_⟩
  have hv := h.2 j hj.symm
  unfold SubTree.shift
  dsimp only
  rw [hv]
  rcases hn : s.nodes j with ⟨v, _, _, _⟩
  rw [hn] at hv
  dsimp only at hv
  subst hv
  rfl

theorem refit_bvh_fresh (V : List V3) (T : List (List ℕ)) (K : ℕ) (env : ℝ) (c : V3) {t : Tree} (h : ∀ st ∈ t.chunks, Fresh st) :
    refit_bvh V T (t.shift c) K env = refit_bvh V T t K env := by
  unfold refit_bvh
  have hc : (t.shift c).chunks = t.chunks.map (SubTree.shift c) := rfl
  have hm : (t.chunks.map (SubTree.shift c)).mapM (fun st => refit_sub_tree V T st K env) = t.chunks.mapM (fun st => refit_sub_tree V T st K env) := by
    rw [List.mapM_map]
    generalize t.chunks = L at h
    induction L with
    | nil => rfl
    | cons s L ih =>
      rw [List.mapM_cons, List.mapM_cons, ih (fun st hst => h st (by simp [hst]))]
      simp only [Function.comp]
      rw [refit_fresh V T K env c (h s (by simp))]
  rw [hc, hm]

theorem refitBody_fresh (P : Collision.CDParams) (b : RigidBody) (c : V3) {C : Collider} (h : ∀ st ∈ C.bvh.chunks, Fresh st) :
    refitBody P b (C.shift c) = refitBody P b C := by
  unfold refitBody
  have hV : (C.shift c).V = C.V := rfl
  have hT : (C.shift c).T = C.T := rfl
  have hB : (C.shift c).bvh = C.bvh.shift c := rfl
  rw [hV, hT, hB]
  simp only [refit_bvh_fresh _ _ _ _ c h]
  rfl

theorem update_bvh_fresh (P : Collision.CDParams) (B : Fin N → RigidBody) (c : V3) {C : Fin N → Collider} (h : ∀ k, ∀ st ∈ (C k).bvh.chunks, Fresh st) :
    update_bvh P B (shiftC c C) = update_bvh P B C := by
  unfold update_bvh
  have : ∀ (L : List (Fin N)) (D D' : Fin N → Collider), L.Nodup → (∀ k ∈ L, D' k = (D k).shift c ∧ ∀ st ∈ (D k).bvh.chunks, Fresh st) → (∀ k, k ∉ L → D' k = D k) →
      L.foldlM (fun C k => do
        let c ← refitBody P (B k) (C k)
        return Function.update C k c) D' = L.foldlM (fun C k => do
        let c ← refitBody P (B k) (C k)
        return Function.update C k c) D := by
    intro L
    induction L with
    | nil =>
      intro D D' _ _ h2
      rw [funext fun k => h2 k (by simp)]
    | cons k L ih =>
      intro D D' hn h1 h2
      rw [List.foldlM_cons, List.foldlM_cons, (h1 k (by simp)).1, refitBody_fresh P (B k) c (h1 k (by simp)).2]
      cases refitBody P (B k) (D k) with
      | error e => rfl
      | ok E =>
        refine ih (Function.update D k E) (Function.update D' k E) (List.nodup_cons.1 hn).2 (fun j hj => ?_) (fun j hj => ?_)
        · have hjk : j ≠ k := by
            rintro rfl
            exact (List.nodup_cons.1 hn).1 hj
          rw [Function.update_of_ne hjk, Function.update_of_ne hjk]
          exact h1 j (by simp [hj])
        · by_cases hjk : j = k
          · subst hjk
            rw [Function.update_self, Function.update_self]
          · rw [Function.update_of_ne hjk, Function.update_of_ne hjk]
            exact h2 j (by simp [hjk, hj])
  exact this _ C _ (List.nodup_finRange N) (fun k _ => ⟨rfl, h k⟩) (fun k hk => absurd (List.mem_finRange k) hk)

theorem run_fresh (P : Collision.CDParams) (B : Fin N → RigidBody) (c : V3) {C : Fin N → Collider} (h : ∀ k, ∀ st ∈ (C k).bvh.chunks, Fresh st) :
    run_collision_detection P B (shiftC c C) = run_collision_detection P B C := by
  unfold run_collision_detection
  rw [update_bvh_fresh P B c h]

theorem fullStep_fresh (P : Collision.CDParams) (dt : ℝ) (w : World N) (c : V3) {C : Fin N → Collider} (h : ∀ k, ∀ st ∈ (C k).bvh.chunks, Fresh st) :
    fullStep P dt (w, shiftC c C) = fullStep P dt (w, C) := by
  unfold fullStep
  dsimp only
  simp only [run_fresh P _ c h]

end Translation

open Translation

/-- **C131.** Contacts, found with the hierarchies `connect_shape` makes in the frames of the bodies: moving all bodies by `c` moves the contacts by `c`. -/
theorem C131_contacts (P : Collision.CDParams) (c : V3) (B : Fin N → RigidBody) {C : Fin N → Collider} (hC : HierarchiesMade C) :
    (run_collision_detection P (fun k => (B k).shift c) C).map Prod.snd = ((run_collision_detection P B C).map Prod.snd).map fun L => L.map (ContactPoint.shift c) := by
  have hf : ∀ k, ∀ st ∈ (C k).bvh.chunks, Fresh st := fun k => by
    obtain ⟨K, M, env, h⟩ := hC k
    exact make_bvh_fresh h
  have h1 := C131_collision_detection P c B C
  have h2 := run_fresh P (fun k => (B k).shift c) c hf
  rw [← h2]
  change (run_collision_detection P (fun k => (B k).shift c) fun k => (C k).shift c).map Prod.snd = _
  rw [h1]
  cases run_collision_detection P B C <;> rfl

/-- **C131.** `simulate` from the start, with the hierarchies `connect_shape` made in the frames of the bodies (the same for every origin): for every scene, every vector `c`
and every time, the simulation of the moved scene is the moved simulation, or both raise the same exception, or both do not end. -/
theorem C131_from_start (P : Collision.CDParams) (c : V3) (w : World N) {C : Fin N → Collider} (hC : HierarchiesMade C) (T : ℝ) :
    (fullSimulate P (World.shift c w, C) T).map Prod.fst = ((fullSimulate P (w, C) T).map Prod.fst).map (World.shift c) := by
  have hf : ∀ k, ∀ st ∈ (C k).bvh.chunks, Fresh st := fun k => by
    obtain ⟨K, M, env, h⟩ := hC k
    exact make_bvh_fresh h
  have key : fullSimulate P (World.shift c w, C) T = fullSimulate P (World.shift c w, shiftC c C) T := by
    unfold fullSimulate
    split_ifs with hT
    · rfl
    · have ht : fullTrip P ((World.shift c w, C), T) = fullTrip P ((World.shift c w, shiftC c C), T) := by
        unfold fullTrip
        dsimp only
        rw [fullStep_fresh P _ _ c hf]
      rw [whileLoop_congr_first ht (by
        unfold fullTrip
        rw [if_neg (by dsimp only; linarith)]
        dsimp only
        intro h
        split at h <;> simp at h)]
  rw [key]
  have := C131_full_simulate P c (w, C) T
  change fullSimulate P (World.shift c w, shiftC c C) T = _ at this
  rw [this]
  cases fullSimulate P (w, C) T <;> rfl

/-- Two triangles: a case that meets the hypothesis of `C131_from_start`. -/
example (g : Grid) : ∃ t : Tree, HierarchiesMade (N := 2) fun _ => ⟨[⟨0, 0, 0⟩, ⟨1, 0, 0⟩, ⟨0, 1, 0⟩, ⟨0, 0, 1⟩], [⟨0, 1, 2⟩, ⟨0, 1, 3⟩], g, t⟩ := by
  obtain ⟨t, -, h, -⟩ := C18_make_bvh [⟨0, 0, 0⟩, ⟨1, 0, 0⟩, ⟨0, 1, 0⟩, ⟨0, 0, 1⟩] (rows [⟨0, 1, 2⟩, ⟨0, 1, 3⟩]) 3 255 0
    (by intro r hr; simp [rows] at hr; rcases hr with rfl | rfl <;> simp) (.inl rfl) (by norm_num)
  exact ⟨t, fun _ => ⟨3, 255, 0, h⟩⟩

end Verif
