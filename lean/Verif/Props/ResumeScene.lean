import Verif.Props.Resume
import Verif.Props.FullScene

/-! C132 for scenes set up with the package's own functions. -/

namespace Verif

open Rigid Collision BVH

variable {N : ℕ}

/-- The hierarchies of a scene that was set up with `create_shape` and `connect_shape`. -/
theorem C132_scene {sd : SignedDistance} {P : GeoParams} {s : Scene} {w : World N} {C : Fin N → Collider} (h : ∀ i, s.collider sd P (w.bodies i) = .ok (C i)) :
    HierarchiesMade C := by
  intro k
  have hk := h k
  unfold Scene.collider at hk
  cases h1 : (w.bodies k).shape with
  | none => rw [h1] at hk; cases hk
  | some sh =>
    rw [h1] at hk
    dsimp only at hk
    cases h2 : s.meshes.get? sh.name with
    | none => rw [h2] at hk; cases hk
    | some m =>
      rw [h2] at hk
      dsimp only at hk
      cases h3 : shapeGrid sd P m with
      | error e => rw [h3] at hk; cases hk
      | ok g =>
        rw [h3] at hk
        change (make_bvh m.V (rows m.T) P.K P.bvh_chunk_size P.envelope >>= _) = _ at hk
        cases h4 : make_bvh m.V (rows m.T) P.K P.bvh_chunk_size P.envelope with
        | error e => rw [h4] at hk; cases hk
        | ok t =>
          rw [h4] at hk
          have := Except.ok.inj hk
          rw [← this]
          exact ⟨_, _, _, h4⟩

/-- A stack of boxes, simulated for a second, and resumed with an empty list of contact points and new hierarchies: the hypotheses can be met. -/
example {eig : Eig} (he : EigSpec eig) {sd : SignedDistance} (hsd : OnePerNode sd) :
    ∃ (n : ℕ) (W w1 : World n) (C C1 : Fin n → Collider), HierarchiesMade C ∧ fullSimulate GeoParams.init.toCDParams (W, C) 1 = .ok (w1, C1) ∧
      ∀ T, fullSimulate GeoParams.init.toCDParams (w1, C1) T = fullSimulate GeoParams.init.toCDParams ({ w1 with contact_points := [] }, C) T := by
  obtain ⟨names, s, W, C, s', -, -, -, hC, hs, -⟩ := C95_box_stack he (w := 1) (h := 1) (d := 1) one_pos one_pos one_pos (by norm_num) 5 (density := 1) one_ne_zero hsd
    (T := 1) one_pos
  obtain ⟨w1, C1⟩ := s'
  exact ⟨_, W, w1, C, C1, C132_scene hC, hs, fun T => C132_resume (C132_scene hC) hs [] T⟩

end Verif
