import Verif.Props.SceneGear
import Verif.Props.Hinges

/-! C108: the gears of a train cannot turn. -/

namespace Verif

open Rigid Rigid.SceneM Gear SMesh Matrix

/-- What C108 asks for: at the place where the hinge was put, a spin of the gear about its own axis (the line through the middle of the gear at right
angles to its faces, the direction that all the teeth run along) is one the hinge lets through: a multiple of the axis of the hinge. -/
def TurnsOnHinge (b : Brick) (S : V3) : Prop := ∃ c : ℝ, c ≠ 0 ∧ Quat.rotate b.q V3.k = c • S

/-- **C108, negated.** Every hinge of every gear train holds the gear with the world z axis, and the axis of every gear is the world y axis:
no gear can turn about its own axis. -/
theorem C108_no_gear_turns {eig : Eig} (he : EigSpec eig) {Z : ℕ → Fin 4} {omega : ℕ → ℝ} {N : ℕ} {density : ℝ} {material : String} {s s' : Scene}
    {names : List String} (hok : s.OK) (h : create_gear_train eig Z omega N density material s = .ok (names, s')) :
    ∃ (gears : List String) (ground : String), names = gears ++ [ground] ∧ gears.length = N ∧
      ∀ i g, gears[i]? = some g → ∃ b O, Standing (Finished false material density) s' g b ∧
        (∃ pose z, b = gearBrick 10 (trainSpecs Z i) pose z) ∧ Quat.rotate b.q V3.k = V3.j ∧
        JoinedAt s' (ground ++ "_" ++ g) ground g O V3.k ∧ ¬ TurnsOnHinge b V3.k := by
  obtain ⟨gears, ground, pose, h1, h2, -, -, -, -, -, -, hst, -, -, hj, -⟩ := C107_gear_train he hok h
  refine ⟨gears, ground, h1, h2, ?_⟩
  intro i g hg
  obtain ⟨bo, -, hJ⟩ := hj g (List.mem_of_getElem? hg)
  have hrot : Quat.rotate (gearBrick 10 (trainSpecs Z i) (pose i) (5 * i)).q V3.k = V3.j := by
    show Quat.rotate (Quat.prod gearFrame (Quat.Rz _)) V3.k = _
    rw [C02_rotate_prod, rotate_Rz, rotate_gearFrame]
    refine V3.ext ?_ ?_ ?_ <;> simp [V3.j, V3.k]
  refine ⟨_, _, hst i g hg, ⟨_, _, rfl⟩, hrot, hJ, ?_⟩
  rintro ⟨c, -, hc⟩
  rw [hrot] at hc
  have := congrArg V3.y hc
  simp [V3.j, V3.k] at this

/-- Why that matters: a velocity that the hinge rows of the solver accept, with the ground at rest, turns the gear about the axis of the hinge only,
so its spin has no part along the world y axis. -/
theorem C108_spin {N : ℕ} (bodies : Fin N → RigidBody) (hs : List (Hinge N)) (k : Fin hs.length) (hn : axisP bodies (hs.get k) = V3.k) (u : Vel N → ℝ)
    (hu : ∀ i, (hingeJacobian bodies hs *ᵥ u) (k, i) = 0) (hrest : ang u (hs.get k).parent = 0) :
    (ang u (hs.get k).child).y = 0 ∧ (ang u (hs.get k).child).x = 0 := by
  have h0 : axisP bodies (hs.get k) ≠ 0 := by
    rw [hn]; intro h; have := congrArg V3.z h; simp [V3.k] at this
  obtain ⟨-, c, hc⟩ := (C41_hinge_kernel bodies hs k h0 u).1 hu
  rw [hrest, hn] at hc
  have hx := congrArg V3.x hc
  have hy := congrArg V3.y hc
  simp [V3.k] at hx hy
  exact ⟨hy, hx⟩

end Verif
