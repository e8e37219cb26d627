import Verif.Model.SceneLattice
import Verif.Model.SceneChain

/-! Model of the scene builder create_chainmail.py. -/

namespace Verif.Rigid.SceneM

open SMesh

/-- create_chainmail.py:56-60, 64-78 (and 82-96, 100-114): one ring at r_l with orientation q_l in the frame of the mail. -/
noncomputable def mailRing (shape_name : String) (delta : ℝ) (columns rows : ℕ) (r_l : V3) (q_l : Quat) : SceneM String :=
  let q_m2w := Quat.Rx (-Real.pi / 2)
  let r_m2w : V3 := ⟨-delta * columns / 2, 0, delta * rows / 2⟩
  newBody "body" shape_name (globalPos r_m2w q_m2w r_l) (Quat.prod q_m2w q_l)

/-- create_chainmail.py:121-129: the rings at the corners become fixed. -/
def mailPins (body_names : List String) (columns rows : ℕ) : SceneM Unit := do
  let south_west_ring ← nameAt body_names 0
  let south_east_ring ← nameAt body_names columns
  let north_west_ring ← nameAt body_names ((rows + 1) * (columns + 1) - columns - 1)
  let north_east_ring ← nameAt body_names ((rows + 1) * (columns + 1) - 1)
  api fun e => e.set_body_type south_west_ring "fixed"
  api fun e => e.set_body_type south_east_ring "fixed"
  api fun e => e.set_body_type north_west_ring "fixed"
  api fun e => e.set_body_type north_east_ring "fixed"

/-- create_chainmail.py:14-131 `create_chainmail`; the numbers of rows and columns are natural numbers. -/
noncomputable def create_chainmail (eig : Eig) (major_radius minor_radius : ℝ) (columns rows : ℕ) (stretch density : ℝ)
    (material_name : String) (pinned : Bool) : SceneM (List String) := do
  let stretch := min (max stretch 0.0) 1.0
  let R := major_radius
  let r := minor_radius
  let shape_name ← newShape eig "torus_shape" (create_torus R r 24 24)
  let tau := 2 * R - 4 * r
  let delta := 2 * R + tau * stretch
  let flat ← (List.range (rows + 1)).mapM fun (j : ℕ) => (List.range (columns + 1)).mapM fun (i : ℕ) =>
    mailRing shape_name delta columns rows ⟨(i : ℝ) * delta, (j : ℝ) * delta, 0⟩ Quat.identity
  let across ← (List.range (rows + 1)).mapM fun (j : ℕ) => (List.range columns).mapM fun (i : ℕ) =>
    mailRing shape_name delta columns rows ⟨((i : ℝ) + 0.5) * delta, (j : ℝ) * delta, 0⟩ (Quat.Rx (Real.pi / 2))
  let along ← (List.range rows).mapM fun (j : ℕ) => (List.range (columns + 1)).mapM fun (i : ℕ) =>
    mailRing shape_name delta columns rows ⟨(i : ℝ) * delta, ((j : ℝ) + 0.5) * delta, 0⟩ (Quat.Ry (Real.pi / 2))
  let body_names := flat.flatten ++ across.flatten ++ along.flatten
  body_names.forM (setup "free" material_name density)
  if pinned then
    mailPins body_names columns rows
  return body_names

end Verif.Rigid.SceneM
