import Verif.Model.UsdApp

/-! rigid_bodies_app_gui.py: what the application shows in its viewer (polyscope), together with the recording of Model/UsdApp.lean.  Smooth shading,
transparency, logging and the XML option are left out. -/

namespace Verif.Usd

/-- A surface mesh registered with the viewer: vertices, triangles, colour and the transform (its upper left 3 by 3 block and its last column). -/
structure Shown where
  V : List V3
  T : List (ℕ × ℕ × ℕ)
  color : V3
  A : M3
  t : V3

/-- The structures the viewer holds, by name. -/
abbrev Screen := Dict String Shown

/-- rigid_bodies_app_gui.py:128-130. -/
noncomputable def body_color (is_fixed : Bool) : V3 := if is_fixed then ⟨0.1, 0.1, 1.0⟩ else ⟨1.0, 0.1, 0.1⟩

/-- rigid_bodies_app_gui.py:140-143, 216-219: `ps.get_surface_mesh(body.name).set_transform(T)`; a name without a mesh is a ValueError of polyscope. -/
noncomputable def show_pose (scr : Screen) (b : GuiBody) : Except PyErr Screen :=
  match scr.get? b.name with
  | none => .error .valueError
  | some s => .ok (scr.setItem b.name { s with A := Quat.to_matrix b.q, t := b.r })

/-- rigid_bodies_app_gui.py:125-143: one trip of the loop; a mesh is registered with the identity as its transform. -/
noncomputable def show_body (is_fixed : GuiBody → Bool) (scr : Screen) (b : GuiBody) : Except PyErr Screen :=
  show_pose (scr.setItem b.name ⟨b.V, b.T, body_color (is_fixed b), M3.identity, 0⟩) b

/-- rigid_bodies_app_gui.py:120-144 `create_visual_geometry`: everything is removed from the viewer first. -/
noncomputable def create_visual_geometry (is_fixed : GuiBody → Bool) (bodies : List GuiBody) : Except PyErr Screen :=
  bodies.foldlM (show_body is_fixed) Dict.empty

/-- rigid_bodies_app_gui.py:215-222: the loop that shows every body and records it at the time t. -/
noncomputable def showBodies : Option USD × Screen → List GuiBody → ℝ → Except PyErr (Option USD × Screen)
  | s, [], _ => .ok s
  | s, b :: L, t => do
    let scr ← show_pose s.2 b
    let usd ← match s.1 with
      | some u => (do return some (← update1 u b t))
      | none => pure none
    showBodies (usd, scr) L t

/-- rigid_bodies_app_gui.py:188-227 `simulate` with the viewer. -/
noncomputable def viewSimulate {σ : Type} (px : Pxr) (S : Sim σ) (v : App σ × Screen) : Except PyErr (App σ × Screen) :=
  match v.1.engine with
  | none => .ok v
  | some e =>
    if v.1.simulating = false then .ok v
    else if v.1.steps ≤ v.1.step then
      match v.1.usd with
      | some u => .ok ({ v.1 with file := (save u).file, usd := none }, v.2)
      | none => .ok v
    else do
      let usd ← if v.1.step = 0 then (do return some (← begin_ px (S.bodies e) v.1.steps)) else pure v.1.usd
      let s ← showBodies (usd, v.2) (S.bodies e) v.1.step
      let e ← S.simulate e
      return ({ v.1 with usd := s.1, engine := some e, step := v.1.step + 1 }, s.2)

/-- rigid_bodies_app_gui.py:148-186, 230-232 `callback` with the viewer. -/
noncomputable def viewCallback {σ : Type} (px : Pxr) (S : Sim σ) (is_fixed : σ → GuiBody → Bool) (v : App σ × Screen) (f : Frame σ) : Except PyErr (App σ × Screen) :=
  match f.created with
  | some (e, steps) => do
    let scr ← create_visual_geometry (is_fixed e) (S.bodies e)
    viewSimulate px S ({ v.1 with simulating := f.simulating, engine := some e, steps := steps, step := 0 }, scr)
  | none => viewSimulate px S ({ v.1 with simulating := f.simulating }, v.2)

/-- A session: frame after frame; an exception ends it. -/
noncomputable def viewSession {σ : Type} (px : Pxr) (S : Sim σ) (is_fixed : σ → GuiBody → Bool) : App σ × Screen → List (Frame σ) → Except PyErr (App σ × Screen)
  | v, [] => .ok v
  | v, f :: L => do
    let v ← viewCallback px S is_fixed v f
    viewSession px S is_fixed v L

end Verif.Usd
