import Verif.Model.SceneTemple
import Verif.Props.SceneRuns
import Verif.Props.SceneMail
import Verif.Props.SceneFall2

/-! C109: the temple is built as intended. -/

namespace Verif

open Rigid Rigid.SceneM SMesh
open VMesh (Tri)

/-! ### The plan -/

/-- A box with integer corners. -/
structure Cell where
  x0 : ℤ
  x1 : ℤ
  y0 : ℤ
  y1 : ℤ
  z0 : ℤ
  z1 : ℤ

/-- How the integers measure the temple: a quarter of the pillars' width along x and z, half a step along y; the origin is the left back corner
of the rectangle of pillars, on the ground. -/
structure Measure where
  w : ℝ
  s : ℝ
  ox : ℝ
  oz : ℝ

/-- A point of the grid in the world. -/
noncomputable def Measure.at (M : Measure) (p : ℤ × ℤ × ℤ) : V3 := ⟨M.ox + p.1 * (M.w / 4), p.2.1 * (M.s / 2), M.oz + p.2.2 * (M.w / 4)⟩

/-- The corners of a body, as points of the grid. -/
abbrev Part := List (ℤ × ℤ × ℤ)

/-- An upright prism over a polygon of the ground plan (x, z), from height y0 to height y1. -/
def upright (poly : List (ℤ × ℤ)) (y0 y1 : ℤ) : Part := poly.flatMap fun p => [(p.1, y0, p.2), (p.1, y1, p.2)]

/-- A prism along the z axis with the cross section (x, y), from z0 to z1. -/
def along (poly : List (ℤ × ℤ)) (z0 z1 : ℤ) : Part := poly.flatMap fun p => [(p.1, p.2, z0), (p.1, p.2, z1)]

/-- The corners of a box. -/
def Cell.box (c : Cell) : Part := upright [(c.x0, c.z0), (c.x1, c.z0), (c.x1, c.z1), (c.x0, c.z1)] c.y0 c.y1

/-- The brick has exactly these corners in the world. -/
def Fills (M : Measure) (b : Brick) (P : Part) : Prop := ∀ v, v ∈ b.world ↔ ∃ p ∈ P, v = M.at p

/-- The four steps of a temple with I × (3n + 1) pillars. -/
def stepParts (I n : ℕ) : List Part :=
  [Cell.box ⟨-12, 8 * I + 8, 0, 2, -12, 24 * n + 16⟩, Cell.box ⟨-8, 8 * I + 4, 2, 4, -8, 24 * n + 12⟩, Cell.box ⟨-4, 8 * I, 4, 6, -4, 24 * n + 8⟩,
   Cell.box ⟨5, 8 * I - 9, 6, 8, 5, 24 * n - 1⟩]

/-- The pillars around the temple: front and back, then right and left. -/
def outerCells (I n : ℕ) : List Cell :=
  ((List.range I).flatMap fun (i : ℕ) => [⟨8 * i, 8 * i + 4, 6, 26, 24 * n, 24 * n + 4⟩, ⟨8 * i, 8 * i + 4, 6, 26, 0, 4⟩]) ++
  ((List.range (3 * n - 1)).flatMap fun (k : ℕ) =>
    [⟨8 * I - 8, 8 * I - 4, 6, 26, 8 * k + 8, 8 * k + 12⟩, ⟨0, 4, 6, 26, 8 * k + 8, 8 * k + 12⟩])

/-- The pillars inside: rows three pillars apart, standing on the interior step. -/
def innerCells (I n : ℕ) : List Cell :=
  (List.range (n - 1)).flatMap fun (m : ℕ) => (List.range (I - 2)).map fun (i : ℕ) =>
    ⟨8 * i + 8, 8 * i + 12, 8, 26, 24 * m + 24, 24 * m + 28⟩

/-- The regular bricks on the pillars: rows along x, rows along z. -/
def brickParts (I n : ℕ) : List Part :=
  ((List.range (n + 1)).flatMap fun (m : ℕ) => (List.range (I - 3)).map fun (i : ℕ) =>
    Cell.box ⟨8 * i + 10, 8 * i + 18, 26, 30, 24 * m, 24 * m + 4⟩) ++
  ((List.range n).flatMap fun (m : ℕ) =>
    [Cell.box ⟨8 * I - 8, 8 * I - 4, 26, 30, 24 * m + 10, 24 * m + 18⟩, Cell.box ⟨0, 4, 26, 30, 24 * m + 10, 24 * m + 18⟩])

/-- The corner bricks, mitred: four along x, four along z. -/
def cornerParts (I n : ℕ) : List Part :=
  let R : ℤ := 8 * I - 4
  let F : ℤ := 24 * n + 4
  [upright [(0, F), (10, F), (10, F - 4), (4, F - 4)] 26 30, upright [(R, F), (R - 10, F), (R - 10, F - 4), (R - 4, F - 4)] 26 30,
   upright [(0, 0), (10, 0), (10, 4), (4, 4)] 26 30, upright [(R, 0), (R - 10, 0), (R - 10, 4), (R - 4, 4)] 26 30,
   upright [(R, F), (R, F - 10), (R - 4, F - 10), (R - 4, F - 4)] 26 30, upright [(0, F), (0, F - 10), (4, F - 10), (4, F - 4)] 26 30,
   upright [(0, 0), (0, 10), (4, 10), (4, 4)] 26 30, upright [(R, 0), (R, 10), (R - 4, 10), (R - 4, 4)] 26 30]

/-- The pointed bricks at the ends of the inner rows: left and right. -/
def wedgeParts (I n : ℕ) : List Part :=
  let R : ℤ := 8 * I - 4
  (List.range (n - 1)).flatMap fun (m : ℕ) =>
    let z : ℤ := 24 * m + 26
    [upright [(4, z + 2), (10, z + 2), (10, z - 2), (4, z - 2), (0, z)] 26 30,
     upright [(R - 4, z - 2), (R - 10, z - 2), (R - 10, z + 2), (R - 4, z + 2), (R, z)] 26 30]

/-- The bricks at both sides of the points: left, front and back, and right. -/
def junctionParts (I n : ℕ) : List Part :=
  let R : ℤ := 8 * I - 4
  (List.range (n - 1)).flatMap fun (m : ℕ) =>
    let z : ℤ := 24 * m + 26
    [upright [(0, z + 8), (4, z + 8), (4, z + 2), (0, z)] 26 30, upright [(0, z - 8), (4, z - 8), (4, z - 2), (0, z)] 26 30,
     upright [(R, z + 8), (R - 4, z + 8), (R - 4, z + 2), (R, z)] 26 30, upright [(R, z - 8), (R - 4, z - 8), (R - 4, z - 2), (R, z)] 26 30]

/-- The gables: over every row along x a triangle of bricks, the first and the last of each layer half as long and sloped. -/
def gableParts (I n : ℕ) : List Part :=
  (List.range (n + 1)).flatMap fun (m : ℕ) => (List.range (I - 1)).flatMap fun (j : ℕ) => (List.range (I - j)).map fun (i : ℕ) =>
    let x : ℤ := 8 * i + 4 * j + 2
    let y : ℤ := 30 + 2 * j
    let z : ℤ := 24 * m + 1
    if i = 0 then along [(x, y), (x + 4, y), (x + 4, y + 2)] z (z + 2)
    else if i = I - j - 1 then along [(x, y), (x - 4, y), (x - 4, y + 2)] z (z + 2)
    else along [(x - 4, y), (x + 4, y), (x + 4, y + 2), (x - 4, y + 2)] z (z + 2)

/-- The roof: planks from gable to gable, left and right, from the eaves up. -/
def plankParts (I n : ℕ) : List Part :=
  let R : ℤ := 8 * I - 4
  (List.range n).flatMap fun (m : ℕ) => (List.range (I - 1)).flatMap fun (i : ℕ) =>
    let front : ℤ := if m = 0 then 24 * n + 4 else 24 * n + 2 - 24 * m
    let back : ℤ := if m = 0 ∨ m = n - 1 then front - 26 else front - 24
    let x : ℤ := 4 * i
    let y : ℤ := 30 + 2 * i
    [along [(x, y), (x + 2, y), (x + 6, y + 2), (x + 4, y + 2)] back front,
     along [(R - x - 2, y), (R - x, y), (R - x - 4, y + 2), (R - x - 6, y + 2)] back front]

/-- The ridge, from front to back. -/
def ridgeParts (I n : ℕ) : List Part :=
  (List.range (6 * n + 1)).map fun (k : ℕ) =>
    along [(4 * I - 4, 28 + 2 * I), (4 * I, 28 + 2 * I), (4 * I - 2, 29 + 2 * I)] (24 * n - 4 * k) (24 * n + 4 - 4 * k)

/-- A pillar in a cell: it stands in the middle of the bottom and reaches the top. -/
noncomputable def pillarAt (M : Measure) (stones : ℕ) (c : Cell) : List Brick :=
  (pillarPlan M.w ((c.y1 - c.y0) * (M.s / 2)) M.w stones).map fun b =>
    b.under (V3.divs (M.at (c.x0, c.y0, c.z0) + M.at (c.x1, c.y0, c.z1)) 2) Quat.identity

/-- The measure of a temple with pillars of width w and height h. -/
noncomputable def templeMeasure (I n : ℕ) (w h : ℝ) : Measure := ⟨w, h / 10, -((2 * I - 1) * w / 2), -((6 * n + 1) * w / 2)⟩

/-- A temple: the bodies in the order in which they are built. -/
def IsTemple (I n : ℕ) (w h : ℝ) (stones : ℕ) (B : List Brick) : Prop :=
  let M := templeMeasure I n w h
  ∃ B1 B2, B = B1 ++ ((outerCells I n ++ innerCells I n).flatMap (pillarAt M stones)) ++ B2 ∧ List.Forall₂ (Fills M) B1 (stepParts I n) ∧
    List.Forall₂ (Fills M) B2 (brickParts I n ++ cornerParts I n ++ wedgeParts I n ++ junctionParts I n ++ gableParts I n ++ plankParts I n ++
      ridgeParts I n)

/-- What `create_convex_hull` is relied on for: the points are the vertices of the mesh, which bounds a region around some point. -/
def HullOf (P : List V3) (VT : List V3 × List Tri) : Prop := VT.1.Perm P ∧ StarShaped VT

/-! ### Placing -/

/-- The brick of a placement. -/
noncomputable def brickOf {κ : Type} (mesh : κ → List V3 × List Tri) (p : κ × V3 × Quat) : Brick := ⟨(mesh p.1).1, (mesh p.1).2, p.2.1, p.2.2⟩

theorem makeBodies_ok {κ : Type} {base : String} {name : κ → String} {mesh : κ → List V3 × List Tri} {P : List (κ × V3 × Quat)} {s s' : Scene}
    {N : List String} (hq : ∀ p ∈ P, IsUnitQ p.2.2) (hsh : ∀ c, HasShape s (name c) (mesh c)) (h : makeBodies base name P s = .ok (N, s')) :
    PutUp Placed s s' (P.map (brickOf mesh)) N := by
  unfold makeBodies at h
  have := mapM_built (Q := Placed) _ (fun n : String => [n]) (fun p => [⟨(mesh p.1).1, (mesh p.1).2, p.2.1, Quat.unit p.2.2⟩])
    (fun s => ∀ c, HasShape s (name c) (mesh c)) (fun _ _ _ hg hh c => (hh c).grows hg) (fun p s b s' hI hb => newBody_ok (hI p.1) hb) _ _ _ _ hsh h
  · rw [flatMap_singleton_id, flatMap_singleton_map] at this
    convert this using 1
    refine List.map_congr_left fun p hp => ?_
    unfold brickOf
    rw [(C01_unit_spec _).2.1 (hq p hp)]

theorem makeBodies_runs {κ : Type} {base material : String} {name : κ → String} {mesh : κ → List V3 × List Tri} {P : List (κ × V3 × Quat)} {s : Scene}
    (hr : Ready material s) (hsh : ∀ c, HasShape s (name c) (mesh c)) :
    ∃ N s', makeBodies base name P s = .ok (N, s') ∧ Ready material s' ∧ Up s s' N := by
  unfold makeBodies
  have step : ∀ p ∈ P, ∀ s, (Ready material s ∧ ∀ c, HasShape s (name c) (mesh c)) → ∃ b s', newBody base (name p.1) p.2.1 p.2.2 s = .ok (b, s') ∧
      (Ready material s' ∧ ∀ c, HasShape s' (name c) (mesh c)) ∧ Up s s' [b] := by
    rintro p - s ⟨hr, hsh⟩
    obtain ⟨n, s2, h2, ⟨r2, -⟩, u2⟩ := body_runs (base := base) (r := p.2.1) (q := p.2.2) ⟨hr, hsh p.1⟩
    obtain ⟨B, hB⟩ := u2
    exact ⟨n, s2, h2, ⟨r2, fun c => (hsh c).grows hB.1⟩, B, hB⟩
  obtain ⟨N, s', h1, h2, h3⟩ := mapM_bodies_runs (fun s => Ready material s ∧ ∀ c, HasShape s (name c) (mesh c)) step s ⟨hr, hsh⟩
  exact ⟨N, s', h1, h2.1, h3⟩

theorem templeStep_ok {eig : Eig} (he : EigSpec eig) {shape body : String} {w h d y : ℝ} {s s' : Scene} {n : String} (hok : s.OK)
    (hrun : templeStep eig shape body w h d y s = .ok (n, s')) :
    PutUp Placed s s' [⟨(create_box w h d).1, (create_box w h d).2, ⟨0, y, 0⟩, Quat.identity⟩] [n] := by
  unfold templeStep at hrun
  rw [bind_ok] at hrun
  obtain ⟨k, s1, h1, h2⟩ := hrun
  obtain ⟨hg, hsh⟩ := newShape_ok he hok (C33_box_closed _ _ _).1 (C33_box_closed _ _ _).2 h1
  have := newBody_ok hsh h2
  rw [(C01_unit_spec _).2.1 ident_unit, lit0] at this
  exact PutUp.of_grows hg this

theorem templeStep_runs {eig : Eig} (he : EigSpec eig) {shape body material : String} {w h d y : ℝ} {s : Scene} (hr : Ready material s)
    (hw : 0 < w) (hh : 0 < h) (hd : 0 < d) :
    ∃ n s', templeStep eig shape body w h d y s = .ok (n, s') ∧ Ready material s' ∧ Up s s' [n] := by
  unfold templeStep
  refine bind_runs (newShape_runs he hr (box_star hw hh hd)) ?_
  rintro k s1 ⟨r1, hs1, g1⟩
  obtain ⟨n, s2, h2, ⟨r2, -⟩, u2⟩ := body_runs (base := body) (r := ⟨0.0, y, 0.0⟩) (q := Quat.identity) ⟨r1, hs1⟩
  exact ⟨n, s2, h2, r2, u2.of_grows g1⟩

/-! ### The bodies -/

theorem pillars_built {eig : Eig} (he : EigSpec eig) {w h d : ℝ} {stones : ℕ} {density : ℝ} {material : String} {L : List V3} {s s' : Scene}
    {N : List (List String)} (hok : s.OK)
    (hrun : (L.mapM fun r => create_pillar eig r Quat.identity w h d stones density material) s = .ok (N, s')) :
    PutUp Placed s s' (L.flatMap fun r => (pillarPlan w h d stones).map fun b => b.under r Quat.identity) N.flatten := by
  have := mapM_built (Q := Placed) _ (fun n : List String => n) (fun r => (pillarPlan w h d stones).map fun b => b.under r Quat.identity)
    (fun s => s.OK) (fun _ _ _ hg hh => hg.ok hh) (fun r s b s' hI hb => (pillar_built he ident_unit hI hb).2.2.mono finished_placed) _ _ _ _ hok hrun
  rwa [List.flatMap_id'] at this

/-- At least one pillar was built, so it has stones. -/
theorem pillars_stones {eig : Eig} (he : EigSpec eig) {w h d : ℝ} {stones : ℕ} {density : ℝ} {material : String} {L : List V3} {s s' : Scene}
    {N : List (List String)} (hok : s.OK) (hL : L ≠ [])
    (hrun : (L.mapM fun r => create_pillar eig r Quat.identity w h d stones density material) s = .ok (N, s')) : stones ≠ 0 := by
  obtain ⟨r, L, rfl⟩ := List.exists_cons_of_ne_nil hL
  rw [List.mapM_cons, bind_ok] at hrun
  obtain ⟨b, s1, h1, -⟩ := hrun
  exact (pillar_built he ident_unit hok h1).1

theorem makeOne_ok {eig : Eig} (he : EigSpec eig) {shape base : String} {VT : List V3 × List Tri} {P : List (Unit × V3 × Quat)} {s s1 s' : Scene}
    {k : String} {N : List String} (hok : s.OK) (hi : IndicesBelow VT.2 VT.1.length) (hc : ClosedOriented VT.2) (hq : ∀ p ∈ P, IsUnitQ p.2.2)
    (h1 : newShape eig shape VT s = .ok (k, s1)) (h2 : makeBodies base (fun _ => k) P s1 = .ok (N, s')) :
    PutUp Placed s s' (P.map (brickOf fun _ => VT)) N := by
  obtain ⟨hg, hsh⟩ := newShape_ok he hok hi hc h1
  exact PutUp.of_grows hg (makeBodies_ok hq (fun _ => hsh) h2)

/-- The planks by kind. -/
noncomputable def plankMesh (w e d : ℝ) (c : Bool × Bool) : List V3 × List Tri :=
  if c.1 then (if c.2 then rightPlank w e (6.5 * d) else rightPlank w e (6.0 * d)) else (if c.2 then leftPlank w e (6.5 * d) else leftPlank w e (6.0 * d))

/-- The bricks of the temple, as the code places them. -/
noncomputable def templeBricks (hull : List V3 → List V3 × List Tri) (I K : ℕ) (w h d : ℝ) (stones : ℕ) : List Brick :=
  let W := (2 * (I : ℝ) - 1) * w
  let D := (2 * (K : ℝ) - 1) * d
  let e := 0.1 * h
  let step := fun (x y z p : ℝ) => (⟨(create_box x y z).1, (create_box x y z).2, ⟨0, p, 0⟩, Quat.identity⟩ : Brick)
  let y := e * 3.0 + h + 2.0 * e / 2.0
  [step (W + 6 * w) e (D + 6 * d) (e * 0.5), step (W + 4 * w) e (D + 4 * d) (e * 1.5), step (W + 2 * w) e (D + 2 * d) (e * 2.5),
    step (W - 2.5 * w) e (D - 2.5 * d) (e * 3.5)] ++
  ((outerPillars I K w d W D (e * 3.0)).flatMap fun r => (pillarPlan w h d stones).map fun b => b.under r Quat.identity) ++
  ((innerPillars I K w d W D (e * 4.0)).flatMap fun r => (pillarPlan w (h - e) d stones).map fun b => b.under r Quat.identity) ++
  (epistyleBricks I K w d W D y).map (brickOf fun _ => create_box (2.0 * w) (2.0 * e) d) ++
  (cornerBricks w d W D y).map (brickOf fun _ => cornerMesh w d (2.0 * e)) ++
  (wedgeBricks K w d W D y).map (brickOf fun _ => hull (wedgePoints w d (2.0 * e))) ++
  (junctionBricks K w d W D y).map (brickOf fun _ => junctionMesh w d (2.0 * e)) ++
  (gableBricks I K w h d W D e (2.0 * e) (2.0 * w) e).map
    (brickOf fun edge => if edge then hull (edgePoints (2.0 * w) e (0.5 * d)) else gableMesh (2.0 * w) e (0.5 * d)) ++
  (plankBodies I K h d W D e (2.0 * e) (2.0 * w) e).map (brickOf (plankMesh w e d)) ++
  (ridgeBricks I K h d D e (2.0 * e) e).map (brickOf fun _ => hull (ridgePoints w d e))

/-- The three convex hulls of the temple. -/
structure TempleHulls (hull : List V3 → List V3 × List Tri) (w h d : ℝ) : Prop where
  wedge : HullOf (wedgePoints w d (2.0 * (0.1 * h))) (hull (wedgePoints w d (2.0 * (0.1 * h))))
  edge : HullOf (edgePoints (2.0 * w) (0.1 * h) (0.5 * d)) (hull (edgePoints (2.0 * w) (0.1 * h) (0.5 * d)))
  ridge : HullOf (ridgePoints w d (0.1 * h)) (hull (ridgePoints w d (0.1 * h)))

theorem epistyle_unit {I K : ℕ} {w d W D y : ℝ} : ∀ p ∈ epistyleBricks I K w d W D y, IsUnitQ p.2.2 := by
  unfold epistyleBricks
  simp only [List.mem_append, List.mem_flatMap, List.mem_map, List.mem_cons, List.not_mem_nil, or_false]
  rintro p (⟨k, -, i, -, rfl⟩ | ⟨k, -, rfl | rfl⟩)
  · exact ident_unit
  · exact Ry_unit _
  · exact Ry_unit _

theorem corner_unit {w d W D y : ℝ} : ∀ p ∈ cornerBricks w d W D y, IsUnitQ p.2.2 := by
  unfold cornerBricks
  simp only [List.mem_cons, List.not_mem_nil, or_false]
  rintro p (rfl | rfl | rfl | rfl | rfl | rfl | rfl | rfl)
  · exact ident_unit
  · exact Rz_unit _
  · exact Rx_unit _
  · exact Ry_unit _
  · exact Ry_unit _
  · exact prod_unit (Ry_unit _) (Rx_unit _)
  · exact Ry_unit _
  · exact prod_unit (Ry_unit _) (Rx_unit _)

theorem wedge_unit {K : ℕ} {w d W D y : ℝ} : ∀ p ∈ wedgeBricks K w d W D y, IsUnitQ p.2.2 := by
  unfold wedgeBricks
  simp only [List.mem_flatMap, List.mem_cons, List.not_mem_nil, or_false]
  rintro p ⟨k, -, rfl | rfl⟩
  · exact ident_unit
  · exact Ry_unit _

theorem junction_unit {K : ℕ} {w d W D y : ℝ} : ∀ p ∈ junctionBricks K w d W D y, IsUnitQ p.2.2 := by
  unfold junctionBricks
  simp only [List.mem_flatMap, List.mem_cons, List.not_mem_nil, or_false]
  rintro p ⟨k, -, rfl | rfl | rfl | rfl⟩
  · exact ident_unit
  · exact Rx_unit _
  · exact Rz_unit _
  · exact Ry_unit _

theorem gable_unit {I K : ℕ} {w h d W D e g a b : ℝ} : ∀ p ∈ gableBricks I K w h d W D e g a b, IsUnitQ p.2.2 := by
  unfold gableBricks
  simp only [List.mem_flatMap, List.mem_map]
  rintro p ⟨k, -, j, -, i, -, rfl⟩
  split_ifs
  · exact ident_unit
  · exact Ry_unit _
  · exact ident_unit

theorem plank_unit {I K : ℕ} {h d W D e g a b : ℝ} : ∀ p ∈ plankBodies I K h d W D e g a b, IsUnitQ p.2.2 := by
  unfold plankBodies
  simp only [List.mem_flatMap, List.mem_cons, List.not_mem_nil, or_false]
  rintro p ⟨k, -, i, -, rfl | rfl⟩ <;> exact ident_unit

theorem ridge_unit {I K : ℕ} {h d D e g b : ℝ} : ∀ p ∈ ridgeBricks I K h d D e g b, IsUnitQ p.2.2 := by
  unfold ridgeBricks
  simp only [List.mem_map]
  rintro p ⟨k, -, rfl⟩
  exact ident_unit

theorem prism_closed (xa ya xb yb xc yc xe ye f b : ℝ) : IndicesBelow (prism xa ya xb yb xc yc xe ye f b).2 (prism xa ya xb yb xc yc xe ye f b).1.length ∧
    ClosedOriented (prism xa ya xb yb xc yc xe ye f b).2 := C33_cuboid_closed _ _ _ _ _ _ _ _

theorem temple_built {eig : Eig} (he : EigSpec eig) {hull : List V3 → List V3 × List Tri} {I K : ℕ} {w h d : ℝ} {stones : ℕ} {density : ℝ}
    {material : String} {s s' : Scene} {names : List String} (hok : s.OK) (hH : TempleHulls hull w h d)
    (hrun : create_temple eig hull I K w h d stones density material s = .ok (names, s')) :
    ((K : ℤ) - 1) % 3 = 0 ∧ (I ≠ 0 → stones ≠ 0) ∧ PutUp (Finished false material density) s s' (templeBricks hull I K w h d stones) names := by
  unfold create_temple at hrun
  by_cases hK : ((K : ℤ) - 1) % 3 ≠ 0
  · rw [if_pos hK] at hrun; exact absurd hrun raise_ok
  rw [if_neg hK] at hrun
  refine ⟨not_not.1 hK, ?_⟩
  simp only at hrun
  rw [bind_ok] at hrun; obtain ⟨n1, s1, h1, hrun⟩ := hrun
  have b1 := templeStep_ok he hok h1
  have o1 := b1.1.ok hok
  rw [bind_ok] at hrun; obtain ⟨n2, s2, h2, hrun⟩ := hrun
  have b2 := templeStep_ok he o1 h2
  have o2 := b2.1.ok o1
  rw [bind_ok] at hrun; obtain ⟨n3, s3, h3, hrun⟩ := hrun
  have b3 := templeStep_ok he o2 h3
  have o3 := b3.1.ok o2
  rw [bind_ok] at hrun; obtain ⟨n4, s4, h4, hrun⟩ := hrun
  have b4 := templeStep_ok he o3 h4
  have o4 := b4.1.ok o3
  rw [bind_ok] at hrun; obtain ⟨n5, s5, h5, hrun⟩ := hrun
  have b5 := pillars_built he o4 h5
  have hst : I ≠ 0 → stones ≠ 0 := by
    intro hI
    refine pillars_stones he o4 (fun hnil => ?_) h5
    unfold outerPillars at hnil
    have := (List.append_eq_nil_iff.1 hnil).1
    rw [List.flatMap_eq_nil_iff] at this
    exact absurd (this 0 (by simp; omega)) (by simp)
  have o5 := b5.1.ok o4
  rw [bind_ok] at hrun; obtain ⟨n6, s6, h6, hrun⟩ := hrun
  have b6 := pillars_built he o5 h6
  have o6 := b6.1.ok o5
  rw [bind_ok] at hrun; obtain ⟨k7, t7, g7, hrun⟩ := hrun
  rw [bind_ok] at hrun; obtain ⟨n7, s7, h7, hrun⟩ := hrun
  have b7 := makeOne_ok he o6 (C33_box_closed _ _ _).1 (C33_box_closed _ _ _).2 epistyle_unit g7 h7
  have o7 := b7.1.ok o6
  rw [bind_ok] at hrun; obtain ⟨k8, t8, g8, hrun⟩ := hrun
  rw [bind_ok] at hrun; obtain ⟨n8, s8, h8, hrun⟩ := hrun
  have b8 := makeOne_ok he o7 (C33_cuboid_closed _ _ _ _ _ _ _ _).1 (C33_cuboid_closed _ _ _ _ _ _ _ _).2 corner_unit g8 h8
  have o8 := b8.1.ok o7
  rw [bind_ok] at hrun; obtain ⟨k9, t9, g9, hrun⟩ := hrun
  rw [bind_ok] at hrun; obtain ⟨n9, s9, h9, hrun⟩ := hrun
  have b9 := makeOne_ok he o8 hH.wedge.2.1 hH.wedge.2.2.1 wedge_unit g9 h9
  have o9 := b9.1.ok o8
  rw [bind_ok] at hrun; obtain ⟨k10, t10, g10, hrun⟩ := hrun
  rw [bind_ok] at hrun; obtain ⟨n10, s10, h10, hrun⟩ := hrun
  have b10 := makeOne_ok he o9 (C33_cuboid_closed _ _ _ _ _ _ _ _).1 (C33_cuboid_closed _ _ _ _ _ _ _ _).2 junction_unit g10 h10
  have o10 := b10.1.ok o9
  rw [bind_ok] at hrun; obtain ⟨k11, t11, g11, hrun⟩ := hrun
  obtain ⟨r11, e11⟩ := newShape_ok he o10 (prism_closed _ _ _ _ _ _ _ _ _ _).1 (prism_closed _ _ _ _ _ _ _ _ _ _).2 g11
  rw [bind_ok] at hrun; obtain ⟨k12, t12, g12, hrun⟩ := hrun
  obtain ⟨r12, e12⟩ := newShape_ok he (r11.ok o10) hH.edge.2.1 hH.edge.2.2.1 g12
  rw [bind_ok] at hrun; obtain ⟨n11, s11, h11, hrun⟩ := hrun
  have b11 := PutUp.of_grows r11 (PutUp.of_grows r12 (makeBodies_ok (mesh := fun edge => if edge then hull (edgePoints (2.0 * w) (0.1 * h) (0.5 * d))
    else gableMesh (2.0 * w) (0.1 * h) (0.5 * d)) gable_unit (by intro c; cases c; exacts [e11.grows r12, e12]) h11))
  have o11 := b11.1.ok o10
  rw [bind_ok] at hrun; obtain ⟨p1, q1, f1, hrun⟩ := hrun
  obtain ⟨a1, c1⟩ := newShape_ok he o11 (prism_closed _ _ _ _ _ _ _ _ _ _).1 (prism_closed _ _ _ _ _ _ _ _ _ _).2 f1
  rw [bind_ok] at hrun; obtain ⟨p2, q2, f2, hrun⟩ := hrun
  obtain ⟨a2, c2⟩ := newShape_ok he (a1.ok o11) (prism_closed _ _ _ _ _ _ _ _ _ _).1 (prism_closed _ _ _ _ _ _ _ _ _ _).2 f2
  rw [bind_ok] at hrun; obtain ⟨p3, q3, f3, hrun⟩ := hrun
  obtain ⟨a3, c3⟩ := newShape_ok he (a2.ok (a1.ok o11)) (prism_closed _ _ _ _ _ _ _ _ _ _).1 (prism_closed _ _ _ _ _ _ _ _ _ _).2 f3
  rw [bind_ok] at hrun; obtain ⟨p4, q4, f4, hrun⟩ := hrun
  obtain ⟨a4, c4⟩ := newShape_ok he (a3.ok (a2.ok (a1.ok o11))) (prism_closed _ _ _ _ _ _ _ _ _ _).1 (prism_closed _ _ _ _ _ _ _ _ _ _).2 f4
  rw [bind_ok] at hrun; obtain ⟨n12, s12, h12, hrun⟩ := hrun
  have b12 := PutUp.of_grows a1 (PutUp.of_grows a2 (PutUp.of_grows a3 (PutUp.of_grows a4 (makeBodies_ok (mesh := plankMesh w (0.1 * h) d) plank_unit (by
    rintro ⟨c, c'⟩
    cases c <;> cases c'
    · exact (c2.grows a3).grows a4
    · exact ((c1.grows a2).grows a3).grows a4
    · exact c4
    · exact c3.grows a4) h12))))
  have o12 := b12.1.ok o11
  rw [bind_ok] at hrun; obtain ⟨k13, t13, g13, hrun⟩ := hrun
  rw [bind_ok] at hrun; obtain ⟨n13, s13, h13, hrun⟩ := hrun
  have b13 := makeOne_ok he o12 hH.ridge.2.1 hH.ridge.2.2.1 ridge_unit g13 h13
  rw [bind_ok] at hrun; obtain ⟨u, s14, h14, hrun⟩ := hrun
  obtain ⟨rfl, rfl⟩ := pure_ok.1 hrun
  have key := (((((((((((b1.append b2).append b3).append b4).append b5).append b6).append b7).append b8).append b9).append b10).append b11).append b12).append
    b13
  have hN : [n1] ++ [n2] ++ [n3] ++ [n4] ++ n5.flatten ++ n6.flatten ++ n7 ++ n8 ++ n9 ++ n10 ++ n11 ++ n12 ++ n13 =
    [n1, n2, n3, n4] ++ n5.flatten ++ n6.flatten ++ n7 ++ n8 ++ n9 ++ n10 ++ n11 ++ n12 ++ n13 := rfl
  rw [hN] at key
  exact ⟨hst, key.setup (forM_setup_ok (Or.inr ⟨rfl, rfl⟩) _ _ _ _ key.1.nodup h14)⟩

end Verif
