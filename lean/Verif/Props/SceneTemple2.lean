import Verif.Props.SceneTemple

/-! C109: the corners of the bodies of the temple. -/

namespace Verif

open Rigid Rigid.SceneM SMesh
open VMesh (Tri)

theorem rotate_Rz_pi (v : V3) : Quat.rotate (Quat.Rz Real.pi) v = ⟨-v.x, -v.y, v.z⟩ := by
  rw [rotate_Rz, Real.cos_pi, Real.sin_pi]
  refine V3.ext ?_ ?_ ?_ <;> simp

theorem rotate_Ry_pi (v : V3) : Quat.rotate (Quat.Ry Real.pi) v = ⟨-v.x, v.y, -v.z⟩ := by
  rw [rotate_Ry, Real.cos_pi, Real.sin_pi]
  refine V3.ext ?_ ?_ ?_ <;> simp

theorem rotate_Ry_neg_pi (v : V3) : Quat.rotate (Quat.Ry (-Real.pi)) v = ⟨-v.x, v.y, -v.z⟩ := by
  rw [rotate_Ry, Real.cos_neg, Real.sin_neg, Real.cos_pi, Real.sin_pi]
  refine V3.ext ?_ ?_ ?_ <;> simp

theorem rotate_Ry_half (v : V3) : Quat.rotate (Quat.Ry (Real.pi / 2.0)) v = ⟨v.z, v.y, -v.x⟩ := by
  rw [lit2, rotate_Ry, Real.cos_pi_div_two, Real.sin_pi_div_two]
  refine V3.ext ?_ ?_ ?_ <;> simp

theorem rotate_Ry_neg_half (v : V3) : Quat.rotate (Quat.Ry (-Real.pi / 2.0)) v = ⟨-v.z, v.y, v.x⟩ := by
  rw [lit2, rotate_Ry, neg_div, Real.cos_neg, Real.sin_neg, Real.cos_pi_div_two, Real.sin_pi_div_two]
  refine V3.ext ?_ ?_ ?_ <;> simp

theorem rotate_half_flip (v : V3) : Quat.rotate (Quat.prod (Quat.Ry (Real.pi / 2.0)) (Quat.Rx Real.pi)) v = ⟨-v.z, -v.y, -v.x⟩ := by
  rw [C02_rotate_prod, rotate_Rx_pi, rotate_Ry_half]

theorem rotate_neg_half_flip (v : V3) : Quat.rotate (Quat.prod (Quat.Ry (-Real.pi / 2.0)) (Quat.Rx Real.pi)) v = ⟨v.z, -v.y, v.x⟩ := by
  rw [C02_rotate_prod, rotate_Rx_pi, rotate_Ry_neg_half]
  simp

theorem fills_of {M : Measure} {V L : List V3} {T : List Tri} {r : V3} {q : Quat} {P Q : Part} (hV : ∀ v, v ∈ V ↔ v ∈ L)
    (h : L.map (fun v => r + Quat.rotate q v) = Q.map M.at) (hQ : ∀ p, p ∈ Q ↔ p ∈ P) : Fills M ⟨V, T, r, q⟩ P := by
  intro v
  have : v ∈ Brick.world ⟨V, T, r, q⟩ ↔ v ∈ L.map (fun v => r + Quat.rotate q v) := by
    unfold Brick.world Brick.at
    simp only [List.mem_map, hV]
  rw [this, h]
  simp only [List.mem_map, hQ, eq_comm]

theorem fills_upright {M : Measure} {V L : List V3} {T : List Tri} {r : V3} {q : Quat} {poly : List (ℤ × ℤ)} {y0 y1 : ℤ} (hV : ∀ v, v ∈ V ↔ v ∈ L)
    (h : L.map (fun v => r + Quat.rotate q v) = (poly.map (fun p => (p.1, y1, p.2)) ++ poly.map (fun p => (p.1, y0, p.2))).map M.at ∨
      L.map (fun v => r + Quat.rotate q v) = (poly.map (fun p => (p.1, y0, p.2)) ++ poly.map (fun p => (p.1, y1, p.2))).map M.at) :
    Fills M ⟨V, T, r, q⟩ (upright poly y0 y1) := by
  rcases h with h | h <;> refine fills_of hV h fun p => ?_ <;> unfold upright <;>
    simp only [List.mem_append, List.mem_map, List.mem_flatMap, List.mem_cons, List.not_mem_nil, or_false] <;> constructor
  · rintro (⟨a, ha, rfl⟩ | ⟨a, ha, rfl⟩)
    · exact ⟨a, ha, Or.inr rfl⟩
    · exact ⟨a, ha, Or.inl rfl⟩
  · rintro ⟨a, ha, rfl | rfl⟩
    · exact Or.inr ⟨a, ha, rfl⟩
    · exact Or.inl ⟨a, ha, rfl⟩
  · rintro (⟨a, ha, rfl⟩ | ⟨a, ha, rfl⟩)
    · exact ⟨a, ha, Or.inl rfl⟩
    · exact ⟨a, ha, Or.inr rfl⟩
  · rintro ⟨a, ha, rfl | rfl⟩
    · exact Or.inl ⟨a, ha, rfl⟩
    · exact Or.inr ⟨a, ha, rfl⟩

theorem fills_along {M : Measure} {V L : List V3} {T : List Tri} {r : V3} {q : Quat} {poly : List (ℤ × ℤ)} {z0 z1 : ℤ} (hV : ∀ v, v ∈ V ↔ v ∈ L)
    (h : L.map (fun v => r + Quat.rotate q v) = (poly.map (fun p => (p.1, p.2, z1)) ++ poly.map (fun p => (p.1, p.2, z0))).map M.at ∨
      L.map (fun v => r + Quat.rotate q v) = (poly.map (fun p => (p.1, p.2, z0)) ++ poly.map (fun p => (p.1, p.2, z1))).map M.at) :
    Fills M ⟨V, T, r, q⟩ (along poly z0 z1) := by
  rcases h with h | h <;> refine fills_of hV h fun p => ?_ <;> unfold along <;>
    simp only [List.mem_append, List.mem_map, List.mem_flatMap, List.mem_cons, List.not_mem_nil, or_false] <;> constructor
  · rintro (⟨a, ha, rfl⟩ | ⟨a, ha, rfl⟩)
    · exact ⟨a, ha, Or.inr rfl⟩
    · exact ⟨a, ha, Or.inl rfl⟩
  · rintro ⟨a, ha, rfl | rfl⟩
    · exact Or.inr ⟨a, ha, rfl⟩
    · exact Or.inl ⟨a, ha, rfl⟩
  · rintro (⟨a, ha, rfl⟩ | ⟨a, ha, rfl⟩)
    · exact ⟨a, ha, Or.inl rfl⟩
    · exact ⟨a, ha, Or.inr rfl⟩
  · rintro ⟨a, ha, rfl | rfl⟩
    · exact Or.inl ⟨a, ha, rfl⟩
    · exact Or.inr ⟨a, ha, rfl⟩

/-- A box, not turned or turned by a quarter about the y axis. -/
theorem fills_box {M : Measure} {a b c : ℝ} {T : List Tri} {r : V3} {k : Cell} (hx0 : r.x - a / 2 = M.ox + k.x0 * (M.w / 4))
    (hx1 : r.x + a / 2 = M.ox + k.x1 * (M.w / 4)) (hy0 : r.y - b / 2 = k.y0 * (M.s / 2)) (hy1 : r.y + b / 2 = k.y1 * (M.s / 2))
    (hz0 : r.z - c / 2 = M.oz + k.z0 * (M.w / 4)) (hz1 : r.z + c / 2 = M.oz + k.z1 * (M.w / 4)) :
    Fills M ⟨(create_box a b c).1, T, r, Quat.identity⟩ k.box := by
  refine fills_of (L := (create_box a b c).1) (fun _ => Iff.rfl) (Q := [(k.x0, k.y0, k.z0), (k.x1, k.y0, k.z0), (k.x0, k.y1, k.z0), (k.x1, k.y1, k.z0),
    (k.x0, k.y0, k.z1), (k.x1, k.y0, k.z1), (k.x0, k.y1, k.z1), (k.x1, k.y1, k.z1)]) ?_ ?_
  · simp only [create_box, rotate_ident_V3, List.map_cons, List.map_nil, Measure.at, List.cons.injEq, and_true, show (0.5:ℝ) = 1 / 2 by norm_num]
    rw [← hx0, ← hx1, ← hy0, ← hy1, ← hz0, ← hz1]
    refine ⟨?_, ?_, ?_, ?_, ?_, ?_, ?_, ?_⟩ <;> refine V3.ext ?_ ?_ ?_ <;> simp <;> ring
  · intro p
    unfold Cell.box upright
    simp only [List.mem_flatMap, List.mem_cons, List.not_mem_nil, or_false, exists_eq_or_imp, exists_eq_left]
    tauto

theorem fills_box_turned {M : Measure} {a b c : ℝ} {T : List Tri} {r : V3} {k : Cell} (hx0 : r.x - c / 2 = M.ox + k.x0 * (M.w / 4))
    (hx1 : r.x + c / 2 = M.ox + k.x1 * (M.w / 4)) (hy0 : r.y - b / 2 = k.y0 * (M.s / 2)) (hy1 : r.y + b / 2 = k.y1 * (M.s / 2))
    (hz0 : r.z - a / 2 = M.oz + k.z0 * (M.w / 4)) (hz1 : r.z + a / 2 = M.oz + k.z1 * (M.w / 4)) :
    Fills M ⟨(create_box a b c).1, T, r, Quat.Ry (Real.pi / 2.0)⟩ k.box := by
  refine fills_of (L := (create_box a b c).1) (fun _ => Iff.rfl) (Q := [(k.x0, k.y0, k.z1), (k.x0, k.y0, k.z0), (k.x0, k.y1, k.z1), (k.x0, k.y1, k.z0),
    (k.x1, k.y0, k.z1), (k.x1, k.y0, k.z0), (k.x1, k.y1, k.z1), (k.x1, k.y1, k.z0)]) ?_ ?_
  · simp only [create_box, rotate_Ry_half, List.map_cons, List.map_nil, Measure.at, List.cons.injEq, and_true, show (0.5:ℝ) = 1 / 2 by norm_num]
    rw [← hx0, ← hx1, ← hy0, ← hy1, ← hz0, ← hz1]
    refine ⟨?_, ?_, ?_, ?_, ?_, ?_, ?_, ?_⟩ <;> refine V3.ext ?_ ?_ ?_ <;> simp <;> ring
  · intro p
    unfold Cell.box upright
    simp only [List.mem_flatMap, List.mem_cons, List.not_mem_nil, or_false, exists_eq_or_imp, exists_eq_left]
    tauto

theorem forall₂_flatMap' {α β γ : Type*} {R : β → γ → Prop} {l : List α} {f : α → List β} {g : α → List γ} (h : ∀ a ∈ l, List.Forall₂ R (f a) (g a)) :
    List.Forall₂ R (l.flatMap f) (l.flatMap g) := by
  induction l with
  | nil => exact List.Forall₂.nil
  | cons a l ih =>
    simp only [List.flatMap_cons]
    exact List.rel_append (h a (by simp)) (ih fun b hb => h b (by simp [hb]))

theorem forall₂_map' {α β γ : Type*} {R : β → γ → Prop} {l : List α} {f : α → β} {g : α → γ} (h : ∀ a ∈ l, R (f a) (g a)) :
    List.Forall₂ R (l.map f) (l.map g) := by
  rw [List.forall₂_map_left_iff, List.forall₂_map_right_iff, List.forall₂_same]
  exact h

theorem range3_zero (n : ℕ) : range3 0 (3 * n + 1) = (List.range (n + 1)).map fun m => 3 * m := by
  unfold range3
  rw [show (3 * n + 1 - 0 + 2) / 3 = n + 1 by omega]
  simp

theorem range3_one (n : ℕ) : range3 1 (3 * n + 1) = (List.range n).map fun m => 1 + 3 * m := by
  unfold range3
  rw [show (3 * n + 1 - 1 + 2) / 3 = n by omega]

theorem range3_three (n : ℕ) : range3 3 (3 * n + 1 - 3) = (List.range (n - 1)).map fun m => 3 + 3 * m := by
  unfold range3
  rcases Nat.eq_zero_or_pos n with rfl | hn
  · rfl
  rw [show (3 * n + 1 - 3 - 3 + 2) / 3 = n - 1 by omega]

theorem range3_planks (n : ℕ) : range3 0 (3 * n + 1 - 1) = (List.range n).map fun m => 3 * m := by
  unfold range3
  rw [show (3 * n + 1 - 1 - 0 + 2) / 3 = n by omega]
  simp

theorem lit15 : (1.5:ℝ) = 3 / 2 := by norm_num
theorem lit05 : (0.5:ℝ) = 1 / 2 := by norm_num
theorem lit01 : (0.1:ℝ) = 1 / 10 := by norm_num
theorem lit25 : (2.5:ℝ) = 5 / 2 := by norm_num
theorem lit35 : (3.5:ℝ) = 7 / 2 := by norm_num
theorem lit65 : (6.5:ℝ) = 13 / 2 := by norm_num
theorem lit_1 : (1.0:ℝ) = 1 := by norm_num
theorem lit_4 : (4.0:ℝ) = 4 := by norm_num
theorem lit_6 : (6.0:ℝ) = 6 := by norm_num

/-- Decimal literals as fractions. -/
macro "temple_lits" : tactic => `(tactic| simp only [lit0, lit2, lit3, lit15, lit05, lit01, lit25, lit35, lit65, lit_1, lit_4, lit_6])

theorem steps_fill {I n : ℕ} {w h : ℝ} :
    List.Forall₂ (Fills (templeMeasure I n w h))
      (let W := (2 * (I : ℝ) - 1) * w
       let D := (2 * ((3 * n + 1 : ℕ) : ℝ) - 1) * w
       let e := 0.1 * h
       let step := fun (x y z p : ℝ) => (⟨(create_box x y z).1, (create_box x y z).2, ⟨0, p, 0⟩, Quat.identity⟩ : Brick)
       [step (W + 6 * w) e (D + 6 * w) (e * 0.5), step (W + 4 * w) e (D + 4 * w) (e * 1.5), step (W + 2 * w) e (D + 2 * w) (e * 2.5),
        step (W - 2.5 * w) e (D - 2.5 * w) (e * 3.5)]) (stepParts I n) := by
  simp only [lit15, lit05, lit01, lit25, lit35]
  unfold stepParts templeMeasure
  refine List.Forall₂.cons ?_ (List.Forall₂.cons ?_ (List.Forall₂.cons ?_ (List.Forall₂.cons ?_ List.Forall₂.nil))) <;>
    refine fills_box ?_ ?_ ?_ ?_ ?_ ?_ <;> push_cast <;> ring

theorem bricks_fill {I n : ℕ} {w h : ℝ} :
    List.Forall₂ (Fills (templeMeasure I n w h))
      ((epistyleBricks I (3 * n + 1) w w ((2 * (I : ℝ) - 1) * w) ((2 * ((3 * n + 1 : ℕ) : ℝ) - 1) * w)
        (0.1 * h * 3.0 + h + 2.0 * (0.1 * h) / 2.0)).map (brickOf fun _ => create_box (2.0 * w) (2.0 * (0.1 * h)) w)) (brickParts I n) := by
  unfold epistyleBricks brickParts
  rw [range3_zero, range3_one, List.map_append, List.map_flatMap, List.map_flatMap, List.flatMap_map, List.flatMap_map]
  simp only [List.map_map, Function.comp_def, List.map_cons, List.map_nil]
  refine List.rel_append ?_ ?_
  · refine forall₂_flatMap' fun m _ => forall₂_map' fun i _ => ?_
    unfold brickOf templeMeasure
    refine fills_box ?_ ?_ ?_ ?_ ?_ ?_ <;> simp only [lit0, lit2, lit3, lit15, lit05, lit01] <;> push_cast <;> ring
  · refine forall₂_flatMap' fun m _ => ?_
    unfold brickOf templeMeasure
    refine List.Forall₂.cons ?_ (List.Forall₂.cons ?_ List.Forall₂.nil) <;>
    refine fills_box_turned ?_ ?_ ?_ ?_ ?_ ?_ <;> simp only [lit0, lit2, lit3, lit15, lit05, lit01] <;> push_cast <;> ring

/-- Checks that vertices, turned and moved, are the given points of the grid. -/
macro "temple_pts" : tactic => `(tactic| (
  simp only [List.map_cons, List.map_nil, List.cons_append, List.nil_append, List.cons.injEq, and_true, rotate_ident_V3, rotate_Rx_pi, rotate_Ry_pi, rotate_Rz_pi,
    rotate_Ry_neg_pi, rotate_Ry_half, rotate_Ry_neg_half, rotate_half_flip, rotate_neg_half_flip]
  simp only [Measure.at, lit0, lit2, lit3, lit15, lit05, lit01, lit_1, lit_6, lit65]
  refine ⟨?_, ?_, ?_, ?_, ?_, ?_, ?_, ?_⟩ <;> refine V3.ext ?_ ?_ ?_ <;> simp <;> ring))

theorem corners_fill {I n : ℕ} {w h : ℝ} :
    List.Forall₂ (Fills (templeMeasure I n w h))
      ((cornerBricks w w ((2 * (I : ℝ) - 1) * w) ((2 * ((3 * n + 1 : ℕ) : ℝ) - 1) * w)
        (0.1 * h * 3.0 + h + 2.0 * (0.1 * h) / 2.0)).map (brickOf fun _ => cornerMesh w w (2.0 * (0.1 * h)))) (cornerParts I n) := by
  unfold cornerBricks cornerParts cornerMesh create_cuboid brickOf templeMeasure
  simp only [List.map_cons, List.map_nil]
  refine List.Forall₂.cons ?_ (List.Forall₂.cons ?_ (List.Forall₂.cons ?_ (List.Forall₂.cons ?_ (List.Forall₂.cons ?_ (List.Forall₂.cons ?_
    (List.Forall₂.cons ?_ (List.Forall₂.cons ?_ List.Forall₂.nil)))))))
  · refine fills_upright (fun _ => Iff.rfl) (Or.inl ?_); temple_pts
  · refine fills_upright (fun _ => Iff.rfl) (Or.inr ?_); temple_pts
  · refine fills_upright (fun _ => Iff.rfl) (Or.inr ?_); temple_pts
  · refine fills_upright (fun _ => Iff.rfl) (Or.inl ?_); temple_pts
  · refine fills_upright (fun _ => Iff.rfl) (Or.inl ?_); temple_pts
  · refine fills_upright (fun _ => Iff.rfl) (Or.inr ?_); temple_pts
  · refine fills_upright (fun _ => Iff.rfl) (Or.inl ?_); temple_pts
  · refine fills_upright (fun _ => Iff.rfl) (Or.inr ?_); temple_pts

/-- The same with ten vertices. -/
macro "temple_pts10" : tactic => `(tactic| (
  simp only [List.map_cons, List.map_nil, List.cons_append, List.nil_append, List.cons.injEq, and_true, rotate_ident_V3, rotate_Ry_pi]
  simp only [Measure.at, lit0, lit2, lit3, lit15, lit05, lit01, lit_1]
  refine ⟨?_, ?_, ?_, ?_, ?_, ?_, ?_, ?_, ?_, ?_⟩ <;> refine V3.ext ?_ ?_ ?_ <;> simp <;> ring))

/-- The same with six vertices. -/
macro "temple_pts6" : tactic => `(tactic| (
  simp only [List.map_cons, List.map_nil, List.cons_append, List.nil_append, List.cons.injEq, and_true, rotate_ident_V3, rotate_Ry_pi]
  simp only [Measure.at, lit0, lit2, lit3, lit15, lit05, lit01, lit_1]
  refine ⟨?_, ?_, ?_, ?_, ?_, ?_⟩ <;> refine V3.ext ?_ ?_ ?_ <;> simp <;> ring))

theorem wedges_fill {I n : ℕ} {w h : ℝ} {VT : List V3 × List Tri} (hV : VT.1.Perm (wedgePoints w w (2.0 * (0.1 * h)))) :
    List.Forall₂ (Fills (templeMeasure I n w h))
      ((wedgeBricks (3 * n + 1) w w ((2 * (I : ℝ) - 1) * w) ((2 * ((3 * n + 1 : ℕ) : ℝ) - 1) * w)
        (0.1 * h * 3.0 + h + 2.0 * (0.1 * h) / 2.0)).map (brickOf fun _ => VT)) (wedgeParts I n) := by
  unfold wedgeBricks wedgeParts
  rw [range3_three, List.map_flatMap, List.flatMap_map]
  refine forall₂_flatMap' fun m _ => ?_
  unfold brickOf templeMeasure
  simp only [List.map_cons, List.map_nil]
  refine List.Forall₂.cons ?_ (List.Forall₂.cons ?_ List.Forall₂.nil)
  · refine fills_upright (fun _ => hV.mem_iff) (Or.inl ?_)
    unfold wedgePoints
    temple_pts10
  · refine fills_upright (fun _ => hV.mem_iff) (Or.inl ?_)
    unfold wedgePoints
    temple_pts10

theorem junctions_fill {I n : ℕ} {w h : ℝ} :
    List.Forall₂ (Fills (templeMeasure I n w h))
      ((junctionBricks (3 * n + 1) w w ((2 * (I : ℝ) - 1) * w) ((2 * ((3 * n + 1 : ℕ) : ℝ) - 1) * w)
        (0.1 * h * 3.0 + h + 2.0 * (0.1 * h) / 2.0)).map (brickOf fun _ => junctionMesh w w (2.0 * (0.1 * h)))) (junctionParts I n) := by
  unfold junctionBricks junctionParts
  rw [range3_three, List.map_flatMap, List.flatMap_map]
  refine forall₂_flatMap' fun m _ => ?_
  unfold junctionMesh create_cuboid brickOf templeMeasure
  simp only [List.map_cons, List.map_nil]
  refine List.Forall₂.cons ?_ (List.Forall₂.cons ?_ (List.Forall₂.cons ?_ (List.Forall₂.cons ?_ List.Forall₂.nil)))
  · refine fills_upright (fun _ => Iff.rfl) (Or.inl ?_); temple_pts
  · refine fills_upright (fun _ => Iff.rfl) (Or.inr ?_); temple_pts
  · refine fills_upright (fun _ => Iff.rfl) (Or.inr ?_); temple_pts
  · refine fills_upright (fun _ => Iff.rfl) (Or.inl ?_); temple_pts

theorem gables_fill {I n : ℕ} {w h : ℝ} {VT : List V3 × List Tri} (hV : VT.1.Perm (edgePoints (2.0 * w) (0.1 * h) (0.5 * w))) :
    List.Forall₂ (Fills (templeMeasure I n w h))
      ((gableBricks I (3 * n + 1) w h w ((2 * (I : ℝ) - 1) * w) ((2 * ((3 * n + 1 : ℕ) : ℝ) - 1) * w) (0.1 * h) (2.0 * (0.1 * h)) (2.0 * w) (0.1 * h)).map
        (brickOf fun edge => if edge then VT else gableMesh (2.0 * w) (0.1 * h) (0.5 * w))) (gableParts I n) := by
  unfold gableBricks gableParts
  rw [range3_zero, List.map_flatMap, List.flatMap_map]
  refine forall₂_flatMap' fun m _ => ?_
  rw [List.map_flatMap]
  refine forall₂_flatMap' fun j hj => ?_
  rw [List.map_map]
  refine forall₂_map' fun i hi => ?_
  rw [List.mem_range] at hi hj
  simp only [Function.comp_def]
  have hj' : j < I - 1 := hj
  by_cases h0 : i = 0
  · rw [if_pos ⟨h0, hj'⟩, if_pos h0]
    unfold brickOf templeMeasure
    simp only [if_pos trivial]
    refine fills_along (fun _ => hV.mem_iff) (Or.inl ?_)
    unfold edgePoints
    temple_pts6
  by_cases h1 : i = I - j - 1
  · rw [if_neg (fun e => h0 e.1), if_pos ⟨h1, hj'⟩, if_neg h0, if_pos h1]
    unfold brickOf templeMeasure
    simp only [if_pos trivial]
    refine fills_along (fun _ => hV.mem_iff) (Or.inr ?_)
    unfold edgePoints
    temple_pts6
  · rw [if_neg (fun e => h0 e.1), if_neg (fun e => h1 e.1), if_neg h0, if_neg h1]
    unfold brickOf templeMeasure gableMesh prism create_cuboid
    simp only [Bool.false_eq_true, if_false]
    refine fills_along (fun _ => Iff.rfl) (Or.inl ?_); temple_pts

theorem planks_fill {I n : ℕ} {w h : ℝ} :
    List.Forall₂ (Fills (templeMeasure I n w h))
      ((plankBodies I (3 * n + 1) h w ((2 * (I : ℝ) - 1) * w) ((2 * ((3 * n + 1 : ℕ) : ℝ) - 1) * w) (0.1 * h) (2.0 * (0.1 * h)) (2.0 * w) (0.1 * h)).map
        (brickOf (plankMesh w (0.1 * h) w))) (plankParts I n) := by
  unfold plankBodies plankParts
  rw [range3_planks, List.map_flatMap, List.flatMap_map]
  refine forall₂_flatMap' fun m hm => ?_
  rw [List.mem_range] at hm
  rw [List.map_flatMap]
  refine forall₂_flatMap' fun i _ => ?_
  unfold brickOf templeMeasure plankMesh leftPlank rightPlank prism create_cuboid
  simp only [List.map_cons, List.map_nil]
  have hlast : (3 * m = 3 * n + 1 - 4) ↔ (m = n - 1) ∨ (m = 0 ∧ n = 1) := by omega
  by_cases h0 : m = 0
  · subst h0
    simp only [Nat.mul_zero, if_true, true_or, Bool.false_eq_true, if_false]
    refine List.Forall₂.cons ?_ (List.Forall₂.cons ?_ List.Forall₂.nil) <;> refine fills_along (fun _ => Iff.rfl) (Or.inl ?_) <;> temple_pts
  · have h3 : 3 * m ≠ 0 := by omega
    simp only [if_neg h0, if_neg h3, h0, false_or, Bool.false_eq_true, if_false, if_true]
    by_cases h1 : m = n - 1
    · simp only [if_pos h1, if_pos (hlast.2 (Or.inl h1)), if_true]
      refine List.Forall₂.cons ?_ (List.Forall₂.cons ?_ List.Forall₂.nil) <;> refine fills_along (fun _ => Iff.rfl) (Or.inl ?_) <;> temple_pts
    · have h2 : ¬ 3 * m = 3 * n + 1 - 4 := by omega
      simp only [if_neg h1, if_neg h2, Bool.false_eq_true, if_false]
      refine List.Forall₂.cons ?_ (List.Forall₂.cons ?_ List.Forall₂.nil) <;> refine fills_along (fun _ => Iff.rfl) (Or.inl ?_) <;> temple_pts

theorem ridge_fill {I n : ℕ} {w h : ℝ} {VT : List V3 × List Tri} (hV : VT.1.Perm (ridgePoints w w (0.1 * h))) :
    List.Forall₂ (Fills (templeMeasure I n w h))
      ((ridgeBricks I (3 * n + 1) h w ((2 * ((3 * n + 1 : ℕ) : ℝ) - 1) * w) (0.1 * h) (2.0 * (0.1 * h)) (0.1 * h)).map
        (brickOf fun _ => VT)) (ridgeParts I n) := by
  unfold ridgeBricks ridgeParts
  rw [show (3 * n + 1) * 2 - 1 = 6 * n + 1 by omega, List.map_map]
  refine forall₂_map' fun k _ => ?_
  unfold templeMeasure
  simp only [Function.comp_def, brickOf]
  refine fills_along (fun _ => hV.mem_iff) (Or.inr ?_)
  unfold ridgePoints
  temple_pts6

end Verif
