import Verif.Props.SceneTemple2

/-! C109: the bodies of the temple do not overlap. -/

namespace Verif

open Rigid Rigid.SceneM SMesh
open VMesh (Tri)

theorem outer_eq {I n : ℕ} {w h : ℝ} {stones : ℕ} (hn : n ≠ 0) :
    ((outerPillars I (3 * n + 1) w w ((2 * (I : ℝ) - 1) * w) ((2 * ((3 * n + 1 : ℕ) : ℝ) - 1) * w) (0.1 * h * 3.0)).flatMap fun r =>
      (pillarPlan w h w stones).map fun b => b.under r Quat.identity) = (outerCells I n).flatMap (pillarAt (templeMeasure I n w h) stones) := by
  unfold outerPillars outerCells
  rw [List.flatMap_append, List.flatMap_append, List.flatMap_assoc, List.flatMap_assoc, List.flatMap_assoc, List.flatMap_assoc, List.flatMap_map,
    show 3 * n + 1 - 2 = 3 * n - 1 by omega]
  simp only [List.flatMap_cons, List.flatMap_nil, List.append_nil, pillarAt, templeMeasure, Measure.at]
  have hh : h = ((26 : ℤ) - (6 : ℤ)) * (h / 10 / 2) := by push_cast; ring
  congr 1
  · refine List.flatMap_congr fun i _ => ?_
    congr 1
    · rw [← hh]
      refine List.map_congr_left fun b _ => ?_
      congr 1
      simp only [lit2, lit3, lit01]
      refine V3.ext ?_ ?_ ?_ <;> simp [V3.divs] <;> ring
    · rw [← hh]
      refine List.map_congr_left fun b _ => ?_
      congr 1
      simp only [lit2, lit3, lit01]
      refine V3.ext ?_ ?_ ?_ <;> simp [V3.divs] <;> ring
  · refine List.flatMap_congr fun i _ => ?_
    congr 1
    · rw [← hh]
      refine List.map_congr_left fun b _ => ?_
      congr 1
      simp only [lit2, lit3, lit01]
      refine V3.ext ?_ ?_ ?_ <;> simp [V3.divs] <;> ring
    · rw [← hh]
      refine List.map_congr_left fun b _ => ?_
      congr 1
      simp only [lit2, lit3, lit01]
      refine V3.ext ?_ ?_ ?_ <;> simp [V3.divs] <;> ring

theorem inner_eq {I n : ℕ} {w h : ℝ} {stones : ℕ} :
    ((innerPillars I (3 * n + 1) w w ((2 * (I : ℝ) - 1) * w) ((2 * ((3 * n + 1 : ℕ) : ℝ) - 1) * w) (0.1 * h * 4.0)).flatMap fun r =>
      (pillarPlan w (h - 0.1 * h) w stones).map fun b => b.under r Quat.identity) = (innerCells I n).flatMap (pillarAt (templeMeasure I n w h) stones) := by
  unfold innerPillars innerCells
  rw [List.flatMap_assoc, List.flatMap_assoc, range3_three, List.flatMap_map]
  refine List.flatMap_congr fun m _ => ?_
  simp only [List.flatMap_map]
  refine List.flatMap_congr fun i _ => ?_
  simp only [pillarAt, templeMeasure, Measure.at]
  have hh : h - 0.1 * h = ((26 : ℤ) - (8 : ℤ)) * (h / 10 / 2) := by rw [lit01]; push_cast; ring
  rw [hh]
  refine List.map_congr_left fun b _ => ?_
  congr 1
  simp only [lit2, lit_4, lit01]
  refine V3.ext ?_ ?_ ?_ <;> simp [V3.divs] <;> ring

/-- The bricks that the code places are a temple. -/
theorem bricks_temple {hull : List V3 → List V3 × List Tri} {I n : ℕ} {w h : ℝ} {stones : ℕ} (hn : n ≠ 0) (hH : TempleHulls hull w h w) :
    IsTemple I n w h stones (templeBricks hull I (3 * n + 1) w h w stones) := by
  have h2 := List.rel_append (List.rel_append (List.rel_append (List.rel_append (List.rel_append (List.rel_append (bricks_fill (I := I) (n := n) (w := w) (h := h))
    corners_fill) (wedges_fill hH.wedge.1)) junctions_fill) (gables_fill hH.edge.1)) planks_fill) (ridge_fill hH.ridge.1)
  refine ⟨_, _, ?_, steps_fill, h2⟩
  unfold templeBricks
  simp only
  rw [outer_eq hn, inner_eq, List.flatMap_append]
  simp only [List.append_assoc]

/-! ### Separation -/

/-- An integer plane between two parts. -/
def PartsApart (P Q : Part) : Prop := ∃ a b c e : ℤ, (a ≠ 0 ∨ b ≠ 0 ∨ c ≠ 0) ∧ (∀ p ∈ P, a * p.1 + b * p.2.1 + c * p.2.2 ≤ e) ∧
  ∀ p ∈ Q, e ≤ a * p.1 + b * p.2.1 + c * p.2.2

theorem PartsApart.symm {P Q : Part} (h : PartsApart P Q) : PartsApart Q P := by
  obtain ⟨a, b, c, e, h0, h1, h2⟩ := h
  refine ⟨-a, -b, -c, -e, by omega, fun p hp => ?_, fun p hp => ?_⟩
  · have := h2 p hp; linarith
  · have := h1 p hp; linarith

/-- The points lie in the convex hull of the part. -/
def Inside (M : Measure) (A : List V3) (P : Part) : Prop := ∀ v ∈ A, InHull (P.map M.at) v

theorem Fills.inside {M : Measure} {b : Brick} {P : Part} (h : Fills M b P) : Inside M b.world P := by
  intro v hv n c hc
  obtain ⟨p, hp, rfl⟩ := (h v).1 hv
  exact hc _ (List.mem_map_of_mem hp)

theorem PartsApart.planes {M : Measure} (hw : 0 < M.w) (hs : 0 < M.s) {A B : List V3} {P Q : Part} (hA : Inside M A P) (hB : Inside M B Q)
    (h : PartsApart P Q) : PlaneApart A B := by
  obtain ⟨a, b, c, e, h0, h1, h2⟩ := h
  have eq : ∀ p : ℤ × ℤ × ℤ, V3.dot ⟨a * (M.s / 2), b * (M.w / 4), c * (M.s / 2)⟩ (M.at p) =
      ((a * p.1 + b * p.2.1 + c * p.2.2 : ℤ) : ℝ) * (M.w / 4 * (M.s / 2)) + (a * M.ox + c * M.oz) * (M.s / 2) := by
    intro p
    simp only [Measure.at, V3.dot]
    push_cast
    ring
  have hu : 0 ≤ M.w / 4 * (M.s / 2) := by positivity
  refine ⟨⟨a * (M.s / 2), b * (M.w / 4), c * (M.s / 2)⟩, e * (M.w / 4 * (M.s / 2)) + (a * M.ox + c * M.oz) * (M.s / 2), ?_, ?_, ?_⟩
  · intro hz
    have e1 := congrArg V3.x hz
    have e2 := congrArg V3.y hz
    have e3 := congrArg V3.z hz
    simp [hw.ne', hs.ne'] at e1 e2 e3
    omega
  · intro v hv
    refine hA v hv _ _ fun u hu' => ?_
    obtain ⟨p, hp, rfl⟩ := List.mem_map.1 hu'
    rw [eq]
    have : ((a * p.1 + b * p.2.1 + c * p.2.2 : ℤ) : ℝ) ≤ (e : ℝ) := by exact_mod_cast h1 p hp
    have := mul_le_mul_of_nonneg_right this hu
    linarith
  · intro v hv
    have := hB v hv (-⟨a * (M.s / 2), b * (M.w / 4), c * (M.s / 2)⟩) (-(e * (M.w / 4 * (M.s / 2)) + (a * M.ox + c * M.oz) * (M.s / 2))) fun u hu' => by
      obtain ⟨p, hp, rfl⟩ := List.mem_map.1 hu'
      have h3 := eq p
      have : (e : ℝ) ≤ ((a * p.1 + b * p.2.1 + c * p.2.2 : ℤ) : ℝ) := by exact_mod_cast h2 p hp
      have := mul_le_mul_of_nonneg_right this hu
      simp only [V3.dot, V3.neg_x, V3.neg_y, V3.neg_z] at h3 ⊢
      linarith
    simp only [V3.dot, V3.neg_x, V3.neg_y, V3.neg_z] at this ⊢
    linarith

/-- The part lies in the cell. -/
def Within (P : Part) (c : Cell) : Prop := ∀ p ∈ P, c.x0 ≤ p.1 ∧ p.1 ≤ c.x1 ∧ c.y0 ≤ p.2.1 ∧ p.2.1 ≤ c.y1 ∧ c.z0 ≤ p.2.2 ∧ p.2.2 ≤ c.z1

/-- The cells have no interior point in common. -/
def Cell.Apart (a b : Cell) : Prop := a.x1 ≤ b.x0 ∨ b.x1 ≤ a.x0 ∨ a.y1 ≤ b.y0 ∨ b.y1 ≤ a.y0 ∨ a.z1 ≤ b.z0 ∨ b.z1 ≤ a.z0

theorem Cell.Apart.parts {P Q : Part} {a b : Cell} (hP : Within P a) (hQ : Within Q b) (h : a.Apart b) : PartsApart P Q := by
  rcases h with h | h | h | h | h | h
  · refine ⟨1, 0, 0, a.x1, by omega, fun p hp => ?_, fun p hp => ?_⟩
    · have := hP p hp; omega
    · have := hQ p hp; omega
  · refine ⟨-1, 0, 0, -a.x0, by omega, fun p hp => ?_, fun p hp => ?_⟩
    · have := hP p hp; omega
    · have := hQ p hp; omega
  · refine ⟨0, 1, 0, a.y1, by omega, fun p hp => ?_, fun p hp => ?_⟩
    · have := hP p hp; omega
    · have := hQ p hp; omega
  · refine ⟨0, -1, 0, -a.y0, by omega, fun p hp => ?_, fun p hp => ?_⟩
    · have := hP p hp; omega
    · have := hQ p hp; omega
  · refine ⟨0, 0, 1, a.z1, by omega, fun p hp => ?_, fun p hp => ?_⟩
    · have := hP p hp; omega
    · have := hQ p hp; omega
  · refine ⟨0, 0, -1, -a.z0, by omega, fun p hp => ?_, fun p hp => ?_⟩
    · have := hP p hp; omega
    · have := hQ p hp; omega

/-- Blocks of bricks in parts that are apart. -/
theorem blocks_apart {M : Measure} (hw : 0 < M.w) (hs : 0 < M.s) {L : List (List Brick)} {R : List Part}
    (h : List.Forall₂ (fun B P => (∀ b ∈ B, Inside M b.world P) ∧ B.Pairwise fun a b => PlaneApart a.world b.world) L R) (hR : R.Pairwise PartsApart) :
    L.flatten.Pairwise fun a b => PlaneApart a.world b.world := by
  induction h with
  | nil => simp
  | @cons B P L R h1 h2 ih =>
    rw [List.pairwise_cons] at hR
    rw [List.flatten_cons, List.pairwise_append]
    refine ⟨h1.2, ih hR.2, fun a ha b hb => ?_⟩
    obtain ⟨B', hB', hbB⟩ := List.mem_flatten.1 hb
    obtain ⟨i, hi, rfl⟩ := List.mem_iff_getElem.1 hB'
    have hlen := h2.length_eq
    have hi' : i < R.length := hlen ▸ hi
    have h3 := (List.forall₂_iff_get.1 h2).2 i hi hi'
    have hQ : R[i] ∈ R := List.getElem_mem _
    exact (hR.1 _ hQ).planes hw hs (h1.1 a ha) (h3.1 b hbB)

theorem singles {M : Measure} {B : List Brick} {R : List Part} (h : List.Forall₂ (Fills M) B R) :
    List.Forall₂ (fun B P => (∀ b ∈ B, Inside M b.world P) ∧ B.Pairwise fun a b => PlaneApart a.world b.world) (B.map fun b => [b]) R := by
  rw [List.forall₂_map_left_iff]
  refine h.imp fun b P hb => ⟨?_, List.pairwise_singleton _ _⟩
  intro b' hb'
  rw [List.mem_singleton] at hb'
  subst hb'
  exact hb.inside

/-! ### The stones of a pillar -/

theorem inside_box {M : Measure} {A : List V3} {c : Cell} (h : ∀ p ∈ A, (M.at (c.x0, c.y0, c.z0)).x ≤ p.x ∧ p.x ≤ (M.at (c.x1, c.y1, c.z1)).x ∧
    (M.at (c.x0, c.y0, c.z0)).y ≤ p.y ∧ p.y ≤ (M.at (c.x1, c.y1, c.z1)).y ∧ (M.at (c.x0, c.y0, c.z0)).z ≤ p.z ∧ p.z ≤ (M.at (c.x1, c.y1, c.z1)).z) :
    Inside M A c.box := by
  intro v hv n e he
  obtain ⟨h1, h2, h3, h4, h5, h6⟩ := h v hv
  have hc : ∀ p ∈ c.box, V3.dot n (M.at p) ≤ e := fun p hp => he _ (List.mem_map_of_mem hp)
  unfold Cell.box upright at hc
  simp only [List.flatMap_cons, List.flatMap_nil, List.cons_append, List.nil_append, List.append_nil, List.forall_mem_cons, List.not_mem_nil,
    IsEmpty.forall_iff, implies_true, and_true, V3.dot, Measure.at] at hc
  simp only [Measure.at] at h1 h2 h3 h4 h5 h6
  obtain ⟨c1, c2, c3, c4, c5, c6, c7, c8⟩ := hc
  unfold V3.dot
  generalize M.ox + c.x0 * (M.w / 4) = x0 at *
  generalize M.ox + c.x1 * (M.w / 4) = x1 at *
  generalize c.y0 * (M.s / 2) = y0 at *
  generalize c.y1 * (M.s / 2) = y1 at *
  generalize M.oz + c.z0 * (M.w / 4) = z0 at *
  generalize M.oz + c.z1 * (M.w / 4) = z1 at *
  have best : ∀ k lo hi t : ℝ, lo ≤ t → t ≤ hi → k * t ≤ k * lo ∨ k * t ≤ k * hi := by
    intro k lo hi t ha hb
    rcases le_total 0 k with hk | hk
    · exact Or.inr (mul_le_mul_of_nonneg_left hb hk)
    · exact Or.inl (mul_le_mul_of_nonpos_left ha hk)
  rcases best n.x x0 x1 v.x h1 h2 with a | a <;> rcases best n.y y0 y1 v.y h3 h4 with b | b <;> rcases best n.z z0 z1 v.z h5 h6 with d | d <;> linarith

theorem frustum_radius {rb rt h ρ : ℝ} (hb0 : 0 ≤ rb) (ht0 : 0 ≤ rt) (hb : rb ≤ ρ) (ht : rt ≤ ρ) :
    ∀ v ∈ (frustum rb rt h).1, (-ρ ≤ v.x ∧ v.x ≤ ρ) ∧ (-ρ ≤ v.z ∧ v.z ≤ ρ) := by
  obtain ⟨V, T, h1, h2, h3, h4, -⟩ := C33_conical rb rt h 12 (by norm_num)
  have e : frustum rb rt h = (V, T) := by unfold frustum; rw [h1]
  rw [e]
  intro v hv
  have key : v.x ^ 2 + v.z ^ 2 ≤ ρ ^ 2 := by
    rcases h4 v hv with ⟨-, g | g⟩ | ⟨-, g | g⟩ <;> rw [g]
    · positivity
    · exact pow_le_pow_left₀ hb0 hb 2
    · positivity
    · exact pow_le_pow_left₀ ht0 ht 2
  constructor <;> refine abs_le.1 (abs_le_of_sq_le_sq ?_ (hb0.trans hb)) <;> nlinarith [sq_nonneg v.x, sq_nonneg v.z]

theorem pillar_inside {w h : ℝ} (hw : 0 ≤ w) (hh : 0 < h) {stones : ℕ} (hs : stones ≠ 0) : ∀ b ∈ pillarPlan w h w stones, ∀ p ∈ b.world,
    -(w / 2) ≤ p.x ∧ p.x ≤ w / 2 ∧ 0 ≤ p.y ∧ p.y ≤ h ∧ -(w / 2) ≤ p.z ∧ p.z ≤ w / 2 := by
  have hst : (0:ℝ) < stones := by exact_mod_cast Nat.pos_of_ne_zero hs
  have box : ∀ H y : ℝ, 0 ≤ H → 0 ≤ y - H / 2 → y + H / 2 ≤ h →
      ∀ p ∈ Brick.world ⟨(create_box w H w).1, (create_box w H w).2, ⟨0, y, 0⟩, Quat.identity⟩,
      -(w / 2) ≤ p.x ∧ p.x ≤ w / 2 ∧ 0 ≤ p.y ∧ p.y ≤ h ∧ -(w / 2) ≤ p.z ∧ p.z ≤ w / 2 := by
    intro H y hH h1 h2 p hp
    have hy := box_between hH p hp
    unfold Brick.world at hp
    obtain ⟨v, hv, rfl⟩ := List.mem_map.1 hp
    obtain ⟨hx, -, hz⟩ := mem_box hv
    refine ⟨?_, ?_, h1.trans hy.1, hy.2.trans h2, ?_, ?_⟩ <;> unfold Brick.at <;> simp only [rotate_ident_V3, V3.add_x, V3.add_z] <;>
      rcases hx with e | e <;> rcases hz with e' | e' <;> linarith
  have cone : ∀ rb rt H y : ℝ, 0 ≤ rb → 0 ≤ rt → rb ≤ w / 2 → rt ≤ w / 2 → 0 ≤ H → 0 ≤ y → y + H ≤ h →
      ∀ p ∈ Brick.world ⟨(frustum rb rt H).1, (frustum rb rt H).2, ⟨0, y, 0⟩, Quat.identity⟩,
      -(w / 2) ≤ p.x ∧ p.x ≤ w / 2 ∧ 0 ≤ p.y ∧ p.y ≤ h ∧ -(w / 2) ≤ p.z ∧ p.z ≤ w / 2 := by
    intro rb rt H y b0 t0 b1 t1 hH h1 h2 p hp
    have hy := frustum_between hH p hp
    unfold Brick.world at hp
    obtain ⟨v, hv, rfl⟩ := List.mem_map.1 hp
    obtain ⟨hx, hz⟩ := frustum_radius b0 t0 b1 t1 v hv
    refine ⟨?_, ?_, h1.trans hy.1, hy.2.trans h2, ?_, ?_⟩ <;> unfold Brick.at <;> simp only [rotate_ident_V3, V3.add_x, V3.add_z] <;> linarith [hx.1, hx.2, hz.1, hz.2]
  intro b hb
  unfold pillarPlan at hb
  simp only [List.mem_append, List.mem_cons, List.not_mem_nil, or_false, List.mem_map, List.mem_range] at hb
  obtain ⟨L, hL⟩ : ∃ L, L = h - h / 20 - h / 15 * (7 / 10) - (h / 15 + h / 15 * (9 / 10)) := ⟨_, rfl⟩
  rw [← hL] at hb
  have hL0 : 0 < L := by rw [hL]; linarith
  have hdy : 0 < L / stones := by positivity
  rcases hb with (rfl | rfl | rfl | rfl) | ⟨k, hk, rfl⟩
  · exact box _ _ (by linarith) (by linarith) (by linarith)
  · exact box _ _ (by linarith) (by linarith) (by linarith)
  · exact cone _ _ _ _ (by linarith) (by linarith) (by linarith) (by linarith) (by linarith) (by linarith) (by linarith)
  · exact cone _ _ _ _ (by linarith) (by linarith) (by linarith) (by linarith) (by linarith) (by linarith) (by linarith)
  · have e : L = stones * (L / stones) := by field_simp
    have hk' : (k : ℝ) + 1 ≤ stones := by exact_mod_cast hk
    have hk0 : (0:ℝ) ≤ k := by positivity
    have h1 : k * (L / stones) + L / stones ≤ L := by
      have : ((k : ℝ) + 1) * (L / stones) ≤ stones * (L / stones) := by gcongr
      rw [← e] at this
      linarith
    have h2 : 0 ≤ k * (L / stones) := by positivity
    have f0 : 0 ≤ (k : ℝ) / stones := by positivity
    have f1 : (k : ℝ) / stones ≤ 1 := by rw [div_le_one hst]; linarith
    have f2 : 0 ≤ ((k : ℝ) + 1) / stones := by positivity
    have f3 : ((k : ℝ) + 1) / stones ≤ 1 := by rw [div_le_one hst]; linarith
    have g0 : 0 ≤ w * ((k : ℝ) / stones) := by positivity
    have g1 : w * ((k : ℝ) / stones) ≤ w := by nlinarith
    have g2 : 0 ≤ w * (((k : ℝ) + 1) / stones) := by positivity
    have g3 : w * (((k : ℝ) + 1) / stones) ≤ w := by nlinarith
    refine cone _ _ _ _ ?_ ?_ ?_ ?_ hdy.le (by linarith) (by linarith) <;> nlinarith

/-- The pillar in a cell: its stones are in the cell and apart from each other. -/
theorem pillarAt_block {M : Measure} (hw : 0 < M.w) (hs : 0 < M.s) {stones : ℕ} (hst : stones ≠ 0) {c : Cell} (hx : c.x1 = c.x0 + 4) (hy : c.y0 < c.y1)
    (hz : c.z1 = c.z0 + 4) :
    (∀ b ∈ pillarAt M stones c, Inside M b.world c.box) ∧ (pillarAt M stones c).Pairwise fun a b => PlaneApart a.world b.world := by
  have hy' : (0:ℝ) < c.y1 - c.y0 := by have : (c.y0 : ℝ) < c.y1 := by exact_mod_cast hy
                                       linarith
  have hh : 0 < (c.y1 - c.y0) * (M.s / 2) := by positivity
  refine ⟨fun b hb => ?_, pairwise_under ident_unit _ (pillar_apart hh hst)⟩
  unfold pillarAt at hb
  obtain ⟨b', hb', rfl⟩ := List.mem_map.1 hb
  refine inside_box fun p hp => ?_
  rw [Brick.under_world] at hp
  obtain ⟨v, hv, rfl⟩ := List.mem_map.1 hp
  obtain ⟨h1, h2, h3, h4, h5, h6⟩ := pillar_inside hw.le hh hst b' hb' v hv
  simp only [rotate_ident_V3, Measure.at, V3.divs, V3.add_x, V3.add_y, V3.add_z, hx, hz]
  push_cast
  refine ⟨?_, ?_, ?_, ?_, ?_, ?_⟩ <;> linarith

end Verif
