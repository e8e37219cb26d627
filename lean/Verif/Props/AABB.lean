import Verif.Model.AABB

/-! C16: axis-aligned bounding boxes. -/

namespace Verif

/-- Specification: p lies in the box spanned by lo and hi. -/
def InBox (lo hi p : V3) : Prop :=
  lo.x ≤ p.x ∧ p.x ≤ hi.x ∧ lo.y ≤ p.y ∧ p.y ≤ hi.y ∧ lo.z ≤ p.z ∧ p.z ≤ hi.z

theorem foldl_vmin (vs : List V3) (v : V3) :
    (vs.foldl AABB.vmin v).x ≤ v.x ∧ (vs.foldl AABB.vmin v).y ≤ v.y ∧ (vs.foldl AABB.vmin v).z ≤ v.z ∧
    (∀ w ∈ vs, (vs.foldl AABB.vmin v).x ≤ w.x ∧ (vs.foldl AABB.vmin v).y ≤ w.y ∧
      (vs.foldl AABB.vmin v).z ≤ w.z) ∧
    (∀ l : V3, (∀ w ∈ v :: vs, l.x ≤ w.x ∧ l.y ≤ w.y ∧ l.z ≤ w.z) →
      l.x ≤ (vs.foldl AABB.vmin v).x ∧ l.y ≤ (vs.foldl AABB.vmin v).y ∧
      l.z ≤ (vs.foldl AABB.vmin v).z) := by
  induction vs generalizing v with
  | nil => simp
  | cons w vs ih =>
    obtain ⟨h1, h2, h3, h4, h5⟩ := ih (AABB.vmin v w)
    simp only [AABB.vmin, le_min_iff] at h1 h2 h3
    simp only [List.foldl_cons]
    refine ⟨h1.1, h2.1, h3.1, ?_, ?_⟩
    · intro u hu
      rcases List.mem_cons.mp hu with rfl | hu
      · exact ⟨h1.2, h2.2, h3.2⟩
      · exact h4 u hu
    · intro l hl
      apply h5
      intro u hu
      rcases List.mem_cons.mp hu with rfl | hu
      · have a := hl v (by simp)
        have b := hl w (by simp)
        simp only [AABB.vmin, le_min_iff]
        exact ⟨⟨a.1, b.1⟩, ⟨a.2.1, b.2.1⟩, ⟨a.2.2, b.2.2⟩⟩
      · exact hl u (by simp [hu])

theorem foldl_vmax (vs : List V3) (v : V3) :
    v.x ≤ (vs.foldl AABB.vmax v).x ∧ v.y ≤ (vs.foldl AABB.vmax v).y ∧ v.z ≤ (vs.foldl AABB.vmax v).z ∧
    (∀ w ∈ vs, w.x ≤ (vs.foldl AABB.vmax v).x ∧ w.y ≤ (vs.foldl AABB.vmax v).y ∧
      w.z ≤ (vs.foldl AABB.vmax v).z) ∧
    (∀ l : V3, (∀ w ∈ v :: vs, w.x ≤ l.x ∧ w.y ≤ l.y ∧ w.z ≤ l.z) →
      (vs.foldl AABB.vmax v).x ≤ l.x ∧ (vs.foldl AABB.vmax v).y ≤ l.y ∧
      (vs.foldl AABB.vmax v).z ≤ l.z) := by
  induction vs generalizing v with
  | nil => simp
  | cons w vs ih =>
    obtain ⟨h1, h2, h3, h4, h5⟩ := ih (AABB.vmax v w)
    simp only [AABB.vmax, max_le_iff] at h1 h2 h3
    simp only [List.foldl_cons]
    refine ⟨h1.1, h2.1, h3.1, ?_, ?_⟩
    · intro u hu
      rcases List.mem_cons.mp hu with rfl | hu
      · exact ⟨h1.2, h2.2, h3.2⟩
      · exact h4 u hu
    · intro l hl
      apply h5
      intro u hu
      rcases List.mem_cons.mp hu with rfl | hu
      · have a := hl v (by simp)
        have b := hl w (by simp)
        simp only [AABB.vmax, max_le_iff]
        exact ⟨⟨a.1, b.1⟩, ⟨a.2.1, b.2.1⟩, ⟨a.2.2, b.2.2⟩⟩
      · exact hl u (by simp [hu])

/-- C16: `create_from_vertices` returns the smallest box with all vertices (every box that contains
all vertices contains it), for every non-empty vertex list; an empty list raises. -/
theorem C16_smallest_box (vs : List V3) (h : vs ≠ []) :
    ∃ b, AABB.create_from_vertices vs = .ok b ∧ (∀ v ∈ vs, InBox b.min_point b.max_point v) ∧
      (∀ lo hi, (∀ v ∈ vs, InBox lo hi v) →
        InBox lo hi b.min_point ∧ InBox lo hi b.max_point ∧
        ∀ p, InBox b.min_point b.max_point p → InBox lo hi p) := by
  match vs with
  | [] => exact absurd rfl h
  | v :: vs =>
    obtain ⟨a1, a2, a3, a4, a5⟩ := foldl_vmin vs v
    obtain ⟨b1, b2, b3, b4, b5⟩ := foldl_vmax vs v
    refine ⟨_, rfl, ?_, ?_⟩
    · intro u hu
      rcases List.mem_cons.mp hu with rfl | hu
      · exact ⟨a1, b1, a2, b2, a3, b3⟩
      · obtain ⟨c1, c2, c3⟩ := a4 u hu
        obtain ⟨d1, d2, d3⟩ := b4 u hu
        exact ⟨c1, d1, c2, d2, c3, d3⟩
    · intro lo hi hall
      obtain ⟨c1, c2, c3⟩ := a5 lo (fun w hw => ⟨(hall w hw).1, (hall w hw).2.2.1, (hall w hw).2.2.2.2.1⟩)
      obtain ⟨d1, d2, d3⟩ := b5 hi (fun w hw => ⟨(hall w hw).2.1, (hall w hw).2.2.2.1, (hall w hw).2.2.2.2.2⟩)
      unfold InBox
      simp only
      refine ⟨⟨?_, ?_, ?_, ?_, ?_, ?_⟩, ⟨?_, ?_, ?_, ?_, ?_, ?_⟩, ?_⟩ <;> try linarith
      rintro p ⟨e1, e2, e3, e4, e5, e6⟩
      refine ⟨?_, ?_, ?_, ?_, ?_, ?_⟩ <;> linarith

theorem C16_empty_raises : AABB.create_from_vertices [] = .error .valueError := rfl

/-- C16: `is_overlap` is symmetric, and holds exactly when the two boxes, each inflated by
`boundary` on every side, have a point in common (boxes that are non-empty when inflated). -/
theorem C16_overlap_iff (a b : AABB) (d : ℝ)
    (ha : a.min_point.x - d ≤ a.max_point.x + d ∧ a.min_point.y - d ≤ a.max_point.y + d ∧
      a.min_point.z - d ≤ a.max_point.z + d)
    (hb : b.min_point.x - d ≤ b.max_point.x + d ∧ b.min_point.y - d ≤ b.max_point.y + d ∧
      b.min_point.z - d ≤ b.max_point.z + d) :
    (AABB.is_overlap a b d ↔ AABB.is_overlap b a d) ∧
    (AABB.is_overlap a b d ↔ ∃ p : V3,
      InBox (a.min_point - d • V3.ones) (a.max_point + d • V3.ones) p ∧
      InBox (b.min_point - d • V3.ones) (b.max_point + d • V3.ones) p) := by
  obtain ⟨ha1, ha2, ha3⟩ := ha
  obtain ⟨hb1, hb2, hb3⟩ := hb
  have key : ∀ a b : AABB, AABB.is_overlap a b d ↔
      b.min_point.x - d ≤ a.max_point.x + d ∧ b.min_point.y - d ≤ a.max_point.y + d ∧
      b.min_point.z - d ≤ a.max_point.z + d ∧ a.min_point.x - d ≤ b.max_point.x + d ∧
      a.min_point.y - d ≤ b.max_point.y + d ∧ a.min_point.z - d ≤ b.max_point.z + d := by
    intro a b
    unfold AABB.is_overlap
    split_ifs with hd
    · simp only [AABB.anyLt, AABB.shift, ← sub_eq_add_neg]
      push Not
      tauto
    · push Not at hd
      subst hd
      simp only [AABB.anyLt, sub_zero, add_zero]
      push Not
      tauto
  refine ⟨by rw [key, key]; tauto, ?_⟩
  rw [key]
  simp only [InBox, V3.sub_x, V3.sub_y, V3.sub_z, V3.add_x, V3.add_y, V3.add_z, V3.smul_x, V3.smul_y,
    V3.smul_z, V3.ones, mul_one]
  constructor
  · rintro ⟨h1, h2, h3, h4, h5, h6⟩
    refine ⟨⟨max (a.min_point.x - d) (b.min_point.x - d), max (a.min_point.y - d) (b.min_point.y - d),
      max (a.min_point.z - d) (b.min_point.z - d)⟩, ?_⟩
    simp only [le_max_iff, max_le_iff, le_refl, true_or, or_true, true_and]
    tauto
  · rintro ⟨p, ⟨h1, h2, h3, h4, h5, h6⟩, ⟨k1, k2, k3, k4, k5, k6⟩⟩
    refine ⟨?_, ?_, ?_, ?_, ?_, ?_⟩ <;> linarith

/-- C16: two boxes containing points that come within 2*boundary of each other in every coordinate
are never reported disjoint. -/
theorem C16_no_false_negative (A B : AABB) (d : ℝ) (hd : 0 ≤ d)
    (p q : V3) (hp : InBox A.min_point A.max_point p) (hq : InBox B.min_point B.max_point q)
    (hx : |p.x - q.x| ≤ 2 * d) (hy : |p.y - q.y| ≤ 2 * d) (hz : |p.z - q.z| ≤ 2 * d) :
    AABB.is_overlap A B d := by
  rw [abs_le] at hx hy hz
  obtain ⟨h1, h2, h3, h4, h5, h6⟩ := hp
  obtain ⟨k1, k2, k3, k4, k5, k6⟩ := hq
  rw [(C16_overlap_iff A B d ⟨by linarith, by linarith, by linarith⟩
    ⟨by linarith, by linarith, by linarith⟩).2]
  refine ⟨(1 / 2 : ℝ) • (p + q), ?_, ?_⟩ <;>
    simp only [InBox, V3.sub_x, V3.sub_y, V3.sub_z, V3.add_x, V3.add_y, V3.add_z, V3.smul_x,
      V3.smul_y, V3.smul_z, V3.ones, mul_one] <;>
    refine ⟨?_, ?_, ?_, ?_, ?_, ?_⟩ <;> linarith

/-- concrete case: the unit cube and a point one away, with boundary 1/2 -/
example : AABB.is_overlap ⟨⟨0,0,0⟩,⟨1,1,1⟩⟩ ⟨⟨2,0,0⟩,⟨2,0,0⟩⟩ (1/2) ∧
    ¬ AABB.is_overlap ⟨⟨0,0,0⟩,⟨1,1,1⟩⟩ ⟨⟨2,0,0⟩,⟨2,0,0⟩⟩ (1/4) := by
  constructor <;> simp [AABB.is_overlap, AABB.anyLt, AABB.shift] <;> norm_num

end Verif
