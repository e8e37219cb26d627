import Verif.Model.Barycentric
import Verif.Lemmas.Vec
import Verif.Spec.Linear

/-! C26: barycentric coordinates. -/

namespace Verif
open V3 Bary

/-- Specification: squared Euclidean distance. -/
def dist2 (p q : V3) : ℝ := (p.x - q.x) ^ 2 + (p.y - q.y) ^ 2 + (p.z - q.z) ^ 2

/-- Specification: q is the point of the set S closest to p. -/
def IsClosest (S : V3 → Prop) (p q : V3) : Prop := S q ∧ ∀ r, S r → r ≠ q → dist2 p q < dist2 p r

/-- Specification: the line through two points. -/
def OnLine (x1 x2 : V3) (r : V3) : Prop := ∃ a b : ℝ, a + b = 1 ∧ r = a • x1 + b • x2
/-- Specification: the plane through three points. -/
def OnPlane (x1 x2 x3 : V3) (r : V3) : Prop :=
  ∃ a b c : ℝ, a + b + c = 1 ∧ r = a • x1 + b • x2 + c • x3
/-- Specification: the closed segment. -/
def InSegment (x1 x2 : V3) (r : V3) : Prop :=
  ∃ a b : ℝ, 0 ≤ a ∧ 0 ≤ b ∧ a + b = 1 ∧ r = a • x1 + b • x2
/-- Specification: the closed triangle. -/
def InTriangle (x1 x2 x3 : V3) (r : V3) : Prop :=
  ∃ a b c : ℝ, 0 ≤ a ∧ 0 ≤ b ∧ 0 ≤ c ∧ a + b + c = 1 ∧ r = a • x1 + b • x2 + c • x3
/-- Specification: the closed tetrahedron. -/
def InTetrahedron (x1 x2 x3 x4 : V3) (r : V3) : Prop :=
  ∃ a b c d : ℝ, 0 ≤ a ∧ 0 ≤ b ∧ 0 ≤ c ∧ 0 ≤ d ∧ a + b + c + d = 1 ∧
    r = a • x1 + b • x2 + c • x3 + d • x4

theorem dist2_pos {p q : V3} (h : p ≠ q) : 0 < dist2 p q := by
  by_contra hc
  apply h
  unfold dist2 at hc
  push Not at hc
  have hx : (p.x - q.x) = 0 := by nlinarith [sq_nonneg (p.x - q.x), sq_nonneg (p.y - q.y), sq_nonneg (p.z - q.z)]
  have hy : (p.y - q.y) = 0 := by nlinarith [sq_nonneg (p.x - q.x), sq_nonneg (p.y - q.y), sq_nonneg (p.z - q.z)]
  have hz : (p.z - q.z) = 0 := by nlinarith [sq_nonneg (p.x - q.x), sq_nonneg (p.y - q.y), sq_nonneg (p.z - q.z)]
  ext <;> linarith

theorem pythagoras {p q r : V3} (h : dot (p - q) (r - q) = 0) : dist2 p r = dist2 p q + dist2 q r := by
  simp only [dot, sub_x, sub_y, sub_z] at h
  unfold dist2
  linarith

/-! ### inside tests -/

theorem inside_edge_iff {w1 w2 : ℝ} (h : w1 + w2 = 1) : is_inside_edge w1 w2 = true ↔ 0 ≤ w1 ∧ 0 ≤ w2 := by
  unfold is_inside_edge
  constructor
  · intro hh; by_contra hc
    rw [not_and_or] at hc; push Not at hc
    rcases hc with hc | hc <;> simp [hc] at hh
  · rintro ⟨h1, h2⟩
    rw [if_neg (by linarith), if_neg (by linarith), if_neg (by linarith), if_neg (by linarith),
      if_neg (by linarith), if_neg (by linarith)]

theorem inside_triangle_iff {w1 w2 w3 : ℝ} (h : w1 + w2 + w3 = 1) :
    is_inside_triangle w1 w2 w3 = true ↔ 0 ≤ w1 ∧ 0 ≤ w2 ∧ 0 ≤ w3 := by
  unfold is_inside_triangle
  constructor
  · intro hh; by_contra hc
    simp only [not_and_or] at hc; push Not at hc
    rcases hc with hc | hc | hc <;> simp [hc] at hh
  · rintro ⟨h1, h2, h3⟩
    rw [if_neg (by linarith), if_neg (by linarith), if_neg (by linarith), if_neg (by linarith),
      if_neg (by linarith), if_neg (by linarith), if_neg (by linarith), if_neg (by linarith)]

theorem inside_tetrahedron_iff {w1 w2 w3 w4 : ℝ} (h : w1 + w2 + w3 + w4 = 1) :
    is_inside_tetrahedron w1 w2 w3 w4 = true ↔ 0 ≤ w1 ∧ 0 ≤ w2 ∧ 0 ≤ w3 ∧ 0 ≤ w4 := by
  unfold is_inside_tetrahedron
  constructor
  · intro hh; by_contra hc
    simp only [not_and_or] at hc; push Not at hc
    rcases hc with hc | hc | hc | hc <;> simp [hc] at hh
  · rintro ⟨h1, h2, h3, h4⟩
    rw [if_neg (by linarith), if_neg (by linarith), if_neg (by linarith), if_neg (by linarith),
      if_neg (by linarith), if_neg (by linarith), if_neg (by linarith), if_neg (by linarith),
      if_neg (by linarith), if_neg (by linarith)]

/-! ### edge -/

theorem edge_eq {x1 x2 : V3} (h : x1 ≠ x2) (p : V3) :
    edge x1 x2 p = .ok (1 - dot (x2 - x1) (p - x1) / dot (x2 - x1) (x2 - x1),
      dot (x2 - x1) (p - x1) / dot (x2 - x1) (x2 - x1)) := by
  have hu : (x2 - x1) ≠ 0 := sub_ne_zero.mpr (Ne.symm h)
  have huu : 0 < dot (x2 - x1) (x2 - x1) :=
    lt_of_le_of_ne (dot_self_nonneg _) (fun e => hu (dot_self_eq_zero.mp e.symm))
  unfold edge
  simp only
  rw [if_neg (by simpa using huu)]
  set u := x2 - x1 with hud
  generalize dot u (p - x1) / dot u u = t
  have ea : t • u + x1 - x2 = (t - 1) • u := by rw [hud]; ext <;> simp <;> ring
  have eb : t • u + x1 - x1 = t • u := by ext <;> simp
  rw [ea, eb]
  simp only [dot_smul_left, dot_smul_right]
  have e1 : (t - 1) * ((t - 1) * dot u u) / dot u u = (t - 1) ^ 2 := by field_simp
  have e2 : t * (t * dot u u) / dot u u = t ^ 2 := by field_simp
  rw [e1, e2, Real.sqrt_sq_eq_abs, Real.sqrt_sq_eq_abs]
  congr 1
  ext
  · simp only
    split_ifs with h1
    · have : t - 1 ≤ 0 := by by_contra hc; push Not at hc; have := mul_pos hc huu; linarith
      rw [abs_of_nonpos this]; ring
    · have : 0 ≤ t - 1 := by
        by_contra hc; push Not at hc h1; have := mul_neg_of_neg_of_pos hc huu; linarith
      rw [abs_of_nonneg this]; ring
  · simp only
    split_ifs with h1
    · have : 0 ≤ t := by
        by_contra hc; push Not at hc; have := mul_neg_of_neg_of_pos hc huu; linarith
      rw [abs_of_nonneg this]
    · have : t ≤ 0 := by by_contra hc; push Not at hc h1; have := mul_pos hc huu; linarith
      rw [abs_of_nonpos this]; ring

/-- C26 (edge): the coordinates sum to one, the point they give is the closest point on the line, and
the inside test accepts exactly when that point is on the segment. A degenerate edge raises. -/
theorem C26_edge (x1 x2 p : V3) :
    (x1 ≠ x2 → ∃ w1 w2, edge x1 x2 p = .ok (w1, w2) ∧ w1 + w2 = 1 ∧
      IsClosest (OnLine x1 x2) p (w1 • x1 + w2 • x2) ∧
      (is_inside_edge w1 w2 = true ↔ InSegment x1 x2 (w1 • x1 + w2 • x2))) ∧
    (x1 = x2 → edge x1 x2 p = .error .assertionError) := by
  constructor
  · intro h
    have hu : (x2 - x1) ≠ 0 := sub_ne_zero.mpr (Ne.symm h)
    have huu : 0 < dot (x2 - x1) (x2 - x1) :=
      lt_of_le_of_ne (dot_self_nonneg _) (fun e => hu (dot_self_eq_zero.mp e.symm))
    set t := dot (x2 - x1) (p - x1) / dot (x2 - x1) (x2 - x1) with ht
    have ht' : t * dot (x2 - x1) (x2 - x1) = dot (x2 - x1) (p - x1) := by
      rw [ht]; field_simp
    refine ⟨1 - t, t, edge_eq h p, by ring, ⟨⟨1 - t, t, by ring, rfl⟩, ?_⟩, ?_⟩
    · rintro r ⟨a, b, hab, rfl⟩ hne
      rw [pythagoras (p := p) (q := (1 - t) • x1 + t • x2) (r := a • x1 + b • x2)]
      · have := dist2_pos (Ne.symm hne); linarith
      · have e1 : a • x1 + b • x2 - ((1 - t) • x1 + t • x2) = (b - t) • (x2 - x1) := by
          obtain rfl : a = 1 - b := by linarith
          ext <;> simp <;> ring
        have e2 : p - ((1 - t) • x1 + t • x2) = (p - x1) - t • (x2 - x1) := by
          ext <;> simp <;> ring
        rw [e1, e2, dot_smul_right, dot_sub_left, dot_smul_left, ht', dot_comm]; ring
    · rw [inside_edge_iff (by ring)]
      constructor
      · rintro ⟨h1, h2⟩; exact ⟨_, _, h1, h2, by ring, rfl⟩
      · rintro ⟨a, b, ha, hb, hab, e⟩
        have e1 : (t - b) • (x2 - x1) = 0 := by
          obtain rfl : a = 1 - b := by linarith
          have e' : (1 - t) • x1 + t • x2 - ((1 - b) • x1 + b • x2) = 0 := by rw [e]; exact sub_self _
          rw [← e']; ext <;> simp <;> ring
        have : t = b := by
          rcases smul_eq_zero.mp e1 with h0 | h0
          · linarith
          · exact absurd h0 hu
        constructor <;> linarith
  · rintro rfl
    unfold edge
    simp [dot]

/-! ### triangle -/

theorem det_cols (a b c : V3) : (M3.make_from_cols a b c).det = dot c (cross a b) := by
  simp [M3.det, M3.make_from_cols, dot, cross]; ring

theorem mulVec_cols (a b c q : V3) :
    (M3.make_from_cols a b c).mulVec q = q.x • a + q.y • b + q.z • c := by
  ext <;> simp [M3.mulVec, M3.make_from_cols] <;> ring

theorem cross_divs (a b : V3) (s t : ℝ) : cross (divs a s) (divs b t) = (1 / (s * t)) • cross a b := by
  ext <;> simp [cross, divs] <;> ring

/-- C26 (triangle): the coordinates sum to one, the point they give is the closest point of the plane,
and the inside test accepts exactly when that point is in the triangle. -/
theorem C26_triangle (x1 x2 x3 p : V3) (h : cross (x2 - x1) (x3 - x1) ≠ 0) :
    ∃ w1 w2 w3, triangle x1 x2 x3 p = .ok (w1, w2, w3) ∧ w1 + w2 + w3 = 1 ∧
      IsClosest (OnPlane x1 x2 x3) p (w1 • x1 + w2 • x2 + w3 • x3) ∧
      (is_inside_triangle w1 w2 w3 = true ↔ InTriangle x1 x2 x3 (w1 • x1 + w2 • x2 + w3 • x3)) := by
  set b1 := x2 - x1 with hb1
  set b2 := x3 - x1 with hb2
  have n1 : b1 ≠ 0 := by intro e; apply h; rw [e]; ext <;> simp [cross]
  have n2 : b2 ≠ 0 := by intro e; apply h; rw [e]; ext <;> simp [cross]
  have p1 := norm_pos n1
  have p2 := norm_pos n2
  set s := 1 / (norm b1 * norm b2) with hs
  have hs0 : s ≠ 0 := by rw [hs]; positivity
  set b3 := s • cross b1 b2 with hb3
  have hcc : dot (cross b1 b2) (cross b1 b2) ≠ 0 := fun e => h (dot_self_eq_zero.mp e)
  have hdet : (M3.make_from_cols b1 b2 b3).det ≠ 0 := by
    rw [det_cols, hb3, dot_smul_left]; exact mul_ne_zero hs0 hcc
  obtain ⟨q, hq, hqe⟩ := M3.solve_ok hdet (p - x1)
  rw [mulVec_cols] at hqe
  have o1 : dot b3 b1 = 0 := by rw [hb3, dot_smul_left, dot_comm, dot_cross_left]; ring
  have o2 : dot b3 b2 = 0 := by rw [hb3, dot_smul_left, dot_comm, dot_cross_right]; ring
  refine ⟨1 - q.x - q.y, q.x, q.y, ?_, by ring, ⟨⟨_, _, _, by ring, rfl⟩, ?_⟩, ?_⟩
  · unfold triangle
    simp only
    rw [← hb1, ← hb2, if_neg (by push Not; exact ⟨p1.ne', p2.ne'⟩), cross_divs, ← hs, ← hb3, hq]
    rfl
  · rintro r ⟨a, b, c, habc, rfl⟩ hne
    rw [pythagoras (p := p) (q := (1 - q.x - q.y) • x1 + q.x • x2 + q.y • x3) (r := a • x1 + b • x2 + c • x3)]
    · have := dist2_pos (Ne.symm hne); linarith
    · have e1 : a • x1 + b • x2 + c • x3 - ((1 - q.x - q.y) • x1 + q.x • x2 + q.y • x3) =
          (b - q.x) • b1 + (c - q.y) • b2 := by
        obtain rfl : a = 1 - b - c := by linarith
        rw [hb1, hb2]; ext <;> simp <;> ring
      have e2 : p - ((1 - q.x - q.y) • x1 + q.x • x2 + q.y • x3) = q.z • b3 := by
        have : p - ((1 - q.x - q.y) • x1 + q.x • x2 + q.y • x3) = (p - x1) - (q.x • b1 + q.y • b2) := by
          rw [hb1, hb2]; ext <;> simp <;> ring
        rw [this, ← hqe]; exact add_sub_cancel_left _ _
      rw [e1, e2, dot_smul_left, dot_add_right, dot_smul_right, dot_smul_right, o1, o2]; ring
  · rw [inside_triangle_iff (by ring)]
    constructor
    · rintro ⟨h1, h2, h3⟩; exact ⟨_, _, _, h1, h2, h3, by ring, rfl⟩
    · rintro ⟨a, b, c, ha, hb, hc, habc, e⟩
      have e1 : (q.x - b) • b1 + (q.y - c) • b2 = 0 := by
        obtain rfl : a = 1 - b - c := by linarith
        have e' := sub_eq_zero.mpr e
        rw [← e', hb1, hb2]; ext <;> simp <;> ring
      have hinj : (⟨q.x, q.y, 0⟩ : V3) = ⟨b, c, 0⟩ := by
        apply M3.mulVec_inj hdet
        rw [mulVec_cols, mulVec_cols]
        rw [← sub_eq_zero, ← e1]
        ext <;> simp <;> ring
      have hx : q.x = b := congrArg V3.x hinj
      have hy : q.y = c := congrArg V3.y hinj
      exact ⟨by linarith, by linarith, by linarith⟩

/-! ### tetrahedron -/

/-- C26 (tetrahedron, either orientation): the coordinates sum to one, reproduce the point, are the only
such coordinates, and the inside test accepts exactly the points of the tetrahedron. -/
theorem C26_tetrahedron (x1 x2 x3 x4 p : V3) (h : dot (x4 - x1) (cross (x2 - x1) (x3 - x1)) ≠ 0) :
    ∃ w1 w2 w3 w4, tetrahedron x1 x2 x3 x4 p = .ok (w1, w2, w3, w4) ∧ w1 + w2 + w3 + w4 = 1 ∧
      w1 • x1 + w2 • x2 + w3 • x3 + w4 • x4 = p ∧
      (∀ a b c d : ℝ, a + b + c + d = 1 → a • x1 + b • x2 + c • x3 + d • x4 = p →
        a = w1 ∧ b = w2 ∧ c = w3 ∧ d = w4) ∧
      (is_inside_tetrahedron w1 w2 w3 w4 = true ↔ InTetrahedron x1 x2 x3 x4 p) := by
  set b1 := x2 - x1 with hb1
  set b2 := x3 - x1 with hb2
  set b3 := x4 - x1 with hb3
  have hd : (M3.make_from_cols b1 b2 b3).det ≠ 0 := by rw [det_cols]; exact h
  have hd' : (M3.make_from_cols b1 b3 b2).det ≠ 0 := by
    rw [det_cols]; intro e; apply h; rw [← neg_eq_zero, ← e]; simp [dot, cross]; ring
  have key : ∃ w2 w3 w4, tetrahedron x1 x2 x3 x4 p = .ok (1 - w2 - w3 - w4, w2, w3, w4) ∧
      w2 • b1 + w3 • b2 + w4 • b3 = p - x1 := by
    unfold tetrahedron
    simp only
    rw [← hb1, ← hb2, ← hb3]
    split_ifs with hpos
    · obtain ⟨q, hq, hqe⟩ := M3.solve_ok hd (p - x1)
      rw [mulVec_cols] at hqe
      exact ⟨q.x, q.y, q.z, by rw [hq]; rfl, hqe⟩
    · obtain ⟨q, hq, hqe⟩ := M3.solve_ok hd' (p - x1)
      rw [mulVec_cols] at hqe
      refine ⟨q.x, q.z, q.y, ?_, ?_⟩
      · rw [hq]
        simp only [bind, Except.bind]
        congr 2; ring
      · rw [← hqe]; abel
  obtain ⟨w2, w3, w4, hok, he⟩ := key
  have hrep : (1 - w2 - w3 - w4) • x1 + w2 • x2 + w3 • x3 + w4 • x4 = p := by
    have : (1 - w2 - w3 - w4) • x1 + w2 • x2 + w3 • x3 + w4 • x4 =
        (w2 • b1 + w3 • b2 + w4 • b3) + x1 := by rw [hb1, hb2, hb3]; ext <;> simp <;> ring
    rw [this, he]; abel
  have huniq : ∀ a b c d : ℝ, a + b + c + d = 1 → a • x1 + b • x2 + c • x3 + d • x4 = p →
      a = 1 - w2 - w3 - w4 ∧ b = w2 ∧ c = w3 ∧ d = w4 := by
    intro a b c d hs hp
    have hinj : (⟨b, c, d⟩ : V3) = ⟨w2, w3, w4⟩ := by
      apply M3.mulVec_inj hd
      rw [mulVec_cols, mulVec_cols]
      change b • b1 + c • b2 + d • b3 = w2 • b1 + w3 • b2 + w4 • b3
      rw [he, ← hp, hb1, hb2, hb3]
      obtain rfl : a = 1 - b - c - d := by linarith
      ext <;> simp <;> ring
    have hx : b = w2 := congrArg V3.x hinj
    have hy : c = w3 := congrArg V3.y hinj
    have hz : d = w4 := congrArg V3.z hinj
    exact ⟨by linarith, hx, hy, hz⟩
  refine ⟨_, w2, w3, w4, hok, by ring, hrep, huniq, ?_⟩
  rw [inside_tetrahedron_iff (by ring)]
  constructor
  · rintro ⟨h1, h2, h3, h4⟩
    exact ⟨_, _, _, _, h1, h2, h3, h4, by ring, hrep.symm⟩
  · rintro ⟨a, b, c, d, ha, hb, hc, hd, hs, e⟩
    obtain ⟨r1, r2, r3, r4⟩ := huniq a b c d hs e.symm
    rw [← r1, ← r2, ← r3, ← r4]
    exact ⟨ha, hb, hc, hd⟩

/-- C26: degenerate triangles and tetrahedra raise instead of returning numbers. -/
theorem C26_degenerate (x1 x2 x3 x4 p : V3) :
    (cross (x2 - x1) (x3 - x1) = 0 → ∃ e, triangle x1 x2 x3 p = .error e) ∧
    (dot (x4 - x1) (cross (x2 - x1) (x3 - x1)) = 0 →
      tetrahedron x1 x2 x3 x4 p = .error .linAlgError) := by
  constructor
  · intro h
    unfold triangle
    simp only
    split_ifs with h0
    · exact ⟨_, rfl⟩
    · rw [cross_divs, h]
      have : (M3.make_from_cols (x2 - x1) (x3 - x1)
          ((1 / ((x2 - x1).norm * (x3 - x1).norm)) • (0:V3))).det = 0 := by
        rw [det_cols, h]; simp [dot]
      unfold M3.solve
      rw [if_pos this]
      exact ⟨_, rfl⟩
  · intro h
    unfold tetrahedron
    simp only
    rw [if_neg (by rw [h]; exact lt_irrefl _)]
    have : (M3.make_from_cols (x2 - x1) (x4 - x1) (x3 - x1)).det = 0 := by
      rw [det_cols, ← neg_eq_zero, ← h]; simp [dot, cross]; ring
    unfold M3.solve
    rw [if_pos this]
    rfl

/-- C26: the derivative routine returns the exact change of the coordinates: moving the point by d
changes the i-th coordinate by the dot product of the i-th gradient with d. Inverted or flat tetrahedra
raise. -/
theorem C26_derivatives (x1 x2 x3 x4 : V3) :
    (0 < dot (x4 - x1) (cross (x2 - x1) (x3 - x1)) → ∃ g1 g2 g3 g4,
      derivatives x1 x2 x3 x4 = .ok (g1, g2, g3, g4) ∧ ∀ p d w1 w2 w3 w4,
        tetrahedron x1 x2 x3 x4 p = .ok (w1, w2, w3, w4) →
        tetrahedron x1 x2 x3 x4 (p + d) =
          .ok (w1 + dot g1 d, w2 + dot g2 d, w3 + dot g3 d, w4 + dot g4 d)) ∧
    (dot (x4 - x1) (cross (x2 - x1) (x3 - x1)) ≤ 0 →
      derivatives x1 x2 x3 x4 = .error .assertionError) := by
  constructor
  · intro h
    have hder : derivatives x1 x2 x3 x4 = .ok
      (divs (cross (x4 - x2) (x3 - x2)) (dot (x4 - x1) (cross (x2 - x1) (x3 - x1))),
       divs (cross (x3 - x1) (x4 - x1)) (dot (x4 - x1) (cross (x2 - x1) (x3 - x1))),
       divs (cross (x4 - x1) (x2 - x1)) (dot (x4 - x1) (cross (x2 - x1) (x3 - x1))),
       divs (cross (x2 - x1) (x3 - x1)) (dot (x4 - x1) (cross (x2 - x1) (x3 - x1)))) := by
      unfold derivatives; simp only; rw [if_neg (by simpa using h)]
    refine ⟨_, _, _, _, hder, ?_⟩
    intro p d w1 w2 w3 w4 hw
    obtain ⟨v1, v2, v3, v4, hv, hs, hp, -, -⟩ := C26_tetrahedron x1 x2 x3 x4 p h.ne'
    rw [hv] at hw
    obtain ⟨rfl, rfl, rfl, rfl⟩ : v1 = w1 ∧ v2 = w2 ∧ v3 = w3 ∧ v4 = w4 := by
      simpa using hw
    obtain ⟨u1, u2, u3, u4, hu, -, -, huniq, -⟩ := C26_tetrahedron x1 x2 x3 x4 (p + d) h.ne'
    rw [hu]
    set V := dot (x4 - x1) (cross (x2 - x1) (x3 - x1)) with hV
    simp only [divs_eq_smul, dot_smul_left]
    have hsum : dot (cross (x4 - x2) (x3 - x2)) d + dot (cross (x3 - x1) (x4 - x1)) d +
        dot (cross (x4 - x1) (x2 - x1)) d + dot (cross (x2 - x1) (x3 - x1)) d = 0 := by
      simp only [dot, cross, sub_x, sub_y, sub_z]; ring
    have hrec : dot (cross (x4 - x2) (x3 - x2)) d • x1 + dot (cross (x3 - x1) (x4 - x1)) d • x2 +
        dot (cross (x4 - x1) (x2 - x1)) d • x3 + dot (cross (x2 - x1) (x3 - x1)) d • x4 = V • d := by
      rw [hV]
      ext <;> simp only [dot, cross, sub_x, sub_y, sub_z, add_x, add_y, add_z, smul_x, smul_y, smul_z] <;> ring
    generalize dot (cross (x4 - x2) (x3 - x2)) d = e1 at *
    generalize dot (cross (x3 - x1) (x4 - x1)) d = e2 at *
    generalize dot (cross (x4 - x1) (x2 - x1)) d = e3 at *
    generalize dot (cross (x2 - x1) (x3 - x1)) d = e4 at *
    clear_value V
    obtain ⟨r1, r2, r3, r4⟩ := huniq (v1 + 1 / V * e1) (v2 + 1 / V * e2) (v3 + 1 / V * e3) (v4 + 1 / V * e4)
      (by
        have : v1 + 1 / V * e1 + (v2 + 1 / V * e2) + (v3 + 1 / V * e3) + (v4 + 1 / V * e4) =
          (v1 + v2 + v3 + v4) + 1 / V * (e1 + e2 + e3 + e4) := by ring
        rw [this, hs, hsum]; ring)
      (by
        have : (v1 + 1 / V * e1) • x1 + (v2 + 1 / V * e2) • x2 + (v3 + 1 / V * e3) • x3 +
            (v4 + 1 / V * e4) • x4 = (v1 • x1 + v2 • x2 + v3 • x3 + v4 • x4) +
            (1 / V) • (e1 • x1 + e2 • x2 + e3 • x3 + e4 • x4) := by ext <;> simp <;> ring
        rw [this, hp, hrec, smul_smul, one_div_mul_cancel h.ne', one_smul])
    rw [r1, r2, r3, r4]
  · intro h
    unfold derivatives; simp only; rw [if_pos (by simpa using h)]

/-- A left-handed tetrahedron (the branch that swaps the basis) and a triangle meet the hypotheses. -/
example : dot ((⟨0,0,1⟩ : V3) - 0) (cross ((⟨0,1,0⟩ : V3) - 0) ((⟨1,0,0⟩ : V3) - 0)) ≠ 0 ∧
    cross ((⟨0,1,0⟩ : V3) - 0) ((⟨1,0,0⟩ : V3) - 0) ≠ 0 := by
  constructor
  · simp [dot, cross]
  · intro h; have := congrArg V3.z h; simp [cross] at this

end Verif
