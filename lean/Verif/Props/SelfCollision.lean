import Verif.Props.SpatialHashPhase
import Mathlib.Tactic.LinearCombination

/-! What the triangle test of the self-collision check really decides (C60). -/

namespace Verif
open SpatialHash

/-- six times the volume spanned by the first edge of `s` and the triangle `t` -/
def edgeVolume (s t : Tri) : ℝ := V3.dot (s.b - s.a) (V3.cross (t.b - t.a) (t.c - t.a))

private theorem edge_solve {s t : Tri} (h : edgeVolume s t ≠ 0) (u α β : ℝ) :
    s.a + u • (s.b - s.a) = t.a + α • (t.b - t.a) + β • (t.c - t.a) →
      u = 1 / edgeVolume s t * V3.dot (t.a - s.a) (V3.cross (t.b - t.a) (t.c - t.a)) ∧
      -β = 1 / edgeVolume s t * V3.dot (t.b - t.a) (V3.cross (t.a - s.a) (s.b - s.a)) := by
  intro hp
  have hx := congrArg V3.x hp
  have hy := congrArg V3.y hp
  have hz := congrArg V3.z hp
  constructor
  · rw [one_div, eq_inv_mul_iff_mul_eq₀ h]
    simp [edgeVolume, V3.dot, V3.cross] at hx hy hz ⊢
    linear_combination ((t.b.y - t.a.y) * (t.c.z - t.a.z) - (t.b.z - t.a.z) * (t.c.y - t.a.y)) * hx
      + ((t.b.z - t.a.z) * (t.c.x - t.a.x) - (t.b.x - t.a.x) * (t.c.z - t.a.z)) * hy
      + ((t.b.x - t.a.x) * (t.c.y - t.a.y) - (t.b.y - t.a.y) * (t.c.x - t.a.x)) * hz
  · rw [one_div, eq_inv_mul_iff_mul_eq₀ h]
    simp [edgeVolume, V3.dot, V3.cross] at hx hy hz ⊢
    linear_combination ((s.b.y - s.a.y) * (t.b.z - t.a.z) - (s.b.z - s.a.z) * (t.b.y - t.a.y)) * hx
      + ((s.b.z - s.a.z) * (t.b.x - t.a.x) - (s.b.x - s.a.x) * (t.b.z - t.a.z)) * hy
      + ((s.b.x - s.a.x) * (t.b.y - t.a.y) - (s.b.y - s.a.y) * (t.b.x - t.a.x)) * hz

private theorem edge_exists {s t : Tri} (h : edgeVolume s t ≠ 0) :
    ∃ u α β : ℝ, s.a + u • (s.b - s.a) = t.a + α • (t.b - t.a) + β • (t.c - t.a) := by
  refine ⟨V3.dot (t.a - s.a) (V3.cross (t.b - t.a) (t.c - t.a)) / edgeVolume s t,
    V3.dot (t.c - t.a) (V3.cross (t.a - s.a) (s.b - s.a)) / edgeVolume s t,
    -(V3.dot (t.b - t.a) (V3.cross (t.a - s.a) (s.b - s.a))) / edgeVolume s t, ?_⟩
  have e : ∀ p q : V3, p = q ↔ edgeVolume s t • p = edgeVolume s t • q := by
    intro p q
    constructor
    · rintro rfl; rfl
    · intro hpq
      have hx := congrArg V3.x hpq
      have hy := congrArg V3.y hpq
      have hz := congrArg V3.z hpq
      simp at hx hy hz
      exact V3.ext (hx.resolve_right h) (hy.resolve_right h) (hz.resolve_right h)
  rw [e]
  refine V3.ext ?_ ?_ ?_ <;> simp only [V3.smul_x, V3.smul_y, V3.smul_z, V3.add_x, V3.add_y, V3.add_z, V3.sub_x, V3.sub_y, V3.sub_z] <;>
    field_simp <;> simp [edgeVolume, V3.dot, V3.cross] <;> ring

/-- What the intersection test of the self-collision check decides.  It finds the point where the line of the first edge of the first triangle
meets the plane of the second triangle, `t.a + α (t.b - t.a) + β (t.c - t.a)`, and says yes exactly when that point is on the edge, β is NOT positive (a sign
error: the point is then on the far side of the line through the first two corners of the second triangle, away from the third), u - β ≤ 1, and the
first corner of the second triangle is on the chosen side of the first triangle. -/
theorem C60_decides (eps : ℝ) (he : 0 < eps) (s t : Tri) :
    triangle_intersection eps s t = true ↔
      eps ≤ |edgeVolume s t| ∧
      eps < V3.dot (t.a - s.a) (V3.cross (s.b - s.a) (s.c - s.a)) / edgeVolume s t ∧
      ∃ u α β : ℝ, s.a + u • (s.b - s.a) = t.a + α • (t.b - t.a) + β • (t.c - t.a) ∧
        0 ≤ u ∧ u ≤ 1 ∧ β ≤ 0 ∧ u - β ≤ 1 := by
  have hvol : (-eps < edgeVolume s t ∧ edgeVolume s t < eps) ↔ ¬ eps ≤ |edgeVolume s t| := by
    rw [not_le, abs_lt]
  by_cases h0 : eps ≤ |edgeVolume s t|
  swap
  · have : triangle_intersection eps s t = false := by
      unfold triangle_intersection
      exact if_pos (hvol.2 h0)
    rw [this]
    simp [h0]
  have hne : edgeVolume s t ≠ 0 := fun h => by rw [h, abs_zero] at h0; linarith
  obtain ⟨u, α, β, hp⟩ := edge_exists hne
  have hs := edge_solve hne u α β hp
  have ht : 1 / edgeVolume s t * V3.dot (s.c - s.a) (V3.cross (t.a - s.a) (s.b - s.a)) =
      V3.dot (t.a - s.a) (V3.cross (s.b - s.a) (s.c - s.a)) / edgeVolume s t := by
    rw [one_div, inv_mul_eq_div]
    congr 1
    simp [V3.dot, V3.cross]; ring
  have key : triangle_intersection eps s t = true ↔
      ¬ (u < 0 ∨ 1 < u) ∧ ¬ (-β < 0 ∨ 1 < u + -β) ∧ eps < V3.dot (t.a - s.a) (V3.cross (s.b - s.a) (s.c - s.a)) / edgeVolume s t := by
    rw [← ht, hs.1, hs.2]
    have hn : ¬ (-eps < edgeVolume s t ∧ edgeVolume s t < eps) := fun h => (hvol.1 h) h0
    unfold edgeVolume at hn ⊢
    unfold triangle_intersection
    dsimp only
    rw [if_neg hn]
    generalize (1 / (s.b - s.a).dot ((t.b - t.a).cross (t.c - t.a)) * (t.a - s.a).dot ((t.b - t.a).cross (t.c - t.a)) : ℝ) = x
    generalize (1 / (s.b - s.a).dot ((t.b - t.a).cross (t.c - t.a)) * (t.b - t.a).dot ((t.a - s.a).cross (s.b - s.a)) : ℝ) = y
    generalize (1 / (s.b - s.a).dot ((t.b - t.a).cross (t.c - t.a)) * (s.c - s.a).dot ((t.a - s.a).cross (s.b - s.a)) : ℝ) = z
    by_cases c1 : x < 0 ∨ 1 < x <;> by_cases c2 : y < 0 ∨ 1 < x + y <;> by_cases c3 : eps < z <;>
      simp only [if_pos, if_neg, c1, c2, c3] <;> decide
  rw [key]
  constructor
  · rintro ⟨h1, h2, h3⟩
    push Not at h1 h2
    exact ⟨h0, h3, u, α, β, hp, h1.1, h1.2, by linarith [h2.1], by linarith [h2.2]⟩
  · rintro ⟨-, h3, u', α', β', hp', a1, a2, a3, a4⟩
    have hs' := edge_solve hne u' α' β' hp'
    have e1 : u' = u := hs'.1.trans hs.1.symm
    have e2 : β' = β := neg_injective (hs'.2.trans hs.2.symm)
    subst e1 e2
    exact ⟨by push Not; exact ⟨a1, a2⟩, by push Not; exact ⟨by linarith, by linarith⟩, h3⟩

/-- The test is blind to the plainest of intersections: whenever the first edge of the first triangle pierces the second triangle (anywhere but on the
edge between its first two corners), it answers no, whatever the triangles. -/
theorem C60_blind (eps : ℝ) (he : 0 < eps) (s t : Tri) (u w0 w1 w2 : ℝ)
    (hw0 : 0 ≤ w0) (hw1 : 0 ≤ w1) (hw2 : 0 < w2) (hw : w0 + w1 + w2 = 1) (hu0 : 0 ≤ u) (hu1 : u ≤ 1)
    (hp : s.a + u • (s.b - s.a) = w0 • t.a + w1 • t.b + w2 • t.c) (A B : AABB) :
    (∃ p, p ∈ TriPoints s ∧ p ∈ TriPoints t) ∧ triangle_intersection eps s t = false ∧ ¬ is_self_collision eps s t A B := by
  have hf : triangle_intersection eps s t = false := by
    rw [← Bool.not_eq_true]
    intro h
    obtain ⟨h0, -, u', α, β, hp', -, -, hβ, -⟩ := (C60_decides eps he s t).1 h
    have hne : edgeVolume s t ≠ 0 := fun h => by rw [h, abs_zero] at h0; linarith
    have hs := edge_solve hne u w1 w2 (by
      rw [hp]
      have e : w0 = 1 - w1 - w2 := by linarith
      subst e
      refine V3.ext ?_ ?_ ?_ <;> simp <;> ring)
    have hs' := edge_solve hne u' α β hp'
    have : β = w2 := neg_injective (hs'.2.trans hs.2.symm)
    linarith
  refine ⟨⟨s.a + u • (s.b - s.a), ⟨1 - u, u, 0, by linarith, hu0, le_refl _, by ring, ?_⟩, ⟨w0, w1, w2, hw0, hw1, hw2.le, hw, hp⟩⟩, hf, ?_⟩
  · refine V3.ext ?_ ?_ ?_ <;> simp <;> ring
  · rintro ⟨-, -, h⟩
    rw [hf] at h; cases h

/-- A triangle whose first edge pierces another one in the middle. -/
example : ∃ s t : Tri, (∃ p, p ∈ TriPoints s ∧ p ∈ TriPoints t) ∧ ∀ eps > 0, triangle_intersection eps s t = false := by
  have h := fun (eps : ℝ) (he : 0 < eps) => C60_blind eps he ⟨⟨2, 2, -1⟩, ⟨2, 2, 1⟩, ⟨9, 9, 5⟩⟩ ⟨⟨0, 0, 0⟩, ⟨6, 0, 0⟩, ⟨0, 6, 0⟩⟩ (1 / 2) (1 / 3) (1 / 3) (1 / 3)
    (by norm_num) (by norm_num) (by norm_num) (by norm_num) (by norm_num) (by norm_num) (by refine V3.ext ?_ ?_ ?_ <;> simp <;> norm_num) ⟨0, 0⟩ ⟨0, 0⟩
  exact ⟨_, _, (h 1 one_pos).1, fun eps he => (h eps he).2.1⟩

end Verif
