import Verif.Props.MeshStar
import Verif.Props.MassXform

/-! The centre of mass of a star shaped solid lies in the convex hull of its vertices. -/

namespace Verif

open Rigid SMesh Mass
open VMesh (Tri)

theorem det3_project (e a b c : V3) (ha : 0 < V3.dot e a) (hb : 0 < V3.dot e b) (hc : 0 < V3.dot e c) :
    V3.dot e e * det3 a b c / (V3.dot e a * V3.dot e b * V3.dot e c) =
      V3.dot e (V3.cross a b) / (V3.dot e a * V3.dot e b) + V3.dot e (V3.cross b c) / (V3.dot e b * V3.dot e c) +
        V3.dot e (V3.cross c a) / (V3.dot e c * V3.dot e a) := by
  have key : V3.dot e e * det3 a b c = V3.dot e a * V3.dot e (V3.cross b c) + V3.dot e b * V3.dot e (V3.cross c a) +
      V3.dot e c * V3.dot e (V3.cross a b) := by
    simp only [V3.dot, V3.cross, det3]; ring
  rw [key]
  generalize V3.dot e a = α at *
  generalize V3.dot e b = β at *
  generalize V3.dot e c = γ at *
  generalize V3.dot e (V3.cross a b) = X at *
  generalize V3.dot e (V3.cross b c) = Y at *
  generalize V3.dot e (V3.cross c a) = Z at *
  clear key
  field_simp
  ring

theorem map_sum_pos {α : Type} (L : List α) (f : α → ℝ) (h : ∀ x ∈ L, 0 < f x) (hne : L ≠ []) : 0 < (L.map f).sum := by
  refine List.sum_pos _ ?_ (by simpa using hne)
  intro x hx
  obtain ⟨t, ht, rfl⟩ := List.mem_map.1 hx
  exact h t ht

/-- The share of an edge in the volume over the central projection of the mesh from c to the plane e·x = e·c + 1. -/
noncomputable def edgeTerm (V : List V3) (c e : V3) (ij : ℕ × ℕ) : ℝ :=
  V3.dot e (V3.cross (V.getD ij.1 0 - c) (V.getD ij.2 0 - c)) / (V3.dot e (V.getD ij.1 0 - c) * V3.dot e (V.getD ij.2 0 - c))

/-- A point that all triangles of a closed surface face away from is not separated from the vertices by any plane. -/
theorem star_centre_in_hull {V : List V3} {T : List Tri} (hc : ClosedOriented T) (hne : T ≠ []) (c : V3)
    (hp : ∀ t ∈ T, 0 < det3 (V.getD t.a 0 - c) (V.getD t.b 0 - c) (V.getD t.c 0 - c)) (e : V3) :
    ∃ t ∈ T, ∃ i ∈ [t.a, t.b, t.c], V3.dot e (V.getD i 0) ≤ V3.dot e c := by
  by_contra hcon
  push Not at hcon
  have hpos : ∀ t ∈ T, ∀ i ∈ [t.a, t.b, t.c], 0 < V3.dot e (V.getD i 0 - c) := by
    intro t ht i hi
    have := hcon t ht i hi
    simp only [V3.dot, V3.sub_x, V3.sub_y, V3.sub_z] at *
    linarith
  have hanti : ∀ ij : ℕ × ℕ, edgeTerm V c e ij.swap = -edgeTerm V c e ij := by
    rintro ⟨i, j⟩
    unfold edgeTerm
    simp only [Prod.swap_prod_mk]
    rw [mul_comm (V3.dot e (V.getD j 0 - c)), ← neg_div]
    congr 1
    simp only [V3.dot, V3.cross]; ring
  have h0 := closed_sum_zero hc (edgeTerm V c e) hanti
  rw [dirEdges_sum] at h0
  have h1 : 0 < (T.map fun t => edgeTerm V c e (t.a, t.b) + edgeTerm V c e (t.b, t.c) + edgeTerm V c e (t.c, t.a)).sum := by
    refine map_sum_pos _ _ ?_ hne
    intro t ht
    have ha := hpos t ht t.a (by simp)
    have hb := hpos t ht t.b (by simp)
    have hd := hpos t ht t.c (by simp)
    have he : 0 < V3.dot e e := by
      have : e ≠ 0 := by
        rintro rfl
        simp [V3.dot] at ha
      rcases (V3.dot_self_nonneg e).lt_or_eq with h | h
      · exact h
      · exfalso; apply this
        exact V3.dot_self_eq_zero.1 h.symm
    have := div_pos (mul_pos he (hp t ht)) (mul_pos (mul_pos ha hb) hd)
    rw [det3_project e _ _ _ ha hb hd] at this
    exact this
  exact absurd h0 h1.ne'

theorem sum_map_add (L : List Tri) (f g : Tri → ℝ) : (L.map fun t => f t + g t).sum = (L.map f).sum + (L.map g).sum := by
  induction L with
  | nil => simp
  | cons a L ih => simp only [List.map_cons, List.sum_cons, ih]; ring

theorem sum_map_smul (L : List Tri) (k : ℝ) (f : Tri → ℝ) : (L.map fun t => k * f t).sum = k * (L.map f).sum := by
  induction L with
  | nil => simp
  | cons a L ih => simp only [List.map_cons, List.sum_cons, ih]; ring

theorem dot_centroid (e : V3) (V : List V3) (T : List Tri) : V3.dot e (centroid V T) * (T.map fun t =>
      det3 (V.getD t.a 0) (V.getD t.b 0) (V.getD t.c 0)).sum * 4 =
    if (T.map fun t => det3 (V.getD t.a 0) (V.getD t.b 0) (V.getD t.c 0)).sum = 0 then 0 else
    (T.map fun t => det3 (V.getD t.a 0) (V.getD t.b 0) (V.getD t.c 0) *
      V3.dot e (V.getD t.a 0 + V.getD t.b 0 + V.getD t.c 0)).sum := by
  have h1 : solidIntegral (fun _ => 1) V T = (T.map fun t => det3 (V.getD t.a 0) (V.getD t.b 0) (V.getD t.c 0)).sum / 6 := by
    rw [solidIntegral_one]; rfl
  have hm : ∀ m : Fin 3, solidIntegral (fun r => comp r m) V T = (T.map fun t =>
      det3 (V.getD t.a 0) (V.getD t.b 0) (V.getD t.c 0) * comp (V.getD t.a 0 + V.getD t.b 0 + V.getD t.c 0) m).sum / 24 := by
    intro m
    unfold solidIntegral
    simp only [tet_lin]
    simp only [div_eq_mul_inv]
    rw [List.sum_map_mul_right]
    congr 2
    apply List.map_congr_left
    intro t _
    congr 1
    fin_cases m <;> simp [comp]
  have hx : solidIntegral (fun r => r.x) V T = _ := hm 0
  have hy : solidIntegral (fun r => r.y) V T = _ := hm 1
  have hz : solidIntegral (fun r => r.z) V T = _ := hm 2
  unfold centroid
  simp only [V3.dot]
  rw [h1, hx, hy, hz]
  have hs : (T.map fun t => det3 (V.getD t.a 0) (V.getD t.b 0) (V.getD t.c 0) *
      (e.x * (V.getD t.a 0 + V.getD t.b 0 + V.getD t.c 0).x + e.y * (V.getD t.a 0 + V.getD t.b 0 + V.getD t.c 0).y +
        e.z * (V.getD t.a 0 + V.getD t.b 0 + V.getD t.c 0).z)).sum =
      e.x * (T.map fun t => det3 (V.getD t.a 0) (V.getD t.b 0) (V.getD t.c 0) * comp (V.getD t.a 0 + V.getD t.b 0 + V.getD t.c 0) 0).sum +
      e.y * (T.map fun t => det3 (V.getD t.a 0) (V.getD t.b 0) (V.getD t.c 0) * comp (V.getD t.a 0 + V.getD t.b 0 + V.getD t.c 0) 1).sum +
      e.z * (T.map fun t => det3 (V.getD t.a 0) (V.getD t.b 0) (V.getD t.c 0) * comp (V.getD t.a 0 + V.getD t.b 0 + V.getD t.c 0) 2).sum := by
    rw [← sum_map_smul, ← sum_map_smul, ← sum_map_smul, ← sum_map_add, ← sum_map_add]
    congr 1
    apply List.map_congr_left
    intro t _
    generalize V.getD t.a 0 + V.getD t.b 0 + V.getD t.c 0 = z
    show _ = e.x * (_ * z.x) + e.y * (_ * z.y) + e.z * (_ * z.z)
    ring
  rw [hs]
  generalize (T.map fun t => det3 (V.getD t.a 0) (V.getD t.b 0) (V.getD t.c 0) * comp (V.getD t.a 0 + V.getD t.b 0 + V.getD t.c 0) 0).sum = X
  generalize (T.map fun t => det3 (V.getD t.a 0) (V.getD t.b 0) (V.getD t.c 0) * comp (V.getD t.a 0 + V.getD t.b 0 + V.getD t.c 0) 1).sum = Y
  generalize (T.map fun t => det3 (V.getD t.a 0) (V.getD t.b 0) (V.getD t.c 0) * comp (V.getD t.a 0 + V.getD t.b 0 + V.getD t.c 0) 2).sum = Z
  generalize (T.map fun t => det3 (V.getD t.a 0) (V.getD t.b 0) (V.getD t.c 0)).sum = D
  by_cases hD : D = 0
  · rw [if_pos hD, hD]; ring
  · rw [if_neg hD]
    field_simp
    ring

/-- Moving the apex of the tetrahedra. -/
theorem apex_change (e c x y z : V3) : det3 (x - c) (y - c) (z - c) * V3.dot e (x + y + z + c) =
    det3 x y z * V3.dot e (x + y + z) + (-1) * (V3.dot c (V3.cross x y) * V3.dot e (x + y + c) +
      V3.dot c (V3.cross y z) * V3.dot e (y + z + c) + V3.dot c (V3.cross z x) * V3.dot e (z + x + c)) := by
  simp only [V3.dot, V3.cross, det3, V3.sub_x, V3.sub_y, V3.sub_z, V3.add_x, V3.add_y, V3.add_z]
  ring

theorem apex_change_one (c x y z : V3) : det3 (x - c) (y - c) (z - c) =
    det3 x y z + (-1) * (V3.dot c (V3.cross x y) + V3.dot c (V3.cross y z) + V3.dot c (V3.cross z x)) := by
  simp only [V3.dot, V3.cross, det3, V3.sub_x, V3.sub_y, V3.sub_z]
  ring

/-- **C95.** The centre of mass of a star shaped solid is in the convex hull of its vertices: every half space that contains the
vertices contains the centre of mass. -/
theorem C95_centroid_in_hull {V : List V3} {T : List Tri} (h : StarShaped (V, T)) (e : V3) :
    ∃ v ∈ V, V3.dot e v ≤ V3.dot e (centroid V T) := by
  obtain ⟨hi, hc, hne, c, hp⟩ := h
  simp only at hi hc hne hp
  obtain ⟨t0, ht0, i0, hi0, hle⟩ := star_centre_in_hull hc hne c hp e
  have hmem : ∀ t ∈ T, ∀ i ∈ [t.a, t.b, t.c], V.getD i 0 ∈ V := by
    intro t ht i hi'
    have hlt : i < V.length := by
      obtain ⟨h1, h2, h3⟩ := hi t ht
      simp only [List.mem_cons, List.not_mem_nil, or_false] at hi'
      rcases hi' with rfl | rfl | rfl <;> assumption
    rw [List.getD_eq_getElem _ _ hlt]
    exact List.getElem_mem _
  by_contra hcon
  push Not at hcon
  set g := V3.dot e (centroid V T) with hg
  have hcg : g < V3.dot e c := lt_of_lt_of_le (hcon _ (hmem t0 ht0 i0 hi0)) hle
  have s1 := closed_sum_zero hc (fun ij => V3.dot c (V3.cross (V.getD ij.1 0) (V.getD ij.2 0)) *
    V3.dot e (V.getD ij.1 0 + V.getD ij.2 0 + c)) (by
      rintro ⟨i, j⟩
      simp only [Prod.swap_prod_mk, V3.dot, V3.cross, V3.add_x, V3.add_y, V3.add_z]; ring)
  have s2 := closed_sum_zero hc (fun ij => V3.dot c (V3.cross (V.getD ij.1 0) (V.getD ij.2 0))) (by
      rintro ⟨i, j⟩
      simp only [Prod.swap_prod_mk, V3.dot, V3.cross]; ring)
  rw [dirEdges_sum] at s1 s2
  have D1 : (T.map fun t => det3 (V.getD t.a 0 - c) (V.getD t.b 0 - c) (V.getD t.c 0 - c)).sum =
      (T.map fun t => det3 (V.getD t.a 0) (V.getD t.b 0) (V.getD t.c 0)).sum := by
    simp only [apex_change_one c]
    rw [sum_map_add, sum_map_smul, s2]; ring
  have D2 : (T.map fun t => det3 (V.getD t.a 0 - c) (V.getD t.b 0 - c) (V.getD t.c 0 - c) *
        V3.dot e (V.getD t.a 0 + V.getD t.b 0 + V.getD t.c 0 + c)).sum =
      (T.map fun t => det3 (V.getD t.a 0) (V.getD t.b 0) (V.getD t.c 0) *
        V3.dot e (V.getD t.a 0 + V.getD t.b 0 + V.getD t.c 0)).sum := by
    simp only [apex_change e c]
    rw [sum_map_add, sum_map_smul, s1]; ring
  have hDpos := map_sum_pos T _ hp hne
  have hcent := dot_centroid e V T
  rw [← D1, ← D2, if_neg hDpos.ne', ← hg] at hcent
  have hbig : 0 < (T.map fun t => det3 (V.getD t.a 0 - c) (V.getD t.b 0 - c) (V.getD t.c 0 - c) *
        V3.dot e (V.getD t.a 0 + V.getD t.b 0 + V.getD t.c 0 + c) +
        (-(4 * g)) * det3 (V.getD t.a 0 - c) (V.getD t.b 0 - c) (V.getD t.c 0 - c)).sum := by
    refine map_sum_pos _ _ ?_ hne
    intro t ht
    have ha := hcon _ (hmem t ht t.a (by simp))
    have hb := hcon _ (hmem t ht t.b (by simp))
    have hd := hcon _ (hmem t ht t.c (by simp))
    have := hp t ht
    have e1 : V3.dot e (V.getD t.a 0 + V.getD t.b 0 + V.getD t.c 0 + c) =
        V3.dot e (V.getD t.a 0) + V3.dot e (V.getD t.b 0) + V3.dot e (V.getD t.c 0) + V3.dot e c := by
      simp only [V3.dot, V3.add_x, V3.add_y, V3.add_z]; ring
    rw [e1]
    have h4 : 0 < V3.dot e (V.getD t.a 0) + V3.dot e (V.getD t.b 0) + V3.dot e (V.getD t.c 0) + V3.dot e c - 4 * g := by linarith
    have := mul_pos this h4
    linarith
  rw [sum_map_add, sum_map_smul] at hbig
  linarith

/-- A solid that a mesh describes: a closed surface of triangles that have an area, facing outwards on the whole, with its centre of
mass in the convex hull of the vertices.  (The last condition follows from the others when the surface does not meet itself.) -/
structure Solid (VT : List V3 × List Tri) : Prop where
  idx : IndicesBelow VT.2 VT.1.length
  closed : ClosedOriented VT.2
  noZero : ∀ t ∈ VT.2, ¬ ZeroArea VT.1 t
  volume : 0 < enclosedVolume VT.1 VT.2
  hull : ∀ e : V3, ∃ v ∈ VT.1, V3.dot e v ≤ V3.dot e (centroid VT.1 VT.2)

/-- Star shaped surfaces bound solids. -/
theorem StarShaped.solid {VT : List V3 × List Tri} (h : StarShaped VT) : Solid VT :=
  ⟨h.1, h.2.1, h.noZero, h.volume, C95_centroid_in_hull h⟩

end Verif
