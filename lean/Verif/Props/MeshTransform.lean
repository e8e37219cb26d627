import Verif.Props.MeshShapes
import Verif.Props.AABB

/-! C63: rigid and affine transforms of a surface mesh. C64: orientation of the convex hull. -/

namespace Verif

open SMesh
open VMesh (Tri)

theorem getD_map_lt {α β : Type*} (L : List α) (f : α → β) (d : α) (e : β) {i : ℕ} (h : i < L.length) :
    (L.map f).getD i e = f (L.getD i d) := by
  rw [getD_range_map (by simpa using h), getD_range_map h]
  simp

theorem closed_sum_zero {T : List Tri} (hc : ClosedOriented T) (f : ℕ × ℕ → ℝ) (hf : ∀ e, f e.swap = -f e) :
    ((dirEdges T).map f).sum = 0 := by
  have hp : ((dirEdges T).map Prod.swap).Perm (dirEdges T) := by
    rw [List.perm_ext_iff_of_nodup (hc.1.map Prod.swap_injective) hc.1]
    rintro ⟨a, b⟩
    constructor
    · intro h
      obtain ⟨⟨c, d⟩, h1, h2⟩ := List.mem_map.1 h
      cases h2
      exact hc.2 _ _ h1
    · intro h
      exact List.mem_map.2 ⟨(b, a), hc.2 _ _ h, rfl⟩
  have h1 := (hp.map f).sum_eq
  rw [List.map_map] at h1
  have h2 : (List.map (f ∘ Prod.swap) (dirEdges T)).sum = -((dirEdges T).map f).sum := by
    rw [neg_eq_neg_one_mul, ← List.sum_map_mul_left]
    congr 1
    apply List.map_congr_left
    intro e _
    simp only [Function.comp, hf]
    ring
  linarith

theorem dirEdges_sum (T : List Tri) (f : ℕ × ℕ → ℝ) :
    ((dirEdges T).map f).sum = (T.map fun t => f (t.a, t.b) + f (t.b, t.c) + f (t.c, t.a)).sum := by
  unfold dirEdges
  rw [sum_flatMap]
  congr 1
  apply List.map_congr_left
  intro t _
  simp
  ring

/-- Translation adds the vector to every vertex, keeps the triangles and, for a closed mesh, the enclosed volume. -/
theorem C63_translate (m : Mesh) (r : V3) :
    (translate m r).T = m.T ∧ (translate m r).V = m.V.map (fun v => ⟨v.x + r.x, v.y + r.y, v.z + r.z⟩) ∧
    (ClosedOriented m.T → IndicesBelow m.T m.V.length →
      enclosedVolume (translate m r).V (translate m r).T = enclosedVolume m.V m.T) := by
  refine ⟨rfl, rfl, ?_⟩
  intro hc hi
  have hz := closed_sum_zero hc (fun e => V3.dot r (V3.cross (m.V.getD e.1 0) (m.V.getD e.2 0)))
    (by intro e; simp [V3.dot, V3.cross]; ring)
  rw [dirEdges_sum] at hz
  unfold enclosedVolume translate
  simp only
  congr 1
  rw [← add_zero (List.sum (List.map (fun t => det3 (m.V.getD t.a 0) (m.V.getD t.b 0) (m.V.getD t.c 0)) m.T)), ← hz,
    ← List.sum_map_add]
  congr 1
  apply List.map_congr_left
  intro t ht
  obtain ⟨h1, h2, h3⟩ := hi t ht
  rw [getD_map_lt _ _ 0 0 h1, getD_map_lt _ _ 0 0 h2, getD_map_lt _ _ 0 0 h3]
  simp [det3, V3.dot, V3.cross]
  ring

/-- A rotation by a unit quaternion rotates every vertex, keeps the triangles, all mutual distances and the
enclosed volume (also its sign). -/
theorem C63_rotate (m : Mesh) {q : Quat} (hq : IsUnitQ q) :
    ∃ m', SMesh.rotate m q = .ok m' ∧ m'.T = m.T ∧ m'.V = m.V.map (Quat.rotate q) ∧
      (IndicesBelow m.T m.V.length → enclosedVolume m'.V m'.T = enclosedVolume m.V m.T) := by
  refine ⟨⟨m.V.map (Quat.rotate q), m.T⟩, ?_, rfl, rfl, ?_⟩
  · unfold SMesh.rotate
    rw [C05_rotate_array]
    rfl
  · intro hi
    unfold enclosedVolume
    simp only
    congr 2
    apply List.map_congr_left
    intro t ht
    obtain ⟨h1, h2, h3⟩ := hi t ht
    rw [getD_map_lt _ _ 0 0 h1, getD_map_lt _ _ 0 0 h2, getD_map_lt _ _ 0 0 h3]
    have hd : ∀ a b c : V3, det3 a b c = V3.dot a (V3.cross b c) := by
      intro a b c; simp [det3, V3.dot, V3.cross]
    have e1 : V3.cross (Quat.rotate q (m.V.getD t.b 0)) (Quat.rotate q (m.V.getD t.c 0)) =
        Quat.rotate q (V3.cross (m.V.getD t.b 0) (m.V.getD t.c 0)) := by
      apply V3.toFun_injective
      rw [V3.toFun_cross, C02_rotate_cross hq]
    rw [hd, hd, e1, ← V3.toFun_dot, ← V3.toFun_dot, C02_rotate_dot hq]

/-- Scaling multiplies the coordinates and the enclosed volume. -/
theorem C63_scale (m : Mesh) (a b c : ℝ) :
    (scale m a b c).T = m.T ∧ (scale m a b c).V = m.V.map (fun v => ⟨v.x * a, v.y * b, v.z * c⟩) ∧
    (IndicesBelow m.T m.V.length →
      enclosedVolume (scale m a b c).V (scale m a b c).T = a * b * c * enclosedVolume m.V m.T) := by
  refine ⟨rfl, rfl, ?_⟩
  intro hi
  unfold enclosedVolume scale
  simp only
  rw [← mul_div_assoc, ← List.sum_map_mul_left]
  congr 2
  apply List.map_congr_left
  intro t ht
  obtain ⟨h1, h2, h3⟩ := hi t ht
  rw [getD_map_lt _ _ 0 0 h1, getD_map_lt _ _ 0 0 h2, getD_map_lt _ _ 0 0 h3]
  simp [det3, vmul]
  ring

/-- (l, u) are the corners of the smallest box around the vertices: bounds that are attained on each axis. -/
def TightBox (V : List V3) (l u : V3) : Prop :=
  (∀ v ∈ V, l.x ≤ v.x ∧ v.x ≤ u.x ∧ l.y ≤ v.y ∧ v.y ≤ u.y ∧ l.z ≤ v.z ∧ v.z ≤ u.z) ∧
  (∃ v ∈ V, v.x = l.x) ∧ (∃ v ∈ V, v.x = u.x) ∧ (∃ v ∈ V, v.y = l.y) ∧ (∃ v ∈ V, v.y = u.y) ∧
  (∃ v ∈ V, v.z = l.z) ∧ (∃ v ∈ V, v.z = u.z)

theorem foldl_min_comp (g : V3 → ℝ) (hg : ∀ a b, g (AABB.vmin a b) = min (g a) (g b)) :
    ∀ (vs : List V3) (v : V3), (∀ w ∈ v :: vs, g (vs.foldl AABB.vmin v) ≤ g w) ∧
      ∃ w ∈ v :: vs, g w = g (vs.foldl AABB.vmin v) := by
  intro vs
  induction vs with
  | nil => intro v; simp
  | cons a vs ih =>
    intro v
    obtain ⟨h1, w, hw, h2⟩ := ih (AABB.vmin v a)
    simp only [List.foldl_cons]
    constructor
    · intro x hx
      have hm := h1 _ List.mem_cons_self
      rw [hg] at hm
      rcases List.mem_cons.1 hx with rfl | hx
      · exact hm.trans (min_le_left _ _)
      rcases List.mem_cons.1 hx with rfl | hx
      · exact hm.trans (min_le_right _ _)
      exact h1 x (List.mem_cons_of_mem _ hx)
    · rcases List.mem_cons.1 hw with rfl | hw
      · rw [← h2, hg]
        rcases le_total (g v) (g a) with h | h
        · exact ⟨v, by simp, by rw [min_eq_left h]⟩
        · exact ⟨a, by simp, by rw [min_eq_right h]⟩
      · exact ⟨w, by simp [hw], h2⟩

theorem foldl_max_comp (g : V3 → ℝ) (hg : ∀ a b, g (AABB.vmax a b) = max (g a) (g b)) :
    ∀ (vs : List V3) (v : V3), (∀ w ∈ v :: vs, g w ≤ g (vs.foldl AABB.vmax v)) ∧
      ∃ w ∈ v :: vs, g w = g (vs.foldl AABB.vmax v) := by
  intro vs
  induction vs with
  | nil => intro v; simp
  | cons a vs ih =>
    intro v
    obtain ⟨h1, w, hw, h2⟩ := ih (AABB.vmax v a)
    simp only [List.foldl_cons]
    constructor
    · intro x hx
      have hm := h1 _ List.mem_cons_self
      rw [hg] at hm
      rcases List.mem_cons.1 hx with rfl | hx
      · exact (le_max_left _ _).trans hm
      rcases List.mem_cons.1 hx with rfl | hx
      · exact (le_max_right _ _).trans hm
      exact h1 x (List.mem_cons_of_mem _ hx)
    · rcases List.mem_cons.1 hw with rfl | hw
      · rw [← h2, hg]
        rcases le_total (g v) (g a) with h | h
        · exact ⟨a, by simp, by rw [max_eq_right h]⟩
        · exact ⟨v, by simp, by rw [max_eq_left h]⟩
      · exact ⟨w, by simp [hw], h2⟩

/-- `aabb` raises on an empty mesh and otherwise returns the smallest enclosing box. -/
theorem C63_aabb (m : Mesh) :
    (m.V = [] → aabb m = .error .valueError) ∧
    (m.V ≠ [] → ∃ l u, aabb m = .ok (l, u) ∧ TightBox m.V l u) := by
  constructor
  · intro h; unfold aabb; rw [h]
  · intro h
    obtain ⟨v, vs, hv⟩ := List.exists_cons_of_ne_nil h
    refine ⟨vs.foldl AABB.vmin v, vs.foldl AABB.vmax v, by unfold aabb; rw [hv], ?_⟩
    rw [hv]
    obtain ⟨a1, b1⟩ := foldl_min_comp V3.x (fun _ _ => rfl) vs v
    obtain ⟨a2, b2⟩ := foldl_min_comp V3.y (fun _ _ => rfl) vs v
    obtain ⟨a3, b3⟩ := foldl_min_comp V3.z (fun _ _ => rfl) vs v
    obtain ⟨c1, d1⟩ := foldl_max_comp V3.x (fun _ _ => rfl) vs v
    obtain ⟨c2, d2⟩ := foldl_max_comp V3.y (fun _ _ => rfl) vs v
    obtain ⟨c3, d3⟩ := foldl_max_comp V3.z (fun _ _ => rfl) vs v
    exact ⟨fun w hw => ⟨a1 w hw, c1 w hw, a2 w hw, c2 w hw, a3 w hw, c3 w hw⟩, b1, d1, b2, d2, b3, d3⟩

theorem max3_cases (a b c : ℝ) : max (max a b) c = a ∨ max (max a b) c = b ∨ max (max a b) c = c := by
  rcases max_choice (max a b) c with h | h <;> rw [h]
  · rcases max_choice a b with h | h <;> rw [h] <;> simp
  · simp

/-- `scale_to_unit` on a mesh whose vertices do not all coincide: the triangles stay; the result is the uniform
scaling by 1/(largest extent) about the centre of the bounding box; its bounding box has the same centre and its
largest extent is exactly 1. -/
theorem C63_scale_to_unit (m : Mesh) (l u : V3) (hb : TightBox m.V l u) (hne : l ≠ u) :
    ∃ m' l' u', scale_to_unit m = .ok m' ∧ m'.T = m.T ∧ TightBox m'.V l' u' ∧
      l' + u' = l + u ∧ max (max (u'.x - l'.x) (u'.y - l'.y)) (u'.z - l'.z) = 1 ∧
      ∃ s : ℝ, 0 < s ∧ m'.V = m.V.map (fun v => (0.5 : ℝ) • (l + u) + s • (v - (0.5 : ℝ) • (l + u))) := by
  have hVne : m.V ≠ [] := by
    obtain ⟨_, ⟨v, hv, _⟩, _⟩ := hb
    exact List.ne_nil_of_mem hv
  obtain ⟨l0, u0, ho, hb0⟩ := (C63_aabb m).2 hVne
  have hl : l0 = l ∧ u0 = u := by
    obtain ⟨hA, ⟨x1, m1, e1⟩, ⟨x2, m2, e2⟩, ⟨x3, m3, e3⟩, ⟨x4, m4, e4⟩, ⟨x5, m5, e5⟩, ⟨x6, m6, e6⟩⟩ := hb
    obtain ⟨hA', ⟨y1, n1, f1⟩, ⟨y2, n2, f2⟩, ⟨y3, n3, f3⟩, ⟨y4, n4, f4⟩, ⟨y5, n5, f5⟩, ⟨y6, n6, f6⟩⟩ := hb0
    constructor
    · ext
      · linarith [(hA y1 n1).1, (hA' x1 m1).1]
      · linarith [(hA y3 n3).2.2.1, (hA' x3 m3).2.2.1]
      · linarith [(hA y5 n5).2.2.2.2.1, (hA' x5 m5).2.2.2.2.1]
    · ext
      · linarith [(hA y2 n2).2.1, (hA' x2 m2).2.1]
      · linarith [(hA y4 n4).2.2.2.1, (hA' x4 m4).2.2.2.1]
      · linarith [(hA y6 n6).2.2.2.2.2, (hA' x6 m6).2.2.2.2.2]
  obtain ⟨rfl, rfl⟩ := hl
  have hle : l0.x ≤ u0.x ∧ l0.y ≤ u0.y ∧ l0.z ≤ u0.z := by
    obtain ⟨v, hv, _⟩ := hb.2.1
    obtain ⟨a, b, c, d, e, f⟩ := hb.1 v hv
    exact ⟨a.trans b, c.trans d, e.trans f⟩
  set M := max (max (u0.x - l0.x) (u0.y - l0.y)) (u0.z - l0.z) with hM
  have hMx : u0.x - l0.x ≤ M := (le_max_left _ _).trans (le_max_left _ _)
  have hMy : u0.y - l0.y ≤ M := (le_max_right _ _).trans (le_max_left _ _)
  have hMz : u0.z - l0.z ≤ M := le_max_right _ _
  have hMp : 0 < M := by
    rcases lt_or_eq_of_le (show 0 ≤ M by linarith) with h | h
    · exact h
    · exfalso
      apply hne
      ext <;> linarith
  set s := 1 / M with hs
  have hsp : 0 < s := by positivity
  have hsM : s * M = 1 := by rw [hs]; field_simp
  set ctr := (0.5 : ℝ) • (l0 + u0) with hctr
  have hcx : ctr.x = (l0.x + u0.x) / 2 := by simp [hctr]; ring
  have hcy : ctr.y = (l0.y + u0.y) / 2 := by simp [hctr]; ring
  have hcz : ctr.z = (l0.z + u0.z) / 2 := by simp [hctr]; ring
  have hV' : m.V.map (fun v => ctr + s • (v - ctr)) =
      (translate (scale (translate m (-(V3.divs (l0 + u0) 2))) s s s) (V3.divs (l0 + u0) 2)).V := by
    simp only [translate, scale, List.map_map]
    apply List.map_congr_left
    intro v _
    simp only [Function.comp]
    ext <;> simp [vmul, V3.divs, hctr] <;> ring
  set g : V3 → V3 := fun v => ctr + s • (v - ctr) with hg
  refine ⟨⟨m.V.map g, m.T⟩, g l0, g u0, ?_, rfl, ?_, ?_, ?_, s, hsp, rfl⟩
  · unfold scale_to_unit
    rw [ho]
    simp only [bind, Except.bind]
    rw [hV']
    rfl
  · have hmono : ∀ a b : ℝ, ∀ c : ℝ, a ≤ b → c + s * (a - c) ≤ c + s * (b - c) := by
      intro a b c hab
      have := mul_le_mul_of_nonneg_left (sub_le_sub_right hab c) hsp.le
      linarith
    obtain ⟨hA, ⟨x1, m1, e1⟩, ⟨x2, m2, e2⟩, ⟨x3, m3, e3⟩, ⟨x4, m4, e4⟩, ⟨x5, m5, e5⟩, ⟨x6, m6, e6⟩⟩ := hb
    refine ⟨?_, ⟨g x1, List.mem_map_of_mem m1, by simp [hg, e1]⟩, ⟨g x2, List.mem_map_of_mem m2, by simp [hg, e2]⟩,
      ⟨g x3, List.mem_map_of_mem m3, by simp [hg, e3]⟩, ⟨g x4, List.mem_map_of_mem m4, by simp [hg, e4]⟩,
      ⟨g x5, List.mem_map_of_mem m5, by simp [hg, e5]⟩, ⟨g x6, List.mem_map_of_mem m6, by simp [hg, e6]⟩⟩
    intro w hw
    obtain ⟨v, hv, rfl⟩ := List.mem_map.1 hw
    obtain ⟨a, b, c, d, e, f⟩ := hA v hv
    exact ⟨hmono _ _ _ a, hmono _ _ _ b, hmono _ _ _ c, hmono _ _ _ d, hmono _ _ _ e, hmono _ _ _ f⟩
  · ext
    · simp only [hg, V3.add_x, V3.smul_x, V3.sub_x, hcx]; ring
    · simp only [hg, V3.add_y, V3.smul_y, V3.sub_y, hcy]; ring
    · simp only [hg, V3.add_z, V3.smul_z, V3.sub_z, hcz]; ring
  · have e1 : (g u0).x - (g l0).x = s * (u0.x - l0.x) := by simp [hg]; ring
    have e2 : (g u0).y - (g l0).y = s * (u0.y - l0.y) := by simp [hg]; ring
    have e3 : (g u0).z - (g l0).z = s * (u0.z - l0.z) := by simp [hg]; ring
    rw [e1, e2, e3, ← mul_max_of_nonneg _ _ hsp.le, ← mul_max_of_nonneg _ _ hsp.le]
    exact hsM

/-- a box that is not a cube is scaled -/
example : TightBox [⟨0, 0, 0⟩, ⟨2, 1, 4⟩] ⟨0, 0, 0⟩ ⟨2, 1, 4⟩ ∧ (⟨0, 0, 0⟩ : V3) ≠ ⟨2, 1, 4⟩ := by
  refine ⟨?_, by simp⟩
  simp [TightBox]

/-! ### convex hull -/

/-- the signed distance (times twice the area) of p from the plane of the triangle (a, b, c), positive outside -/
def planeSide (a b c p : V3) : ℝ := V3.dot (p - a) (V3.cross (b - a) (c - a))

/-- What scipy's ConvexHull promises: the hull vertices are distinct input points, every simplex uses hull vertices,
all input points are on one side of the plane of each simplex and not all hull vertices lie in it. -/
structure HullContract (points : List V3) (hv : List ℕ) (simplices : List Tri) : Prop where
  nodup : hv.Nodup
  inRange : ∀ i ∈ hv, i < points.length
  corners : ∀ s ∈ simplices, s.a ∈ hv ∧ s.b ∈ hv ∧ s.c ∈ hv
  support : ∀ s ∈ simplices,
    (∀ p ∈ points, planeSide (points.getD s.a 0) (points.getD s.b 0) (points.getD s.c 0) p ≤ 0) ∨
    (∀ p ∈ points, 0 ≤ planeSide (points.getD s.a 0) (points.getD s.b 0) (points.getD s.c 0) p)
  full : ∀ s ∈ simplices, ∃ i ∈ hv,
    planeSide (points.getD s.a 0) (points.getD s.b 0) (points.getD s.c 0) (points.getD i 0) ≠ 0

theorem findIdx_some {hv : List ℕ} {x : ℕ} (h : x ∈ hv) :
    ∃ i, hv.findIdx? (· == x) = some i ∧ hv[i]? = some x := by
  obtain ⟨i, hi⟩ := Option.isSome_iff_exists.1 (by
    rw [List.findIdx?_isSome]
    exact List.any_eq_true.2 ⟨x, h, by simp⟩ : (hv.findIdx? (· == x)).isSome)
  refine ⟨i, hi, ?_⟩
  rw [List.findIdx?_eq_some_iff_getElem] at hi
  obtain ⟨h1, h2, _⟩ := hi
  rw [List.getElem?_eq_getElem h1]
  simpa using h2

theorem list_sum_nonpos (L : List ℝ) (h : ∀ x ∈ L, x ≤ 0) : L.sum ≤ 0 := by
  induction L with
  | nil => simp
  | cons a L ih =>
    have := ih (fun x hx => h x (List.mem_cons_of_mem _ hx))
    have := h a List.mem_cons_self
    rw [List.sum_cons]; linarith

theorem list_sum_pos (L : List ℝ) (h : ∀ x ∈ L, 0 ≤ x) (hx : ∃ x ∈ L, x ≠ 0) : 0 < L.sum := by
  induction L with
  | nil => obtain ⟨x, hx, _⟩ := hx; cases hx
  | cons a L ih =>
    have ha := h a List.mem_cons_self
    have hL : 0 ≤ L.sum := List.sum_nonneg (fun x hx => h x (List.mem_cons_of_mem _ hx))
    rw [List.sum_cons]
    obtain ⟨x, hx, hx0⟩ := hx
    rcases List.mem_cons.1 hx with rfl | hx
    · have := lt_of_le_of_ne ha (Ne.symm hx0); linarith
    · have := ih (fun x hx => h x (List.mem_cons_of_mem _ hx)) ⟨x, hx, hx0⟩; linarith

theorem planeSide_mean (a b c : V3) : ∀ (V : List V3),
    (V.map (planeSide a b c)).sum = V3.dot (V.sum - (V.length : ℝ) • a) (V3.cross (b - a) (c - a)) := by
  intro V
  induction V with
  | nil => simp [V3.dot]
  | cons v V ih =>
    simp only [List.map_cons, List.sum_cons, ih, List.length_cons, planeSide]
    rw [← V3.dot_add_left]
    congr 1
    ext <;> simp <;> ring

theorem vmean_side (a b c : V3) {V : List V3} (h : V ≠ []) :
    (V.length : ℝ) * planeSide a b c (vmean V) = (V.map (planeSide a b c)).sum := by
  rw [planeSide_mean]
  have : (V.length : ℝ) ≠ 0 := by
    have : V.length ≠ 0 := by simpa using h
    exact_mod_cast this
  unfold planeSide vmean
  rw [← V3.dot_smul_left]
  congr 1
  ext <;> simp [V3.divs] <;> field_simp

theorem planeSide_flip (a b c p : V3) : planeSide b a c p = -planeSide a b c p := by
  simp [planeSide, V3.dot, V3.cross]; ring

/-- Under scipy's contract the returned mesh has the hull vertices as vertices, one triangle per simplex with the
same three corner points, and every triangle is oriented so that no input point lies outside it. -/
theorem C64_convex_hull (points : List V3) (hv : List ℕ) (simplices : List Tri)
    (hc : HullContract points hv simplices) :
    ∃ V T, create_convex_hull points hv simplices = .ok (V, T) ∧ V = hv.map (fun i => points.getD i 0) ∧
      IndicesBelow T V.length ∧
      List.Forall₂ (fun (s t : Tri) =>
        [V.getD t.a 0, V.getD t.b 0, V.getD t.c 0].Perm
          [points.getD s.a 0, points.getD s.b 0, points.getD s.c 0]) simplices T ∧
      ∀ t ∈ T, ∀ p ∈ points, planeSide (V.getD t.a 0) (V.getD t.b 0) (V.getD t.c 0) p ≤ 0 := by
  set V := hv.map (fun i => points.getD i 0) with hV
  set f : Tri → Option Tri := hullTri hv with hf
  have hget : ∀ (i x : ℕ), hv[i]? = some x → V.getD i 0 = points.getD x 0 ∧ i < V.length := by
    intro i x h
    have hi : i < hv.length := (List.getElem?_eq_some_iff.1 h).1
    refine ⟨?_, by simpa [hV] using hi⟩
    rw [hV, getD_map_lt _ _ 0 0 hi, getD_range_map hi]
    rw [List.getElem?_eq_getElem hi] at h
    rw [Option.some.inj h]
  have h1 : ∀ s ∈ simplices, ∃ t, f s = some t ∧ V.getD t.a 0 = points.getD s.a 0 ∧
      V.getD t.b 0 = points.getD s.b 0 ∧ V.getD t.c 0 = points.getD s.c 0 ∧
      t.a < V.length ∧ t.b < V.length ∧ t.c < V.length := by
    intro s hs
    obtain ⟨ha, hb, hcc⟩ := hc.corners s hs
    obtain ⟨i, hi, hi'⟩ := findIdx_some ha
    obtain ⟨j, hj, hj'⟩ := findIdx_some hb
    obtain ⟨k, hk, hk'⟩ := findIdx_some hcc
    refine ⟨⟨i, j, k⟩, by simp only [hf, hullTri, hi, hj, hk], (hget _ _ hi').1, (hget _ _ hj').1, (hget _ _ hk').1,
      (hget _ _ hi').2, (hget _ _ hj').2, (hget _ _ hk').2⟩
  have h2 : ∀ L : List Tri, (∀ s ∈ L, s ∈ simplices) → ∃ ts, L.mapM f = some ts ∧
      List.Forall₂ (fun s t => f s = some t) L ts := by
    intro L
    induction L with
    | nil => intro _; exact ⟨[], rfl, List.Forall₂.nil⟩
    | cons s L ih =>
      intro h
      obtain ⟨t, ht, _⟩ := h1 s (h s List.mem_cons_self)
      obtain ⟨ts, h3, h4⟩ := ih (fun x hx => h x (List.mem_cons_of_mem _ hx))
      refine ⟨t :: ts, ?_, List.Forall₂.cons ht h4⟩
      rw [List.mapM_cons, ht]
      simp [h3]
  obtain ⟨ts, h3, h4⟩ := h2 simplices (fun _ h => h)
  have hside : ∀ s ∈ simplices, ∀ t, f s = some t →
      ([V.getD (orientTri V t).a 0, V.getD (orientTri V t).b 0, V.getD (orientTri V t).c 0].Perm
          [points.getD s.a 0, points.getD s.b 0, points.getD s.c 0]) ∧
      ((orientTri V t).a < V.length ∧ (orientTri V t).b < V.length ∧ (orientTri V t).c < V.length) ∧
      ∀ p ∈ points, planeSide (V.getD (orientTri V t).a 0) (V.getD (orientTri V t).b 0)
        (V.getD (orientTri V t).c 0) p ≤ 0 := by
    intro s hs t ht
    obtain ⟨t', ht', e1, e2, e3, l1, l2, l3⟩ := h1 s hs
    obtain rfl : t' = t := by rw [ht] at ht'; exact (Option.some.inj ht').symm
    have hVne : V ≠ [] := List.ne_nil_of_length_pos (by omega)
    have hmean := vmean_side (points.getD s.a 0) (points.getD s.b 0) (points.getD s.c 0) hVne
    have hlen : (0 : ℝ) < V.length := by
      have : 0 < V.length := by omega
      exact_mod_cast this
    have hVp : ∀ v ∈ V, v ∈ points := by
      intro v hv
      obtain ⟨i, hi, rfl⟩ := List.mem_map.1 hv
      have := hc.inRange i hi
      rw [getD_range_map this]
      exact List.getElem_mem _
    obtain ⟨i0, hi0, hne⟩ := hc.full s hs
    have hv0 : points.getD i0 0 ∈ V := List.mem_map_of_mem hi0
    have hcond : V3.dot (vmean V - V.getD t'.a 0) (V3.cross (V.getD t'.b 0 - V.getD t'.a 0)
        (V.getD t'.c 0 - V.getD t'.a 0)) =
        planeSide (points.getD s.a 0) (points.getD s.b 0) (points.getD s.c 0) (vmean V) := by
      rw [e1, e2, e3]; rfl
    rcases hc.support s hs with hneg | hpos
    · have hle : (V.map (planeSide (points.getD s.a 0) (points.getD s.b 0) (points.getD s.c 0))).sum ≤ 0 :=
        list_sum_nonpos _ (by
          intro x hx
          obtain ⟨v, hv, rfl⟩ := List.mem_map.1 hx
          exact hneg v (hVp v hv))
      have hno : orientTri V t' = t' := by
        unfold orientTri
        simp only []
        rw [hcond, if_neg]
        intro hgt
        nlinarith
      rw [hno, e1, e2, e3]
      exact ⟨List.Perm.refl _, ⟨l1, l2, l3⟩, hneg⟩
    · have hgt : 0 < (V.map (planeSide (points.getD s.a 0) (points.getD s.b 0) (points.getD s.c 0))).sum :=
        list_sum_pos _ (by
          intro x hx
          obtain ⟨v, hv, rfl⟩ := List.mem_map.1 hx
          exact hpos v (hVp v hv)) ⟨_, List.mem_map_of_mem hv0, hne⟩
      have hyes : orientTri V t' = ⟨t'.b, t'.a, t'.c⟩ := by
        unfold orientTri
        simp only []
        rw [hcond, if_pos]
        by_contra hn
        nlinarith
      rw [hyes]
      simp only [e1, e2, e3]
      refine ⟨List.Perm.swap _ _ _, ⟨l2, l1, l3⟩, ?_⟩
      intro p hp
      rw [planeSide_flip]
      have := hpos p hp
      linarith
  have hmem : ∀ {L ts : List Tri}, List.Forall₂ (fun s t => f s = some t) L ts →
      ∀ t ∈ ts, ∃ s ∈ L, f s = some t := by
    intro L ts h
    induction h with
    | nil => intro t ht; cases ht
    | cons h _ ih =>
      intro t ht
      rcases List.mem_cons.1 ht with rfl | ht
      · exact ⟨_, List.mem_cons_self, h⟩
      · obtain ⟨s, hs, h⟩ := ih t ht
        exact ⟨s, List.mem_cons_of_mem _ hs, h⟩
  refine ⟨V, ts.map (orientTri V), ?_, rfl, ?_, ?_, ?_⟩
  · unfold create_convex_hull
    simp only []
    rw [show List.mapM (hullTri hv) simplices = some ts from h3]
  · intro t ht
    obtain ⟨t0, ht0, rfl⟩ := List.mem_map.1 ht
    obtain ⟨s, hs, h⟩ := hmem h4 t0 ht0
    exact (hside s hs t0 h).2.1
  · rw [List.forall₂_map_right_iff]
    have : ∀ {L ts : List Tri}, List.Forall₂ (fun s t => f s = some t) L ts → (∀ s ∈ L, s ∈ simplices) →
        List.Forall₂ (fun (s c : Tri) => [V.getD (orientTri V c).a 0, V.getD (orientTri V c).b 0,
          V.getD (orientTri V c).c 0].Perm [points.getD s.a 0, points.getD s.b 0, points.getD s.c 0]) L ts := by
      intro L ts h
      induction h with
      | nil => intro _; exact List.Forall₂.nil
      | cons h _ ih =>
        intro hL
        exact List.Forall₂.cons (hside _ (hL _ List.mem_cons_self) _ h).1
          (ih (fun x hx => hL x (List.mem_cons_of_mem _ hx)))
    exact this h4 (fun _ h => h)
  · intro t ht
    obtain ⟨t0, ht0, rfl⟩ := List.mem_map.1 ht
    obtain ⟨s, hs, h⟩ := hmem h4 t0 ht0
    exact (hside s hs t0 h).2.2

/-- the four corners of a tetrahedron, with simplices as scipy may return them (not consistently oriented) -/
example : HullContract [⟨0, 0, 0⟩, ⟨1, 0, 0⟩, ⟨0, 1, 0⟩, ⟨0, 0, 1⟩] [3, 2, 1, 0]
    [⟨0, 1, 2⟩, ⟨0, 1, 3⟩, ⟨0, 2, 3⟩, ⟨1, 2, 3⟩] := by
  refine ⟨by decide, by decide, by decide, ?_, ?_⟩
  · simp [planeSide, V3.dot, V3.cross]
  · simp [planeSide, V3.dot, V3.cross]

end Verif
