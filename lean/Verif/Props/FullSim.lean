import Verif.Model.FullSim
import Verif.Props.SolidMesh
import Verif.Props.CollisionComplete
import Verif.Props.RigidSim

/-! C95: the whole rigid body simulator runs. -/

namespace Verif

open Rigid SMesh Collision
open VMesh (Tri)

/-! ### The distance field of a shape -/

theorem foldl_min_spec (V : List V3) (v : V3) :
    let m := V.foldl (fun m p => (⟨min m.x p.x, min m.y p.y, min m.z p.z⟩ : V3)) v
    (∀ p ∈ v :: V, m.x ≤ p.x ∧ m.y ≤ p.y ∧ m.z ≤ p.z) ∧
      (∃ p ∈ v :: V, p.x = m.x) ∧ (∃ p ∈ v :: V, p.y = m.y) ∧ (∃ p ∈ v :: V, p.z = m.z) := by
  induction V generalizing v with
  | nil => simp
  | cons w V ih =>
    have ih := ih ⟨min v.x w.x, min v.y w.y, min v.z w.z⟩
    simp only [List.foldl_cons] at ih ⊢
    generalize V.foldl (fun m p => (⟨min m.x p.x, min m.y p.y, min m.z p.z⟩ : V3)) ⟨min v.x w.x, min v.y w.y, min v.z w.z⟩ = m at *
    obtain ⟨h1, ⟨px, hpx, ex⟩, ⟨py, hpy, ey⟩, ⟨pz, hpz, ez⟩⟩ := ih
    have h0 := h1 _ (List.mem_cons_self ..)
    simp only [le_min_iff] at h0
    refine ⟨?_, ?_, ?_, ?_⟩
    · intro p hp
      rcases List.mem_cons.1 hp with rfl | hp
      · exact ⟨h0.1.1, h0.2.1.1, h0.2.2.1⟩
      · rcases List.mem_cons.1 hp with rfl | hp
        · exact ⟨h0.1.2, h0.2.1.2, h0.2.2.2⟩
        · exact h1 p (List.mem_cons_of_mem _ hp)
    · rcases List.mem_cons.1 hpx with rfl | hp
      · rcases min_choice v.x w.x with h | h
        · exact ⟨v, by simp, by rw [← ex]; exact h.symm⟩
        · exact ⟨w, by simp, by rw [← ex]; exact h.symm⟩
      · exact ⟨px, by simp [hp], ex⟩
    · rcases List.mem_cons.1 hpy with rfl | hp
      · rcases min_choice v.y w.y with h | h
        · exact ⟨v, by simp, by rw [← ey]; exact h.symm⟩
        · exact ⟨w, by simp, by rw [← ey]; exact h.symm⟩
      · exact ⟨py, by simp [hp], ey⟩
    · rcases List.mem_cons.1 hpz with rfl | hp
      · rcases min_choice v.z w.z with h | h
        · exact ⟨v, by simp, by rw [← ez]; exact h.symm⟩
        · exact ⟨w, by simp, by rw [← ez]; exact h.symm⟩
      · exact ⟨pz, by simp [hp], ez⟩

theorem foldl_max_spec (V : List V3) (v : V3) :
    let m := V.foldl (fun m p => (⟨max m.x p.x, max m.y p.y, max m.z p.z⟩ : V3)) v
    (∀ p ∈ v :: V, p.x ≤ m.x ∧ p.y ≤ m.y ∧ p.z ≤ m.z) ∧
      (∃ p ∈ v :: V, p.x = m.x) ∧ (∃ p ∈ v :: V, p.y = m.y) ∧ (∃ p ∈ v :: V, p.z = m.z) := by
  induction V generalizing v with
  | nil => simp
  | cons w V ih =>
    have ih := ih ⟨max v.x w.x, max v.y w.y, max v.z w.z⟩
    simp only [List.foldl_cons] at ih ⊢
    generalize V.foldl (fun m p => (⟨max m.x p.x, max m.y p.y, max m.z p.z⟩ : V3)) ⟨max v.x w.x, max v.y w.y, max v.z w.z⟩ = m at *
    obtain ⟨ih, ⟨px, hpx, ex⟩, ⟨py, hpy, ey⟩, ⟨pz, hpz, ez⟩⟩ := ih
    refine ⟨?_, ?_, ?_, ?_⟩
    rotate_left
    · rcases List.mem_cons.1 hpx with rfl | hp
      · rcases max_choice v.x w.x with h | h
        · exact ⟨v, by simp, by rw [← ex]; exact h.symm⟩
        · exact ⟨w, by simp, by rw [← ex]; exact h.symm⟩
      · exact ⟨px, by simp [hp], ex⟩
    · rcases List.mem_cons.1 hpy with rfl | hp
      · rcases max_choice v.y w.y with h | h
        · exact ⟨v, by simp, by rw [← ey]; exact h.symm⟩
        · exact ⟨w, by simp, by rw [← ey]; exact h.symm⟩
      · exact ⟨py, by simp [hp], ey⟩
    · rcases List.mem_cons.1 hpz with rfl | hp
      · rcases max_choice v.z w.z with h | h
        · exact ⟨v, by simp, by rw [← ez]; exact h.symm⟩
        · exact ⟨w, by simp, by rw [← ez]; exact h.symm⟩
      · exact ⟨pz, by simp [hp], ez⟩
    have h0 := ih _ (List.mem_cons_self ..)
    simp only [max_le_iff] at h0
    intro p hp
    rcases List.mem_cons.1 hp with rfl | hp
    · exact ⟨h0.1.1, h0.2.1.1, h0.2.2.1⟩
    · rcases List.mem_cons.1 hp with rfl | hp
      · exact ⟨h0.1.2, h0.2.1.2, h0.2.2.2⟩
      · exact ih p (List.mem_cons_of_mem _ hp)

/-- The package's promise about `igl.signed_distance`: one value per node. -/
def OnePerNode (sd : SignedDistance) : Prop := ∀ nodes V F, (sd nodes V F).length = nodes.length

/-- **C96.** `create_signed_distance`: for a non-empty mesh, a margin that is not negative and at least two nodes per axis it
returns a grid whose box is the bounding box of the vertices grown by the margin, and whose nodal values are the values reported by
`igl.signed_distance` for the coordinates of that node. -/
theorem C96_create_signed_distance {sd : SignedDistance} (hsd : OnePerNode sd) {V : List V3} (F : List Tri) {I J K : ℤ} {boundary : ℝ}
    (hV : V ≠ []) (hb : 0 ≤ boundary) (hI : 2 ≤ I) (hJ : 2 ≤ J) (hK : 2 ≤ K) :
    ∃ g nodes, create_signed_distance sd V F I J K boundary = .ok g ∧ (g.I : ℤ) = I ∧ (g.J : ℤ) = J ∧ (g.K : ℤ) = K ∧
      (∀ v ∈ V, g.min_coord.x ≤ v.x - boundary ∧ g.min_coord.y ≤ v.y - boundary ∧ g.min_coord.z ≤ v.z - boundary) ∧
      (∀ v ∈ V, v.x + boundary ≤ g.max_coord.x ∧ v.y + boundary ≤ g.max_coord.y ∧ v.z + boundary ≤ g.max_coord.z) ∧
      (∃ v ∈ V, v.x - boundary = g.min_coord.x) ∧ (∃ v ∈ V, v.y - boundary = g.min_coord.y) ∧
      (∃ v ∈ V, v.z - boundary = g.min_coord.z) ∧ (∃ v ∈ V, v.x + boundary = g.max_coord.x) ∧
      (∃ v ∈ V, v.y + boundary = g.max_coord.y) ∧ (∃ v ∈ V, v.z + boundary = g.max_coord.z) ∧
      (∀ i j k, i < g.I → j < g.J → k < g.K → ∃ x, nodes[g.get_linear_index i j k]? = some (g.get_node_coord i j k) ∧
        (sd nodes V F)[g.get_linear_index i j k]? = some x ∧ g.get_node_value i j k = .ok x) ∧
      g.min_coord.x + g.spacing.x * (g.I - 1) = g.max_coord.x ∧ g.min_coord.y + g.spacing.y * (g.J - 1) = g.max_coord.y ∧
      g.min_coord.z + g.spacing.z * (g.K - 1) = g.max_coord.z := by
  cases V with
  | nil => exact absurd rfl hV
  | cons v V =>
    obtain ⟨h1, ⟨px, hpx, ex⟩, ⟨py, hpy, ey⟩, ⟨pz, hpz, ez⟩⟩ := foldl_min_spec V v
    obtain ⟨h2, ⟨qx, hqx, fx⟩, ⟨qy, hqy, fy⟩, ⟨qz, hqz, fz⟩⟩ := foldl_max_spec V v
    unfold create_signed_distance vmin vmax
    rw [if_neg (not_lt.2 hb)]
    simp only [bind, Except.bind]
    generalize V.foldl (fun m p => (⟨min m.x p.x, min m.y p.y, min m.z p.z⟩ : V3)) v = lo at *
    generalize V.foldl (fun m p => (⟨max m.x p.x, max m.y p.y, max m.z p.z⟩ : V3)) v = hi at *
    have h3 := h1 v (by simp)
    have h4 := h2 v (by simp)
    obtain ⟨g, hg, e1, e2, eI, eJ, eK, -, s1, s2, s3⟩ :=
      (C23_constructor (lo - ⟨boundary, boundary, boundary⟩) (hi + ⟨boundary, boundary, boundary⟩) I J K).1
        ⟨⟨by simp only [V3.sub_x, V3.add_x]; linarith [h3.1, h4.1], by simp only [V3.sub_y, V3.add_y]; linarith [h3.2.1, h4.2.1],
          by simp only [V3.sub_z, V3.add_z]; linarith [h3.2.2, h4.2.2]⟩, hI, hJ, hK⟩
    rw [hg]
    simp only
    obtain ⟨A, hA, hlen, hnode⟩ := (C23_eval_on_grid g (fun _ => 0)).2
    rw [hA]
    have cI : ((g.I : ℕ) : ℝ) = (I : ℝ) := by exact_mod_cast eI
    have cJ : ((g.J : ℕ) : ℝ) = (J : ℝ) := by exact_mod_cast eJ
    have cK : ((g.K : ℕ) : ℝ) = (K : ℝ) := by exact_mod_cast eK
    refine ⟨{ g with values := some (sd A (v :: V) F) }, A, rfl, eI, eJ, eK, ?_, ?_, ⟨px, hpx, ?_⟩, ⟨py, hpy, ?_⟩, ⟨pz, hpz, ?_⟩,
      ⟨qx, hqx, ?_⟩, ⟨qy, hqy, ?_⟩, ⟨qz, hqz, ?_⟩, ?_, ?_, ?_, ?_⟩
    · intro p hp
      have := h1 p hp
      simp only [e1, V3.sub_x, V3.sub_y, V3.sub_z]
      exact ⟨by linarith [this.1], by linarith [this.2.1], by linarith [this.2.2]⟩
    · intro p hp
      have := h2 p hp
      simp only [e2, V3.add_x, V3.add_y, V3.add_z]
      exact ⟨by linarith [this.1], by linarith [this.2.1], by linarith [this.2.2]⟩
    · simp only [e1, V3.sub_x, ex]
    · simp only [e1, V3.sub_y, ey]
    · simp only [e1, V3.sub_z, ez]
    · simp only [e2, V3.add_x, fx]
    · simp only [e2, V3.add_y, fy]
    · simp only [e2, V3.add_z, fz]
    · intro i j k hi hj hk
      have hn := hnode i j k hi hj hk
      have hlt : g.get_linear_index i j k < (sd A (v :: V) F).length := by
        rw [hsd]
        exact (List.getElem?_eq_some_iff.1 hn).1
      refine ⟨(sd A (v :: V) F)[g.get_linear_index i j k], hn, ?_, ?_⟩
      · exact List.getElem?_eq_getElem hlt
      · unfold Grid.get_node_value
        simp only
        change (match (sd A (v :: V) F)[g.get_linear_index i j k]? with | none => _ | some x => _) = _
        rw [List.getElem?_eq_getElem hlt]
    · simp only [e1, e2, cI]; exact s1
    · simp only [e1, e2, cJ]; exact s2
    · simp only [e1, e2, cK]; exact s3

/-- **C96.** A negative margin, an empty mesh or fewer than two nodes along an axis raise ValueError. -/
theorem C96_rejects {sd : SignedDistance} (V : List V3) (F : List Tri) (I J K : ℤ) (boundary : ℝ)
    (h : boundary < 0 ∨ V = [] ∨ I < 2 ∨ J < 2 ∨ K < 2) : create_signed_distance sd V F I J K boundary = .error .valueError := by
  unfold create_signed_distance
  by_cases hb : boundary < 0
  · rw [if_pos hb]
  rw [if_neg hb]
  cases V with
  | nil => rfl
  | cons v V =>
    unfold vmin vmax
    simp only [bind, Except.bind]
    rw [(C23_constructor _ _ I J K).2 (by
      rintro ⟨-, h1, h2, h3⟩
      rcases h with h | h | h | h | h
      · exact hb h
      · cases h
      all_goals omega)]

/-! ### Bodies and their geometry -/

/-- Settings the package can work with: the defaults are K = 3, envelope = 0.1, chunks of 255 nodes, 64 nodes per axis. -/
structure GoodGeo (P : GeoParams) : Prop where
  K : P.K = 3 ∨ P.K = 4
  envelope : 1e-9 ≤ P.envelope
  chunk : 1 ≤ P.bvh_chunk_size
  resolution : 2 ≤ P.resolution

theorem goodGeo_default : GoodGeo GeoParams.init := by
  refine ⟨Or.inl rfl, ?_, ?_, ?_⟩ <;> norm_num [GeoParams.init]

theorem meshOK_rows {V : List V3} {T : List Tri} (h : IndicesBelow T V.length) : MeshOK V (rows T) := by
  intro idx hi i hi'
  obtain ⟨t, ht, rfl⟩ := List.mem_map.1 hi
  obtain ⟨h1, h2, h3⟩ := h t ht
  simp only [List.mem_cons, List.not_mem_nil, or_false] at hi'
  rcases hi' with rfl | rfl | rfl <;> assumption

/-- The greatest of the three extents of a mesh along the coordinate axes. -/
structure IsExtent (V : List V3) (L : ℝ) : Prop where
  bound : ∀ v ∈ V, ∀ w ∈ V, v.x - w.x ≤ L ∧ v.y - w.y ≤ L ∧ v.z - w.z ≤ L
  attained : ∃ v ∈ V, ∃ w ∈ V, v.x - w.x = L ∨ v.y - w.y = L ∨ v.z - w.z = L

/-- **C96.** The distance field of a shape: with at least two nodes per axis and a mesh that is not empty it exists, its box is the
bounding box of the mesh grown by a tenth of the greatest extent of the mesh, or twice the envelope if that is more, and its nodal values
are the distances reported by `igl.signed_distance` for the nodes. -/
theorem C96_shape_field {sd : SignedDistance} (hsd : OnePerNode sd) {P : GeoParams} (he : 0 ≤ P.envelope) (hres : 2 ≤ P.resolution)
    {m : Mesh} (hne : m.V ≠ []) :
    ∃ g nodes L b, IsExtent m.V L ∧ b = max (L / 10) (2 * P.envelope) ∧ shapeGrid sd P m = .ok g ∧
      (g.I : ℤ) = P.resolution ∧ (g.J : ℤ) = P.resolution ∧ (g.K : ℤ) = P.resolution ∧
      (∀ v ∈ m.V, g.min_coord.x ≤ v.x - b ∧ g.min_coord.y ≤ v.y - b ∧ g.min_coord.z ≤ v.z - b) ∧
      (∀ v ∈ m.V, v.x + b ≤ g.max_coord.x ∧ v.y + b ≤ g.max_coord.y ∧ v.z + b ≤ g.max_coord.z) ∧
      (∃ v ∈ m.V, v.x - b = g.min_coord.x) ∧ (∃ v ∈ m.V, v.y - b = g.min_coord.y) ∧ (∃ v ∈ m.V, v.z - b = g.min_coord.z) ∧
      (∃ v ∈ m.V, v.x + b = g.max_coord.x) ∧ (∃ v ∈ m.V, v.y + b = g.max_coord.y) ∧ (∃ v ∈ m.V, v.z + b = g.max_coord.z) ∧
      (∀ i j k, i < g.I → j < g.J → k < g.K → ∃ x, nodes[g.get_linear_index i j k]? = some (g.get_node_coord i j k) ∧
        (sd nodes m.V m.T)[g.get_linear_index i j k]? = some x ∧ g.get_node_value i j k = .ok x) ∧
      g.min_coord.x + g.spacing.x * (g.I - 1) = g.max_coord.x ∧ g.min_coord.y + g.spacing.y * (g.J - 1) = g.max_coord.y ∧
      g.min_coord.z + g.spacing.z * (g.K - 1) = g.max_coord.z := by
  have hb : ∃ L b : ℝ, IsExtent m.V L ∧ b = max (L / 10) (2 * P.envelope) ∧
      shapeGrid sd P m = create_signed_distance sd m.V m.T P.resolution P.resolution P.resolution b := by
    unfold shapeGrid
    cases hV : m.V with
    | nil => exact absurd hV hne
    | cons v V =>
      unfold vmin vmax
      simp only [bind, Except.bind]
      obtain ⟨h1, ⟨px, hpx, ex⟩, ⟨py, hpy, ey⟩, ⟨pz, hpz, ez⟩⟩ := foldl_min_spec V v
      obtain ⟨h2, ⟨qx, hqx, fx⟩, ⟨qy, hqy, fy⟩, ⟨qz, hqz, fz⟩⟩ := foldl_max_spec V v
      generalize V.foldl (fun m p => (⟨min m.x p.x, min m.y p.y, min m.z p.z⟩ : V3)) v = lo at *
      generalize V.foldl (fun m p => (⟨max m.x p.x, max m.y p.y, max m.z p.z⟩ : V3)) v = hi at *
      refine ⟨max (max (hi - lo).x (hi - lo).y) (hi - lo).z, _, ⟨?_, ?_⟩, ?_, rfl⟩
      · intro a ha b hb
        have ha := h2 a ha
        have hb := h1 b hb
        simp only [V3.sub_x, V3.sub_y, V3.sub_z, le_max_iff]
        exact ⟨Or.inl (Or.inl (by linarith [ha.1, hb.1])), Or.inl (Or.inr (by linarith [ha.2.1, hb.2.1])),
          Or.inr (by linarith [ha.2.2, hb.2.2])⟩
      · rcases max_choice (max (hi - lo).x (hi - lo).y) (hi - lo).z with h | h <;> rw [h]
        · rcases max_choice (hi - lo).x (hi - lo).y with h | h <;> rw [h]
          · exact ⟨qx, hqx, px, hpx, Or.inl (by rw [V3.sub_x, fx, ex])⟩
          · exact ⟨qy, hqy, py, hpy, Or.inr (Or.inl (by rw [V3.sub_y, fy, ey]))⟩
        · exact ⟨qz, hqz, pz, hpz, Or.inr (Or.inr (by rw [V3.sub_z, fz, ez]))⟩
      · congr 1
        · rw [show (0.1 : ℝ) = 1 / 10 by norm_num]; ring
        · ring
  obtain ⟨L, b, hL, hb1, hb2⟩ := hb
  have hb0 : 0 ≤ b := by rw [hb1]; exact le_max_of_le_right (by linarith)
  obtain ⟨g, nodes, h1, h⟩ := C96_create_signed_distance hsd m.T hne hb0 hres hres hres
  exact ⟨g, nodes, L, b, hL, hb1, by rw [hb2, h1], h⟩

theorem shapeGrid_ok {sd : SignedDistance} (hsd : OnePerNode sd) {P : GeoParams} (hP : GoodGeo P) {m : Mesh} (hm : SolidMesh m) :
    ∃ g, shapeGrid sd P m = .ok g ∧ (∃ φ, Sampled g φ) ∧ g.min_coord.x < 0 ∧ g.min_coord.y < 0 ∧ g.min_coord.z < 0 := by
  have hne : m.V ≠ [] := by
    obtain ⟨v, hv, -⟩ := hm.lowx
    exact List.ne_nil_of_mem hv
  have hpos : (0:ℝ) < 2e-9 := by norm_num
  obtain ⟨g, nodes, L, b, -, hb, hg, eI, eJ, eK, h2, h3, -, -, -, -, -, -, h4, h5, h6, h7⟩ := C96_shape_field hsd
    (le_trans (by norm_num) hP.envelope) hP.resolution hne
  have hb1 : 2e-9 ≤ b := by
    rw [hb]
    refine le_max_of_le_right ?_
    have := hP.envelope
    have e : (2e-9 : ℝ) = 1e-9 * 2 := by norm_num
    rw [e]
    linarith
  have hres := hP.resolution
  have h19 : (1e-9 : ℝ) < 2e-9 := by norm_num
  have hx : g.min_coord.x < 0 := by
    obtain ⟨v, hv, hle⟩ := hm.lowx
    linarith [(h2 v hv).1]
  have hy : g.min_coord.y < 0 := by
    obtain ⟨v, hv, hle⟩ := hm.lowy
    linarith [(h2 v hv).2.1]
  have hz : g.min_coord.z < 0 := by
    obtain ⟨v, hv, hle⟩ := hm.lowz
    linarith [(h2 v hv).2.2]
  have pos : ∀ {a c s : ℝ} {n : ℕ}, a < c → a + s * ((n : ℝ) - 1) = c → 2 ≤ n → 0 < s := by
    intro a c s n hac he hn
    have hn' : (2:ℝ) ≤ n := by exact_mod_cast hn
    by_contra hs
    push Not at hs
    nlinarith
  obtain ⟨v, hv⟩ := List.exists_mem_of_ne_nil _ hne
  have g2 := h2 v hv
  have g3 := h3 v hv
  refine ⟨g, hg, ⟨fun i j k => (g.get_node_value i j k).toOption.getD 0, ?_⟩, hx, hy, hz⟩
  refine ⟨by omega, by omega, by omega, pos (by linarith [g2.1, g3.1]) h5 (by omega), pos (by linarith [g2.2.1, g3.2.1]) h6 (by omega),
    pos (by linarith [g2.2.2, g3.2.2]) h7 (by omega), h5, h6, h7, ?_⟩
  intro i j k hi hj hk
  obtain ⟨x, -, -, hx⟩ := h4 i j k hi hj hk
  rw [hx]
  rfl

/-- **C95.** A body connected to a shape made by `create_shape` from a star shaped solid has a distance field and a hierarchy that
collision detection can work with. -/
theorem C95_collider {sd : SignedDistance} (hsd : OnePerNode sd) {P : GeoParams} (hP : GoodGeo P) {s : Scene} {b : RigidBody} {sh : Shape}
    {m : Mesh} (hb : b.shape = some sh) (hmesh : s.meshes.get? sh.name = some m) (hm : SolidMesh m) :
    ∃ c, s.collider sd P b = .ok c ∧ c.V = m.V ∧ c.T = m.T ∧ ColliderOK c := by
  obtain ⟨g, hg1, hg2, hx, hy, hz⟩ := shapeGrid_ok hsd hP hm
  have hM := meshOK_rows hm.idx
  obtain ⟨tree, trees, ht, -⟩ := C18_make_bvh m.V (rows m.T) P.K P.bvh_chunk_size P.envelope hM hP.K hP.chunk
  refine ⟨⟨m.V, m.T, g, tree⟩, ?_, rfl, rfl, colliderOK_make hM hP.K hP.chunk ht hg2 ⟨hx.ne, hy.ne, hz.ne⟩⟩
  unfold Scene.collider
  rw [hb]
  simp only [hmesh, hg1, ht, bind, Except.bind]
  rfl

/-! ### Running -/

section
variable {N : ℕ}

/-- What the engine must satisfy to be simulated. -/
structure Simulable (s : Sim N) : Prop where
  mass : ∀ k, (s.1.bodies k).is_fixed = false → (s.1.bodies k).mass ≠ 0
  unit : ∀ k, IsUnitQ (s.1.bodies k).q
  geo : ∀ k, ColliderOK (s.2 k)
  inter : ∃ I, s.1.surfaces_interactions.storage.get? ("default", "default") = some I

theorem get_interaction_total {L : SurfacesInteractionLibrary} (h : ∃ I, L.storage.get? ("default", "default") = some I) (A B : String) :
    ∃ I, L.get_interaction A B = .ok I := by
  unfold SurfacesInteractionLibrary.get_interaction
  split
  · rename_i hm
    obtain ⟨v, hv⟩ := Dict.mem_iff_get?.1 hm
    exact ⟨v, by unfold Dict.getItem; rw [hv]⟩
  · obtain ⟨I, hI⟩ := h
    exact ⟨I, by unfold Dict.getItem; rw [hI]⟩

/-- What a step may change: positions and velocities of movable bodies, the contact points, the hierarchies. -/
structure SameWorld (s s' : Sim N) : Prop where
  fixed : ∀ k, (s.1.bodies k).is_fixed = true → s'.1.bodies k = s.1.bodies k
  bodies : ∀ k, s'.1.bodies k = { s.1.bodies k with
      r := (s'.1.bodies k).r, q := (s'.1.bodies k).q, v := (s'.1.bodies k).v, w := (s'.1.bodies k).w }
  forces : s'.1.forces = s.1.forces
  hinges : s'.1.hinges = s.1.hinges
  inter : s'.1.surfaces_interactions = s.1.surfaces_interactions
  params : s'.1.params = s.1.params
  geometry : ∀ k, (s'.2 k).V = (s.2 k).V ∧ (s'.2 k).T = (s.2 k).T ∧ (s'.2 k).grid = (s.2 k).grid

theorem SameWorld.refl (s : Sim N) : SameWorld s s :=
  ⟨fun _ _ => rfl, fun _ => rfl, rfl, rfl, rfl, rfl, fun _ => ⟨rfl, rfl, rfl⟩⟩

theorem SameWorld.trans {s s' s'' : Sim N} (h : SameWorld s s') (h' : SameWorld s' s'') : SameWorld s s'' := by
  refine ⟨?_, ?_, h'.forces.trans h.forces, h'.hinges.trans h.hinges, h'.inter.trans h.inter, h'.params.trans h.params, ?_⟩
  · intro k hk
    rw [h'.fixed k (by rw [h.fixed k hk]; exact hk), h.fixed k hk]
  · intro k
    have h1 := h.bodies k
    have h2 := h'.bodies k
    rw [h1] at h2
    exact h2
  · intro k
    obtain ⟨a, b, c⟩ := h.geometry k
    obtain ⟨a', b', c'⟩ := h'.geometry k
    exact ⟨a'.trans a, b'.trans b, c'.trans c⟩

/-- **C95.** A step of the complete simulator (collision detection with refitted hierarchies, contact and hinge solver, integration)
on a valid engine does not raise; the engine stays valid; the contact points it reports are genuine contacts of the bodies at the
start of the step, no two of them equal. -/
theorem C95_step {P : CDParams} (hK : P.K = 3 ∨ P.K = 4) (he : 0 ≤ P.envelope) (dt : ℝ) {s : Sim N} (hs : Simulable s) :
    ∃ s', fullStep P dt s = .ok s' ∧ Simulable s' ∧ SameWorld s s' ∧
      (∀ c ∈ s'.1.contact_points, IsContact P s.1.bodies s.2 c) ∧ s'.1.contact_points.Pairwise (fun c d => ¬ SameContact c d) := by
  obtain ⟨C', cps, hcd, hgeo, -⟩ := C69_complete (P := P) hK he hs.unit hs.geo
  obtain ⟨snd1, snd2, snd3⟩ := C69_sound hs.unit hcd
  have hstep := (C66_step_raises (fun w => (run_collision_detection P w.bodies s.2).map Prod.snd) dt s.1).2
    ⟨hs.mass, cps, by simp only [hcd]; rfl, fun cp _ => get_interaction_total hs.inter _ _⟩
  obtain ⟨w', hw'⟩ := hstep
  obtain ⟨f1, f2, f3, f4, f5, f6⟩ := C48_frame hw'
  have hcp : w'.contact_points = cps := by
    simp only [hcd] at f1
    cases f1
    rfl
  refine ⟨(w', C'), ?_, ?_, ?_, ?_, ?_⟩
  · unfold fullStep
    simp only [bind, Except.bind, hw', hcd]
    rfl
  · refine ⟨?_, ?_, hgeo, ?_⟩
    · intro k hk
      have := f6 k
      simp only at hk ⊢
      rw [this] at hk ⊢
      exact hs.mass k hk
    · intro k
      simp only
      cases hf : (s.1.bodies k).is_fixed with
      | false => exact C48_unit hw' k hf
      | true => rw [C47_fixed hw' k hf]; exact hs.unit k
    · simp only [f4]; exact hs.inter
  · exact ⟨fun k hk => C47_fixed hw' k hk, f6, f2, f3, f4, f5, snd3⟩
  · simp only [hcp]; exact snd1
  · simp only [hcp]; exact snd2

/-- Steps of the given sizes one after the other. -/
noncomputable def fullRun (P : CDParams) : List ℝ → Sim N → Except PyErr (Sim N)
  | [], s => .ok s
  | dt :: dts, s => match fullStep P dt s with
    | .error e => .error e
    | .ok s' => fullRun P dts s'

theorem fullRun_runs {P : CDParams} (hK : P.K = 3 ∨ P.K = 4) (he : 0 ≤ P.envelope) (dts : List ℝ) {s : Sim N} (hs : Simulable s) :
    ∃ s', fullRun P dts s = .ok s' ∧ Simulable s' ∧ SameWorld s s' := by
  induction dts generalizing s with
  | nil => exact ⟨s, rfl, hs, SameWorld.refl s⟩
  | cons dt dts ih =>
    obtain ⟨s1, h1, h2, h3, -⟩ := C95_step hK he dt hs
    obtain ⟨s2, h4, h5, h6⟩ := ih h2
    refine ⟨s2, ?_, h5, h3.trans h6⟩
    unfold fullRun
    rw [h1]
    exact h4

theorem fullLoop {P : CDParams} (hK : P.K = 3 ∨ P.K = 4) (he : 0 ≤ P.envelope) (n : ℕ) {s : Sim N} (hs : Simulable s) (T ts : ℝ)
    (hts : s.1.params.time_step = ts) (h0 : 0 < ts) (h1 : n * ts < T) (h2 : T ≤ (n + 1) * ts) :
    LoopEnds (fullTrip P) (s, T) ((fullRun P (List.replicate n ts ++ [T - n * ts]) s).map fun s' => (s', 0)) := by
  induction n generalizing s T with
  | zero =>
    simp only [Nat.cast_zero, zero_mul, zero_add, one_mul] at h1 h2
    simp only [Nat.cast_zero, zero_mul, sub_zero, List.replicate_zero, List.nil_append, fullRun]
    have hmin : min T s.1.params.time_step = T := by rw [hts]; exact min_eq_left h2
    obtain ⟨s1, e1, -⟩ := C95_step hK he T hs
    simp only [e1]
    refine .next (s' := (s1, 0)) ?_ (.done ?_)
    · simp only [fullTrip, if_neg h1.ne', hmin, e1, sub_self]
    · simp [fullTrip]
  | succ n ih =>
    push_cast at h1 h2
    have hT : 0 < T := by nlinarith [(Nat.cast_nonneg n : (0 : ℝ) ≤ n)]
    have hmin : min T s.1.params.time_step = ts := by
      rw [hts]
      exact min_eq_right (by nlinarith [(Nat.cast_nonneg n : (0 : ℝ) ≤ n)])
    rw [List.replicate_succ, List.cons_append]
    unfold fullRun
    obtain ⟨s1, e1, e2, e3, -⟩ := C95_step hK he ts hs
    simp only [e1]
    have e : T - ((n + 1 : ℕ) : ℝ) * ts = (T - ts) - n * ts := by push_cast; ring
    rw [e]
    refine .next (s' := (s1, T - ts)) ?_ (ih e2 (T - ts) (by rw [e3.params, hts]) (by linarith) (by linarith))
    simp only [fullTrip, if_neg hT.ne', hmin, e1]

/-- **C95.** `simulate(T)` with a positive time step returns for every T > 0, on every valid engine: it makes ⌈T / time_step⌉ steps
of the complete simulator, whose sizes are positive, at most time_step, and sum to T.  Afterwards the engine is still valid, fixed
bodies are where they were, and everything but poses, velocities, contact points and bounding volumes is unchanged. -/
theorem C95_simulate {P : CDParams} (hK : P.K = 3 ∨ P.K = 4) (he : 0 ≤ P.envelope) {s : Sim N} (hs : Simulable s)
    (hts : 0 < s.1.params.time_step) {T : ℝ} (hT : 0 < T) :
    ∃ s' dts, fullSimulate P s T = .ok s' ∧ fullRun P dts s = .ok s' ∧ dts.length = ⌈T / s.1.params.time_step⌉₊ ∧ dts.sum = T ∧
      (∀ dt ∈ dts, 0 < dt ∧ dt ≤ s.1.params.time_step) ∧ Simulable s' ∧ SameWorld s s' ∧
      dts = List.replicate (⌈T / s.1.params.time_step⌉₊ - 1) s.1.params.time_step ++
        [T - (⌈T / s.1.params.time_step⌉₊ - 1 : ℕ) * s.1.params.time_step] := by
  obtain ⟨ts, hts'⟩ : ∃ ts, ts = s.1.params.time_step := ⟨_, rfl⟩
  rw [← hts'] at hts ⊢
  obtain ⟨n, hn⟩ : ∃ n, n = ⌈T / ts⌉₊ := ⟨_, rfl⟩
  have hn0 : 0 < n := by rw [hn]; exact Nat.ceil_pos.2 (div_pos hT hts)
  have h1 : ((n - 1 : ℕ) : ℝ) * ts < T := by
    have : ((n - 1 : ℕ) : ℝ) < T / ts := by
      rw [← Nat.lt_ceil, ← hn]
      exact Nat.sub_lt hn0 one_pos
    rwa [lt_div_iff₀ hts] at this
  have h2 : T ≤ (((n - 1 : ℕ) : ℝ) + 1) * ts := by
    have h3 := Nat.le_ceil (T / ts)
    rw [div_le_iff₀ hts, ← hn] at h3
    have h4 : ((n - 1 : ℕ) : ℝ) + 1 = (n : ℝ) := by
      rw [← Nat.cast_succ]; congr 1; omega
    rw [h4]
    exact h3
  obtain ⟨s', e1, e2, e3⟩ := fullRun_runs hK he (List.replicate (n - 1) ts ++ [T - (n - 1 : ℕ) * ts]) hs
  refine ⟨s', _, ?_, e1, ?_, ?_, ?_, e2, e3, by rw [hn]⟩
  · unfold fullSimulate
    rw [if_neg (not_le.2 hT), whileLoop_eq (fullLoop hK he (n - 1) hs T ts hts'.symm hts h1 h2), e1]
    rfl
  · simp only [List.length_append, List.length_replicate, List.length_singleton]; omega
  · simp only [List.sum_append, List.sum_replicate, List.sum_singleton, nsmul_eq_mul]
    ring
  · intro dt hdt
    rcases List.mem_append.1 hdt with h | h
    · rw [(List.mem_replicate.1 h).2]
      exact ⟨hts, le_rfl⟩
    · rw [List.mem_singleton.1 h]
      exact ⟨by linarith, by linarith⟩

end

end Verif
