import Verif.Props.SceneLattice

/-! Shapes made of a mesh that is first scaled to a given size. -/

namespace Verif

open Rigid Rigid.SceneM SMesh
open VMesh (Tri)

/-- The solid stretched by the factors d along the axes and moved by a. -/
def stretched (a d : V3) (VT : List V3 × List Tri) : List V3 × List Tri :=
  (VT.1.map fun v => ⟨a.x + d.x * v.x, a.y + d.y * v.y, a.z + d.z * v.z⟩, VT.2)

theorem shape_built {eig : Eig} (he : EigSpec eig) {name : String} {mesh : Mesh} {VT : List V3 × List Tri} {s s' : Scene}
    (hok : s.OK) (hi : IndicesBelow mesh.T mesh.V.length) (hc : ClosedOriented mesh.T) (hV : mesh.V.Perm VT.1)
    (hT : (trianglesOf mesh.V mesh.T).Perm (trianglesOf VT.1 VT.2)) (h : s.create_shape eig name mesh = .ok s') :
    Grows s s' [] ∧ HasShape s' name VT := by
  obtain ⟨hf, sh, m', rfl, hn, -, hmass, -, -, hrep⟩ := C85_create_shape he _ _ _ _ hi hc h
  have hf' := (Dict.get?_eq_none _ _).1 hf
  have hmf' := (Dict.get?_eq_none _ _).1 (hok _ hf)
  refine ⟨⟨by simp, by simp, by simp, fun _ _ => rfl, fun k v hk => Dict.get?_insert_of_some hf' hk,
    fun k v hk => Dict.get?_insert_of_some hmf' hk, ?_, rfl, rfl, rfl, rfl⟩, ?_⟩
  · intro _ k hk
    simp only [Dict.get?_setItem] at hk ⊢
    split_ifs at hk ⊢ with hkn
    exact hok k hk
  · refine ⟨sh, m', Dict.get?_setItem_self _ _ _, hn, Dict.get?_setItem_self _ _ _, ?_, ?_⟩
    · exact ⟨hrep.1, hrep.2.1, hrep.2.2.1.trans hV, hrep.2.2.2.trans hT⟩
    · rw [hmass.1, hmass.2, enclosedVolume_perm hT, massCentre_perm hT]
      exact ⟨rfl, rfl⟩

theorem shape_runs {eig : Eig} (he : EigSpec eig) {base material : String} {mesh : Mesh} {s : Scene} (hr : Ready material s)
    (hm : StarShaped (mesh.V, mesh.T)) :
    ∃ s', ({ s with gen := fun i => s.gen (i + 1) } : Scene).create_shape eig (s.gen 0 base) mesh = .ok s' ∧ Ready material s' := by
  obtain ⟨s', hs'⟩ := C85_create_shape_succeeds (eig := eig) { s with gen := fun i => s.gen (i + 1) } (s.gen 0 base) mesh
    (hr.names.1 0 base).1 hm.1 hm.2.1 hm.noZero hm.volume
  have hb := shape_built he (s := { s with gen := fun i => s.gen (i + 1) }) (VT := (mesh.V, mesh.T)) hr.ok hm.1 hm.2.1 (List.Perm.refl _) (List.Perm.refl _) hs'
  refine ⟨s', hs', hb.1.ok hr.ok, ?_, by rw [hb.1.inter]; exact hr.material, (hr.good.gen _).shape he hm.solid hs'⟩
  obtain ⟨-, sh, m', rfl, -⟩ := C85_create_shape he _ _ _ _ hm.1 hm.2.1 hs'
  exact hr.names.step (base := base) rfl (fun n hn => Dict.get?_setItem_ne _ _ hn) (fun _ _ => rfl)

theorem stretched_star {VT : List V3 × List Tri} (h : StarShaped VT) (a : V3) {d : V3} (hx : 0 < d.x) (hy : 0 < d.y) (hz : 0 < d.z) :
    StarShaped (stretched a d VT) := by
  obtain ⟨h1, h2, h3, c, h4⟩ := h
  refine ⟨by simpa [stretched] using h1, h2, h3, ⟨a.x + d.x * c.x, a.y + d.y * c.y, a.z + d.z * c.z⟩, ?_⟩
  intro t ht
  obtain ⟨i1, i2, i3⟩ := h1 t ht
  have hg : ∀ i, i < VT.1.length → (stretched a d VT).1.getD i 0 - ⟨a.x + d.x * c.x, a.y + d.y * c.y, a.z + d.z * c.z⟩ =
      ⟨d.x * (VT.1.getD i 0 - c).x, d.y * (VT.1.getD i 0 - c).y, d.z * (VT.1.getD i 0 - c).z⟩ := by
    intro i hi
    unfold stretched
    rw [List.getD_eq_getElem _ _ (by simpa using hi), List.getD_eq_getElem _ _ hi, List.getElem_map]
    refine V3.ext ?_ ?_ ?_ <;> simp <;> ring
  rw [hg _ i1, hg _ i2, hg _ i3]
  have key : ∀ p q r : V3, det3 ⟨d.x * p.x, d.y * p.y, d.z * p.z⟩ ⟨d.x * q.x, d.y * q.y, d.z * q.z⟩ ⟨d.x * r.x, d.y * r.y, d.z * r.z⟩ =
      d.x * d.y * d.z * det3 p q r := by
    intro p q r
    simp only [det3, V3.dot, V3.cross]
    ring
  rw [key]
  exact mul_pos (mul_pos (mul_pos hx hy) hz) (h4 t ht)

theorem stretched_map {VT : List V3 × List Tri} {m : Mesh} (hV : m.V.Perm VT.1) (hT : (trianglesOf m.V m.T).Perm (trianglesOf VT.1 VT.2))
    (hi : IndicesBelow m.T m.V.length) (hi' : IndicesBelow VT.2 VT.1.length) (a d : V3) :
    (stretched a d (m.V, m.T)).1.Perm (stretched a d VT).1 ∧
    (trianglesOf (stretched a d (m.V, m.T)).1 (stretched a d (m.V, m.T)).2).Perm (trianglesOf (stretched a d VT).1 (stretched a d VT).2) := by
  unfold stretched
  refine ⟨hV.map _, ?_⟩
  simp only
  rw [trianglesOf_map _ _ _ hi, trianglesOf_map _ _ _ hi']
  exact hT.map _

theorem tightBox_exists {V : List V3} (h : V ≠ []) : ∃ l u, TightBox V l u := by
  obtain ⟨l, u, -, h2⟩ := (C63_aabb ⟨V, []⟩).2 h
  exact ⟨l, u, h2⟩

theorem TightBox.perm {V V' : List V3} (hp : V'.Perm V) {l u : V3} (h : TightBox V l u) : TightBox V' l u := by
  unfold TightBox at *
  simp only [hp.mem_iff]
  exact h

theorem TightBox.unique {V : List V3} {l u l' u' : V3} (hb : TightBox V l u) (hb0 : TightBox V l' u') : l' = l ∧ u' = u := by
  obtain ⟨hA, ⟨x1, m1, e1⟩, ⟨x2, m2, e2⟩, ⟨x3, m3, e3⟩, ⟨x4, m4, e4⟩, ⟨x5, m5, e5⟩, ⟨x6, m6, e6⟩⟩ := hb
  obtain ⟨hA', ⟨y1, n1, f1⟩, ⟨y2, n2, f2⟩, ⟨y3, n3, f3⟩, ⟨y4, n4, f4⟩, ⟨y5, n5, f5⟩, ⟨y6, n6, f6⟩⟩ := hb0
  constructor
  · ext
    · linarith [(hA y1 n1).1, (hA' x1 m1).1]
    · linarith [(hA y3 n3).2.2.1, (hA' x3 m3).2.2.1]
    · linarith [(hA y5 n5).2.2.2.2.1, (hA' x5 m5).2.2.2.2.1]
  · ext
    · linarith [(hA y2 n2).2.1, (hA' x2 m2).2.1]
    · linarith [(hA y4 n4).2.2.2.1, (hA' x4 m4).2.2.2.1]
    · linarith [(hA y6 n6).2.2.2.2.2, (hA' x6 m6).2.2.2.2.2]

theorem TightBox.stretched {VT : List V3 × List Tri} {l u : V3} (h : TightBox VT.1 l u) (a : V3) {d : V3} (hx : 0 ≤ d.x) (hy : 0 ≤ d.y) (hz : 0 ≤ d.z) :
    TightBox (stretched a d VT).1 ⟨a.x + d.x * l.x, a.y + d.y * l.y, a.z + d.z * l.z⟩ ⟨a.x + d.x * u.x, a.y + d.y * u.y, a.z + d.z * u.z⟩ := by
  obtain ⟨hA, ⟨x1, m1, e1⟩, ⟨x2, m2, e2⟩, ⟨x3, m3, e3⟩, ⟨x4, m4, e4⟩, ⟨x5, m5, e5⟩, ⟨x6, m6, e6⟩⟩ := h
  unfold Verif.stretched
  refine ⟨?_, ⟨_, List.mem_map_of_mem m1, by simp [e1]⟩, ⟨_, List.mem_map_of_mem m2, by simp [e2]⟩, ⟨_, List.mem_map_of_mem m3, by simp [e3]⟩,
    ⟨_, List.mem_map_of_mem m4, by simp [e4]⟩, ⟨_, List.mem_map_of_mem m5, by simp [e5]⟩, ⟨_, List.mem_map_of_mem m6, by simp [e6]⟩⟩
  intro v hv
  obtain ⟨w, hw, rfl⟩ := List.mem_map.1 hv
  obtain ⟨h1, h2, h3, h4, h5, h6⟩ := hA w hw
  refine ⟨?_, ?_, ?_, ?_, ?_, ?_⟩ <;> simp only [add_le_add_iff_left]
  · exact mul_le_mul_of_nonneg_left h1 hx
  · exact mul_le_mul_of_nonneg_left h2 hx
  · exact mul_le_mul_of_nonneg_left h3 hy
  · exact mul_le_mul_of_nonneg_left h4 hy
  · exact mul_le_mul_of_nonneg_left h5 hz
  · exact mul_le_mul_of_nonneg_left h6 hz

theorem flat_volume {VT : List V3 × List Tri} (hi : IndicesBelow VT.2 VT.1.length) (hc : ClosedOriented VT.2) {r : V3} {a b c : ℝ}
    (h : ∀ v ∈ VT.1, (⟨(v.x + r.x) * a, (v.y + r.y) * b, (v.z + r.z) * c⟩ : V3) = ⟨v.x + r.x, v.y + r.y, v.z + r.z⟩) (h0 : a * b * c = 0) :
    enclosedVolume VT.1 VT.2 = 0 := by
  obtain ⟨t1, t2, t3⟩ := C63_translate ⟨VT.1, VT.2⟩ r
  have hv := t3 hc hi
  have hi' : IndicesBelow (translate ⟨VT.1, VT.2⟩ r).T (translate ⟨VT.1, VT.2⟩ r).V.length := by
    rw [t1, t2, List.length_map]; exact hi
  obtain ⟨s1, s2, s3⟩ := C63_scale (translate ⟨VT.1, VT.2⟩ r) a b c
  have hs := s3 hi'
  have e : (scale (translate ⟨VT.1, VT.2⟩ r) a b c).V = (translate ⟨VT.1, VT.2⟩ r).V := by
    rw [s2, t2, List.map_map]
    exact List.map_congr_left fun v hv => h v hv
  rw [e, s1, h0, zero_mul] at hs
  rw [← hv, hs]

/-- A star shaped solid has extent along all axes. -/
theorem star_extent {VT : List V3 × List Tri} (h : StarShaped VT) {l u : V3} (hb : TightBox VT.1 l u) : l.x < u.x ∧ l.y < u.y ∧ l.z < u.z := by
  have hvol := h.volume
  refine ⟨?_, ?_, ?_⟩ <;> by_contra hcon <;> refine hvol.ne' ?_
  · refine flat_volume h.1 h.2.1 (r := -l) (a := 0) (b := 1) (c := 1) ?_ (by norm_num)
    intro v hv
    have := hb.1 v hv
    refine V3.ext ?_ ?_ ?_ <;> simp
    linarith
  · refine flat_volume h.1 h.2.1 (r := -l) (a := 1) (b := 0) (c := 1) ?_ (by norm_num)
    intro v hv
    have := hb.1 v hv
    refine V3.ext ?_ ?_ ?_ <;> simp
    linarith
  · refine flat_volume h.1 h.2.1 (r := -l) (a := 1) (b := 1) (c := 0) ?_ (by norm_num)
    intro v hv
    have := hb.1 v hv
    refine V3.ext ?_ ?_ ?_ <;> simp
    linarith

/-- W is VT, enlarged by the same factor along all axes (and moved), such that the longest side of its bounding box is t, and the middle of the
bounding box is t times the middle of the bounding box of VT. -/
def FitTo (t : ℝ) (VT W : List V3 × List Tri) : Prop :=
  ∃ (a : V3) (σ : ℝ), 0 < σ ∧ W = stretched a ⟨σ, σ, σ⟩ VT ∧
    ∃ l u, TightBox W.1 l u ∧ max (max (u.x - l.x) (u.y - l.y)) (u.z - l.z) = t ∧ ∀ l0 u0, TightBox VT.1 l0 u0 → l + u = t • (l0 + u0)

/-- W is VT, enlarged along the axes (and moved), such that its bounding box has the sides w, h, d; if the origin is the middle of the bounding box of VT,
it also is the middle of the bounding box of W. -/
def FillBox (w h d : ℝ) (VT W : List V3 × List Tri) : Prop :=
  ∃ (a e : V3), 0 < e.x ∧ 0 < e.y ∧ 0 < e.z ∧ W = stretched a e VT ∧
    ∃ l u, TightBox W.1 l u ∧ u - l = ⟨w, h, d⟩ ∧ ∀ l0 u0, TightBox VT.1 l0 u0 → l0 + u0 = 0 → l + u = 0

theorem FitTo.star {t : ℝ} {VT W : List V3 × List Tri} (h : FitTo t VT W) (hs : StarShaped VT) : StarShaped W := by
  obtain ⟨a, σ, h1, rfl, -⟩ := h
  exact stretched_star hs a h1 h1 h1

theorem FillBox.star {w h d : ℝ} {VT W : List V3 × List Tri} (hf : FillBox w h d VT W) (hs : StarShaped VT) : StarShaped W := by
  obtain ⟨a, e, h1, h2, h3, rfl, -⟩ := hf
  exact stretched_star hs a h1 h2 h3

/-- What a mesh must satisfy to be scaled: its triangles are a closed surface, and its vertices are not all the same. -/
structure Scalable (VT : List V3 × List Tri) : Prop where
  indices : IndicesBelow VT.2 VT.1.length
  closed : ClosedOriented VT.2
  two : ∃ v ∈ VT.1, ∃ w ∈ VT.1, v ≠ w

theorem Scalable.box {VT : List V3 × List Tri} (h : Scalable VT) : ∃ l u, TightBox VT.1 l u ∧ l ≠ u := by
  obtain ⟨v, hv, w, hw, hne⟩ := h.two
  obtain ⟨l, u, hb⟩ := tightBox_exists (List.ne_nil_of_mem hv)
  refine ⟨l, u, hb, ?_⟩
  rintro rfl
  apply hne
  obtain ⟨a1, a2, a3, a4, a5, a6⟩ := hb.1 v hv
  obtain ⟨b1, b2, b3, b4, b5, b6⟩ := hb.1 w hw
  refine V3.ext ?_ ?_ ?_ <;> linarith

theorem StarShaped.scalable {VT : List V3 × List Tri} (h : StarShaped VT) : Scalable VT := by
  refine ⟨h.1, h.2.1, ?_⟩
  obtain ⟨t, ht⟩ := List.exists_mem_of_ne_nil _ h.2.2.1
  obtain ⟨i1, i2, i3⟩ := h.1 t ht
  have hm : ∀ i, i < VT.1.length → VT.1.getD i 0 ∈ VT.1 := by
    intro i hi
    rw [List.getD_eq_getElem _ _ hi]; exact List.getElem_mem hi
  refine ⟨_, hm _ i1, _, hm _ i2, ?_⟩
  intro e
  refine h.noZero t ht ?_
  unfold ZeroArea
  rw [e, sub_self]
  refine V3.ext ?_ ?_ ?_ <;> simp [V3.cross]

/-- The scaled mesh: what `scale_to_unit` followed by `scale` makes of a mesh. -/
theorem unit_scaled {m : Mesh} {l u : V3} (hb : TightBox m.V l u) (hne : l ≠ u) {a b c : ℝ} (ha : 0 < a) (hbb : 0 < b) (hc : 0 < c) :
    ∃ m' l' u', SMesh.scale_to_unit m = .ok m' ∧ TightBox m'.V l' u' ∧ max (max (u'.x - l'.x) (u'.y - l'.y)) (u'.z - l'.z) = 1 ∧ l' + u' = l + u ∧
      ∃ (σ : ℝ), 0 < σ ∧ u' - l' = σ • (u - l) ∧ ∃ r : V3, ((scale m' a b c).V, (scale m' a b c).T) = stretched r ⟨a * σ, b * σ, c * σ⟩ (m.V, m.T) ∧
        TightBox (scale m' a b c).V ⟨a * l'.x, b * l'.y, c * l'.z⟩ ⟨a * u'.x, b * u'.y, c * u'.z⟩ := by
  obtain ⟨m', l', u', h1, h2, h3, h4, h5, σ, hσ, h6⟩ := C63_scale_to_unit m l u hb hne
  have hV : (stretched ((1 - σ) • ((0.5 : ℝ) • (l + u))) ⟨σ, σ, σ⟩ (m.V, m.T)).1 = m'.V := by
    rw [h6]
    unfold stretched
    refine List.map_congr_left fun v _ => ?_
    refine V3.ext ?_ ?_ ?_ <;> simp <;> ring
  have hb' := hb.stretched (VT := (m.V, m.T)) ((1 - σ) • ((0.5 : ℝ) • (l + u))) (d := ⟨σ, σ, σ⟩) hσ.le hσ.le hσ.le
  rw [hV] at hb'
  obtain ⟨e1, e2⟩ := h3.unique hb'
  refine ⟨m', l', u', h1, h3, h5, h4, σ, hσ, ?_, vmul ⟨a, b, c⟩ ((1 - σ) • ((0.5 : ℝ) • (l + u))), ?_, ?_⟩
  · rw [← e1, ← e2]
    refine V3.ext ?_ ?_ ?_ <;> simp <;> ring
  · unfold stretched
    rw [(C63_scale m' a b c).1, (C63_scale m' a b c).2.1, h2, h6, List.map_map]
    refine Prod.ext ?_ rfl
    refine List.map_congr_left fun v _ => ?_
    refine V3.ext ?_ ?_ ?_ <;> simp [vmul] <;> ring
  · have := h3.stretched (VT := (m'.V, m'.T)) 0 (d := ⟨a, b, c⟩) ha.le hbb.le hc.le
    unfold Verif.stretched at this
    simp only [V3.zero_x, V3.zero_y, V3.zero_z, zero_add] at this
    rw [(C63_scale m' a b c).2.1]
    simpa only [mul_comm] using this

/-- A permuted copy of a stretched mesh. -/
theorem stretched_of_perm {VT : List V3 × List Tri} {m m' : Mesh} (hV : m.V.Perm VT.1) (hT : (trianglesOf m.V m.T).Perm (trianglesOf VT.1 VT.2))
    (hi : IndicesBelow m.T m.V.length) (hi' : IndicesBelow VT.2 VT.1.length) (hc : ClosedOriented m.T) {a d : V3}
    (e : (m'.V, m'.T) = stretched a d (m.V, m.T)) :
    IndicesBelow m'.T m'.V.length ∧ ClosedOriented m'.T ∧ m'.V.Perm (stretched a d VT).1 ∧
      (trianglesOf m'.V m'.T).Perm (trianglesOf (stretched a d VT).1 (stretched a d VT).2) := by
  have e1 : m'.V = (stretched a d (m.V, m.T)).1 := congrArg Prod.fst e
  have e2 : m'.T = (stretched a d (m.V, m.T)).2 := congrArg Prod.snd e
  obtain ⟨p1, p2⟩ := stretched_map hV hT hi hi' a d
  refine ⟨?_, by rw [e2]; exact hc, by rw [e1]; exact p1, by rw [e1, e2]; exact p2⟩
  rw [e1, e2]
  simpa [stretched] using hi

/-- The mesh that `newScaledShape` gives to `create_shape`. -/
theorem scaled_mesh {eig : Eig} (he : EigSpec eig) {VT : List V3 × List Tri} (hs : Scalable VT) {t : ℝ} (ht : 0 < t) :
    ∃ m m' W, create_mesh eig VT.1 VT.2 = .ok m ∧ SMesh.scale_to_unit m = .ok m' ∧ FitTo t VT W ∧
      IndicesBelow (scale m' t t t).T (scale m' t t t).V.length ∧ ClosedOriented (scale m' t t t).T ∧ (scale m' t t t).V.Perm W.1 ∧
      (trianglesOf (scale m' t t t).V (scale m' t t t).T).Perm (trianglesOf W.1 W.2) ∧
      (StarShaped (m.V, m.T) → StarShaped ((scale m' t t t).V, (scale m' t t t).T)) := by
  obtain ⟨m, hm1, hm2, hm3, hm4, hm5⟩ := C84_create_mesh he VT.1 VT.2 hs.indices
  obtain ⟨l, u, hb, hne⟩ := hs.box
  obtain ⟨m', l', u', h1, h2, h3, hmid, σ, hσ, -, r, h4, h5⟩ := unit_scaled (hb.perm hm2) hne ht ht ht
  obtain ⟨q1, q2, q3, q4⟩ := stretched_of_perm hm2 hm3 hm4 hs.indices (hm5 hs.closed) h4
  refine ⟨m, m', _, hm1, h1, ⟨r, t * σ, mul_pos ht hσ, rfl, _, _, h5.perm q3.symm, ?_, ?_⟩, q1, q2, q3, q4, ?_⟩
  · simp only
    rw [← mul_sub, ← mul_sub, ← mul_sub, ← mul_max_of_nonneg _ _ ht.le, ← mul_max_of_nonneg _ _ ht.le, h3, mul_one]
  · intro l0 u0 hb0
    obtain ⟨rfl, rfl⟩ := hb.unique hb0
    rw [← hmid]
    refine V3.ext ?_ ?_ ?_ <;> simp <;> ring
  · intro hstar
    rw [h4]
    exact stretched_star hstar _ (mul_pos ht hσ) (mul_pos ht hσ) (mul_pos ht hσ)

theorem newScaledShape_ok {eig : Eig} (he : EigSpec eig) {base : String} {VT : List V3 × List Tri} (hv : Scalable VT) {t : ℝ} (ht : 0 < t)
    {s s' : Scene} {n : String} (hok : s.OK) (h : newScaledShape eig base VT t s = .ok (n, s')) :
    Grows s s' [] ∧ s.eng.shapes.get? n = none ∧ ∃ W, FitTo t VT W ∧ HasShape s' n W := by
  obtain ⟨m, m', W, h1, h2, hf, q1, q2, q3, q4, -⟩ := scaled_mesh he hv ht
  unfold newScaledShape generate_unique_name at h
  rw [bind_ok] at h
  obtain ⟨name, s1, h3, h⟩ := h
  cases h3
  rw [h1] at h
  simp only [bind, Except.bind] at h
  rw [h2] at h
  simp only at h
  cases h4 : Scene.create_shape eig { s with gen := fun i => s.gen (i + 1) } (s.gen 0 base) (scale m' t t t) with
  | error e => rw [h4] at h; cases h
  | ok s2 =>
    rw [h4] at h
    simp only [pure, Except.pure, Except.ok.injEq, Prod.mk.injEq] at h
    obtain ⟨rfl, rfl⟩ := h
    have hb := shape_built he (s := { s with gen := fun i => s.gen (i + 1) }) (VT := W) hok q1 q2 q3 q4 h4
    exact ⟨⟨hb.1.keys, hb.1.fresh, hb.1.nodup, hb.1.old, hb.1.shapes, hb.1.meshes, hb.1.ok, hb.1.forces, hb.1.hinges, hb.1.inter, hb.1.params⟩,
      (C85_create_shape he _ _ _ _ q1 q2 h4).1, W, hf, hb.2⟩

/-- The mesh that `newStretchedShape` gives to `create_shape`. -/
theorem stretched_mesh {eig : Eig} (he : EigSpec eig) {VT : List V3 × List Tri} (hs : IndicesBelow VT.2 VT.1.length ∧ ClosedOriented VT.2)
    {l u : V3} (hb : TightBox VT.1 l u) (hx : l.x < u.x) (hy : l.y < u.y) (hz : l.z < u.z) {R H : ℝ} (hR : 0 < R) (hH : 0 < H) :
    ∃ m m' l' u' mf W, create_mesh eig VT.1 VT.2 = .ok m ∧ SMesh.scale_to_unit m = .ok m' ∧ SMesh.aabb m' = .ok (l', u') ∧
      scale m' ((R * 2.0) / (u' - l').x) (H / (u' - l').y) ((R * 2.0) / (u' - l').z) = mf ∧ FillBox (2 * R) H (2 * R) VT W ∧
      IndicesBelow mf.T mf.V.length ∧ ClosedOriented mf.T ∧ mf.V.Perm W.1 ∧
      (trianglesOf mf.V mf.T).Perm (trianglesOf W.1 W.2) ∧ (StarShaped (m.V, m.T) → StarShaped (mf.V, mf.T)) := by
  obtain ⟨m, hm1, hm2, hm3, hm4, hm5⟩ := C84_create_mesh he VT.1 VT.2 hs.1
  have hne : l ≠ u := by rintro rfl; exact lt_irrefl _ hx
  obtain ⟨m', l', u', h1, h2, h3, -, σ, hσ, hext, -⟩ := unit_scaled (hb.perm hm2) hne one_pos one_pos one_pos
  have hne' : m'.V ≠ [] := by
    obtain ⟨-, ⟨v, hv, -⟩, -⟩ := h2
    exact List.ne_nil_of_mem hv
  obtain ⟨l'', u'', ha, hb''⟩ := (C63_aabb m').2 hne'
  obtain ⟨rfl, rfl⟩ := h2.unique hb''
  have ex : 0 < (u'' - l'').x := by rw [hext]; simpa using mul_pos hσ (sub_pos.2 hx)
  have ey : 0 < (u'' - l'').y := by rw [hext]; simpa using mul_pos hσ (sub_pos.2 hy)
  have ez : 0 < (u'' - l'').z := by rw [hext]; simpa using mul_pos hσ (sub_pos.2 hz)
  have hR2 : (0 : ℝ) < R * 2.0 := by rw [show (2.0 : ℝ) = 2 by norm_num]; positivity
  have px : 0 < (R * 2.0) / (u'' - l'').x := div_pos hR2 ex
  have py : 0 < H / (u'' - l'').y := div_pos hH ey
  have pz : 0 < (R * 2.0) / (u'' - l'').z := div_pos hR2 ez
  obtain ⟨m2, l2, u2, h1', h2', h3', hmid, σ', hσ', hext', r, h4, h5⟩ := unit_scaled (hb.perm hm2) hne px py pz
  rw [h1] at h1'
  cases h1'
  obtain ⟨rfl, rfl⟩ := h2.unique h2'
  obtain ⟨q1, q2, q3, q4⟩ := stretched_of_perm hm2 hm3 hm4 hs.1 (hm5 hs.2) h4
  refine ⟨m, m', l2, u2, _, _, hm1, h1, ha, rfl, ⟨r, _, mul_pos px hσ', mul_pos py hσ', mul_pos pz hσ', rfl, _, _, h5.perm q3.symm, ?_, ?_⟩,
    q1, q2, q3, q4, ?_⟩
  · refine V3.ext ?_ ?_ ?_ <;> simp only [V3.sub_x, V3.sub_y, V3.sub_z] at ex ey ez ⊢
    · field_simp; norm_num
    · field_simp
    · field_simp; norm_num
  · intro l0 u0 hb0 h0
    obtain ⟨rfl, rfl⟩ := hb.unique hb0
    rw [h0] at hmid
    have m1 := congrArg V3.x hmid
    have m2 := congrArg V3.y hmid
    have m3 := congrArg V3.z hmid
    simp only [V3.add_x, V3.add_y, V3.add_z, V3.zero_x, V3.zero_y, V3.zero_z] at m1 m2 m3
    refine V3.ext ?_ ?_ ?_ <;> simp only [V3.add_x, V3.add_y, V3.add_z, V3.zero_x, V3.zero_y, V3.zero_z] <;> rw [← mul_add]
    · rw [m1, mul_zero]
    · rw [m2, mul_zero]
    · rw [m3, mul_zero]
  · intro hstar
    rw [h4]
    exact stretched_star hstar _ (mul_pos px hσ') (mul_pos py hσ') (mul_pos pz hσ')

theorem newStretchedShape_ok {eig : Eig} (he : EigSpec eig) {base : String} {VT : List V3 × List Tri}
    (hs : IndicesBelow VT.2 VT.1.length ∧ ClosedOriented VT.2) {l u : V3} (hb : TightBox VT.1 l u) (hx : l.x < u.x) (hy : l.y < u.y)
    (hz : l.z < u.z) {R H : ℝ} (hR : 0 < R) (hH : 0 < H) {s s' : Scene} {n : String} (hok : s.OK)
    (h : newStretchedShape eig base VT R H s = .ok (n, s')) :
    Grows s s' [] ∧ ∃ W, FillBox (2 * R) H (2 * R) VT W ∧ HasShape s' n W := by
  obtain ⟨m, m', l', u', mf, W, h1, h2, h3, h4, hf, q1, q2, q3, q4, -⟩ := stretched_mesh he hs hb hx hy hz hR hH
  unfold newStretchedShape generate_unique_name at h
  rw [bind_ok] at h
  obtain ⟨name, s1, h5, h⟩ := h
  cases h5
  rw [h1] at h
  simp only [bind, Except.bind] at h
  rw [h2] at h
  simp only at h
  rw [h3] at h
  simp only at h
  rw [h4] at h
  cases h6 : Scene.create_shape eig { s with gen := fun i => s.gen (i + 1) } (s.gen 0 base) mf with
  | error e => rw [h6] at h; cases h
  | ok s2 =>
    rw [h6] at h
    simp only [pure, Except.pure, Except.ok.injEq, Prod.mk.injEq] at h
    obtain ⟨rfl, rfl⟩ := h
    have hb := shape_built he (s := { s with gen := fun i => s.gen (i + 1) }) (VT := W) hok q1 q2 q3 q4 h6
    exact ⟨⟨hb.1.keys, hb.1.fresh, hb.1.nodup, hb.1.old, hb.1.shapes, hb.1.meshes, hb.1.ok, hb.1.forces, hb.1.hinges, hb.1.inter, hb.1.params⟩,
      W, hf, hb.2⟩

theorem newScaledShape_runs {eig : Eig} (he : EigSpec eig) {base material : String} {VT : List V3 × List Tri} (hv : StarShaped VT) {t : ℝ}
    (ht : 0 < t) {s : Scene} (hr : Ready material s) :
    ∃ k s', newScaledShape eig base VT t s = .ok (k, s') ∧ Ready material s' ∧ Grows s s' [] ∧ ∃ W, FitTo t VT W ∧ HasShape s' k W := by
  obtain ⟨m, m', W, h1, h2, hf, q1, q2, q3, q4, hstar⟩ := scaled_mesh he hv.scalable ht
  obtain ⟨s', hs', hr'⟩ := shape_runs he (base := base) hr (hstar (create_mesh_star he hv h1))
  have hrun : newScaledShape eig base VT t s = .ok (s.gen 0 base, s') := by
    unfold newScaledShape generate_unique_name
    rw [bind_ok]
    refine ⟨_, _, rfl, ?_⟩
    rw [h1]
    simp only [bind, Except.bind]
    rw [h2]
    simp only
    rw [hs']
    rfl
  obtain ⟨hg, -, W, hW⟩ := newScaledShape_ok he hv.scalable ht hr.ok hrun
  exact ⟨_, s', hrun, hr', hg, W, hW⟩

theorem newStretchedShape_runs {eig : Eig} (he : EigSpec eig) {base material : String} {VT : List V3 × List Tri} (hv : StarShaped VT)
    {R H : ℝ} (hR : 0 < R) (hH : 0 < H) {s : Scene} (hr : Ready material s) :
    ∃ k s', newStretchedShape eig base VT R H s = .ok (k, s') ∧ Ready material s' ∧ Grows s s' [] ∧
      ∃ W, FillBox (2 * R) H (2 * R) VT W ∧ HasShape s' k W := by
  obtain ⟨l, u, hb, -⟩ := hv.scalable.box
  obtain ⟨hx, hy, hz⟩ := star_extent hv hb
  obtain ⟨m, m', l', u', mf, W, h1, h2, h3, h4, hf, q1, q2, q3, q4, hstar⟩ := stretched_mesh he ⟨hv.1, hv.2.1⟩ hb hx hy hz hR hH
  obtain ⟨s', hs', hr'⟩ := shape_runs he (base := base) hr (hstar (create_mesh_star he hv h1))
  have hrun : newStretchedShape eig base VT R H s = .ok (s.gen 0 base, s') := by
    unfold newStretchedShape generate_unique_name
    rw [bind_ok]
    refine ⟨_, _, rfl, ?_⟩
    rw [h1]
    simp only [bind, Except.bind]
    rw [h2]
    simp only
    rw [h3]
    simp only
    rw [h4, hs']
    rfl
  obtain ⟨hg, W, hW⟩ := newStretchedShape_ok he ⟨hv.1, hv.2.1⟩ hb hx hy hz hR hH hr.ok hrun
  exact ⟨_, s', hrun, hr', hg, W, hW⟩

/-! ### Several shapes -/

/-- The shapes called N are the solids L, scaled to the size t. -/
def ScaledShapes (s : Scene) (t : ℝ) (L Ws : List (List V3 × List Tri)) (N : List String) : Prop :=
  N.Nodup ∧ List.Forall₂ (FitTo t) L Ws ∧ List.Forall₂ (HasShape s) N Ws

theorem shapes_grows {s s' : Scene} {M N : List String} {Ws : List (List V3 × List Tri)} (hg : Grows s s' M)
    (h : List.Forall₂ (HasShape s) N Ws) : List.Forall₂ (HasShape s') N Ws := h.imp fun _ _ hh => hh.grows hg

theorem scaledShapes_ok {eig : Eig} (he : EigSpec eig) {α : Type} {base : String} (g : α → List V3 × List Tri) {t : ℝ} (ht : 0 < t)
    (L : List α) (hL : ∀ a ∈ L, Scalable (g a)) (s s' : Scene) (N : List String) (hok : s.OK)
    (h : L.mapM (fun a => newScaledShape eig base (g a) t) s = .ok (N, s')) :
    Grows s s' [] ∧ (∀ k ∈ N, s.eng.shapes.get? k = none) ∧ ∃ Ws, ScaledShapes s' t (L.map g) Ws N := by
  induction L generalizing s N with
  | nil =>
    obtain ⟨rfl, rfl⟩ := pure_ok.1 h
    exact ⟨Grows.refl s, by simp, [], by simp, List.Forall₂.nil, List.Forall₂.nil⟩
  | cons a L ih =>
    rw [List.mapM_cons, bind_ok] at h
    obtain ⟨k, s1, h1, h⟩ := h
    rw [bind_ok] at h
    obtain ⟨N', s2, h2, h⟩ := h
    obtain ⟨rfl, rfl⟩ := pure_ok.1 h
    obtain ⟨g1, n1, W, f1, w1⟩ := newScaledShape_ok he (hL a (by simp)) ht hok h1
    obtain ⟨g2, n2, Ws, nd, f2, w2⟩ := ih (fun b hb => hL b (by simp [hb])) s1 N' (g1.ok hok) h2
    have g12 : Grows s s2 [] := g1.trans g2
    have hk : ∃ sh, s1.eng.shapes.get? k = some sh := by
      obtain ⟨sh, m, hh, -⟩ := w1
      exact ⟨sh, hh⟩
    refine ⟨g12, ?_, W :: Ws, ?_, List.Forall₂.cons f1 f2, List.Forall₂.cons (w1.grows g2) w2⟩
    · intro k' hk'
      rcases List.mem_cons.1 hk' with rfl | hk'
      · exact n1
      · cases hc : s.eng.shapes.get? k' with
        | none => rfl
        | some sh =>
          have := n2 k' hk'
          rw [g1.shapes _ _ hc] at this
          cases this
    · refine List.nodup_cons.2 ⟨?_, nd⟩
      intro hmem
      obtain ⟨sh, hsh⟩ := hk
      rw [n2 k hmem] at hsh
      cases hsh

theorem scaledShapes_runs {eig : Eig} (he : EigSpec eig) {α : Type} {base material : String} (g : α → List V3 × List Tri) {t : ℝ}
    (ht : 0 < t) (L : List α) (hL : ∀ a ∈ L, StarShaped (g a)) (s : Scene) (hr : Ready material s) :
    ∃ N s', L.mapM (fun a => newScaledShape eig base (g a) t) s = .ok (N, s') ∧ Ready material s' := by
  induction L generalizing s with
  | nil => exact ⟨[], s, rfl, hr⟩
  | cons a L ih =>
    obtain ⟨k, s1, h1, r1, -⟩ := newScaledShape_runs he (base := base) (hL a (by simp)) ht hr
    obtain ⟨N, s2, h2, r2⟩ := ih (fun b hb => hL b (by simp [hb])) s1 r1
    refine ⟨k :: N, s2, ?_, r2⟩
    rw [List.mapM_cons, bind_ok]
    refine ⟨k, s1, h1, ?_⟩
    rw [bind_ok]
    exact ⟨N, s2, h2, rfl⟩

/-! ### A lattice of scaled shapes -/

/-- The bricks B are a lattice of the solids Ws: brick (i·J + j)·K + k is the solid number (i + j + k) mod n, turned by q · q_l (in some frame a of
the solid), with its centre of mass at the middle of the cell (i, j, k). -/
def IsLattice (Ws : List (List V3 × List Tri)) (r : V3) (q : Quat) (dW dH dD : ℝ) (I J K : ℕ) (q_l : ℕ → ℕ → ℕ → Quat) (B : List Brick) : Prop :=
  B.length = I * J * K ∧ ∀ i j k : ℕ, i < I → j < J → k < K → ∃ W a, Ws[(i + j + k) % Ws.length]? = some W ∧ IsUnitQ a ∧
    B[(i * J + j) * K + k]? = some (centred W a (Quat.rotate q ⟨(i + 1 / 2) * dW, (j + 1 / 2) * dH, (k + 1 / 2) * dD⟩ + r)
      (Quat.unit (Quat.prod q (q_l i j k))))

theorem lattice_of_scaled {t : ℝ} {L Ws : List (List V3 × List Tri)} {r : V3} {q : Quat} {shape_names : List String} {width height depth : ℝ} {I J K : ℕ}
    {density : ℝ} {material : String} {rand : Bool} {q_body : Option Quat} {draw : ℕ → ℕ → ℕ → Quat}
    {s s' : Scene} {names : List String} (hsh : ScaledShapes s t L Ws shape_names)
    (h : create_lattice r q shape_names width height depth I J K density material rand q_body draw s = .ok (names, s')) :
    ∃ B : List Brick, PutUp (Finished false material density) s s' B names ∧ IsLattice Ws r q (width / I) (height / J) (depth / K) I J K
      (fun i j k => if rand then Quat.unit (draw i j k) else q_body.getD Quat.identity) B ∧
      (IsUnitQ q → ∀ ρ : ℝ, 0 ≤ ρ → (∀ W ∈ Ws, ∀ v ∈ W.1, V3.norm (v - massCentre W.1 W.2) ≤ ρ) → 2 * ρ ≤ width / I → 2 * ρ ≤ height / J →
        2 * ρ ≤ depth / K → B.Pairwise fun a b => PlaneApart a.world b.world) := by
  obtain ⟨nd, -, hW⟩ := hsh
  obtain ⟨solid, hs1, hs2⟩ : ∃ solid : String → List V3 × List Tri, (∀ (n : ℕ) k, shape_names[n]? = some k → Ws[n]? = some (solid k)) ∧
      ∀ k ∈ shape_names, HasShape s k (solid k) := by
    refine ⟨fun k => Ws.getD (shape_names.idxOf k) ([], []), ?_, ?_⟩
    · intro n k hk
      obtain ⟨hn, rfl⟩ := List.getElem?_eq_some_iff.1 hk
      have hn' : n < Ws.length := hW.length_eq ▸ hn
      show _ = some (Ws.getD (List.idxOf shape_names[n] shape_names) ([], []))
      rw [nd.idxOf_getElem, List.getElem?_eq_getElem hn', List.getD_eq_getElem _ _ hn']
    · intro k hk
      have hn := List.idxOf_lt_length_of_mem hk
      have hn' : shape_names.idxOf k < Ws.length := hW.length_eq ▸ hn
      have := (List.forall₂_iff_get.1 hW).2 _ hn hn'
      simp only [List.get_eq_getElem, List.getElem_idxOf] at this
      show HasShape s k (Ws.getD (List.idxOf k shape_names) ([], []))
      rw [List.getD_eq_getElem _ _ hn']
      exact this
  obtain ⟨hI, hJ, hK, hp⟩ := lattice_built hs2 h
  obtain ⟨B, -, -, hB⟩ := C103_lattice hs2 h
  obtain ⟨name0, hname0, -⟩ := hB 0 0 0 (by omega) (by omega) (by omega)
  have hlen := hW.length_eq
  refine ⟨_, hp, ⟨latticePlan_length .., ?_⟩, ?_⟩
  rotate_left
  · intro hq ρ hρ0 hρ h1 h2 h3
    refine lattice_apart hq (List.ne_nil_of_mem hname0) hs2 ?_ h1 h2 h3 hρ0
    intro k hk
    obtain ⟨n, hn, rfl⟩ := List.getElem_of_mem hk
    exact hρ _ (List.mem_of_getElem? (hs1 n _ (List.getElem?_eq_getElem hn)))
  intro i j k hi hj hk
  have hlt : (i + j + k) % shape_names.length < shape_names.length := Nat.mod_lt _ (List.length_pos_iff.2 (List.ne_nil_of_mem hname0))
  refine ⟨solid (shape_names[(i + j + k) % shape_names.length]), axesOf s (shape_names[(i + j + k) % shape_names.length]), ?_, ?_, ?_⟩
  · rw [← hlen]
    exact hs1 _ _ (List.getElem?_eq_getElem hlt)
  · exact axesOf_unit (hs2 _ (List.getElem_mem hlt))
  · rw [latticePlan_get hi hj hk, List.getD_eq_getElem _ _ hlt]
    congr 4
    unfold latticeOrientation randQuat
    cases q_body <;> rfl

/-- Every brick of a lattice is the brick of some cell. -/
theorem IsLattice.cell {Ws : List (List V3 × List Tri)} {r : V3} {q : Quat} {dW dH dD : ℝ} {I J K : ℕ} {q_l : ℕ → ℕ → ℕ → Quat} {B : List Brick}
    (h : IsLattice Ws r q dW dH dD I J K q_l B) {b : Brick} (hb : b ∈ B) : ∃ i j k : ℕ, i < I ∧ j < J ∧ k < K ∧ ∃ W ∈ Ws, ∃ a, IsUnitQ a ∧
      b = centred W a (Quat.rotate q ⟨(i + 1 / 2) * dW, (j + 1 / 2) * dH, (k + 1 / 2) * dD⟩ + r) (Quat.unit (Quat.prod q (q_l i j k))) := by
  obtain ⟨n, hn, rfl⟩ := List.getElem_of_mem hb
  have hn' := hn
  rw [h.1] at hn'
  have hpos : 0 < I * J * K := by omega
  have hK : 0 < K := Nat.pos_of_ne_zero (by rintro rfl; simp at hpos)
  have hJ : 0 < J := Nat.pos_of_ne_zero (by rintro rfl; simp at hpos)
  have e : (n / K / J * J + n / K % J) * K + n % K = n := by
    rw [Nat.div_add_mod', Nat.div_add_mod']
  have hi : n / K / J < I := by
    rw [Nat.div_div_eq_div_mul, Nat.div_lt_iff_lt_mul (Nat.mul_pos hK hJ)]
    calc n < I * J * K := hn'
      _ = I * (K * J) := by ring
  obtain ⟨W, a, h1, h2, h3⟩ := h.2 (n / K / J) (n / K % J) (n % K) hi (Nat.mod_lt _ hJ) (Nat.mod_lt _ hK)
  refine ⟨n / K / J, n / K % J, n % K, hi, Nat.mod_lt _ hJ, Nat.mod_lt _ hK, W, List.mem_of_getElem? h1, a, h2, ?_⟩
  rw [e, List.getElem?_eq_getElem hn] at h3
  exact Option.some.inj h3

/-- How far down an upright lattice of bodies reaches, whatever way they are turned. -/
theorem IsLattice.above {Ws : List (List V3 × List Tri)} {r : V3} {dW dH dD : ℝ} {I J K : ℕ} {q_l : ℕ → ℕ → ℕ → Quat} {B : List Brick}
    (h : IsLattice Ws r Quat.identity dW dH dD I J K q_l B) {ρ : ℝ} (hρ : ∀ W ∈ Ws, ∀ v ∈ W.1, V3.norm (v - massCentre W.1 W.2) ≤ ρ)
    (hH : 0 ≤ dH) {b : Brick} (hb : b ∈ B) {p : V3} (hp : p ∈ b.world) : r.y + dH / 2 - ρ ≤ p.y := by
  obtain ⟨i, j, k, -, -, -, W, hW, a, ha, rfl⟩ := h.cell hb
  unfold Brick.world at hp
  obtain ⟨v, hv, rfl⟩ := List.mem_map.1 hp
  have := centred_within (r := r) (c := ⟨(i + 1 / 2) * dW, (j + 1 / 2) * dH, (k + 1 / 2) * dD⟩) (qw := Quat.unit (Quat.prod Quat.identity (q_l i j k)))
    ha ident_unit (Quat.unit_isUnit _) (hρ W hW v hv) (n := ⟨0, 1, 0⟩) (by simp [V3.norm, V3.dot])
  rw [rotate_ident_V3 ⟨0, 1, 0⟩] at this
  have h1 := (abs_le.1 this).1
  simp only [V3.dot, V3.sub_x, V3.sub_y, V3.sub_z, zero_mul, one_mul, zero_add, add_zero] at h1
  have h2 : 0 ≤ (j : ℝ) * dH := mul_nonneg (Nat.cast_nonneg j) hH
  linarith

/-- No point of a star shaped solid that fits in a box of side t is further than √3·t (and the error of mass.py) from its centre of mass. -/
theorem star_radius {t : ℝ} {VT W : List V3 × List Tri} (hs : StarShaped VT) (hf : FitTo t VT W) :
    ∀ v ∈ W.1, V3.norm (v - massCentre W.1 W.2) ≤ 1.733 * (t + 1e-10) := by
  have hW := hf.star hs
  obtain ⟨-, -, -, -, l, u, hb, hmax, -⟩ := hf
  have e1 : u.x - l.x ≤ t := hmax ▸ (le_max_left _ _).trans (le_max_left _ _)
  have e2 : u.y - l.y ≤ t := hmax ▸ (le_max_right _ _).trans (le_max_left _ _)
  have e3 : u.z - l.z ≤ t := hmax ▸ le_max_right _ _
  have hull := fun e => C95_centroid_in_hull (V := W.1) (T := W.2) hW e
  have low : l.x ≤ (centroid W.1 W.2).x ∧ l.y ≤ (centroid W.1 W.2).y ∧ l.z ≤ (centroid W.1 W.2).z := by
    obtain ⟨a, ha, a1⟩ := hull ⟨1, 0, 0⟩
    obtain ⟨b, hb', b1⟩ := hull ⟨0, 1, 0⟩
    obtain ⟨c, hc, c1⟩ := hull ⟨0, 0, 1⟩
    simp only [V3.dot, zero_mul, one_mul, zero_add, add_zero] at a1 b1 c1
    exact ⟨(hb.1 a ha).1.trans a1, (hb.1 b hb').2.2.1.trans b1, (hb.1 c hc).2.2.2.2.1.trans c1⟩
  have high : (centroid W.1 W.2).x ≤ u.x ∧ (centroid W.1 W.2).y ≤ u.y ∧ (centroid W.1 W.2).z ≤ u.z := by
    obtain ⟨a, ha, a1⟩ := hull ⟨-1, 0, 0⟩
    obtain ⟨b, hb', b1⟩ := hull ⟨0, -1, 0⟩
    obtain ⟨c, hc, c1⟩ := hull ⟨0, 0, -1⟩
    simp only [V3.dot, zero_mul, neg_mul, one_mul, zero_add, add_zero, neg_le_neg_iff] at a1 b1 c1
    exact ⟨a1.trans (hb.1 a ha).2.1, b1.trans (hb.1 b hb').2.2.2.1, c1.trans (hb.1 c hc).2.2.2.2.2⟩
  intro v hv
  obtain ⟨v1, v2, v3, v4, v5, v6⟩ := hb.1 v hv
  have sx := abs_le.1 (snap_near (centroid W.1 W.2).x)
  have sy := abs_le.1 (snap_near (centroid W.1 W.2).y)
  have sz := abs_le.1 (snap_near (centroid W.1 W.2).z)
  have t0 : 0 ≤ t := by linarith
  have h0 : (0 : ℝ) ≤ t + 1e-10 := by positivity
  have ax : |v.x - (massCentre W.1 W.2).x| ≤ t + 1e-10 := by
    unfold massCentre; simp only; rw [abs_le]; constructor <;> linarith
  have ay : |v.y - (massCentre W.1 W.2).y| ≤ t + 1e-10 := by
    unfold massCentre; simp only; rw [abs_le]; constructor <;> linarith
  have az : |v.z - (massCentre W.1 W.2).z| ≤ t + 1e-10 := by
    unfold massCentre; simp only; rw [abs_le]; constructor <;> linarith
  generalize massCentre W.1 W.2 = g at *
  generalize t + 1e-10 = w at *
  have bx := sq_le_sq' (abs_le.1 ax).1 (abs_le.1 ax).2
  have by' := sq_le_sq' (abs_le.1 ay).1 (abs_le.1 ay).2
  have bz := sq_le_sq' (abs_le.1 az).1 (abs_le.1 az).2
  unfold V3.norm
  rw [Real.sqrt_le_left (by positivity)]
  simp only [V3.dot, V3.sub_x, V3.sub_y, V3.sub_z]
  nlinarith

theorem PutUp.noOverlap {Q : BrickFact} (hQ : ∀ o sh m b, Q o sh m b → Placed o sh m b) {s s' : Scene} {B : List Brick} {N : List String}
    (h : PutUp Q s s' B N) (hB : B.Pairwise fun a b => PlaneApart a.world b.world) : NoOverlap s' N := by
  intro n hn n' hn' hne
  obtain ⟨i, hi, rfl⟩ := List.getElem_of_mem hn
  obtain ⟨j, hj, rfl⟩ := List.getElem_of_mem hn'
  have hi' : i < B.length := h.length ▸ hi
  have hj' : j < B.length := h.length ▸ hj
  obtain ⟨o, sh, m, h1, h2, h3, h4⟩ := forall₂_getElem h.2 (List.getElem?_eq_getElem hi) (List.getElem?_eq_getElem hi')
  obtain ⟨o', sh', m', h1', h2', h3', h4'⟩ := forall₂_getElem h.2 (List.getElem?_eq_getElem hj) (List.getElem?_eq_getElem hj')
  have hij : i ≠ j := by rintro rfl; exact hne rfl
  have hap : PlaneApart B[i].world B[j].world := by
    rw [List.pairwise_iff_getElem] at hB
    rcases Nat.lt_or_gt_of_ne hij with hlt | hlt
    · exact hB i j hi' hj' hlt
    · exact (hB j i hj' hi' hlt).symm
  have := hap.perm (hQ _ _ _ _ h4).1 (hQ _ _ _ _ h4').1
  exact ⟨_, _, worldMesh_eq h1 h2 h3, worldMesh_eq h1' h2' h3', this, this.not_overlap⟩

theorem finished_placed {fixed : Bool} {material : String} {density : ℝ} : ∀ o sh m b, Finished fixed material density o sh m b → Placed o sh m b :=
  fun _ _ _ _ h => h.1

/-- Bodies added in two steps do not overlap if the bricks do not. -/
theorem noOverlap_append {s s1 s2 : Scene} {B B' : List Brick} {N N' : List String} {fixed fixed' : Bool} {material material' : String}
    {density density' : ℝ} (h : PutUp (Finished fixed material density) s s1 B N) (h' : PutUp (Finished fixed' material' density') s1 s2 B' N')
    (hB : (B ++ B').Pairwise fun a b => PlaneApart a.world b.world) : NoOverlap s2 (N ++ N') :=
  ((h.mono finished_placed).append (h'.mono finished_placed)).noOverlap (fun _ _ _ _ h => h) hB

end Verif
