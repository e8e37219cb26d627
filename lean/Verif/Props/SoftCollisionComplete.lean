import Verif.Props.SoftCollision

/-! C82: soft body collision detection finishes and misses no pair of triangles that meet; the normal of a contact. -/

namespace Verif

open VMesh (Tri Tet)
open SoftCollision

section
variable {N : ℕ}

/-- A body as `create_soft_body` and the stepper leave it: indices exist, every surface triangle has an owner, no owner is flat, neither
in the current nor in the material positions, and the distance field is sampled (no side of its box in a coordinate plane). -/
structure SoftShapeOK (b : Body) : Prop where
  mesh : MeshOK b.x (Collision.rows b.surface)
  owned : b.owners.length = b.surface.length
  owner_ok : ∀ o ∈ b.owners, ∃ t, b.T[o.1]? = some t ∧ (∀ i : Fin 4, nodeOf t i < b.x.length ∧ nodeOf t i < b.x0.length) ∧
    vol6 (tetPos b.x t) ≠ 0 ∧ vol6 (tetPos b.x0 t) ≠ 0
  field : ∃ φ, Sampled b.grid φ
  corner : b.grid.min_coord.x ≠ 0 ∧ b.grid.min_coord.y ≠ 0 ∧ b.grid.min_coord.z ≠ 0

/-- The hierarchy links store one leaf per surface triangle: what `make_bvh` and any number of refits leave behind. -/
def SoftLinksOK (b : Body) : Prop := ∃ trees, LinksOK (Collision.rows b.surface) b.bvh.chunks trees

theorem lookup_total {V : List V3} {i : ℕ} (h : i < V.length) : BVH.lookup V i = .ok (V.getD i 0) := by
  unfold BVH.lookup
  rw [List.getD_eq_getElem?_getD, List.getElem?_eq_getElem h]
  rfl

theorem tetCorners_total {V : List V3} {T : List Tet} {e : ℕ} {t : Tet} (ht : T[e]? = some t) (h : ∀ i : Fin 4, nodeOf t i < V.length) :
    tetCorners V T e = .ok (tetPos V t) := by
  unfold tetCorners
  rw [ht]
  simp only [bind, Except.bind]
  have e0 : t.i < V.length := h 0
  have e1 : t.j < V.length := h 1
  have e2 : t.k < V.length := h 2
  have e3 : t.m < V.length := h 3
  rw [lookup_total e0, lookup_total e1, lookup_total e2, lookup_total e3]
  simp only [pure, Except.pure]
  congr 1
  funext i
  have : ∀ i : Fin 4, i = 0 ∨ i = 1 ∨ i = 2 ∨ i = 3 := by decide
  rcases this i with rfl | rfl | rfl | rfl <;> rfl

theorem owner_total {b : Body} {m : ℕ} {o : ℕ × ℕ} (h : b.owners[m]? = some o) : owner b (m : ℤ) = .ok o.1 := by
  unfold owner
  rw [if_pos (by positivity), Int.toNat_natCast, h]

theorem xform_triangle_total {tri : Fin 3 → V3} {X X0 : Fin 4 → V3} (h : vol6 X ≠ 0) :
    ∃ P0, xform_triangle_to_model_space tri X X0 = .ok P0 := by
  obtain ⟨w0, h0⟩ := bary_total h (tri 0)
  obtain ⟨w1, h1⟩ := bary_total h (tri 1)
  obtain ⟨w2, h2⟩ := bary_total h (tri 2)
  unfold xform_triangle_to_model_space
  rw [h0, h1, h2]
  exact ⟨_, rfl⟩

theorem softContactAt_total {P : Collision.CDParams} {kA kB : Fin N} {bA bB : Body} {eA eB : ℕ} {XA XB X0B : Fin 4 → V3}
    {φ} (hs : Sampled bB.grid φ) (hm : bB.grid.min_coord.x ≠ 0 ∧ bB.grid.min_coord.y ≠ 0 ∧ bB.grid.min_coord.z ≠ 0)
    (hA : tetCorners bA.x bA.T eA = .ok XA) (vA : vol6 XA ≠ 0) (vB : vol6 XB ≠ 0) (v0 : vol6 X0B ≠ 0) (x : V3) :
    (∃ o, contactAt P kA kB bA bB eA eB XB X0B x = .ok o) ∧
    ∀ v d, bB.grid.is_inside x = .ok true → bB.grid.get_value x = .ok v → v ≤ P.envelope → bB.grid.get_gradient x = .ok d → d ≠ 0 →
      ∃ c, contactAt P kA kB bA bB eA eB XB X0B x = .ok (some c) := by
  have key : ∀ v d, bB.grid.is_inside x = .ok true → bB.grid.get_value x = .ok v → v ≤ P.envelope → bB.grid.get_gradient x = .ok d → d ≠ 0 →
      ∃ c, contactAt P kA kB bA bB eA eB XB X0B x = .ok (some c) := by
    intro v d h1 h2 h3 h4 h5
    obtain ⟨wB, hB⟩ := bary_total v0 x
    obtain ⟨wA, hwA⟩ := bary_total vA (interpolate XB wB)
    obtain ⟨y, hy, hyd⟩ := M3.solve_ok (A := edgeRows X0B) (by rw [edgeRows_det]; exact neg_ne_zero.mpr v0) d
    have hy0 : y ≠ 0 := by
      rintro rfl
      apply h5
      rw [← hyd]
      ext <;> simp [M3.mulVec]
    have hn := mulVec_ne_zero (A := edgeRows XB) (by rw [edgeRows_det]; exact neg_ne_zero.mpr vB) hy0
    have hun : V3.norm (V3.unit ((edgeRows XB).mulVec y)) = 1 := by
      unfold V3.norm; rw [V3.unit_dot hn]; simp
    unfold contactAt xform_contact_to_world Contact.init
    simp only [bind, Except.bind, pure, Except.pure, h1, h2, h4, if_true, hA, hB, hwA, hy, hun]
    rw [if_pos h3, if_pos (V3.norm_pos h5), if_neg (by norm_num)]
    exact ⟨_, rfl⟩
  refine ⟨?_, key⟩
  obtain ⟨r, hr1, -⟩ := (C24_is_inside bB.grid x (1 / 2)).1 (by norm_num)
  obtain ⟨_, _, _, v, -, -, -, -, hv⟩ := C24_total hs x
  have hd := get_gradient_ok hs x hm
  generalize Grid.gradFormula _ _ _ _ _ = d at hd
  cases r with
  | false =>
    refine ⟨none, ?_⟩
    unfold contactAt
    simp only [bind, Except.bind]
    rw [hr1]
    rfl
  | true =>
    by_cases h3 : v ≤ P.envelope
    · by_cases h5 : d = 0
      · refine ⟨none, ?_⟩
        unfold contactAt
        simp only [bind, Except.bind]
        rw [hr1]
        simp only [if_true, hv, hd]
        rw [if_pos h3, if_neg (by rw [h5, V3.norm_eq_zero.mpr rfl]; exact lt_irrefl _)]
        rfl
      · obtain ⟨c, hc⟩ := key v d hr1 hv h3 hd h5
        exact ⟨_, hc⟩
    · refine ⟨none, ?_⟩
      unfold contactAt
      simp only [bind, Except.bind]
      rw [hr1]
      simp only [if_true, hv]
      rw [if_neg h3]
      rfl

/-- The material triangle that the search of triangle f of body b in the field of body d starts from: same weights in the tetrahedron t. -/
def WarpedTriangle (b d : Body) (f : Tri) (t : Tet) (P0 : Fin 3 → V3) : Prop :=
  ∀ k : Fin 3, ∃ w, IsBary (tetPos d.x t) (b.x.getD (![f.a, f.b, f.c] k) 0) w ∧ IsBary (tetPos d.x0 t) (P0 k) w

theorem isBary_inj {X : Fin 4 → V3} (h : vol6 X ≠ 0) {p : V3} {w w' : Fin 4 → ℝ} (h1 : IsBary X p w) (h2 : IsBary X p w') : w = w' := by
  obtain ⟨u, hu⟩ := bary_total h p
  rw [(bary_ok hu).2.2 w h1, (bary_ok hu).2.2 w' h2]

theorem rowContact_total {P : Collision.CDParams} {B : Fin N → Body} (hB : ∀ k, SoftShapeOK (B k)) (kA kB : Fin N) {m n : ℕ}
    (hm : m < (B kA).surface.length) (hn : n < (B kB).surface.length) :
    (∃ o, rowContact P kA kB (B kA) (B kB) ((m : ℤ), (n : ℤ)) = .ok o) ∧
    ∀ f o t P0 x v d, (B kA).surface[m]? = some f → (B kB).owners[n]? = some o → (B kB).T[o.1]? = some t →
      WarpedTriangle (B kA) (B kB) f t P0 → Collision.frankWolfe P (B kB).grid P0 = .ok x →
      (B kB).grid.is_inside x = .ok true → (B kB).grid.get_value x = .ok v → v ≤ P.envelope → (B kB).grid.get_gradient x = .ok d → d ≠ 0 →
      ∃ c, rowContact P kA kB (B kA) (B kB) ((m : ℤ), (n : ℤ)) = .ok (some c) ∧ c.bodyA = kB ∧ c.bodyB = kA ∧
        ∃ w, IsBary (tetPos (B kB).x0 t) x w ∧ IsBary (tetPos (B kB).x t) c.p w := by
  have hmA : m < (B kA).owners.length := by rw [(hB kA).owned]; exact hm
  have hnB : n < (B kB).owners.length := by rw [(hB kB).owned]; exact hn
  obtain ⟨tA, a1, a2, a3, a4⟩ := (hB kA).owner_ok _ (List.getElem_mem hmA)
  obtain ⟨tB, b1, b2, b3, b4⟩ := (hB kB).owner_ok _ (List.getElem_mem hnB)
  obtain ⟨φ, hs⟩ := (hB kB).field
  set f := (B kA).surface[m] with hf
  have hfs : (B kA).surface[m]? = some f := List.getElem?_eq_getElem hm
  have hcor : Collision.corners (B kA).x (B kA).surface (m : ℤ) = .ok ![(B kA).x.getD f.a 0, (B kA).x.getD f.b 0, (B kA).x.getD f.c 0] := by
    have := corners_total (hB kA).mesh hfs id
    simpa using this
  obtain ⟨P0, hP0⟩ := xform_triangle_total (tri := ![(B kA).x.getD f.a 0, (B kA).x.getD f.b 0, (B kA).x.getD f.c 0])
    (X := tetPos (B kB).x tB) (X0 := tetPos (B kB).x0 tB) b3
  obtain ⟨x, hx⟩ := frankWolfe_total (P := P) hs (hB kB).corner P0
  have hXA := tetCorners_total a1 (fun i => (a2 i).1)
  have hXB := tetCorners_total b1 (fun i => (b2 i).1)
  have hX0 := tetCorners_total b1 (fun i => (b2 i).2)
  have hrow : rowContact P kA kB (B kA) (B kB) ((m : ℤ), (n : ℤ)) =
      contactAt P kA kB (B kA) (B kB) (B kA).owners[m].1 (B kB).owners[n].1 (tetPos (B kB).x tB) (tetPos (B kB).x0 tB) x := by
    unfold rowContact
    simp only [bind, Except.bind]
    rw [owner_total (List.getElem?_eq_getElem hmA), owner_total (List.getElem?_eq_getElem hnB), hcor]
    simp only
    rw [hXB, hX0]
    simp only
    rw [hP0]
    simp only
    rw [hx]
  obtain ⟨c1, c2⟩ := softContactAt_total (P := P) (kA := kA) (kB := kB) hs (hB kB).corner hXA a3 b3 b4 (eB := (B kB).owners[n].1) x
  rw [hrow]
  refine ⟨c1, ?_⟩
  intro f' o t P0' x' v d g1 g2 g3 g4 g5 g6 g7 g8 g9 g10
  rw [hfs] at g1
  cases g1
  rw [List.getElem?_eq_getElem hnB] at g2
  cases g2
  rw [b1] at g3
  cases g3
  have hPP : P0' = P0 := by
    funext k
    obtain ⟨w, w1, w2⟩ := g4 k
    obtain ⟨w', w1', w2'⟩ := xform_triangle_ok hP0 k
    have hk : (![(B kA).x.getD f.a 0, (B kA).x.getD f.b 0, (B kA).x.getD f.c 0] : Fin 3 → V3) k = (B kA).x.getD (![f.a, f.b, f.c] k) 0 := by
      have : ∀ i : Fin 3, i = 0 ∨ i = 1 ∨ i = 2 := by decide
      rcases this k with rfl | rfl | rfl <;> rfl
    rw [hk] at w1'
    rw [w2', interpolate_eq, ← isBary_inj b3 w1 w1']
    exact w2.2.symm
  rw [hPP, hx] at g5
  cases g5
  obtain ⟨c, hc⟩ := c2 v d g6 g7 g8 g9 g10
  obtain ⟨s1, s2, -, -, -, -, -, s3, s4, -⟩ := softContactAt_some hc
  exact ⟨c, hc, s1, s2, c.omegaA, (bary_ok s3).1, by rw [s4]; exact interp_isBary (bary_ok s3).1.1⟩

theorem soft_determination_total {P : Collision.CDParams} {B : Fin N → Body} (hB : ∀ k, SoftShapeOK (B k)) {ov : Overlaps N}
    (h : ∀ o ∈ ov, ∀ r ∈ o.2, ∃ m n : ℕ, r = ((m : ℤ), (n : ℤ)) ∧ m < (B o.1.1).surface.length ∧ n < (B o.1.2).surface.length) :
    ∃ L, contact_determination P B ov = .ok L := by
  have hcc : ∀ (kA kB : Fin N) (rows : List (ℤ × ℤ)), (∀ r ∈ rows, ∃ m n : ℕ, r = ((m : ℤ), (n : ℤ)) ∧ m < (B kA).surface.length ∧
      n < (B kB).surface.length) → ∃ L, compute_contacts P B kA kB rows = .ok L := by
    intro kA kB rows hr
    obtain ⟨R, hR, -⟩ := mapM_except (f := rowContact P kA kB (B kA) (B kB)) (L := rows) (P := fun _ _ => True) (by
      intro r h
      obtain ⟨m, n, rfl, hm, hn⟩ := hr r h
      obtain ⟨o, ho⟩ := (rowContact_total (P := P) hB kA kB hm hn).1
      exact ⟨o, ho, trivial⟩)
    refine ⟨R.filterMap id, ?_⟩
    unfold compute_contacts
    rw [hR]
    rfl
  obtain ⟨R, hR, -⟩ := mapM_except (f := pairContacts P B) (L := ov) (P := fun _ _ => True) (by
    intro o ho
    obtain ⟨a, ha⟩ := hcc o.1.1 o.1.2 o.2 (h o ho)
    obtain ⟨b, hb⟩ := hcc o.1.2 o.1.1 (o.2.map Prod.swap) (by
      intro r hr
      obtain ⟨r', hr', rfl⟩ := List.mem_map.1 hr
      obtain ⟨m, n, rfl, hm, hn⟩ := h o ho r' hr'
      exact ⟨n, m, rfl, hn, hm⟩)
    refine ⟨a ++ b, ?_, trivial⟩
    unfold pairContacts
    rw [ha, hb]
    rfl)
  refine ⟨R.flatten, ?_⟩
  unfold contact_determination
  rw [hR]
  rfl

/-- The rows of all pairs name triangles, and every pair of triangles that must be examined is listed in one of the two orders. -/
structure Covers (B : Fin N → Body) (ov : Overlaps N) (must : Fin N → Fin N → ℕ → ℕ → Prop) : Prop where
  valid : ∀ o ∈ ov, ∀ r ∈ o.2, ∃ m n : ℕ, r = ((m : ℤ), (n : ℤ)) ∧ m < (B o.1.1).surface.length ∧ n < (B o.1.2).surface.length
  complete : ∀ i j m n, must i j m n → (∃ o ∈ ov, o.1 = (i, j) ∧ ((m : ℤ), (n : ℤ)) ∈ o.2) ∨ (∃ o ∈ ov, o.1 = (j, i) ∧ ((n : ℤ), (m : ℤ)) ∈ o.2)

theorem soft_determination_complete {P : Collision.CDParams} {B : Fin N → Body} (hB : ∀ k, SoftShapeOK (B k)) {ov : Overlaps N} {must}
    (hov : Covers B ov must) :
    ∃ L, contact_determination P B ov = .ok L ∧ ∀ (i j : Fin N) (m n : ℕ), must i j m n →
      ∀ f o t P0 x v d, (B i).surface[m]? = some f → (B j).owners[n]? = some o → (B j).T[o.1]? = some t →
      WarpedTriangle (B i) (B j) f t P0 → Collision.frankWolfe P (B j).grid P0 = .ok x →
      (B j).grid.is_inside x = .ok true → (B j).grid.get_value x = .ok v → v ≤ P.envelope → (B j).grid.get_gradient x = .ok d → d ≠ 0 →
      ∃ c ∈ contact_reduction L, c.bodyA = j ∧ c.bodyB = i ∧ ∃ w, IsBary (tetPos (B j).x0 t) x w ∧ IsBary (tetPos (B j).x t) c.p w := by
  obtain ⟨L, hL⟩ := soft_determination_total (P := P) hB hov.valid
  refine ⟨L, hL, ?_⟩
  intro i j m n hmust f o t P0 x v d g1 g2 g3 g4 g5 g6 g7 g8 g9 g10
  have hm : m < (B i).surface.length := (List.getElem?_eq_some_iff.1 g1).1
  have hn : n < (B j).surface.length := by rw [← (hB j).owned]; exact (List.getElem?_eq_some_iff.1 g2).1
  obtain ⟨c, c1, c2, c3, c4⟩ := (rowContact_total (P := P) hB i j hm hn).2 f o t P0 x v d g1 g2 g3 g4 g5 g6 g7 g8 g9 g10
  have hc : c ∈ L := by
    rw [soft_determination_mem hL]
    rcases hov.complete i j m n hmust with ⟨q, hq, e, hr⟩ | ⟨q, hq, e, hr⟩
    · refine ⟨q, hq, _, hr, Or.inl ?_⟩
      rw [e]; exact c1
    · refine ⟨q, hq, _, hr, Or.inr ?_⟩
      rw [e]; exact c1
  obtain ⟨pre, k, post, -, ⟨h1, h2, h3⟩, -, h4⟩ := (C50_soft_reduction L).2.2 c hc
  exact ⟨k, h4, by rw [← h1]; exact c2, by rw [← h2]; exact c3, by rw [← h3]; exact c4⟩

/-- Surface triangle m of body b meets surface triangle n of body d. -/
def SurfacesMeet (b d : Body) (m n : ℕ) : Prop :=
  ∃ f g p, b.surface[m]? = some f ∧ d.surface[n]? = some g ∧ OnFace b.x f p ∧ OnFace d.x g p

theorem onTriangle_hull {S : Set V3} {a b c p : V3} (ha : a ∈ S) (hb : b ∈ S) (hc : c ∈ S) (h : OnTriangle p a b c) : p ∈ convexHull ℝ S := by
  obtain ⟨u, v, w, hu, hv, hw, hs, rfl⟩ := h
  have hconv := convex_convexHull ℝ S
  have h1 := subset_convexHull ℝ S ha
  have h2 := subset_convexHull ℝ S hb
  have h3 := subset_convexHull ℝ S hc
  by_cases hz : u + v = 0
  · have hu0 : u = 0 := by linarith
    have hv0 : v = 0 := by linarith
    have hw1 : w = 1 := by linarith
    rw [hu0, hv0, hw1]; simpa using h3
  · have hpos : 0 < u + v := lt_of_le_of_ne (by positivity) (Ne.symm hz)
    have := hconv (hconv h1 h2 (a := u / (u + v)) (b := v / (u + v)) (by positivity) (by positivity) (by field_simp)) h3
      (a := u + v) (b := w) (by positivity) hw hs
    rw [smul_add, smul_smul, smul_smul, mul_div_cancel₀ _ hz, mul_div_cancel₀ _ hz] at this
    exact this

theorem onFace_hull {V : List V3} {T : List Tri} (hM : MeshOK V (Collision.rows T)) {m : ℕ} {t : Tri} (ht : T[m]? = some t) {p : V3}
    (h : OnFace V t p) : p ∈ convexHull ℝ (ElementPoints V (Collision.rows T) m) := by
  have hrow : (Collision.rows T)[m]? = some [t.a, t.b, t.c] := by unfold Collision.rows; rw [List.getElem?_map, ht]; rfl
  have hmem : ∀ i ∈ [t.a, t.b, t.c], V.getD i 0 ∈ ElementPoints V (Collision.rows T) m := by
    intro i hi
    refine ⟨_, hrow, i, hi, ?_⟩
    have hlt := hM _ (List.mem_of_getElem? hrow) i hi
    rw [List.getD_eq_getElem?_getD, List.getElem?_eq_getElem hlt]
    rfl
  exact onTriangle_hull (hmem _ (by simp)) (hmem _ (by simp)) (hmem _ (by simp)) h

theorem soft_refit_total {P : Collision.CDParams} (hK : P.K = 3 ∨ P.K = 4) {b : Body} (hb : SoftShapeOK b) (hl : SoftLinksOK b) :
    ∃ t trees, SoftCollision.refitBody P b = .ok { b with bvh := t } ∧ TreeOK b.x (Collision.rows b.surface) P.K P.envelope t trees := by
  obtain ⟨trees, hl⟩ := hl
  obtain ⟨t', h1, h2, -⟩ := refit_bvh_spec (env := P.envelope) hb.mesh hK b.bvh trees hl
  refine ⟨t', trees, ?_, h2⟩
  unfold SoftCollision.refitBody
  rw [h1]
  rfl

theorem soft_update_total {P : Collision.CDParams} (L : List (Fin N)) (hL : L.Nodup) {B : Fin N → Body}
    (h : ∀ k ∈ L, ∃ b, SoftCollision.refitBody P (B k) = .ok b) :
    ∃ B', L.foldlM (fun B k => do
      let b ← SoftCollision.refitBody P (B k)
      return Function.update B k b) B = (.ok B' : Except PyErr _) := by
  induction L generalizing B with
  | nil => exact ⟨B, rfl⟩
  | cons a L ih =>
    rw [List.nodup_cons] at hL
    obtain ⟨c, hc⟩ := h a (by simp)
    obtain ⟨C', hC'⟩ := ih hL.2 (B := Function.update B a c) (by
      intro k hk
      obtain ⟨c', h'⟩ := h k (by simp [hk])
      refine ⟨c', ?_⟩
      rw [Function.update_of_ne]
      · exact h'
      · rintro rfl; exact hL.1 hk)
    refine ⟨C', ?_⟩
    rw [List.foldlM_cons]
    simp only [bind, Except.bind, hc, pure, Except.pure]
    exact hC'

/-- What a run has to report about the triangles m of body i and n of body j: whenever the point that the search finds on the triangle
of i, warped into the material frame of the tetrahedron behind the triangle of j, passes the contact test of the field of j, the
point of the world with the same weights is a contact of the two bodies. -/
def Examined (P : Collision.CDParams) (B : Fin N → Body) (cps : List (Contact N)) (i j : Fin N) (m n : ℕ) : Prop :=
  ∀ f o t P0 x v d, (B i).surface[m]? = some f → (B j).owners[n]? = some o → (B j).T[o.1]? = some t →
    WarpedTriangle (B i) (B j) f t P0 → Collision.frankWolfe P (B j).grid P0 = .ok x →
    (B j).grid.is_inside x = .ok true → (B j).grid.get_value x = .ok v → v ≤ P.envelope → (B j).grid.get_gradient x = .ok d → d ≠ 0 →
    ∃ c ∈ cps, c.bodyA = j ∧ c.bodyB = i ∧ ∃ w, IsBary (tetPos (B j).x0 t) x w ∧ IsBary (tetPos (B j).x t) c.p w

/-- **C82.** For valid bodies a run with hierarchies finishes without an error, leaves valid bodies, and every pair of surface triangles
of two different bodies that meet is examined from both sides. -/
theorem C82_complete_bvh {P : Collision.CDParams} (hK : P.K = 3 ∨ P.K = 4) (he : 0 ≤ P.envelope) {B : Fin N → Body}
    (hB : ∀ k, SoftShapeOK (B k)) (hl : ∀ k, SoftLinksOK (B k)) :
    ∃ B' cps, run_bvh P B = .ok (B', cps) ∧ (∀ k, SoftShapeOK (B' k) ∧ SoftLinksOK (B' k)) ∧
      ∀ (i j : Fin N) (m n : ℕ), i ≠ j → SurfacesMeet (B i) (B j) m n → Examined P B cps i j m n := by
  obtain ⟨B1, hu⟩ := soft_update_total (P := P) (List.finRange N) (List.nodup_finRange N) (B := B) (by
    intro k _
    obtain ⟨t, trees, h, -⟩ := soft_refit_total hK (hB k) (hl k)
    exact ⟨_, h⟩)
  change SoftCollision.update_bvh P B = .ok B1 at hu
  have hfr : ∀ k, ∃ t trees, B1 k = { B k with bvh := t } ∧ TreeOK (B k).x (Collision.rows (B k).surface) P.K P.envelope t trees := by
    intro k
    obtain ⟨t, trees, h, h'⟩ := soft_refit_total hK (hB k) (hl k)
    rw [soft_update_ok hu k] at h
    exact ⟨_, trees, Except.ok.inj h, h'⟩
  choose tr trees hB1 htree using hfr
  have hx : B1 = fun k => { B k with bvh := tr k } := funext hB1
  subst hx
  have hS1 : ∀ k, SoftShapeOK ({ B k with bvh := tr k } : Body) := fun k => by
    obtain ⟨a, b, c, d, e⟩ := hB k
    exact ⟨a, b, c, d, e⟩
  have htrav : ∀ i j : Fin N, ∃ res, BVH.traversal (tr i) (tr j) = .ok res ∧
      (∀ o ∈ res, ∃ m n : ℕ, o = ((m : ℤ), (n : ℤ)) ∧ m < (B i).surface.length ∧ n < (B j).surface.length) ∧
      ∀ m n, SurfacesMeet (B i) (B j) m n → ((m : ℤ), (n : ℤ)) ∈ res := by
    intro i j
    obtain ⟨res, r1, -, r3⟩ := C20_traversal _ _ _ _ (htree i) (htree j)
    refine ⟨res, r1, ?_, ?_⟩
    · rintro ⟨a, b⟩ ho
      obtain ⟨m, n, rfl, rfl, hm, hn, -⟩ := (r3 a b).1 ho
      simp only [Collision.rows, List.length_map] at hm hn
      exact ⟨m, n, rfl, hm, hn⟩
    · rintro m n ⟨t, s, p, ht, hs, hp1, hp2⟩
      have hm : m < (Collision.rows (B i).surface).length := by simp [Collision.rows, (List.getElem?_eq_some_iff.1 ht).1]
      have hn : n < (Collision.rows (B j).surface).length := by simp [Collision.rows, (List.getElem?_eq_some_iff.1 hs).1]
      obtain ⟨D, hD⟩ := leafDop_exists (hB i).mesh hK P.envelope hm
      obtain ⟨E, hE⟩ := leafDop_exists (hB j).mesh hK P.envelope hn
      rw [r3]
      refine ⟨m, n, rfl, rfl, hm, hn, D, E, hD, hE, ?_⟩
      exact (C17_overlap D E).2.1 p (by rw [leafDop_K hD]; exact hK) (by rw [leafDop_K hD, leafDop_K hE])
        (leafDop_contains (hB i).mesh hK he hD (onFace_hull (hB i).mesh ht hp1))
        (leafDop_contains (hB j).mesh hK he hE (onFace_hull (hB j).mesh hs hp2))
  choose res hres1 hres2 hres3 using htrav
  set G : Fin N × Fin N → Option ((Fin N × Fin N) × List (ℤ × ℤ)) := fun ij =>
    if (res ij.1 ij.2).length > 0 then some (ij, res ij.1 ij.2) else none with hG
  have hnarrow : SoftCollision.narrow_phase (fun k => { B k with bvh := tr k }) = .ok (((Collision.combinations N).map G).filterMap id) := by
    unfold SoftCollision.narrow_phase
    have : (Collision.combinations N).mapM (SoftCollision.narrowPair fun k => { B k with bvh := tr k }) = .ok ((Collision.combinations N).map G) := by
      generalize Collision.combinations N = L
      induction L with
      | nil => rfl
      | cons a L ih =>
        rw [List.mapM_cons, ih]
        unfold SoftCollision.narrowPair
        simp only [bind, Except.bind]
        rw [hres1]
        rfl
    rw [this]
    rfl
  have hov : ∀ o, o ∈ (((Collision.combinations N).map G).filterMap id) ↔ o.1.1 < o.1.2 ∧ o.2 = res o.1.1 o.1.2 ∧ 0 < o.2.length := by
    rintro ⟨⟨i, j⟩, l⟩
    rw [List.mem_filterMap]
    constructor
    · rintro ⟨a, ha, rfl⟩
      obtain ⟨⟨i', j'⟩, h1, h2⟩ := List.mem_map.1 ha
      simp only [id, hG] at h2
      split_ifs at h2 with h3
      simp only [Option.some.injEq, Prod.mk.injEq] at h2
      obtain ⟨⟨rfl, rfl⟩, rfl⟩ := h2
      exact ⟨mem_combinations.1 h1, rfl, h3⟩
    · rintro ⟨h1, h2, h3⟩
      simp only at h1 h2 h3
      refine ⟨some ((i, j), l), List.mem_map.2 ⟨(i, j), mem_combinations.2 h1, ?_⟩, rfl⟩
      simp only [hG]
      rw [← h2, if_pos h3]
  generalize ((Collision.combinations N).map G).filterMap id = ov at hnarrow hov
  obtain ⟨L, hL, hcomp⟩ := soft_determination_complete (P := P) hS1 (ov := ov)
    (must := fun i j m n => i ≠ j ∧ SurfacesMeet (B i) (B j) m n) (by
      constructor
      · intro o ho r hr
        obtain ⟨-, h2, -⟩ := (hov o).1 ho
        rw [h2] at hr
        exact hres2 _ _ r hr
      · rintro i j m n ⟨hij, hmeet⟩
        rcases lt_or_gt_of_ne hij with hlt | hlt
        · have hmem := hres3 i j m n hmeet
          exact Or.inl ⟨((i, j), res i j), (hov _).2 ⟨hlt, rfl, List.length_pos_of_mem hmem⟩, rfl, hmem⟩
        · obtain ⟨f, g, p, h1, h2, h3, h4⟩ := hmeet
          have hmem := hres3 j i n m ⟨g, f, p, h2, h1, h4, h3⟩
          exact Or.inr ⟨((j, i), res j i), (hov _).2 ⟨hlt, rfl, List.length_pos_of_mem hmem⟩, rfl, hmem⟩)
  refine ⟨fun k => { B k with bvh := tr k }, contact_reduction L, ?_, ?_, ?_⟩
  rotate_left
  · exact fun k => ⟨hS1 k, trees k, (htree k).1.imp (fun _ _ h => h.1), (htree k).2.1⟩
  · intro i j m n hij hmeet
    exact hcomp i j m n ⟨hij, hmeet⟩
  · unfold run_bvh
    rw [hu]
    simp only [bind, Except.bind]
    rw [hnarrow]
    simp only []
    rw [hL]
    rfl

/-! ### Spatial hashing -/

theorem mem_groupPairs {listOf : Finset (ℤ × ℤ) → List (ℤ × ℤ)} (hl : ∀ s x, x ∈ listOf s ↔ x ∈ s) (res : List SpatialHash.Pair)
    (i j : Fin N) (m n : ℤ) :
    (∃ o ∈ groupPairs N listOf res, o.1 = (i, j) ∧ (m, n) ∈ o.2) ↔ ∃ u t : ℕ, m = u ∧ n = t ∧ ((i : ℕ), (j : ℕ), u, t) ∈ res := by
  unfold groupPairs
  simp only
  set rows := res.filterMap fun p => if h : p.1 < N ∧ p.2.1 < N then
    some (((⟨p.1, h.1⟩, ⟨p.2.1, h.2⟩) : Fin N × Fin N), ((p.2.2.1 : ℤ), (p.2.2.2 : ℤ))) else none with hrows
  have hrow : ((i, j), (m, n)) ∈ rows ↔ ∃ u t : ℕ, m = u ∧ n = t ∧ ((i : ℕ), (j : ℕ), u, t) ∈ res := by
    rw [hrows, List.mem_filterMap]
    constructor
    · rintro ⟨⟨b, a, u, t⟩, hp, hq⟩
      split_ifs at hq with hh
      simp only [Option.some.injEq, Prod.mk.injEq] at hq
      obtain ⟨⟨rfl, rfl⟩, rfl, rfl⟩ := hq
      exact ⟨u, t, rfl, rfl, hp⟩
    · rintro ⟨u, t, rfl, rfl, hp⟩
      refine ⟨_, hp, ?_⟩
      rw [dif_pos ⟨i.2, j.2⟩]
  rw [← hrow]
  have hrep := reduceBy_spec (fun a b : Fin N × Fin N => decide (a = b)) (by simp) (by simp) (by simp) (rows.map (·.1))
  constructor
  · rintro ⟨o, ho, h1, h2⟩
    obtain ⟨k, hk, rfl⟩ := List.mem_map.1 ho
    simp only at h1 h2
    subst h1
    rw [hl, List.mem_toFinset] at h2
    obtain ⟨r, hr, e⟩ := List.mem_map.1 h2
    rw [List.mem_filter, decide_eq_true_eq] at hr
    obtain ⟨r1, r2⟩ := r
    simp only at e hr
    rw [← e, ← hr.2]
    exact hr.1
  · intro h
    obtain ⟨pre, f, post, -, hs, -, hf⟩ := hrep.2.2 (i, j) (List.mem_map.2 ⟨_, h, rfl⟩)
    rw [decide_eq_true_eq] at hs
    subst hs
    refine ⟨_, List.mem_map.2 ⟨_, hf, rfl⟩, rfl, ?_⟩
    rw [hl, List.mem_toFinset]
    refine List.mem_map.2 ⟨_, List.mem_filter.2 ⟨h, by simp⟩, rfl⟩

/-- Triangle number m of body b with its current corners. -/
def softTri (b : Body) (f : Tri) : SpatialHash.Tri := ⟨b.x.getD f.a 0, b.x.getD f.b 0, b.x.getD f.c 0⟩

theorem aabb_onTriangle {t : SpatialHash.Tri} {p : V3} (h : OnTriangle p t.a t.b t.c) :
    (SpatialHash.triAABB t).min_point.x ≤ p.x ∧ p.x ≤ (SpatialHash.triAABB t).max_point.x ∧
    (SpatialHash.triAABB t).min_point.y ≤ p.y ∧ p.y ≤ (SpatialHash.triAABB t).max_point.y ∧
    (SpatialHash.triAABB t).min_point.z ≤ p.z ∧ p.z ≤ (SpatialHash.triAABB t).max_point.z := by
  obtain ⟨u, v, w, hu, hv, hw, hs, rfl⟩ := h
  have key : ∀ a b c : ℝ, min (min a b) c ≤ u * a + v * b + w * c ∧ u * a + v * b + w * c ≤ max (max a b) c := by
    intro a b c
    have h1 : min (min a b) c ≤ a := (min_le_left _ _).trans (min_le_left _ _)
    have h2 : min (min a b) c ≤ b := (min_le_left _ _).trans (min_le_right _ _)
    have h3 : min (min a b) c ≤ c := min_le_right _ _
    have h4 : a ≤ max (max a b) c := (le_max_left _ _).trans (le_max_left _ _)
    have h5 : b ≤ max (max a b) c := (le_max_right _ _).trans (le_max_left _ _)
    have h6 : c ≤ max (max a b) c := le_max_right _ _
    generalize min (min a b) c = l at *
    generalize max (max a b) c = r at *
    constructor
    · calc l = u * l + v * l + w * l := by rw [← add_mul, ← add_mul, hs, one_mul]
        _ ≤ _ := add_le_add (add_le_add (mul_le_mul_of_nonneg_left h1 hu) (mul_le_mul_of_nonneg_left h2 hv)) (mul_le_mul_of_nonneg_left h3 hw)
    · calc _ ≤ u * r + v * r + w * r := add_le_add (add_le_add (mul_le_mul_of_nonneg_left h4 hu) (mul_le_mul_of_nonneg_left h5 hv)) (mul_le_mul_of_nonneg_left h6 hw)
        _ = r := by rw [← add_mul, ← add_mul, hs, one_mul]
  have hx := key t.a.x t.b.x t.c.x
  have hy := key t.a.y t.b.y t.c.y
  have hz := key t.a.z t.b.z t.c.z
  exact ⟨hx.1, hx.2, hy.1, hy.2, hz.1, hz.2⟩

theorem aabb_overlap_of_meet {s t : SpatialHash.Tri} {p : V3} (h1 : OnTriangle p s.a s.b s.c) (h2 : OnTriangle p t.a t.b t.c) :
    AABB.is_overlap (SpatialHash.triAABB s) (SpatialHash.triAABB t) := by
  obtain ⟨a1, a2, a3, a4, a5, a6⟩ := aabb_onTriangle h1
  obtain ⟨b1, b2, b3, b4, b5, b6⟩ := aabb_onTriangle h2
  unfold AABB.is_overlap AABB.anyLt
  rw [if_neg (by simp)]
  rintro ((h | h | h) | (h | h | h)) <;> linarith

/-- The self-collision test of the program accepts triangles m and n of the body, the one with the larger number first. -/
def SelfHit (eps : ℝ) (b : Body) (m n : ℕ) : Prop :=
  ∃ f g, b.surface[max m n]? = some f ∧ b.surface[min m n]? = some g ∧ m ≠ n ∧
    SpatialHash.is_self_collision eps (softTri b f) (softTri b g) (SpatialHash.triAABB (softTri b f)) (SpatialHash.triAABB (softTri b g))

theorem hashBodies_get (B : Fin N → Body) (k : Fin N) : (hashBodies B)[(k : ℕ)]? = some ⟨k, (B k).surface.map (softTri (B k))⟩ := by
  unfold hashBodies
  rw [List.getElem?_ofFn, dif_pos k.2]
  rfl

theorem hashBodies_get' (B : Fin N → Body) {n : ℕ} {b : SpatialHash.SBody} (h : (hashBodies B)[n]? = some b) :
    ∃ k : Fin N, (k : ℕ) = n ∧ b = ⟨k, (B k).surface.map (softTri (B k))⟩ := by
  have hn : n < N := by
    have := (List.getElem?_eq_some_iff.1 h).1
    simpa [hashBodies] using this
  refine ⟨⟨n, hn⟩, rfl, ?_⟩
  have := hashBodies_get B ⟨n, hn⟩
  rw [h] at this
  exact Option.some.inj this

/-- **C82.** The same with spatial hashing, whatever the cell size, the hash function and what earlier runs left in the table (all
reachable tables qualify, `C22_history`): the run finishes, every pair of triangles of different bodies that meet is examined from
both sides, and so is every pair of triangles of one body that the self-collision test accepts. -/
theorem C82_complete_hash {eps : ℝ} {listOf : Finset (ℤ × ℤ) → List (ℤ × ℤ)} (hlist : ∀ s x, x ∈ listOf s ↔ x ∈ s)
    {P : Collision.CDParams} {B : Fin N → Body} (hB : ∀ k, SoftShapeOK (B k))
    (grid : SpatialHash.HashGrid SpatialHash.Obj) (ts : ℤ) (hcs : 0 < grid.cell_size) (hg : GridRefers (shapeOf (hashBodies B)) grid) :
    ∃ grid' cps, run_hash eps listOf P B grid ts = .ok (grid', cps) ∧ GridRefers (shapeOf (hashBodies B)) grid' ∧
      (∀ (i j : Fin N) (m n : ℕ), i ≠ j → SurfacesMeet (B i) (B j) m n → Examined P B cps i j m n) ∧
      ∀ (i : Fin N) (m n : ℕ), SelfHit eps (B i) m n → Examined P B cps i i m n := by
  have hidx : IndexedBodies (hashBodies B) := by
    intro n b h
    obtain ⟨k, rfl, rfl⟩ := hashBodies_get' B h
    rfl
  obtain ⟨g', res, h1, -, h3, h4, h5, h6⟩ := C22_no_missed_pair eps grid (hashBodies B) ts hcs hidx hg
  obtain ⟨L, hL, hcomp⟩ := soft_determination_complete (P := P) hB (ov := groupPairs N listOf res)
    (must := fun i j m n => (i ≠ j ∧ SurfacesMeet (B i) (B j) m n) ∨ (i = j ∧ SelfHit eps (B i) m n)) (by
      constructor
      · rintro ⟨⟨i, j⟩, l⟩ ho ⟨r1, r2⟩ hr
        obtain ⟨u, t, rfl, rfl, hm⟩ := (mem_groupPairs hlist res i j r1 r2).1 ⟨_, ho, rfl, hr⟩
        obtain ⟨n, m, e1, e2, e3, e4⟩ := h6 _ _ _ _ hm
        unfold shapeOf at e1 e3
        rw [List.getElem?_map, hashBodies_get] at e1 e3
        simp only [Option.map_some, List.length_map, Option.some.injEq] at e1 e3
        exact ⟨u, t, rfl, by simp only; omega, by simp only; omega⟩
      · intro i j m n hmust
        have hpair : ∀ (i j : Fin N) m n, i < j → SurfacesMeet (B i) (B j) m n → ((j : ℕ), (i : ℕ), n, m) ∈ res := by
          rintro i j m n hij ⟨f, g, p, f1, f2, f3, f4⟩
          refine h4 i j _ _ m n (softTri (B i) f) (softTri (B j) g) hij (hashBodies_get B i) (hashBodies_get B j) ?_ ?_
            (aabb_overlap_of_meet f3 f4)
          · rw [List.getElem?_map, f1]; rfl
          · rw [List.getElem?_map, f2]; rfl
        rcases hmust with ⟨hij, hmeet⟩ | ⟨rfl, hself⟩
        · rcases lt_or_gt_of_ne hij with hlt | hlt
          · exact Or.inr ((mem_groupPairs hlist res j i n m).2 ⟨n, m, rfl, rfl, hpair i j m n hlt hmeet⟩)
          · obtain ⟨f, g, p, f1, f2, f3, f4⟩ := hmeet
            exact Or.inl ((mem_groupPairs hlist res i j m n).2 ⟨m, n, rfl, rfl, hpair j i n m hlt ⟨g, f, p, f2, f1, f4, f3⟩⟩)
        · obtain ⟨f, g, f1, f2, hne, hs⟩ := hself
          have := h5 i _ (min m n) (max m n) (softTri (B i) g) (softTri (B i) f) (hashBodies_get B i)
            (min_lt_max.2 hne) (by rw [List.getElem?_map, f2]; rfl) (by rw [List.getElem?_map, f1]; rfl) hs
          rcases lt_or_gt_of_ne hne with hlt | hlt
          · rw [max_eq_right hlt.le, min_eq_left hlt.le] at this
            exact Or.inr ((mem_groupPairs hlist res i i n m).2 ⟨n, m, rfl, rfl, this⟩)
          · rw [max_eq_left hlt.le, min_eq_right hlt.le] at this
            exact Or.inl ((mem_groupPairs hlist res i i m n).2 ⟨m, n, rfl, rfl, this⟩))
  refine ⟨g', contact_reduction L, ?_, h3, fun i j m n hij hmeet => hcomp i j m n (Or.inl ⟨hij, hmeet⟩),
    fun i m n hs => hcomp i i m n (Or.inr ⟨rfl, hs⟩)⟩
  unfold run_hash
  rw [h1]
  simp only [bind, Except.bind]
  rw [hL]
  rfl

end

end Verif
