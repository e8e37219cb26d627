import Verif.Props.Collision

/-! C69: collision detection of rigid bodies finishes and misses no pair of intersecting triangles. -/

namespace Verif

open VMesh (Tri)
open Collision Rigid

section
variable {N : ℕ}

/-- A collider as the rest of the program builds it: indices exist; the hierarchy links store one leaf per triangle (what `make_bvh`
and any number of refits leave behind, see `colliderOK_make`); the distance field has a value at every node of a grid with
positive spacing, and no side of its box lies in a coordinate plane. -/
structure ColliderOK (c : Collider) : Prop where
  mesh : MeshOK c.V (rows c.T)
  links : ∃ trees, LinksOK (rows c.T) c.bvh.chunks trees
  field : ∃ φ, Sampled c.grid φ
  corner : c.grid.min_coord.x ≠ 0 ∧ c.grid.min_coord.y ≠ 0 ∧ c.grid.min_coord.z ≠ 0

/-- A hierarchy built by `make_bvh` with any valid settings is fine. -/
theorem colliderOK_make {V : List V3} {T : List Tri} {g : Grid} {K M : ℕ} {env : ℝ} {tree : BVH.Tree} (hV : MeshOK V (rows T))
    (hK : K = 3 ∨ K = 4) (hM : 1 ≤ M) (h : BVH.make_bvh V (rows T) K M env = .ok tree) (hg : ∃ φ, Sampled g φ)
    (hc : g.min_coord.x ≠ 0 ∧ g.min_coord.y ≠ 0 ∧ g.min_coord.z ≠ 0) : ColliderOK ⟨V, T, g, tree⟩ := by
  obtain ⟨t', trees, m1, -, m3, m4⟩ := C18_make_bvh V (rows T) K M env hV hK hM
  rw [h] at m1
  cases m1
  exact ⟨hV, ⟨trees, m4.1.imp (fun _ _ h => h.1), m3⟩, hg, hc⟩

theorem meshOK_world (b : RigidBody) {V : List V3} {T : List (List ℕ)} (h : MeshOK V T) : MeshOK (V.map (toWorld b)) T := by
  intro idx hi i hi'
  rw [List.length_map]
  exact h idx hi i hi'

theorem refitBody_total {P : CDParams} (hK : P.K = 3 ∨ P.K = 4) (b : RigidBody) {c : Collider} (hc : ColliderOK c) :
    ∃ c' trees, refitBody P b c = .ok c' ∧ TreeOK (c.V.map (toWorld b)) (rows c.T) P.K P.envelope c'.bvh trees := by
  obtain ⟨trees, hl⟩ := hc.links
  obtain ⟨t', h1, h2, -⟩ := refit_bvh_spec (env := P.envelope) (meshOK_world b hc.mesh) hK c.bvh trees hl
  refine ⟨{ c with bvh := t' }, trees, ?_, h2⟩
  unfold refitBody
  rw [worldVertices_ok]
  simp only [bind, Except.bind]
  rw [h1]
  rfl

theorem update_fold_total {P : CDParams} {bodies : Fin N → RigidBody} (L : List (Fin N)) (hL : L.Nodup) {C : Fin N → Collider}
    (h : ∀ k ∈ L, ∃ c', refitBody P (bodies k) (C k) = .ok c') :
    ∃ C', L.foldlM (fun C k => do
      let c ← refitBody P (bodies k) (C k)
      return Function.update C k c) C = (.ok C' : Except PyErr _) := by
  induction L generalizing C with
  | nil => exact ⟨C, rfl⟩
  | cons a L ih =>
    rw [List.nodup_cons] at hL
    obtain ⟨c, hc⟩ := h a (by simp)
    obtain ⟨C', hC'⟩ := ih hL.2 (C := Function.update C a c) (by
      intro k hk
      obtain ⟨c', h'⟩ := h k (by simp [hk])
      refine ⟨c', ?_⟩
      rw [Function.update_of_ne]
      · exact h'
      · rintro rfl; exact hL.1 hk)
    refine ⟨C', ?_⟩
    rw [List.foldlM_cons]
    simp only [bind, Except.bind, hc, pure, Except.pure]
    exact hC'

theorem frankWolfe_total {P : CDParams} {g : Grid} {φ} (hs : Sampled g φ) (hm : g.min_coord.x ≠ 0 ∧ g.min_coord.y ≠ 0 ∧ g.min_coord.z ≠ 0)
    (p : Fin 3 → V3) : ∃ x, frankWolfe P g p = .ok x := by
  have hstep : ∀ i x, ∃ r, fwStep g p i x = .ok r := by
    intro i x
    unfold fwStep
    rw [get_gradient_ok hs x hm]
    exact ⟨_, rfl⟩
  have hloop : ∀ fuel i x, ∃ y, fwLoop g p P.contact_optimization_tolerance fuel i x = .ok y := by
    intro fuel
    induction fuel with
    | zero => intro i x; exact ⟨x, rfl⟩
    | succ n ih =>
      intro i x
      obtain ⟨r, hr⟩ := hstep i x
      unfold fwLoop
      rw [hr]
      simp only [bind, Except.bind]
      by_cases ht : r.2 > P.contact_optimization_tolerance
      · rw [if_pos ht]; exact ⟨_, rfl⟩
      · rw [if_neg ht]; exact ih _ _
  unfold frankWolfe fwStart
  rw [get_gradient_ok hs _ hm, get_gradient_ok hs _ hm, get_gradient_ok hs _ hm]
  exact hloop _ _ _

/-- the contact at a point, when there is one -/
theorem contactAt_ok {P : CDParams} {kA kB : Fin N} {bodyB : RigidBody} {g : Grid} {φ} (hs : Sampled g φ)
    (hm : g.min_coord.x ≠ 0 ∧ g.min_coord.y ≠ 0 ∧ g.min_coord.z ≠ 0) (x : V3) :
    (∃ o, contactAt P kA kB bodyB g x = .ok o) ∧
    ∀ v d, g.is_inside x = .ok true → g.get_value x = .ok v → v ≤ P.envelope → g.get_gradient x = .ok d → Quat.rotate bodyB.q d ≠ 0 →
      contactAt P kA kB bodyB g x = .ok (some ⟨kB, kA, toWorld bodyB x, V3.unit (Quat.rotate bodyB.q d), v⟩) := by
  have hinit : ∀ n : V3, n ≠ 0 → ∀ p gap, ContactPoint.init kB kA p (V3.unit n) gap = .ok ⟨kB, kA, p, V3.unit n, gap⟩ := by
    intro n hn p gap
    unfold ContactPoint.init
    have : V3.norm (V3.unit n) = 1 := by
      unfold V3.norm; rw [V3.unit_dot hn]; simp
    rw [this, if_neg (by norm_num)]
  have hpos : ∀ n : V3, 0 < V3.norm n ↔ n ≠ 0 := by
    intro n
    constructor
    · rintro h rfl
      simp [V3.norm, V3.dot] at h
    · exact V3.norm_pos
  have key : ∀ v d, g.is_inside x = .ok true → g.get_value x = .ok v → v ≤ P.envelope → g.get_gradient x = .ok d → Quat.rotate bodyB.q d ≠ 0 →
      contactAt P kA kB bodyB g x = .ok (some ⟨kB, kA, toWorld bodyB x, V3.unit (Quat.rotate bodyB.q d), v⟩) := by
    intro v d h1 h2 h3 h4 h5
    unfold contactAt
    simp only [bind, Except.bind, h1, h2, h4, if_true]
    rw [if_pos h3, if_pos ((hpos _).2 h5), hinit _ h5]
    rfl
  refine ⟨?_, key⟩
  obtain ⟨r, hr1, -⟩ := (C24_is_inside g x (1 / 2)).1 (by norm_num)
  obtain ⟨_, _, _, v, -, -, -, -, hv⟩ := C24_total hs x
  have hd := get_gradient_ok hs x hm
  generalize Grid.gradFormula _ _ _ _ _ = d at hd
  cases r with
  | false =>
    refine ⟨none, ?_⟩
    unfold contactAt
    simp only [bind, Except.bind]
    rw [hr1]
    rfl
  | true =>
    by_cases h3 : v ≤ P.envelope
    · by_cases h5 : Quat.rotate bodyB.q d = 0
      · refine ⟨none, ?_⟩
        unfold contactAt
        simp only [bind, Except.bind]
        rw [hr1]
        simp only [if_true, hv, hd]
        rw [if_pos h3, if_neg (by rw [gt_iff_lt, hpos]; simpa using h5)]
        rfl
      · exact ⟨_, key v d hr1 hv h3 hd h5⟩
    · refine ⟨none, ?_⟩
      unfold contactAt
      simp only [bind, Except.bind]
      rw [hr1]
      simp only [if_true, hv]
      rw [if_neg h3]
      rfl

theorem corners_total {V : List V3} {T : List Tri} (hM : MeshOK V (rows T)) {m : ℕ} {t : Tri} (ht : T[m]? = some t) (f : V3 → V3) :
    corners (V.map f) T (m : ℤ) = .ok ![f (V.getD t.a 0), f (V.getD t.b 0), f (V.getD t.c 0)] := by
  have hmem : [t.a, t.b, t.c] ∈ rows T := List.mem_map.2 ⟨t, List.mem_of_getElem? ht, rfl⟩
  have hl : ∀ i ∈ [t.a, t.b, t.c], BVH.lookup (V.map f) i = .ok (f (V.getD i 0)) := by
    intro i hi
    have hlt := hM _ hmem i hi
    unfold BVH.lookup
    rw [List.getElem?_map, List.getElem?_eq_getElem hlt, List.getD_eq_getElem?_getD, List.getElem?_eq_getElem hlt]
    rfl
  unfold corners
  rw [if_pos (by positivity), Int.toNat_natCast, ht]
  simp only [bind, Except.bind]
  rw [hl t.a (by simp), hl t.b (by simp), hl t.c (by simp)]
  rfl

/-- The world triangle t of body b meets the world triangle s of body d. -/
def TrianglesMeet (b d : RigidBody) (Vb Vd : List V3) (t s : Tri) : Prop :=
  ∃ p, OnTriangle p (worldCorner b Vb t.a) (worldCorner b Vb t.b) (worldCorner b Vb t.c) ∧
    OnTriangle p (worldCorner d Vd s.a) (worldCorner d Vd s.b) (worldCorner d Vd s.c)

theorem inTriangle_hull {b : RigidBody} {V : List V3} {T : List Tri} (hM : MeshOK V (rows T)) {m : ℕ} {t : Tri} (ht : T[m]? = some t) {p : V3}
    (h : OnTriangle p (worldCorner b V t.a) (worldCorner b V t.b) (worldCorner b V t.c)) :
    p ∈ convexHull ℝ (ElementPoints (V.map (toWorld b)) (rows T) m) := by
  obtain ⟨u, v, w, hu, hv, hw, hs, rfl⟩ := h
  have hrow : (rows T)[m]? = some [t.a, t.b, t.c] := by unfold rows; rw [List.getElem?_map, ht]; rfl
  have hmem : ∀ i ∈ [t.a, t.b, t.c], worldCorner b V i ∈ convexHull ℝ (ElementPoints (V.map (toWorld b)) (rows T) m) := by
    intro i hi
    apply subset_convexHull
    refine ⟨_, hrow, i, hi, ?_⟩
    have hlt := hM _ (List.mem_of_getElem? hrow) i hi
    unfold worldCorner
    rw [List.getElem?_map, List.getElem?_eq_getElem hlt, List.getD_eq_getElem?_getD, List.getElem?_eq_getElem hlt]
    rfl
  have hconv := convex_convexHull ℝ (ElementPoints (V.map (toWorld b)) (rows T) m)
  have h1 := hmem t.a (by simp)
  have h2 := hmem t.b (by simp)
  have h3 := hmem t.c (by simp)
  by_cases hz : u + v = 0
  · have hu0 : u = 0 := by linarith
    have hv0 : v = 0 := by linarith
    have hw1 : w = 1 := by linarith
    rw [hu0, hv0, hw1]; simpa using h3
  · have hpos : 0 < u + v := lt_of_le_of_ne (by positivity) (Ne.symm hz)
    have := hconv (hconv h1 h2 (a := u / (u + v)) (b := v / (u + v)) (by positivity) (by positivity) (by field_simp)) h3
      (a := u + v) (b := w) (by positivity) hw hs
    rw [smul_add, smul_smul, smul_smul, mul_div_cancel₀ _ hz, mul_div_cancel₀ _ hz] at this
    exact this

theorem triangleContact_total {P : CDParams} {bodies : Fin N → RigidBody} {C : Fin N → Collider} (hC : ∀ k, ColliderOK (C k)) (kA kB : Fin N)
    {m : ℕ} (hm : m < (C kA).T.length) :
    ∃ o, triangleContact P kA kB (bodies kB) (C kB).grid ((C kA).V.map fun v => toBody (bodies kB) (toWorld (bodies kA) v)) (C kA).T (m : ℤ) =
      .ok o := by
  obtain ⟨φ, hs⟩ := (hC kB).field
  unfold triangleContact
  rw [corners_total (hC kA).mesh (List.getElem?_eq_getElem hm)]
  simp only [bind, Except.bind]
  obtain ⟨x, hx⟩ := frankWolfe_total (P := P) hs (hC kB).corner
    ![toBody (bodies kB) (toWorld (bodies kA) ((C kA).V.getD (C kA).T[m].a 0)), toBody (bodies kB) (toWorld (bodies kA) ((C kA).V.getD (C kA).T[m].b 0)),
      toBody (bodies kB) (toWorld (bodies kA) ((C kA).V.getD (C kA).T[m].c 0))]
  rw [hx]
  exact (contactAt_ok hs (hC kB).corner x).1

theorem compute_contacts_total {P : CDParams} {bodies : Fin N → RigidBody} {C : Fin N → Collider} (hC : ∀ k, ColliderOK (C k)) (kA kB : Fin N)
    {tris : List ℤ} (ht : ∀ t ∈ tris, ∃ m : ℕ, t = m ∧ m < (C kA).T.length) : ∃ L, compute_contacts P bodies C kA kB tris = .ok L := by
  obtain ⟨R, hR, -⟩ := mapM_except (f := triangleContact P kA kB (bodies kB) (C kB).grid
    ((C kA).V.map fun v => toBody (bodies kB) (toWorld (bodies kA) v)) (C kA).T) (L := tris) (P := fun _ _ => True) (by
      intro t h
      obtain ⟨m, rfl, hm⟩ := ht t h
      obtain ⟨o, ho⟩ := triangleContact_total (P := P) (bodies := bodies) hC kA kB hm
      exact ⟨o, ho, trivial⟩)
  refine ⟨R.filterMap id, ?_⟩
  unfold compute_contacts
  rw [verticesInFrame_ok]
  simp only [bind, Except.bind]
  rw [hR]
  rfl

theorem rotate_ne_zero {q : Quat} (hq : IsUnitQ q) {d : V3} (hd : d ≠ 0) : Quat.rotate q d ≠ 0 := by
  intro h
  apply hd
  have := (C02_rotate_conjugate hq d).1
  rw [h] at this
  rw [← this]
  have h2 := (C02_rotate_linear (Quat.conjugate q) 0 0 0).2
  simpa using h2

/-- **C69.** For valid colliders collision detection finishes without an error; it leaves valid colliders; and every pair of triangles
of two different bodies that meet in the world is examined from both sides: whenever the point the search finds on the triangle of
one body passes the contact test in the field of the other body, a contact between these two bodies at this point is reported. -/
theorem C69_complete {P : CDParams} (hK : P.K = 3 ∨ P.K = 4) (he : 0 ≤ P.envelope) {bodies : Fin N → RigidBody}
    (hq : ∀ k, IsUnitQ (bodies k).q) {C : Fin N → Collider} (hC : ∀ k, ColliderOK (C k)) :
    ∃ C' cps, run_collision_detection P bodies C = .ok (C', cps) ∧ (∀ k, ColliderOK (C' k)) ∧
      ∀ (i j : Fin N) (t s : Tri), i ≠ j → t ∈ (C i).T → s ∈ (C j).T → TrianglesMeet (bodies i) (bodies j) (C i).V (C j).V t s →
        ∀ x v d, frankWolfe P (C j).grid ![toBody (bodies j) (worldCorner (bodies i) (C i).V t.a),
            toBody (bodies j) (worldCorner (bodies i) (C i).V t.b), toBody (bodies j) (worldCorner (bodies i) (C i).V t.c)] = .ok x →
          (C j).grid.is_inside x = .ok true → (C j).grid.get_value x = .ok v → v ≤ P.envelope → (C j).grid.get_gradient x = .ok d → d ≠ 0 →
          ∃ c ∈ cps, ((c.bodyA = i ∧ c.bodyB = j) ∨ (c.bodyA = j ∧ c.bodyB = i)) ∧ c.p = toWorld (bodies j) x := by
  obtain ⟨C1, hu⟩ := update_fold_total (P := P) (bodies := bodies) (List.finRange N) (List.nodup_finRange N) (C := C) (by
    intro k _
    obtain ⟨c', trees, h, -⟩ := refitBody_total hK (bodies k) (hC k)
    exact ⟨c', h⟩)
  change update_bvh P bodies C = .ok C1 at hu
  have hfr : ∀ k, (C1 k).V = (C k).V ∧ (C1 k).T = (C k).T ∧ (C1 k).grid = (C k).grid := fun k => refitBody_frame (update_bvh_ok hu k)
  have htree : ∀ k, ∃ trees, TreeOK ((C k).V.map (toWorld (bodies k))) (rows (C k).T) P.K P.envelope (C1 k).bvh trees := by
    intro k
    obtain ⟨c', trees, h, h'⟩ := refitBody_total hK (bodies k) (hC k)
    rw [update_bvh_ok hu k] at h
    cases h
    exact ⟨trees, h'⟩
  have hC1 : ∀ k, ColliderOK (C1 k) := by
    intro k
    obtain ⟨f1, f2, f3⟩ := hfr k
    obtain ⟨trees, ht⟩ := htree k
    refine ⟨by rw [f1, f2]; exact (hC k).mesh, ⟨trees, ?_⟩, by rw [f3]; exact (hC k).field, by rw [f3]; exact (hC k).corner⟩
    rw [f2]
    exact ⟨ht.1.imp (fun _ _ h => h.1), ht.2.1⟩
  -- the narrow phase
  have htrav : ∀ i j : Fin N, ∃ res, BVH.traversal (C1 i).bvh (C1 j).bvh = .ok res ∧
      (∀ o ∈ res, (∃ m : ℕ, o.1 = m ∧ m < (C1 i).T.length) ∧ ∃ n : ℕ, o.2 = n ∧ n < (C1 j).T.length) ∧
      ∀ (m n : ℕ) (t s : Tri), (C i).T[m]? = some t → (C j).T[n]? = some s → TrianglesMeet (bodies i) (bodies j) (C i).V (C j).V t s →
        ((m : ℤ), (n : ℤ)) ∈ res := by
    intro i j
    obtain ⟨ti, hi⟩ := htree i
    obtain ⟨tj, hj⟩ := htree j
    obtain ⟨res, r1, -, r3⟩ := C20_traversal _ _ _ _ hi hj
    refine ⟨res, r1, ?_, ?_⟩
    · rintro ⟨a, b⟩ ho
      obtain ⟨m, n, rfl, rfl, hm, hn, -⟩ := (r3 a b).1 ho
      simp only [rows, List.length_map] at hm hn
      exact ⟨⟨m, rfl, by rw [(hfr i).2.1]; exact hm⟩, ⟨n, rfl, by rw [(hfr j).2.1]; exact hn⟩⟩
    · rintro m n t s ht hs ⟨p, hp1, hp2⟩
      have hm : m < (rows (C i).T).length := by simp [rows, (List.getElem?_eq_some_iff.1 ht).1]
      have hn : n < (rows (C j).T).length := by simp [rows, (List.getElem?_eq_some_iff.1 hs).1]
      obtain ⟨D, hD⟩ := leafDop_exists (meshOK_world (bodies i) (hC i).mesh) hK P.envelope hm
      obtain ⟨E, hE⟩ := leafDop_exists (meshOK_world (bodies j) (hC j).mesh) hK P.envelope hn
      rw [r3]
      refine ⟨m, n, rfl, rfl, hm, hn, D, E, hD, hE, ?_⟩
      exact (C17_overlap D E).2.1 p (by rw [leafDop_K hD]; exact hK) (by rw [leafDop_K hD, leafDop_K hE])
        (leafDop_contains (meshOK_world (bodies i) (hC i).mesh) hK he hD (inTriangle_hull (hC i).mesh ht hp1))
        (leafDop_contains (meshOK_world (bodies j) (hC j).mesh) hK he hE (inTriangle_hull (hC j).mesh hs hp2))
  choose res hres1 hres2 hres3 using htrav
  have hpair : ∀ ij : Fin N × Fin N, narrowPair C1 ij = .ok (if (res ij.1 ij.2).length > 0 then some (ij, res ij.1 ij.2) else none) := by
    intro ij
    unfold narrowPair
    rw [hres1]
    rfl
  have hnarrow : narrow_phase C1 = .ok (((combinations N).map fun ij => if (res ij.1 ij.2).length > 0 then some (ij, res ij.1 ij.2) else none).filterMap id) := by
    unfold narrow_phase
    have : (combinations N).mapM (narrowPair C1) = .ok ((combinations N).map fun ij => if (res ij.1 ij.2).length > 0 then some (ij, res ij.1 ij.2) else none) := by
      generalize combinations N = L
      induction L with
      | nil => rfl
      | cons a L ih =>
        rw [List.mapM_cons, hpair a, ih]; rfl
    rw [this]
    rfl
  have hov : ∀ o, o ∈ (((combinations N).map fun ij => if (res ij.1 ij.2).length > 0 then some (ij, res ij.1 ij.2) else none).filterMap id) ↔
      o.1.1 < o.1.2 ∧ o.2 = res o.1.1 o.1.2 ∧ 0 < o.2.length := by
    rintro ⟨⟨i, j⟩, l⟩
    rw [List.mem_filterMap]
    constructor
    · rintro ⟨a, ha, rfl⟩
      obtain ⟨⟨i', j'⟩, h1, h2⟩ := List.mem_map.1 ha
      simp only [id] at h2
      split_ifs at h2 with h3
      simp only [Option.some.injEq, Prod.mk.injEq] at h2
      obtain ⟨⟨rfl, rfl⟩, rfl⟩ := h2
      exact ⟨mem_combinations.1 h1, rfl, h3⟩
    · rintro ⟨h1, h2, h3⟩
      simp only at h1 h2 h3
      refine ⟨some ((i, j), l), List.mem_map.2 ⟨(i, j), mem_combinations.2 h1, ?_⟩, rfl⟩
      simp only
      rw [← h2, if_pos h3]
  generalize (((combinations N).map fun ij => if (res ij.1 ij.2).length > 0 then some (ij, res ij.1 ij.2) else none).filterMap id) = ov at hnarrow hov
  have hpc : ∀ o ∈ ov, ∃ a b, compute_contacts P bodies C1 o.1.1 o.1.2 (unique (o.2.map (·.1))) = .ok a ∧
      compute_contacts P bodies C1 o.1.2 o.1.1 (unique (o.2.map (·.2))) = .ok b ∧ pairContacts P bodies C1 o = .ok (a ++ b) := by
    intro o ho
    obtain ⟨-, h2, -⟩ := (hov o).1 ho
    obtain ⟨a, ha⟩ := compute_contacts_total (P := P) (bodies := bodies) hC1 o.1.1 o.1.2 (tris := unique (o.2.map (·.1))) (by
      intro t ht
      rw [mem_unique] at ht
      obtain ⟨q, hq, rfl⟩ := List.mem_map.1 ht
      rw [h2] at hq
      exact (hres2 _ _ q hq).1)
    obtain ⟨b, hb⟩ := compute_contacts_total (P := P) (bodies := bodies) hC1 o.1.2 o.1.1 (tris := unique (o.2.map (·.2))) (by
      intro t ht
      rw [mem_unique] at ht
      obtain ⟨q, hq, rfl⟩ := List.mem_map.1 ht
      rw [h2] at hq
      exact (hres2 _ _ q hq).2)
    refine ⟨a, b, ha, hb, ?_⟩
    unfold pairContacts
    rw [ha, hb]
    rfl
  obtain ⟨R, hR, hF⟩ := mapM_except (f := pairContacts P bodies C1) (L := ov) (P := fun o l => pairContacts P bodies C1 o = .ok l) (by
    intro o ho
    obtain ⟨a, b, -, -, h⟩ := hpc o ho
    exact ⟨_, h, h⟩)
  refine ⟨C1, contact_reduction R.flatten, ?_, hC1, ?_⟩
  · unfold run_collision_detection contact_determination
    rw [hu]
    simp only [bind, Except.bind]
    rw [hnarrow]
    simp only []
    rw [hR]
    rfl
  -- completeness
  intro i j t s hij ht hs hmeet x v d hx hin hv hve hd hd0
  obtain ⟨m, hm⟩ := List.getElem?_of_mem ht
  obtain ⟨n, hn⟩ := List.getElem?_of_mem hs
  obtain ⟨φ, hsam⟩ := (hC j).field
  let c : ContactPoint N := ⟨j, i, toWorld (bodies j) x, V3.unit (Quat.rotate (bodies j).q d), v⟩
  have htc : triangleContact P i j (bodies j) (C1 j).grid ((C1 i).V.map fun v => toBody (bodies j) (toWorld (bodies i) v)) (C1 i).T (m : ℤ) =
      .ok (some c) := by
    unfold triangleContact
    rw [(hfr i).1, (hfr i).2.1, (hfr j).2.2, corners_total (hC i).mesh hm]
    simp only [bind, Except.bind]
    change frankWolfe P (C j).grid ![toBody (bodies j) (toWorld (bodies i) ((C i).V.getD t.a 0)), toBody (bodies j) (toWorld (bodies i) ((C i).V.getD t.b 0)),
      toBody (bodies j) (toWorld (bodies i) ((C i).V.getD t.c 0))] = .ok x at hx
    rw [hx]
    exact (contactAt_ok hsam (hC j).corner x).2 v d hin hv hve hd (rotate_ne_zero (hq j) hd0)
  have hcmem : c ∈ R.flatten := by
    rw [List.mem_flatten]
    rcases lt_or_gt_of_ne hij with hlt | hlt
    · have hmem := hres3 i j m n t s hm hn hmeet
      have ho : ((i, j), res i j) ∈ ov := (hov _).2 ⟨hlt, rfl, List.length_pos_of_mem hmem⟩
      obtain ⟨l, hl, hpl⟩ := forall₂_mem_left hF _ ho
      refine ⟨l, hl, ?_⟩
      obtain ⟨a, b, h1, h2, h3⟩ := hpc _ ho
      rw [h3] at hpl
      cases hpl
      apply List.mem_append_left
      refine (compute_contacts_mem h1 c).2 ⟨m, ?_, htc⟩
      rw [mem_unique]
      exact List.mem_map.2 ⟨_, hmem, rfl⟩
    · obtain ⟨p, hp1, hp2⟩ := hmeet
      have hmem := hres3 j i n m s t hn hm ⟨p, hp2, hp1⟩
      have ho : ((j, i), res j i) ∈ ov := (hov _).2 ⟨hlt, rfl, List.length_pos_of_mem hmem⟩
      obtain ⟨l, hl, hpl⟩ := forall₂_mem_left hF _ ho
      refine ⟨l, hl, ?_⟩
      obtain ⟨a, b, h1, h2, h3⟩ := hpc _ ho
      rw [h3] at hpl
      cases hpl
      apply List.mem_append_right
      refine (compute_contacts_mem h2 c).2 ⟨m, ?_, htc⟩
      rw [mem_unique]
      exact List.mem_map.2 ⟨_, hmem, rfl⟩
  obtain ⟨pre, f, post, -, ⟨h1, h2⟩, -, h3⟩ := (C50_reduction R.flatten).2.2 c hcmem
  refine ⟨f, h3, ?_, h2.symm⟩
  rcases h1 with ⟨h1, h1'⟩ | ⟨h1, h1'⟩
  · exact Or.inr ⟨h1.symm, h1'.symm⟩
  · exact Or.inl ⟨h1'.symm, h1.symm⟩

/-! ### A concrete case -/

/-- A body as it is created, at the origin. -/
def restBody : RigidBody := RigidBody.init "b"

/-- Two flat triangles lying in the plane z = 0, each with the height above that plane as its field: the hypotheses of the
theorems hold, the search succeeds and a contact is found at the common corner. -/
example : ∃ (P : CDParams) (bodies : Fin 2 → RigidBody) (C : Fin 2 → Collider), (P.K = 3 ∨ P.K = 4) ∧ 0 ≤ P.envelope ∧
    (∀ k, IsUnitQ (bodies k).q) ∧ (∀ k, ColliderOK (C k)) ∧
    ∃ C' cps, run_collision_detection P bodies C = .ok (C', cps) ∧ ∃ c ∈ cps, c.p = 0 := by
  obtain ⟨g0, g1, g2, g3, -⟩ := (C23_constructor ⟨-2, -2, -2⟩ ⟨2, 2, 2⟩ 5 5 5).1 (by norm_num)
  obtain ⟨⟨g, e1, ⟨v, e2, -⟩, -⟩, -⟩ := C23_eval_on_grid g0 (fun q => 0 + 0 * q.x + 0 * q.y + 1 * q.z)
  have hs := sampled_of_eval (by norm_num) g1 e1
  have hmin : g.min_coord = ⟨-2, -2, -2⟩ := by rw [e2]; exact g2
  have hmax : g.max_coord = ⟨2, 2, 2⟩ := by rw [e2]; exact g3
  have hc : g.min_coord.x ≠ 0 ∧ g.min_coord.y ≠ 0 ∧ g.min_coord.z ≠ 0 := by rw [hmin]; norm_num
  have hgrad : ∀ p, g.get_gradient p = .ok ⟨0, 0, 1⟩ := fun p => (C25_gradient_affine_partial 0 ⟨0, 0, 1⟩ hs hc p).1
  have hval : ∀ p : V3, g.get_value p = .ok p.z := by
    intro p
    have := C24_multilinear_exact 0 0 0 1 0 0 0 0 (g := g) (by simpa using hs) p
    simpa using this
  have hV : MeshOK [⟨0, 0, 0⟩, ⟨1, 0, 0⟩, ⟨0, 1, 0⟩] (rows [⟨0, 1, 2⟩]) := by simp [MeshOK, rows]
  obtain ⟨tree, trees, m1, -⟩ := C18_make_bvh _ _ 3 8 0.1 hV (Or.inl rfl) (by norm_num)
  let col : Collider := ⟨[⟨0, 0, 0⟩, ⟨1, 0, 0⟩, ⟨0, 1, 0⟩], [⟨0, 1, 2⟩], g, tree⟩
  have hcol : ColliderOK col := colliderOK_make hV (Or.inl rfl) (by norm_num) m1 ⟨_, hs⟩ hc
  have hw : ∀ x, toWorld restBody x = x := by
    intro x
    unfold toWorld restBody RigidBody.init
    ext <;> simp [Quat.rotate, Quat.prod, Quat.conjugate, Quat.identity, Quat.vec, V3.dot, V3.cross, V3.zero]
  have hb : ∀ x, toBody restBody x = x := by
    intro x
    have := (toBody_toWorld (b := restBody) (by simp [restBody, RigidBody.init, Quat.identity, IsUnitQ]) x).1
    rwa [hw] at this
  obtain ⟨C', cps, h1, -, h2⟩ := C69_complete (P := ⟨100, 0.001, 3, 0.1⟩) (Or.inl rfl) (by norm_num) (bodies := fun _ => restBody)
    (fun _ => by simp [restBody, RigidBody.init, Quat.identity, IsUnitQ]) (C := fun _ : Fin 2 => col) (fun _ => hcol)
  refine ⟨⟨100, 0.001, 3, 0.1⟩, fun _ => restBody, fun _ => col, Or.inl rfl, by norm_num, fun _ => by simp [restBody, RigidBody.init, Quat.identity, IsUnitQ], fun _ => hcol,
    C', cps, h1, ?_⟩
  have hfw : ∀ p : Fin 3 → V3, p 0 = 0 → (p 1).z = 0 → (p 2).z = 0 → frankWolfe ⟨100, 0.001, 3, 0.1⟩ g p = .ok 0 := by
    intro p p0 p1 p2
    have hloop : ∀ fuel i, fwLoop g p 0.001 fuel i 0 = .ok 0 := by
      intro fuel
      induction fuel with
      | zero => intro i; rfl
      | succ n ih =>
        intro i
        unfold fwLoop fwStep
        rw [hgrad]
        simp only [bind, Except.bind, pure, Except.pure]
        rw [show argmin3 (V3.dot (p 0) ⟨0, 0, 1⟩) (V3.dot (p 1) ⟨0, 0, 1⟩) (V3.dot (p 2) ⟨0, 0, 1⟩) = 0 by
          simp [argmin3, V3.dot, p0, p1, p2], p0]
        rw [if_neg (by simp [V3.dot]; norm_num)]
        rw [sub_self, smul_zero, add_zero]
        exact ih _
    unfold frankWolfe fwStart
    rw [hgrad, hgrad, hgrad]
    simp only [bind, Except.bind, pure, Except.pure]
    rw [show argmin3 (V3.norm ⟨0, 0, 1⟩) (V3.norm ⟨0, 0, 1⟩) (V3.norm ⟨0, 0, 1⟩) = 0 by simp [argmin3], p0]
    exact hloop _ _
  obtain ⟨c, hc1, -, hc2⟩ := h2 0 1 ⟨0, 1, 2⟩ ⟨0, 1, 2⟩ (by decide) (by simp [col]) (by simp [col])
    ⟨0, ⟨1, 0, 0, by norm_num, by norm_num, by norm_num, by norm_num, by
        simp only [worldCorner, hw, col]; ext <;> simp⟩, ⟨1, 0, 0, by norm_num, by norm_num, by norm_num, by norm_num, by
        simp only [worldCorner, hw, col]; ext <;> simp⟩⟩ 0 0 ⟨0, 0, 1⟩
    (by
      simp only [worldCorner, hw, hb, col]
      apply hfw
      · ext <;> simp
      · simp
      · simp) (by
      obtain ⟨r, r1, r2⟩ := (C24_is_inside g 0 (1 / 2)).1 (by norm_num)
      have : r = true := r2.2 (by rw [hmin, hmax]; norm_num)
      rw [← this]; exact r1) (hval 0) (by norm_num) (hgrad 0) (by intro h; simpa using congrArg V3.z h)
  refine ⟨c, hc1, ?_⟩
  rw [hc2, hw]

end

end Verif
