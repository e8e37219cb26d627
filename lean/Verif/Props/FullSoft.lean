import Verif.Model.FullSoft
import Verif.Props.FullSim
import Verif.Props.SoftCollisionComplete
import Verif.Props.SoftExamples
import Verif.Props.MeshSurfaceVolume

/-! C98: `create_soft_body` of the whole soft body simulator: mesh, surface, distance field and the data of the collision detection. -/

namespace Verif

open VMesh (Tri Tet)
open Rigid (Eig SignedDistance)
open Soft
open SpatialHash (HashGrid)

/-! ### Specification -/

/-- Every corner of every tetrahedron is one of the first n vertices. -/
def TetsBelow (T : List Tet) (n : ℕ) : Prop := ∀ t ∈ T, ∀ a : Fin 4, nodeOf t a < n

/-- The four corner points of every tetrahedron. -/
def tetCornersOf (V : List V3) (T : List Tet) : List (Fin 4 → V3) := T.map fun t => tetPos V t

/-- What collision detection needs to know about a body: its surface triangles are exactly the faces that only one tetrahedron has, each
with its tetrahedron and the local number of the corner opposite to it, and oriented outward in the undeformed mesh; its distance field is
a sampled one. -/
structure GeoFits (b : SoftBody) (g : Geo) : Prop where
  owned : g.owners.length = b.surface.length
  owner : ∀ (m : ℕ) f o, b.surface[m]? = some f → g.owners[m]? = some o → ∃ e : Fin b.K, o.1 = e ∧ ∃ v : Fin 4, o.2 = v ∧
    (∀ p : Fin b.n, (p = f.1 ∨ p = f.2.1 ∨ p = f.2.2) ↔ ∃ a : Fin 4, a ≠ v ∧ b.T e a = p) ∧
    V3.dot (V3.cross (b.x0 f.2.1 - b.x0 f.1) (b.x0 f.2.2 - b.x0 f.1)) (b.x0 (b.T e v) - b.x0 f.1) < 0
  boundary : ∀ (e : Fin b.K) (v : Fin 4), ((e : ℕ), (v : ℕ)) ∈ g.owners ↔ ¬ ∃ (e' : Fin b.K) (v' : Fin 4), (e', v') ≠ (e, v) ∧
    ∀ p : Fin b.n, (∃ a : Fin 4, a ≠ v ∧ b.T e a = p) ↔ ∃ a : Fin 4, a ≠ v' ∧ b.T e' a = p
  once : g.owners.Nodup
  field : ∃ φ, Sampled g.grid φ

/-- The surface triangles of a body. -/
def surfaceTris (b : SoftBody) : List Tri := b.surface.map fun t => ⟨t.1, t.2.1, t.2.2⟩

/-- The four corner points of every tetrahedron of the undeformed body. -/
def bodyCorners (b : SoftBody) : List (Fin 4 → V3) := List.ofFn fun e => fun a => b.x0 (b.T e a)

/-- The length of the boundary of a surface triangle of the undeformed body. -/
noncomputable def perimeter (b : SoftBody) (t : Fin b.n × Fin b.n × Fin b.n) : ℝ :=
  V3.norm (b.x0 t.2.1 - b.x0 t.1) + V3.norm (b.x0 t.2.2 - b.x0 t.2.1) + V3.norm (b.x0 t.1 - b.x0 t.2.2)

/-- L is the mean length of the edges of the surface triangles. -/
def IsMeanEdge (b : SoftBody) (L : ℝ) : Prop := 3 * b.surface.length * L = (b.surface.map (perimeter b)).sum

/-- What the broad phase has of a new body: with spatial hashing the table of the grid has one more place per surface triangle, and the
side of its cells is 2.2 times the mean edge length of the body, averaged with the previous one if there was one; without spatial hashing
the body has a hierarchy with one leaf per surface triangle. -/
def BroadFits (P : FullParams) (h h' : HashGrid SpatialHash.Obj) (b : SoftBody) (g : Geo) : Prop :=
  if P.use_spatial_hashing then
    g.bvh = none ∧ h'.hash_table = h.hash_table ∧ h'.Phi = h.Phi ∧ h'.hash_table_size = h.hash_table_size + b.surface.length ∧ 0 < h'.cell_size ∧
      ∃ L, IsMeanEdge b L ∧ (h.cell_size = 0 → h'.cell_size = 11 / 5 * L) ∧
        (h.cell_size ≠ 0 → h'.cell_size = (11 / 5 * L + h.cell_size) / 2)
  else h' = h ∧ ∃ t, g.bvh = some t ∧ ∃ trees, LinksOK (Collision.rows (surfaceTris b)) t.chunks trees

/-- A new body made from the vertices V and the tetrahedra T: the same vertices and, corner by corner, the same tetrahedra, numbered along
the axis; undeformed, at rest, free, with standard gravity, without conditions and without material. -/
structure NewBody (b : SoftBody) (name : String) (idx offset : ℕ) (V : List V3) (T : List Tet) (axis : V3) : Prop where
  name : b.name = name
  idx : b.idx = idx
  offset : b.offset = offset
  size : b.n = V.length
  vertices : (List.ofFn b.x0).Perm V
  tetrahedra : (bodyCorners b).Perm (tetCornersOf V T)
  sorted : axis ≠ 0 → ∀ i j : Fin b.n, i ≤ j → V3.dot (b.x0 i) axis ≤ V3.dot (b.x0 j) axis
  sorted_elements : axis ≠ 0 → ∀ i j : Fin b.K, i ≤ j → (∑ a, (b.T i a : ℕ)) ≤ ∑ a, (b.T j a : ℕ)
  undeformed : b.x = b.x0
  rest : ∀ i, b.u i = 0
  pins : b.dirichlet_conditions = []
  loads : b.traction_conditions = []
  material : b.material_description = none ∧ b.M_array = none ∧ b.C_array = none
  gravity : b.gravity = ⟨0, -9.82, 0⟩
  free : b.is_fixed = false
  lumped : b.is_lumped = true

/-! ### The sorted mesh -/

/-- renumbering the corners of a tetrahedron -/
def relabelTet (σ : ℕ → ℕ) (t : Tet) : Tet := ⟨σ t.i, σ t.j, σ t.k, σ t.m⟩

theorem nodeOf_relabel (σ : ℕ → ℕ) (t : Tet) (a : ℕ) : nodeOf (relabelTet σ t) a = σ (nodeOf t a) := by
  unfold nodeOf relabelTet
  split <;> rfl

theorem axis_sort_relabel (V : List V3) (T : List (List ℕ)) (axis : V3) (hT : ∀ r ∈ T, ∀ i ∈ r, i < V.length) :
    ∃ (V' : List V3) (T' : List (List ℕ)) (σ : ℕ → ℕ), SMesh.axis_sort V T axis = .ok (V', T') ∧ V'.Perm V ∧
      T'.Perm (T.map fun r => r.map σ) ∧ (∀ i < V.length, σ i < V.length) ∧ (∀ i < V.length, ∀ j < V.length, σ i = σ j → i = j) ∧
      ∀ i < V.length, V'.getD (σ i) 0 = V.getD i 0 := by
  have hpp : (SMesh.axisOrder V axis).Perm (List.range V.length) := argsort_perm _ _
  set p := SMesh.axisOrder V axis with hp
  set s := SMesh.argsort V.length (fun k => ((p.getD k 0 : ℕ) : ℝ)) with hs
  have hsl : s.length = V.length := argsort_length _ _
  set T1 := T.map (fun r => r.map fun i => s.getD i 0) with hT1
  set o := SMesh.argsort T1.length (fun k => SMesh.rowMean (T1.getD k [])) with ho
  have hrun : SMesh.axis_sort V T axis = .ok (p.map fun i => V.getD i 0, o.map fun k => T1.getD k []) := by
    have hall : T.all (fun r => r.all (fun i => decide (i < s.length))) = true := by
      simp only [List.all_eq_true, decide_eq_true_eq]
      intro r hr i hi
      rw [hsl]
      exact hT r hr i hi
    unfold SMesh.axis_sort
    exact if_pos hall
  have hop : (o.map fun k => T1.getD k []).Perm T1 := perm_map_getD _ _ (argsort_perm _ _)
  refine ⟨p.map fun i => V.getD i 0, o.map fun k => T1.getD k [], fun i => s.getD i 0, hrun, perm_map_getD _ _ hpp, hop, ?_, ?_, ?_⟩
  · intro i hi
    show s.getD i 0 < _
    rw [getD_range_map (by omega)]
    exact argsort_lt (List.getElem_mem (l := s) _)
  · intro i hi j hj h
    have h1 := argsort_inverse hpp hi
    have h2 := argsort_inverse hpp hj
    rw [← hs] at h1 h2
    simp only [] at h
    rw [h, h2] at h1
    exact (Option.some.inj h1).symm
  · intro i hi
    have h1 := argsort_inverse hpp hi
    rw [← hs] at h1
    show (p.map fun i => V.getD i 0).getD (s.getD i 0) 0 = _
    rw [List.getD_eq_getElem?_getD, List.getElem?_map, h1]
    rfl

theorem tetRow_below {T : List Tet} {n : ℕ} (hT : TetsBelow T n) : ∀ r ∈ T.map tetRow, ∀ i ∈ r, i < n := by
  intro r hr i hi
  obtain ⟨t, ht, rfl⟩ := List.mem_map.1 hr
  have h := hT t ht
  simp only [tetRow, List.mem_cons, List.not_mem_nil, or_false] at hi
  rcases hi with rfl | rfl | rfl | rfl
  · exact h 0
  · exact h 1
  · exact h 2
  · exact h 3

theorem sortedMesh_relabel (eig : Eig) (V : List V3) (T : List Tet) (hT : TetsBelow T V.length) :
    ∃ (V' : List V3) (T' : List Tet) (σ : ℕ → ℕ), sortedMesh eig V T = .ok (V', T') ∧ V'.Perm V ∧ T'.Perm (T.map (relabelTet σ)) ∧
      (∀ i < V.length, σ i < V.length) ∧ (∀ i < V.length, ∀ j < V.length, σ i = σ j → i = j) ∧
      ∀ i < V.length, V'.getD (σ i) 0 = V.getD i 0 := by
  obtain ⟨V', R, σ, h1, h2, h3, h4, h5, h6⟩ := axis_sort_relabel V (T.map tetRow) (Rigid.direction_of_most_variance eig V) (tetRow_below hT)
  refine ⟨V', R.map rowTet, σ, ?_, h2, ?_, h4, h5, h6⟩
  · unfold sortedMesh
    simp only [bind, Except.bind]
    rw [h1]
    rfl
  · refine (h3.map rowTet).trans ?_
    rw [List.map_map, List.map_map]
    exact List.Perm.refl _

/-! ### Topology under renumbering and reordering -/

theorem oppFace_relabel (σ : ℕ → ℕ) (t : Tet) (v : ℕ) : oppFace (relabelTet σ t) v = (oppFace t v).map σ := by
  unfold oppFace relabelTet
  split <;> rfl

theorem oppFace_below {t : Tet} {n : ℕ} (h : ∀ a : Fin 4, nodeOf t a < n) (v : ℕ) : ∀ i ∈ oppFace t v, i < n := by
  intro i hi
  have h0 := h 0; have h1 := h 1; have h2 := h 2; have h3 := h 3
  simp only [nodeOf, Fin.isValue, Fin.val_zero, Fin.val_one, Fin.val_two, show ((3 : Fin 4) : ℕ) = 3 from rfl] at h0 h1 h2 h3
  unfold oppFace at hi
  split at hi <;> simp only [List.mem_cons, List.not_mem_nil, or_false] at hi <;> rcases hi with rfl | rfl | rfl <;> assumption

/-- Two lists that are permutations of each other up to a map carry a bijection of their positions. -/
theorem perm_index {α : Type*} {L L' : List α} (h : L'.Perm L) :
    ∃ τ : ℕ → ℕ, (∀ i < L'.length, τ i < L.length ∧ L'[i]? = L[τ i]?) ∧ ∀ i < L'.length, ∀ j < L'.length, τ i = τ j → i = j := by
  induction h with
  | nil => exact ⟨id, by simp, by simp⟩
  | @cons x l1 l2 _ ih =>
    obtain ⟨τ, h1, h2⟩ := ih
    refine ⟨fun i => match i with | 0 => 0 | i + 1 => τ i + 1, ?_, ?_⟩
    · intro i hi
      cases i with
      | zero => simp
      | succ i =>
        have := h1 i (by simpa using hi)
        simpa using this
    · intro i hi j hj hij
      cases i with
      | zero => cases j with
        | zero => rfl
        | succ j => simp at hij
      | succ i => cases j with
        | zero => simp at hij
        | succ j =>
          simp only [add_left_inj] at hij
          rw [h2 i (by simpa using hi) j (by simpa using hj) hij]
  | @swap x y l =>
    refine ⟨fun i => match i with | 0 => 1 | 1 => 0 | i + 2 => i + 2, ?_, ?_⟩
    · intro i hi
      match i with
      | 0 => simp
      | 1 => simp
      | i + 2 => simp at hi ⊢; omega
    · intro i _ j _ hij
      match i, j with
      | 0, 0 => rfl
      | 0, 1 => simp at hij
      | 0, j + 2 => simp at hij
      | 1, 0 => simp at hij
      | 1, 1 => rfl
      | 1, j + 2 => simp at hij
      | i + 2, 0 => simp at hij
      | i + 2, 1 => simp at hij
      | i + 2, j + 2 => simpa using hij
  | @trans l1 l2 l3 h12 h23 ih1 ih2 =>
    obtain ⟨τ, h1, h2⟩ := ih1
    obtain ⟨ρ, h3, h4⟩ := ih2
    refine ⟨fun i => ρ (τ i), fun i hi => ?_, fun i hi j hj hij => ?_⟩
    · obtain ⟨a, b⟩ := h1 i hi
      obtain ⟨c, d⟩ := h3 (τ i) a
      exact ⟨c, b.trans d⟩
    · exact h2 i hi j hj (h4 _ (h1 i hi).1 _ (h1 j hj).1 hij)

theorem faceAt_relabel {T T' : List Tet} {σ τ : ℕ → ℕ} (hτ : ∀ i < T'.length, τ i < T.length ∧ T'[i]? = (T.map (relabelTet σ))[τ i]?)
    {x : ℕ × ℕ} {f : List ℕ} (h : FaceAt T' x f) : ∃ f0, FaceAt T (τ x.1, x.2) f0 ∧ f = f0.map σ := by
  obtain ⟨hv, t, ht, rfl⟩ := h
  obtain ⟨hl, -⟩ := List.getElem?_eq_some_iff.1 ht
  obtain ⟨h1, h2⟩ := hτ x.1 hl
  rw [ht, List.getElem?_map] at h2
  cases h3 : T[τ x.1]? with
  | none => rw [h3] at h2; cases h2
  | some t0 =>
    rw [h3] at h2
    simp only [Option.map_some, Option.some.injEq] at h2
    refine ⟨oppFace t0 x.2, ⟨hv, t0, h3, rfl⟩, ?_⟩
    rw [h2, oppFace_relabel]

theorem perm_of_map_perm {σ : ℕ → ℕ} {n : ℕ} (hinj : ∀ i < n, ∀ j < n, σ i = σ j → i = j) {f g : List ℕ} (hf : ∀ i ∈ f, i < n)
    (hg : ∀ i ∈ g, i < n) (h : (f.map σ).Perm (g.map σ)) : f.Perm g := by
  have key : ∀ l : List ℕ, (∀ i ∈ l, i < n) → (l.map σ).map (Function.invFunOn σ {i | i < n}) = l := by
    intro l hl
    rw [List.map_map]
    conv_rhs => rw [← List.map_id l]
    refine List.map_congr_left fun i hi => ?_
    have hinj' : Set.InjOn σ {i | i < n} := fun a ha b hb hab => hinj a ha b hb hab
    exact hinj'.leftInvOn_invFunOn (hl i hi)
  have := h.map (Function.invFunOn σ {i | i < n})
  rwa [key f hf, key g hg] at this

theorem sharedFace_relabel {T T' : List Tet} {n : ℕ} (hT : TetsBelow T n) {σ τ : ℕ → ℕ}
    (hinj : ∀ i < n, ∀ j < n, σ i = σ j → i = j) (hτ : ∀ i < T'.length, τ i < T.length ∧ T'[i]? = (T.map (relabelTet σ))[τ i]?)
    (hτi : ∀ i < T'.length, ∀ j < T'.length, τ i = τ j → i = j) {x y : ℕ × ℕ} (h : SharedFace T' x y) :
    SharedFace T (τ x.1, x.2) (τ y.1, y.2) ∧ x.1 < T'.length ∧ y.1 < T'.length := by
  obtain ⟨hne, f, g, hf, hg, hp⟩ := h
  obtain ⟨f0, hf0, rfl⟩ := faceAt_relabel hτ hf
  obtain ⟨g0, hg0, rfl⟩ := faceAt_relabel hτ hg
  have hx : x.1 < T'.length := by
    obtain ⟨-, t, ht, -⟩ := hf
    exact (List.getElem?_eq_some_iff.1 ht).1
  have hy : y.1 < T'.length := by
    obtain ⟨-, t, ht, -⟩ := hg
    exact (List.getElem?_eq_some_iff.1 ht).1
  refine ⟨⟨?_, f0, g0, hf0, hg0, perm_of_map_perm hinj ?_ ?_ hp⟩, hx, hy⟩
  · intro h
    simp only [Prod.mk.injEq] at h
    exact hne (Prod.ext (hτi _ hx _ hy h.1) h.2)
  · obtain ⟨-, t, ht, rfl⟩ := hf0
    exact oppFace_below (hT t (List.mem_of_getElem? ht)) _
  · obtain ⟨-, t, ht, rfl⟩ := hg0
    exact oppFace_below (hT t (List.mem_of_getElem? ht)) _

theorem manifold_relabel {T T' : List Tet} {n : ℕ} (hT : TetsBelow T n) {σ : ℕ → ℕ}
    (hinj : ∀ i < n, ∀ j < n, σ i = σ j → i = j) (hp : T'.Perm (T.map (relabelTet σ))) (hm : FaceManifold T) : FaceManifold T' := by
  obtain ⟨τ, h1, h2⟩ := perm_index hp
  have h1' : ∀ i < T'.length, τ i < T.length ∧ T'[i]? = (T.map (relabelTet σ))[τ i]? := by
    intro i hi
    have := h1 i hi
    rwa [List.length_map] at this
  intro x y z hxy hxz
  obtain ⟨a, -, hy⟩ := sharedFace_relabel hT hinj h1' h2 hxy
  obtain ⟨b, -, hz⟩ := sharedFace_relabel hT hinj h1' h2 hxz
  have := hm _ _ _ a b
  simp only [Prod.mk.injEq] at this
  exact Prod.ext (h2 _ hy _ hz this.1) this.2

/-- Some face of the mesh belongs to one tetrahedron only. -/
def HasBoundary (T : List Tet) : Prop := ∃ x : ℕ × ℕ, x.1 < T.length ∧ x.2 < 4 ∧ ¬ ∃ y, SharedFace T x y

theorem boundary_relabel {T T' : List Tet} {n : ℕ} (hT : TetsBelow T n) {σ : ℕ → ℕ}
    (hinj : ∀ i < n, ∀ j < n, σ i = σ j → i = j) (hp : T'.Perm (T.map (relabelTet σ))) (hm : HasBoundary T) : HasBoundary T' := by
  obtain ⟨τ, h1, h2⟩ := perm_index hp
  have h1' : ∀ i < T'.length, τ i < T.length ∧ T'[i]? = (T.map (relabelTet σ))[τ i]? := by
    intro i hi
    have := h1 i hi
    rwa [List.length_map] at this
  have hlen : T'.length = T.length := by rw [hp.length_eq, List.length_map]
  obtain ⟨x, hx, hv, hno⟩ := hm
  -- τ is a bijection of the positions
  obtain ⟨i, hi, hix⟩ : ∃ i < T'.length, τ i = x.1 := by
    have hinjF : Function.Injective (fun i : Fin T'.length => (⟨τ i, (h1' i i.2).1⟩ : Fin T.length)) := by
      intro i j hij
      exact Fin.ext (h2 i i.2 j j.2 (congrArg Fin.val hij))
    have hbij := (Fintype.bijective_iff_injective_and_card _).2 ⟨hinjF, by simp [hlen]⟩
    obtain ⟨i, hi⟩ := hbij.2 ⟨x.1, hx⟩
    exact ⟨i, i.2, congrArg Fin.val hi⟩
  refine ⟨(i, x.2), hi, hv, ?_⟩
  rintro ⟨y, hy⟩
  obtain ⟨a, -, -⟩ := sharedFace_relabel hT hinj h1' h2 hy
  refine hno ⟨(τ y.1, y.2), ?_⟩
  have e : ((τ i, x.2) : ℕ × ℕ) = x := Prod.ext hix rfl
  rw [show (τ (i, x.2).1, (i, x.2).2) = (τ i, x.2) from rfl, e] at a
  exact a

theorem tetPos_relabel {V V' : List V3} {t : Tet} {σ : ℕ → ℕ} (ht : ∀ a : Fin 4, nodeOf t a < V.length)
    (hv : ∀ i < V.length, V'.getD (σ i) 0 = V.getD i 0) : tetPos V' (relabelTet σ t) = tetPos V t := by
  funext a
  unfold tetPos
  rw [nodeOf_relabel, hv _ (ht a)]

theorem corners_perm {V V' : List V3} {T T' : List Tet} {σ : ℕ → ℕ} (hT : TetsBelow T V.length) (h : T'.Perm (T.map (relabelTet σ)))
    (hv : ∀ i < V.length, V'.getD (σ i) 0 = V.getD i 0) : (tetCornersOf V' T').Perm (tetCornersOf V T) := by
  unfold tetCornersOf
  refine (h.map _).trans ?_
  rw [List.map_map]
  refine List.Perm.of_eq (List.map_congr_left fun t ht => ?_)
  exact tetPos_relabel (hT t ht) hv

/-! ### Building the body -/

theorem tetNode_eq (t : Tet) (a : Fin 4) : tetNode t a = nodeOf t a := by
  fin_cases a <;> rfl

theorem tetArray_ok {n : ℕ} {T : List Tet} (h : TetsBelow T n) :
    ∃ A : Fin T.length → Fin 4 → Fin n, tetArray n T = .ok A ∧ ∀ e a, (A e a : ℕ) = nodeOf T[e] a := by
  have h' : ∀ e : Fin T.length, ∀ a, tetNode T[e] a < n := fun e a => by
    rw [tetNode_eq]
    exact h _ (List.getElem_mem _) a
  refine ⟨fun e a => ⟨tetNode T[e] a, h' e a⟩, dif_pos h', fun e a => tetNode_eq _ _⟩

theorem surfaceArray_map {n : ℕ} {S : List Tri} (h : ∀ t ∈ S, t.a < n ∧ t.b < n ∧ t.c < n) :
    (surfaceArray n S).map (fun t => (⟨t.1, t.2.1, t.2.2⟩ : Tri)) = S := by
  unfold surfaceArray
  induction S with
  | nil => rfl
  | cons t S ih =>
    rw [List.filterMap_cons, dif_pos (h t (by simp))]
    simp only [List.map_cons]
    rw [ih fun t ht => h t (by simp [ht])]

theorem filterMap_some {α : Type*} (L : List α) : (L.map some).filterMap id = L := by
  induction L with
  | nil => rfl
  | cons a L ih => simpa using ih

theorem mem_oppFace {t : Tet} {v : ℕ} (hv : v < 4) (p : ℕ) : p ∈ oppFace t v ↔ ∃ a : Fin 4, (a : ℕ) ≠ v ∧ nodeOf t a = p := by
  have key : ∀ P : Fin 4 → Prop, (∃ a, P a) ↔ P 0 ∨ P 1 ∨ P 2 ∨ P 3 := by
    intro P
    constructor
    · rintro ⟨a, ha⟩
      fin_cases a
      · exact .inl ha
      · exact .inr (.inl ha)
      · exact .inr (.inr (.inl ha))
      · exact .inr (.inr (.inr ha))
    · rintro (h | h | h | h)
      exacts [⟨_, h⟩, ⟨_, h⟩, ⟨_, h⟩, ⟨_, h⟩]
  rw [key]
  interval_cases v <;> simp [oppFace, nodeOf, eq_comm]

/-- the corners of a tetrahedron with positive volume are different vertices -/
theorem corners_ne {V : List V3} {t : Tet} (h : vol6 (tetPos V t) ≠ 0) {a b : Fin 4} (hab : a ≠ b) : tetPos V t a ≠ tetPos V t b := by
  intro he
  apply h
  generalize tetPos V t = X at he
  unfold vol6
  fin_cases a <;> fin_cases b <;> first | exact absurd rfl hab | skip
  all_goals
    simp only [Fin.zero_eta, Fin.mk_one, Fin.reduceFinMk, Fin.isValue] at he
    simp only [he, V3.dot, V3.cross, V3.sub_x, V3.sub_y, V3.sub_z]
    ring

theorem nodeOf_inj {V : List V3} {t : Tet} (h : vol6 (tetPos V t) ≠ 0) {a b : Fin 4} (hab : nodeOf t a = nodeOf t b) : a = b := by
  by_contra hne
  apply corners_ne h hne
  unfold tetPos
  rw [hab]

theorem oppFace_nodup {V : List V3} {t : Tet} (h : vol6 (tetPos V t) ≠ 0) (v : ℕ) : (oppFace t v).Nodup := by
  have key : ∀ a b : Fin 4, a ≠ b → nodeOf t a ≠ nodeOf t b := fun a b hab he => hab (nodeOf_inj h he)
  have h01 := key 0 1 (by decide)
  have h02 := key 0 2 (by decide)
  have h03 := key 0 3 (by decide)
  have h12 := key 1 2 (by decide)
  have h13 := key 1 3 (by decide)
  have h23 := key 2 3 (by decide)
  simp only [nodeOf, Fin.isValue, Fin.val_zero, Fin.val_one, Fin.val_two, show ((3 : Fin 4) : ℕ) = 3 from rfl] at h01 h02 h03 h12 h13 h23
  unfold oppFace
  split <;> simp [*]

/-- Two faces of tetrahedra without coinciding corners are the same face exactly if they have the same corners. -/
theorem sharedFace_iff {V : List V3} {T : List Tet} (hv : ∀ t ∈ T, 0 < vol6 (tetPos V t)) (e e' : Fin T.length) (v v' : Fin 4) :
    SharedFace T (e, v) (e', v') ↔ (e', v') ≠ (e, v) ∧
      ∀ p, (∃ a : Fin 4, a ≠ v ∧ nodeOf T[e] a = p) ↔ ∃ a : Fin 4, a ≠ v' ∧ nodeOf T[e'] a = p := by
  have hne : (((e : ℕ), (v : ℕ)) ≠ ((e' : ℕ), (v' : ℕ))) ↔ (e', v') ≠ (e, v) := by
    rw [not_iff_not]
    simp only [Prod.mk.injEq]
    exact ⟨fun h => ⟨Fin.ext h.1.symm, Fin.ext h.2.symm⟩, fun h => ⟨congrArg Fin.val h.1.symm, congrArg Fin.val h.2.symm⟩⟩
  have hm : ∀ (e : Fin T.length) (v : Fin 4) p, p ∈ oppFace T[e] v ↔ ∃ a : Fin 4, a ≠ v ∧ nodeOf T[e] a = p := by
    intro e v p
    rw [mem_oppFace v.2]
    refine exists_congr fun a => ?_
    rw [Ne, Ne, Fin.ext_iff]
  have hnd : ∀ (e : Fin T.length) (v : Fin 4), (oppFace T[e] v).Nodup := fun e v => oppFace_nodup (hv _ (List.getElem_mem _)).ne' _
  unfold SharedFace
  rw [hne]
  refine and_congr_right fun _ => ?_
  constructor
  · rintro ⟨f, g, ⟨-, t, ht, rfl⟩, ⟨-, t', ht', rfl⟩, hp⟩ p
    have h1 : T[e] = t := Option.some.inj ((List.getElem?_eq_getElem e.2).symm.trans ht)
    have h2 : T[e'] = t' := Option.some.inj ((List.getElem?_eq_getElem e'.2).symm.trans ht')
    rw [← hm, ← hm, h1, h2]
    exact hp.mem_iff
  · intro h
    refine ⟨_, _, ⟨v.2, T[e], List.getElem?_eq_getElem e.2, rfl⟩, ⟨v'.2, T[e'], List.getElem?_eq_getElem e'.2, rfl⟩, ?_⟩
    rw [List.perm_ext_iff_of_nodup (hnd e v) (hnd e' v')]
    intro p
    rw [hm, hm]
    exact h p

theorem surface_below {T : List Tet} {n : ℕ} (hT : TetsBelow T n) {t : Tet} {x : ℕ × ℕ} {f : Tri} (ht : T[x.1]? = some t)
    (hp : [f.a, f.b, f.c].Perm (oppFace t x.2)) : f.a < n ∧ f.b < n ∧ f.c < n := by
  have h := oppFace_below (hT t (List.mem_of_getElem? ht)) x.2
  exact ⟨h _ (hp.mem_iff.1 (by simp)), h _ (hp.mem_iff.1 (by simp)), h _ (hp.mem_iff.1 (by simp))⟩

/-- Distance fields of meshes that are not empty are sampled fields. -/
theorem shapeGrid_field {sd : SignedDistance} (hsd : OnePerNode sd) {P : Rigid.GeoParams} (hP : GoodGeo P) {m : SMesh.Mesh} (hne : m.V ≠ []) :
    ∃ g, Rigid.shapeGrid sd P m = .ok g ∧ (∃ φ, Sampled g φ) := by
  have hpos : (0:ℝ) < 2e-9 := by norm_num
  obtain ⟨g, nodes, L, b, -, hb, hg, eI, eJ, eK, h2, h3, -, -, -, -, -, -, h4, h5, h6, h7⟩ := C96_shape_field hsd
    (le_trans (by norm_num) hP.envelope) hP.resolution hne
  have hb1 : 2e-9 ≤ b := by
    rw [hb]
    refine le_max_of_le_right ?_
    have := hP.envelope
    have e : (2e-9 : ℝ) = 1e-9 * 2 := by norm_num
    rw [e]
    linarith
  have hres := hP.resolution
  have pos : ∀ {a c s : ℝ} {n : ℕ}, a < c → a + s * ((n : ℝ) - 1) = c → 2 ≤ n → 0 < s := by
    intro a c s n hac he hn
    have hn' : (2:ℝ) ≤ n := by exact_mod_cast hn
    by_contra hs
    push Not at hs
    nlinarith
  obtain ⟨v, hv⟩ := List.exists_mem_of_ne_nil _ hne
  have g2 := h2 v hv
  have g3 := h3 v hv
  refine ⟨g, hg, ⟨fun i j k => (g.get_node_value i j k).toOption.getD 0, ?_⟩⟩
  refine ⟨by omega, by omega, by omega, pos (by linarith [g2.1, g3.1]) h5 (by omega), pos (by linarith [g2.2.1, g3.2.1]) h6 (by omega),
    pos (by linarith [g2.2.2, g3.2.2]) h7 (by omega), h5, h6, h7, ?_⟩
  intro i j k hi hj hk
  obtain ⟨x, -, -, hx⟩ := h4 i j k hi hj hk
  rw [hx]
  rfl

theorem cellSize_ok {V : List V3} {S : List Tri} (hS : S ≠ [])
    (hpos : ∀ t ∈ S, 0 < V3.norm (V.getD t.b 0 - V.getD t.a 0)) :
    ∃ L, 0 < L ∧ compute_optial_cell_size V S = .ok (11 / 5 * L) ∧ 3 * S.length * L = (S.map fun t =>
      V3.norm (V.getD t.b 0 - V.getD t.a 0) + V3.norm (V.getD t.c 0 - V.getD t.b 0) + V3.norm (V.getD t.a 0 - V.getD t.c 0)).sum := by
  have hlen : (S.flatMap (edgeLengths V)).length = 3 * S.length := by
    clear hS hpos
    induction S with
    | nil => rfl
    | cons t S ih =>
      rw [List.flatMap_cons, List.length_append, ih]
      simp only [edgeLengths, List.length_cons, List.length_nil]
      ring
  have hsum : (S.flatMap (edgeLengths V)).sum = (S.map fun t =>
      V3.norm (V.getD t.b 0 - V.getD t.a 0) + V3.norm (V.getD t.c 0 - V.getD t.b 0) + V3.norm (V.getD t.a 0 - V.getD t.c 0)).sum := by
    clear hS hpos hlen
    induction S with
    | nil => rfl
    | cons t S ih =>
      rw [List.flatMap_cons, List.sum_append, ih, List.map_cons, List.sum_cons]
      simp only [edgeLengths, List.sum_cons, List.sum_nil]
      ring
  have hn : (0:ℝ) < S.length := by
    have := List.length_pos_iff.2 hS
    exact_mod_cast this
  refine ⟨(S.flatMap (edgeLengths V)).sum / (3 * S.length), ?_, ?_, ?_⟩
  · refine div_pos ?_ (by positivity)
    rw [hsum]
    have hterm : ∀ t ∈ S, 0 < V3.norm (V.getD t.b 0 - V.getD t.a 0) + V3.norm (V.getD t.c 0 - V.getD t.b 0) +
        V3.norm (V.getD t.a 0 - V.getD t.c 0) := by
      intro t ht
      have h1 : 0 ≤ V3.norm (V.getD t.c 0 - V.getD t.b 0) := Real.sqrt_nonneg _
      have h2 : 0 ≤ V3.norm (V.getD t.a 0 - V.getD t.c 0) := Real.sqrt_nonneg _
      linarith [hpos t ht]
    refine List.sum_pos _ ?_ (by simpa using hS)
    intro x hx
    obtain ⟨t, ht, rfl⟩ := List.mem_map.1 hx
    exact hterm t ht
  · unfold compute_optial_cell_size
    rw [if_neg hS]
    simp only [hlen, Except.ok.injEq]
    push_cast
    rw [show (2.2 : ℝ) = 11 / 5 by norm_num]
    ring
  · rw [← hsum]
    field_simp

/-- `create_soft_body` on a mesh that is already sorted. -/
theorem prepare_sorted {eig : Eig} {sd : SignedDistance} (hsd : OnePerNode sd) {P : FullParams} (hP : GoodGeo P.toGeoParams) {w : World}
    (hcs : 0 ≤ w.hash_grid.cell_size) {name : String} {V V' : List V3} {T T' : List Tet} (hsort : sortedMesh eig V T = .ok (V', T'))
    (hT : TetsBelow T' V'.length) (hv : ∀ t ∈ T', 0 < vol6 (tetPos V' t)) (hm : FaceManifold T') (hb : HasBoundary T') :
    ∃ b g h, prepare eig sd P w name V T = .ok (b, g, h) ∧
      (∃ TT : Fin T'.length → Fin 4 → Fin V'.length, ∃ S : List (Fin V'.length × Fin V'.length × Fin V'.length), w.eng.makeBody name (fun i : Fin V'.length => V'[i]) TT S = .ok b) ∧
      b.n = V'.length ∧ List.ofFn b.x0 = V' ∧ bodyCorners b = tetCornersOf V' T' ∧
      (List.ofFn fun e => ∑ a, (b.T e a : ℕ)) = T'.map (fun t => t.i + t.j + t.k + t.m) ∧ GeoFits b g ∧
      Rigid.shapeGrid sd P.toGeoParams ⟨List.ofFn b.x0, surfaceTris b⟩ = .ok g.grid ∧ BroadFits P w.hash_grid h b g := by
  obtain ⟨TT, hTT, hTn⟩ := tetArray_ok hT
  obtain ⟨S, O, hcomp, hlen, hord, hmem, hface⟩ := C31_surface T' hm
  have hget : ∀ (m : ℕ) f, S[m]? = some f → ∃ x, O[m]? = some x := by
    intro m f hf
    obtain ⟨hl, -⟩ := List.getElem?_eq_some_iff.1 hf
    exact ⟨_, List.getElem?_eq_getElem (hlen ▸ hl)⟩
  have hbelow : ∀ t ∈ S, t.a < V'.length ∧ t.b < V'.length ∧ t.c < V'.length := by
    intro f hf
    obtain ⟨m, hmf⟩ := List.getElem?_of_mem hf
    obtain ⟨x, hx⟩ := hget m f hmf
    obtain ⟨t, ht, hp, -⟩ := hface m f x hmf hx
    exact surface_below hT ht hp
  have hS : S ≠ [] := by
    obtain ⟨x, hx⟩ := hb
    have := (hmem x).2 hx
    intro h
    rw [h] at hlen
    rw [List.length_eq_zero_iff.1 hlen.symm] at this
    cases this
  have hsurf := surfaceArray_map hbelow
  have hcorner : ∀ e a, V'[TT e a] = tetPos V' T'[e] a := by
    intro e a
    unfold tetPos
    rw [← hTn, List.getD_eq_getElem?_getD, List.getElem?_eq_getElem (TT e a).2]
    rfl
  obtain ⟨B, hB⟩ : ∃ B, compute_inverse_D0 (fun i : Fin V'.length => V'[i]) TT = .ok B := by
    have hpos : ∀ e, 0 < edgeTriple fun a => V'[TT e a] := by
      intro e
      have := hv _ (List.getElem_mem e.2)
      simp only [hcorner]
      exact this
    have hex : ∀ e, ∃ B, M3.inv (edgeMatrix fun a => V'[TT e a]) = .ok B := fun e => M3.inv_exists (by
      rw [← edgeTriple_eq_det]
      exact (hpos e).ne')
    choose B hB using hex
    refine ⟨B, ?_⟩
    exact prepared_iff.2 ⟨hpos, fun e => (M3.inv_ok (hB e)).2.1⟩
  have hne : V' ≠ [] := by
    rintro rfl
    obtain ⟨t, ht⟩ := List.exists_mem_of_ne_nil _ hS
    have := (hbelow t ht).1
    simp at this
  obtain ⟨grid, hgrid, hfield⟩ := shapeGrid_field hsd hP (m := ⟨V', S⟩) hne
  have hedge : ∀ t ∈ S, 0 < V3.norm (V'.getD t.b 0 - V'.getD t.a 0) := by
    intro f hf
    obtain ⟨m, hmf⟩ := List.getElem?_of_mem hf
    obtain ⟨x, hx⟩ := hget m f hmf
    obtain ⟨t, ht, hp, -⟩ := hface m f x hmf hx
    have hvt := (hv t (List.mem_of_getElem? ht)).ne'
    have hx2 := ((hmem x).1 (List.mem_of_getElem? hx)).2.1
    have hnd : f.a ≠ f.b := by
      have := hp.nodup_iff.2 (oppFace_nodup hvt x.2)
      simp only [List.nodup_cons, List.mem_cons, not_or] at this
      exact this.1.1
    obtain ⟨a, -, ha⟩ := (mem_oppFace hx2 f.a).1 (hp.mem_iff.1 (by simp))
    obtain ⟨b, -, hb⟩ := (mem_oppFace hx2 f.b).1 (hp.mem_iff.1 (by simp))
    have hab : a ≠ b := by
      rintro rfl
      exact hnd (ha.symm.trans hb)
    have hpne := corners_ne hvt hab
    unfold tetPos at hpne
    rw [ha, hb] at hpne
    refine V3.norm_pos ?_
    intro h0
    apply hpne
    have hx := congrArg V3.x h0; have hy := congrArg V3.y h0; have hz := congrArg V3.z h0
    simp only [V3.sub_x, V3.sub_y, V3.sub_z] at hx hy hz
    refine V3.ext ?_ ?_ ?_
    · have : (0:V3).x = 0 := rfl
      linarith
    · have : (0:V3).y = 0 := rfl
      linarith
    · have : (0:V3).z = 0 := rfl
      linarith
  obtain ⟨r, hr, hbr⟩ : ∃ r, broadPhase P w.hash_grid V' S = .ok r ∧ ∀ (b : SoftBody) (hb1 : b.n = V'.length)
      (hb2 : ∀ i : Fin b.n, b.x0 i = V'.getD i 0) (hb3 : surfaceTris b = S) (o : List (ℕ × ℕ)),
      BroadFits P w.hash_grid r.1 b ⟨o, grid, r.2⟩ := by
    unfold broadPhase BroadFits
    by_cases hh : P.use_spatial_hashing
    · simp only [if_pos hh]
      obtain ⟨L, hL, hc, hLsum⟩ := cellSize_ok hS hedge
      unfold tuneHash
      simp only [bind, Except.bind, pure, Except.pure, hc, Except.map]
      refine ⟨_, rfl, ?_⟩
      rintro b hb1 hb2 hb3 o
      have hbl : b.surface.length = S.length := by
        rw [← hb3]
        unfold surfaceTris
        rw [List.length_map]
      refine ⟨rfl, rfl, rfl, by rw [hbl], ?_, L, ?_, fun h0 => if_pos h0, fun h0 => if_neg h0⟩
      · dsimp only
        split_ifs <;> linarith
      · unfold IsMeanEdge
        rw [hbl, hLsum, ← hb3]
        unfold surfaceTris
        rw [List.map_map]
        congr 1
        refine List.map_congr_left fun t _ => ?_
        simp only [Function.comp, perimeter, hb2]
    · simp only [if_neg hh]
      obtain ⟨tree, trees, ht, -, h3, h4⟩ := C18_make_bvh V' (Collision.rows S) P.K P.bvh_chunk_size P.envelope (meshOK_rows hbelow) hP.K hP.chunk
      rw [ht]
      simp only [Except.map]
      refine ⟨_, rfl, ?_⟩
      rintro b hb1 hb2 hb3 o
      exact ⟨rfl, tree, rfl, trees, hb3 ▸ ⟨h4.1.imp fun _ _ h => h.1, h3⟩⟩
  have hmk : w.eng.makeBody name (fun i : Fin V'.length => V'[i]) TT (surfaceArray V'.length S) = .ok
      { n := V'.length, K := T'.length, name := name, idx := w.eng.bodies.len, offset := w.eng.number_of_nodes, T := TT,
        surface := surfaceArray V'.length S, x0 := fun i : Fin V'.length => V'[i],
        vol0 := compute_volumes (fun i : Fin V'.length => V'[i]) TT,
        gradN0 := compute_outward_face_vectors (fun i : Fin V'.length => V'[i]) TT, invD0 := B,
        dirichlet_conditions := [], traction_conditions := [], M_array := none, C_array := none, x := fun i : Fin V'.length => V'[i],
        u := fun _ => V3.zero, material_description := none, gravity := ⟨0, -9.82, 0⟩, is_lumped := true, is_fixed := false } := by
    unfold Engine.makeBody
    simp only [bind, Except.bind, hB]
    rfl
  have hofn : List.ofFn (fun i : Fin V'.length => V'[i]) = V' := List.ofFn_getElem
  refine ⟨_, ⟨O, grid, r.2⟩, r.1, ?_, ⟨TT, _, hmk⟩, rfl, hofn, ?_, ?_, ?_, ?_, hbr _ rfl ?_ ?_ O⟩
  · unfold prepare
    simp only [bind, Except.bind, hsort, hTT, hB, hcomp, filterMap_some, hmk, hgrid, hr]
    rfl
  · unfold bodyCorners tetCornersOf
    refine List.ext_getElem (by simp) fun e h1 h2 => ?_
    have he : e < T'.length := by simpa using h2
    rw [List.getElem_ofFn, List.getElem_map]
    funext a
    exact hcorner ⟨e, he⟩ a
  · refine List.ext_getElem (by simp) fun e h1 h2 => ?_
    have he : e < T'.length := by simpa using h2
    rw [List.getElem_ofFn, List.getElem_map]
    show (∑ a, (TT ⟨e, he⟩ a : ℕ)) = _
    simp only [hTn, Fin.sum_univ_four]
    rfl
  · have hsl : (surfaceArray V'.length S).length = S.length := by
      conv_rhs => rw [← hsurf]
      rw [List.length_map]
    refine ⟨?_, ?_, ?_, ?_, hfield⟩
    · exact hlen.symm.trans hsl.symm
    · intro m f o hf ho
      have hfS : S[m]? = some ⟨f.1, f.2.1, f.2.2⟩ := by
        rw [← hsurf, List.getElem?_map, show (surfaceArray V'.length S)[m]? = some f from hf]
        rfl
      obtain ⟨t, ht, hp, hside⟩ := hface m _ o hfS ho
      obtain ⟨he, hv4, -⟩ := (hmem o).1 (List.mem_of_getElem? ho)
      have htT : T'[o.1] = t := Option.some.inj ((List.getElem?_eq_getElem he).symm.trans ht)
      refine ⟨⟨o.1, he⟩, rfl, ⟨o.2, hv4⟩, rfl, ?_, ?_⟩
      · intro p
        have h1 : (p = f.1 ∨ p = f.2.1 ∨ p = f.2.2) ↔ (p : ℕ) ∈ [(f.1 : ℕ), (f.2.1 : ℕ), (f.2.2 : ℕ)] := by
          simp only [List.mem_cons, List.not_mem_nil, or_false, Fin.ext_iff]
        rw [h1, hp.mem_iff, mem_oppFace hv4]
        refine exists_congr fun a => ?_
        rw [Fin.ext_iff, ← htT, ← show ((TT ⟨o.1, he⟩ a : ℕ) = nodeOf T'[o.1] a) from hTn ⟨o.1, he⟩ a]
        refine and_congr ?_ Iff.rfl
        rw [Ne, Ne, Fin.ext_iff]
      · have h1 := hside (fun i => V'.getD i 0) (by
          have := hv t (List.mem_of_getElem? ht)
          unfold meshVol
          exact div_pos this (by norm_num))
        unfold side at h1
        have hV : ∀ i : Fin V'.length, V'.getD (i : ℕ) 0 = V'[i] := by
          intro i
          rw [List.getD_eq_getElem?_getD, List.getElem?_eq_getElem i.2]
          rfl
        have hn : nodeOf t o.2 = (TT ⟨o.1, he⟩ ⟨o.2, hv4⟩ : ℕ) := by
          rw [hTn, ← htT]
          rfl
        rw [hn] at h1
        simp only [hV] at h1
        exact h1
    · intro e v
      show ((e : ℕ), (v : ℕ)) ∈ O ↔ _
      rw [hmem]
      have key : ∀ (e : Fin T'.length) (v : Fin 4) (p : Fin V'.length), (∃ a : Fin 4, a ≠ v ∧ TT e a = p) ↔
          ∃ a : Fin 4, a ≠ v ∧ nodeOf T'[e] a = p := by
        intro e v p
        refine exists_congr fun a => and_congr Iff.rfl ?_
        rw [Fin.ext_iff, hTn]
      constructor
      · rintro ⟨-, -, hno⟩ ⟨e', v', hne, h⟩
        refine hno ⟨(e', v'), (sharedFace_iff hv e e' v v').2 ⟨hne, ?_⟩⟩
        intro p
        by_cases hp : p < V'.length
        · exact ((key e v ⟨p, hp⟩).symm.trans (h ⟨p, hp⟩)).trans (key e' v' ⟨p, hp⟩)
        · constructor
          · rintro ⟨a, -, rfl⟩
            exact absurd (hT _ (List.getElem_mem e.2) a) hp
          · rintro ⟨a, -, rfl⟩
            exact absurd (hT _ (List.getElem_mem e'.2) a) hp
      · intro hno
        refine ⟨e.2, v.2, ?_⟩
        rintro ⟨⟨e', v'⟩, hy⟩
        have hlt : e' < T'.length ∧ v' < 4 := by
          obtain ⟨-, f, g, -, ⟨h4, t, ht, -⟩, -⟩ := hy
          exact ⟨(List.getElem?_eq_some_iff.1 ht).1, h4⟩
        obtain ⟨h1, h2⟩ := (sharedFace_iff hv e ⟨e', hlt.1⟩ v ⟨v', hlt.2⟩).1 hy
        exact hno ⟨⟨e', hlt.1⟩, ⟨v', hlt.2⟩, h1, fun p => ((key e v p).trans (h2 p)).trans (key ⟨e', hlt.1⟩ ⟨v', hlt.2⟩ p).symm⟩
    · refine hord.imp ?_
      rintro a b h rfl
      unfold lexLt at h
      omega
  · show Rigid.shapeGrid sd P.toGeoParams ⟨List.ofFn (fun i : Fin V'.length => V'[i]), (surfaceArray V'.length S).map _⟩ = .ok grid
    rw [hofn, hsurf]
    exact hgrid
  · intro i
    show V'[i] = _
    rw [List.getD_eq_getElem?_getD, List.getElem?_eq_getElem i.2]
    rfl
  · exact hsurf

theorem sortedMesh_sorted {eig : Eig} {V V' : List V3} {T T' : List Tet} (hT : TetsBelow T V.length)
    (h : sortedMesh eig V T = .ok (V', T')) (ha : Rigid.direction_of_most_variance eig V ≠ 0) :
    V'.Pairwise (fun v w => V3.dot v (Rigid.direction_of_most_variance eig V) ≤ V3.dot w (Rigid.direction_of_most_variance eig V)) ∧
    (T'.map fun t => t.i + t.j + t.k + t.m).Pairwise (· ≤ ·) := by
  have hrow := tetRow_below hT
  obtain ⟨V1, R, h1, -, h2, -, -, h3⟩ := C32_axis_sort V (T.map tetRow) _ ha hrow
  obtain ⟨V2, R2, σ, g1, -, g2, -⟩ := axis_sort_relabel V (T.map tetRow) (Rigid.direction_of_most_variance eig V) hrow
  rw [h1] at g1
  obtain ⟨rfl, rfl⟩ := Prod.mk.inj (Except.ok.inj g1)
  unfold sortedMesh at h
  simp only [bind, Except.bind] at h
  rw [h1] at h
  simp only [pure, Except.pure, Except.ok.injEq, Prod.mk.injEq] at h
  obtain ⟨rfl, rfl⟩ := h
  refine ⟨h2, ?_⟩
  rw [List.map_map, List.pairwise_map]
  have hlen : ∀ r ∈ R, r.length = 4 := by
    intro r hr
    obtain ⟨q, hq, rfl⟩ := List.mem_map.1 (g2.mem_iff.1 hr)
    obtain ⟨t, -, rfl⟩ := List.mem_map.1 hq
    rfl
  have hsum : ∀ r ∈ R, (r.map (fun (i : ℕ) => (i : ℝ))).sum / (r.length : ℝ) =
      (((rowTet r).i + (rowTet r).j + (rowTet r).k + (rowTet r).m : ℕ) : ℝ) / 4 := by
    intro r hr
    have := hlen r hr
    match r, this with
    | [a, b, c, d], _ =>
      simp only [List.map_cons, List.map_nil, List.sum_cons, List.sum_nil, List.length_cons, List.length_nil, rowTet, List.getD_cons_zero,
        List.getD_cons_succ]
      push_cast
      ring
  refine h3.imp_of_mem ?_
  intro r q hr hq hle
  rw [hsum r hr, hsum q hq] at hle
  have : (((rowTet r).i + (rowTet r).j + (rowTet r).k + (rowTet r).m : ℕ) : ℝ) ≤
    (((rowTet q).i + (rowTet q).j + (rowTet q).k + (rowTet q).m : ℕ) : ℝ) := by linarith
  exact_mod_cast this

theorem ofFn_pairwise {α : Type*} {n : ℕ} {f : Fin n → α} {R : α → α → Prop} (hr : ∀ a, R a a) (h : (List.ofFn f).Pairwise R) {i j : Fin n} (hij : i ≤ j) :
    R (f i) (f j) := by
  rcases eq_or_lt_of_le hij with rfl | hlt
  · exact hr _
  · exact List.pairwise_ofFn.1 h hlt

/-- **C98.** `create_soft_body` with a name that is not in use, a mesh whose indices are valid, whose tetrahedra all have positive volume,
in which no face belongs to more than two tetrahedra and some face to one only: the engine gets exactly one more body, the mesh of
which is the given one up to the numbering, and nothing else in it changes; the surface triangles are the faces of one tetrahedron, the
distance field is that of the surface, and the broad phase is told of the body. -/
theorem C98_create {eig : Eig} {sd : SignedDistance} (hsd : OnePerNode sd) {P : FullParams} (hP : GoodGeo P.toGeoParams) {w : World}
    (hcs : 0 ≤ w.hash_grid.cell_size) {name : String} (hname : w.eng.bodies.mem name = false) {V : List V3} {T : List Tet}
    (hT : TetsBelow T V.length) (hv : ∀ t ∈ T, 0 < vol6 (tetPos V t)) (hm : FaceManifold T) (hb : HasBoundary T) :
    ∃ b g h, w.create_soft_body eig sd P name V T =
        (⟨{ w.eng with bodies := w.eng.bodies.setItem name (.ready b), number_of_nodes := w.eng.number_of_nodes + V.length },
          w.geo.setItem name g, h⟩, none) ∧
      NewBody b name w.eng.bodies.len w.eng.number_of_nodes V T (Rigid.direction_of_most_variance eig V) ∧ GeoFits b g ∧
      Rigid.shapeGrid sd P.toGeoParams ⟨List.ofFn b.x0, surfaceTris b⟩ = .ok g.grid ∧ BroadFits P w.hash_grid h b g ∧
      (SoftOk w.eng → SoftOk (w.create_soft_body eig sd P name V T).1.eng) := by
  obtain ⟨V', T', σ, hsort, hpV, hpT, hσ, hinj, hget⟩ := sortedMesh_relabel eig V T hT
  have hlenV := hpV.length_eq
  have hT' : TetsBelow T' V'.length := by
    intro t ht a
    obtain ⟨t0, ht0, rfl⟩ := List.mem_map.1 (hpT.mem_iff.1 ht)
    rw [nodeOf_relabel, hlenV]
    exact hσ _ (hT t0 ht0 a)
  have hv' : ∀ t ∈ T', 0 < vol6 (tetPos V' t) := by
    intro t ht
    obtain ⟨t0, ht0, rfl⟩ := List.mem_map.1 (hpT.mem_iff.1 ht)
    rw [tetPos_relabel (hT t0 ht0) hget]
    exact hv t0 ht0
  obtain ⟨b, g, h, hprep, ⟨TT, S, hmk⟩, hn, hx0, hcor, hsum, hgeo, hgrid, hbroad⟩ := prepare_sorted (name := name) hsd hP hcs hsort hT' hv'
    (manifold_relabel hT hinj hpT hm) (boundary_relabel hT hinj hpT hb)
  have hrun : w.create_soft_body eig sd P name V T =
      (⟨{ w.eng with bodies := w.eng.bodies.setItem name (.ready b), number_of_nodes := w.eng.number_of_nodes + V.length },
        w.geo.setItem name g, h⟩, none) := by
    unfold World.create_soft_body
    rw [if_neg (by simp [hname]), hprep, ← hlenV, ← hn]
  refine ⟨b, g, h, hrun, ?_, hgeo, hgrid, hbroad, ?_⟩
  · have hmk' := hmk
    unfold Engine.makeBody at hmk'
    simp only [bind, Except.bind] at hmk'
    split at hmk'
    · cases hmk'
    rename_i B hB
    simp only [pure, Except.pure, Except.ok.injEq] at hmk'
    have hs := fun ha => sortedMesh_sorted hT hsort ha
    refine ⟨by rw [← hmk'], by rw [← hmk'], by rw [← hmk'], hn.trans hlenV, hx0 ▸ hpV, ?_, ?_, ?_, by rw [← hmk'], ?_, by rw [← hmk'],
      by rw [← hmk'], by rw [← hmk']; exact ⟨rfl, rfl, rfl⟩, by rw [← hmk'], by rw [← hmk'], by rw [← hmk']⟩
    · rw [hcor]
      exact corners_perm hT hpT hget
    · intro ha i j hij
      have h1 := (hs ha).1
      rw [← hx0] at h1
      exact ofFn_pairwise (R := fun v w => V3.dot v (Rigid.direction_of_most_variance eig V) ≤
        V3.dot w (Rigid.direction_of_most_variance eig V)) (fun _ => le_rfl) h1 hij
    · intro ha i j hij
      have h1 := (hs ha).2
      rw [← hsum] at h1
      exact ofFn_pairwise (fun _ => le_rfl) h1 hij
    · rw [← hmk']
      intro i
      rfl
  · intro hok
    rw [hrun]
    have := softOk_body hok name (fun i : Fin V'.length => V'[i]) TT S
    unfold Engine.create_soft_body at this
    rw [if_neg (by simp [hname]), hmk, hlenV] at this
    exact this

theorem sortedMesh_error (eig : Eig) (V : List V3) (T : List Tet) (hT : ¬ TetsBelow T V.length) :
    sortedMesh eig V T = .error .indexError := by
  have hrun : SMesh.axis_sort V (T.map tetRow) (Rigid.direction_of_most_variance eig V) = .error .indexError := by
    unfold SMesh.axis_sort
    refine if_neg ?_
    intro hall
    apply hT
    intro t ht a
    simp only [List.all_eq_true, decide_eq_true_eq] at hall
    have h := hall (tetRow t) (List.mem_map_of_mem ht) (nodeOf t a) (by fin_cases a <;> simp [tetRow, nodeOf])
    rwa [argsort_length] at h
  unfold sortedMesh
  simp only [bind, Except.bind]
  rw [hrun]

/-- **C98** (exceptions). A name in use: RuntimeError, nothing changes.  A corner index that is not a row of V: IndexError.  A flat or inverted
tetrahedron: RuntimeError.  In the last two cases the engine keeps an unfinished body under the name, which makes all later steps
raise. -/
theorem C98_raises (eig : Eig) (sd : SignedDistance) (P : FullParams) (w : World) (name : String) (V : List V3) (T : List Tet) :
    (w.eng.bodies.mem name = true → w.create_soft_body eig sd P name V T = (w, some .runtimeError)) ∧
    (w.eng.bodies.mem name = false → ¬ TetsBelow T V.length → w.create_soft_body eig sd P name V T =
      ({ w with eng := { w.eng with bodies := w.eng.bodies.setItem name .broken } }, some .indexError)) ∧
    (w.eng.bodies.mem name = false → TetsBelow T V.length → (∃ t ∈ T, vol6 (tetPos V t) ≤ 0) → w.create_soft_body eig sd P name V T =
      ({ w with eng := { w.eng with bodies := w.eng.bodies.setItem name .broken } }, some .runtimeError)) ∧
    ∀ err, (w.create_soft_body eig sd P name V T).2 = some err → w.eng.bodies.mem name = false →
      ∀ (Q : Plugins) (W : ℕ × (ℕ → ℕ → ℝ)) (dt : ℝ), ∃ err', Soft.step Q W dt (w.create_soft_body eig sd P name V T).1.eng = .error err' := by
  refine ⟨fun h => ?_, fun h hT => ?_, fun h hT hd => ?_, ?_⟩
  · unfold World.create_soft_body
    rw [if_pos h]
  · unfold World.create_soft_body
    rw [if_neg (by simp [h])]
    unfold prepare
    simp only [bind, Except.bind]
    rw [sortedMesh_error eig V T hT]
  · obtain ⟨V', T', σ, hsort, hpV, hpT, hσ, hinj, hget⟩ := sortedMesh_relabel eig V T hT
    have hlenV := hpV.length_eq
    have hT' : TetsBelow T' V'.length := by
      intro t ht a
      obtain ⟨t0, ht0, rfl⟩ := List.mem_map.1 (hpT.mem_iff.1 ht)
      rw [nodeOf_relabel, hlenV]
      exact hσ _ (hT t0 ht0 a)
    obtain ⟨TT, hTT, hTn⟩ := tetArray_ok hT'
    have hinv : compute_inverse_D0 (fun i : Fin V'.length => V'[i]) TT = .error .runtimeError := by
      unfold compute_inverse_D0 compute_D
      rw [if_pos]
      · rfl
      · obtain ⟨t0, ht0, hle⟩ := hd
        have hmem : relabelTet σ t0 ∈ T' := hpT.mem_iff.2 (List.mem_map_of_mem ht0)
        obtain ⟨e, he, hte⟩ := List.getElem_of_mem hmem
        refine ⟨⟨e, he⟩, ?_⟩
        have hc : (fun a => V'[TT ⟨e, he⟩ a]) = tetPos V t0 := by
          rw [← tetPos_relabel (hT t0 ht0) hget, ← hte]
          funext a
          unfold tetPos
          rw [show nodeOf T'[e] a = _ from (hTn ⟨e, he⟩ a).symm, List.getD_eq_getElem?_getD, List.getElem?_eq_getElem (TT ⟨e, he⟩ a).2]
          rfl
        rw [hc]
        exact hle
    unfold World.create_soft_body
    rw [if_neg (by simp [h])]
    unfold prepare
    simp only [bind, Except.bind, hsort, hTT, hinv]
  · intro err herr hn Q W dt
    unfold World.create_soft_body at herr ⊢
    rw [if_neg (by simp [hn])] at herr ⊢
    cases hprep : prepare eig sd P w name V T with
    | ok r => rw [hprep] at herr; cases herr
    | error e1 =>
      simp only
      cases hs : Soft.step Q W dt { w.eng with bodies := w.eng.bodies.setItem name .broken } with
      | error e2 => exact ⟨e2, rfl⟩
      | ok e2 =>
        exfalso
        unfold Soft.step at hs
        simp only [bind, Except.bind] at hs
        split at hs
        · cases hs
        rename_i L hL
        unfold bodyList at hL
        simp only at hL
        have hv : (w.eng.bodies.setItem name Slot.broken).values = w.eng.bodies.values ++ [Slot.broken] := by
          unfold Dict.setItem
          rw [hn]
          simp [Dict.values]
        rw [hv, List.mapM_append] at hL
        simp only [bind, Except.bind] at hL
        split at hL
        · cases hL
        · cases hL

/-- A mesh of tetrahedra that do not overlap has a boundary. -/
theorem hasBoundary_of_embedded {T : List Tet} (V : List V3) (hne : T ≠ []) (hm : FaceManifold T) (he : Embedded T fun i => V.getD i 0) :
    HasBoundary T := by
  by_contra hno
  obtain ⟨S, O, h1, h2⟩ := C31_surface_volume T V hm he
  obtain ⟨S', O', g1, g2, -, g3, -⟩ := C31_surface T hm
  rw [h1] at g1
  simp only [Except.ok.injEq, Prod.mk.injEq] at g1
  have hS : S = S' := List.map_injective_iff.2 (Option.some_injective _) g1.1
  have hO' : O' = [] := by
    rw [List.eq_nil_iff_forall_not_mem]
    intro x hx
    exact hno ⟨x, (g3 x).1 hx⟩
  rw [hO'] at g2
  rw [hS, List.length_eq_zero_iff.1 g2] at h2
  have hpos : 0 < (T.map (meshVol fun i => V.getD i 0)).sum := by
    refine List.sum_pos _ ?_ (by simpa using hne)
    intro x hx
    obtain ⟨t, ht, rfl⟩ := List.mem_map.1 hx
    exact he.1 t ht
  rw [← h2] at hpos
  simp [enclosedVolume] at hpos

/-- **C98** (meshes). In particular `create_soft_body` succeeds for every mesh with at least one tetrahedron, valid indices, positive volumes
and no two tetrahedra that overlap. -/
theorem C98_create_mesh {eig : Eig} {sd : SignedDistance} (hsd : OnePerNode sd) {P : FullParams} (hP : GoodGeo P.toGeoParams) {w : World}
    (hcs : 0 ≤ w.hash_grid.cell_size) {name : String} (hname : w.eng.bodies.mem name = false) {V : List V3} {T : List Tet} (hne : T ≠ [])
    (hT : TetsBelow T V.length) (hn : NonOverlapping T fun i => V.getD i 0) :
    (w.create_soft_body eig sd P name V T).2 = none ∧ ∃ b, HasBody (w.create_soft_body eig sd P name V T).1.eng name b ∧
      NewBody b name w.eng.bodies.len w.eng.number_of_nodes V T (Rigid.direction_of_most_variance eig V) := by
  obtain ⟨hm, he⟩ := C31_nonoverlapping _ _ hn
  obtain ⟨b, g, h, hrun, hb, -⟩ := C98_create (eig := eig) hsd hP hcs hname hT (fun t ht => by
    have := hn.1 t ht
    unfold meshVol at this
    have h6 : vol6 (tetPos V t) = V3.dot (V.getD t.m 0 - V.getD t.i 0) (V3.cross (V.getD t.j 0 - V.getD t.i 0) (V.getD t.k 0 - V.getD t.i 0)) := rfl
    rw [h6]
    linarith) hm (hasBoundary_of_embedded V hne hm he)
  rw [hrun]
  exact ⟨rfl, b, Dict.get?_setItem_self _ _ _, hb⟩

/-- **C98** (beams). The meshes of `create_beam` are accepted, whatever their size. -/
theorem C98_create_beam {eig : Eig} {sd : SignedDistance} (hsd : OnePerNode sd) {P : FullParams} (hP : GoodGeo P.toGeoParams) {w : World}
    (hcs : 0 ≤ w.hash_grid.cell_size) {name : String} (hname : w.eng.bodies.mem name = false) {I J K : ℕ} {wd ht d : ℝ} (hI : 2 ≤ I)
    (hJ : 2 ≤ J) (hK : 2 ≤ K) (hw : 0 < wd) (hh : 0 < ht) (hd : 0 < d) :
    ∃ V T, VMesh.create_beam I J K wd ht d = .ok (V, T) ∧ (w.create_soft_body eig sd P name V T).2 = none ∧
      ∃ b, HasBody (w.create_soft_body eig sd P name V T).1.eng name b ∧ b.n = I * J * K := by
  obtain ⟨V, T, vols, hc, hb, _⟩ := (C29_create_beam I J K wd ht d).1 hI hJ hK hw hh hd
  have hT : T = VMesh.create_tetrahedron_array_from_cube_mesh I J K := by
    unfold VMesh.create_beam at hc
    rw [if_neg (by omega)] at hc
    simp only [bind, Except.bind, pure, Except.pure] at hc
    split at hc
    · exact absurd hc (by simp)
    · simp only [Except.ok.injEq, Prod.mk.injEq] at hc
      exact hc.2.symm
  subst hT
  have c : ∀ n : ℕ, 2 ≤ n → (0:ℝ) < n - 1 := by
    intro n hn
    have : (2:ℝ) ≤ n := by exact_mod_cast hn
    linarith
  have hn := C31_cube_mesh hb (div_pos hw (c I hI)) (div_pos hh (c J hJ)) (div_pos hd (c K hK))
  have hlen : V.length = I * J * K := hb.len
  have hbelow : TetsBelow (VMesh.create_tetrahedron_array_from_cube_mesh I J K) V.length := by
    intro t ht a
    obtain ⟨h0, h1, h2, h3, -⟩ := (C29_shape I J K).2 t ht
    rw [hlen]
    fin_cases a
    exacts [h0, h1, h2, h3]
  obtain ⟨h1, b, h2, h3⟩ := C98_create_mesh (eig := eig) hsd hP hcs hname (by
    intro h0
    have := (C29_shape I J K).1
    rw [h0, List.length_nil] at this
    have : 0 < (I - 1) * (J - 1) * (K - 1) := Nat.mul_pos (Nat.mul_pos (by omega) (by omega)) (by omega)
    omega) hbelow hn
  exact ⟨V, _, hc, h1, b, h2, h3.size.trans hlen⟩

theorem fullParams_good : GoodGeo FullParams.init.toGeoParams := by
  refine ⟨Or.inl rfl, ?_, ?_, ?_⟩ <;> norm_num [FullParams.init]

/-- The hypotheses of C98 are met: a beam of 40 tetrahedra in a new world with the default parameters, whatever signed distances
and eigenvectors the libraries report. -/
example (eigh : M3 → V3 × M3) (Phi : ℤ → ℤ → ℤ → ℤ) (eig : Eig) (sd : SignedDistance) (hsd : OnePerNode sd) :
    ∃ V T, VMesh.create_beam 3 3 3 1 1 1 = .ok (V, T) ∧
      ((World.create_engine eigh Phi).create_soft_body eig sd FullParams.init "beam" V T).2 = none ∧
      ∃ b, HasBody ((World.create_engine eigh Phi).create_soft_body eig sd FullParams.init "beam" V T).1.eng "beam" b ∧ b.n = 27 :=
  C98_create_beam hsd fullParams_good (le_refl (0:ℝ)) rfl (by norm_num) (by norm_num) (by norm_num) one_pos one_pos one_pos

end Verif
