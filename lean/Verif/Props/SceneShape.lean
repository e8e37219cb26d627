import Verif.Model.Shapes
import Verif.Spec.Scene
import Verif.Props.AxisSort
import Verif.Props.MassXform
import Verif.Props.MeshTransform
import Verif.Props.RigidApi

/-! C84, C85: `create_mesh` and `create_shape`. -/

namespace Verif

open Rigid SMesh Matrix
open VMesh (Tri)

/-! ### `direction_of_most_variance` -/

theorem covEntry_comm (a b : List ℝ) (h : a.length = b.length) : covEntry a b = covEntry b a := by
  unfold covEntry
  simp only [h]
  congr 2
  rw [List.zipWith_comm]
  congr 1
  funext x y
  ring

theorem cov_symm (C : List V3) : (cov C).toMatᵀ = (cov C).toMat := by
  ext i j
  fin_cases i <;> fin_cases j <;> simp [cov, M3.toMat, Matrix.transpose_apply] <;>
    exact covEntry_comm _ _ (by simp)

theorem direction_ne_zero {eig : Eig} (he : EigSpec eig) (P : List V3) : direction_of_most_variance eig P ≠ 0 := by
  unfold direction_of_most_variance PCA
  simp only []
  obtain ⟨h1, -⟩ := he _ (cov_symm (P.map (· - vmean P)))
  generalize eig (cov (P.map (· - vmean P))) = e at *
  obtain ⟨d, R⟩ := e
  simp only [] at h1 ⊢
  generalize argmax3 d = k
  have h2 : R.toMat * R.toMatᵀ = 1 := mul_eq_one_comm.1 h1
  have h3 := congrFun (congrFun h2 k) k
  intro h0
  have hx := congrArg V3.x h0
  have hy := congrArg V3.y h0
  have hz := congrArg V3.z h0
  fin_cases k <;>
    simp [matRow, M3.row0, M3.row1, M3.row2, M3.toMat, Matrix.mul_apply, Fin.sum_univ_three] at hx hy hz h3 <;>
    simp [hx, hy, hz] at h3

/-! ### `create_mesh` -/

/-- renumbering the corners of a triangle -/
def relabel (σ : ℕ → ℕ) (t : Tri) : Tri := ⟨σ t.a, σ t.b, σ t.c⟩

theorem create_mesh_relabel {eig : Eig} (he : EigSpec eig) (V : List V3) (T : List Tri) (hT : IndicesBelow T V.length) :
    ∃ (m : Mesh) (σ : ℕ → ℕ), create_mesh eig V T = .ok m ∧ m.V.Perm V ∧ m.T.Perm (T.map (relabel σ)) ∧
      (∀ i < V.length, σ i < V.length) ∧ (∀ i < V.length, ∀ j < V.length, σ i = σ j → i = j) ∧
      ∀ i < V.length, m.V.getD (σ i) 0 = V.getD i 0 := by
  have hax := direction_ne_zero he V
  generalize hA : direction_of_most_variance eig V = axis at hax
  have hrows : ∀ r ∈ T.map triRow, ∀ i ∈ r, i < V.length := by
    intro r hr i hi
    obtain ⟨t, ht, rfl⟩ := List.mem_map.1 hr
    obtain ⟨h1, h2, h3⟩ := hT t ht
    simp [triRow] at hi
    rcases hi with rfl | rfl | rfl <;> assumption
  have hpp : (axisOrder V axis).Perm (List.range V.length) := argsort_perm _ _
  set p := axisOrder V axis with hp
  set s := argsort V.length (fun k => ((p.getD k 0 : ℕ) : ℝ)) with hs
  have hsl : s.length = V.length := argsort_length _ _
  set T1 := (T.map triRow).map (fun r => r.map fun i => s.getD i 0) with hT1
  set o := argsort T1.length (fun k => rowMean (T1.getD k [])) with ho
  have hrun : axis_sort V (T.map triRow) axis = .ok (p.map fun i => V.getD i 0, o.map fun k => T1.getD k []) := by
    have hall : (T.map triRow).all (fun r => r.all (fun i => decide (i < s.length))) = true := by
      simp only [List.all_eq_true, decide_eq_true_eq]
      intro r hr i hi
      rw [hsl]
      exact hrows r hr i hi
    unfold axis_sort
    exact if_pos hall
  have hop : (o.map fun k => T1.getD k []).Perm T1 := perm_map_getD _ _ (argsort_perm _ _)
  refine ⟨⟨p.map fun i => V.getD i 0, (o.map fun k => T1.getD k []).map rowTri⟩, fun i => s.getD i 0, ?_,
    perm_map_getD _ _ hpp, ?_, ?_, ?_, ?_⟩
  · unfold create_mesh
    simp only [hA]
    rw [hrun]
    rfl
  · refine (hop.map rowTri).trans ?_
    rw [hT1, List.map_map, List.map_map]
    exact List.Perm.refl _
  · intro i hi
    show s.getD i 0 < _
    rw [getD_range_map (by omega)]
    exact argsort_lt (List.getElem_mem (l := s) _)
  · intro i hi j hj h
    have h1 := argsort_inverse hpp hi
    have h2 := argsort_inverse hpp hj
    rw [← hs] at h1 h2
    simp only [] at h
    rw [h, h2] at h1
    exact (Option.some.inj h1).symm
  · intro i hi
    have h1 := argsort_inverse hpp hi
    rw [← hs] at h1
    show (p.map fun i => V.getD i 0).getD (s.getD i 0) 0 = _
    rw [List.getD_eq_getElem?_getD, List.getElem?_map, h1]
    rfl

theorem dirEdges_relabel (σ : ℕ → ℕ) (T : List Tri) :
    dirEdges (T.map (relabel σ)) = (dirEdges T).map fun e => (σ e.1, σ e.2) := by
  unfold dirEdges
  rw [List.flatMap_map, List.map_flatMap]
  rfl

theorem dirEdges_below {T : List Tri} {n : ℕ} (h : IndicesBelow T n) : ∀ e ∈ dirEdges T, e.1 < n ∧ e.2 < n := by
  intro e he
  unfold dirEdges at he
  obtain ⟨t, ht, h2⟩ := List.mem_flatMap.1 he
  obtain ⟨h3, h4, h5⟩ := h t ht
  simp at h2
  rcases h2 with rfl | rfl | rfl <;> simp [*]

theorem closed_perm {T T' : List Tri} (h : T'.Perm T) (hc : ClosedOriented T) : ClosedOriented T' := by
  have hp : (dirEdges T').Perm (dirEdges T) := by
    unfold dirEdges
    exact h.flatMap_right _
  refine ⟨hp.nodup_iff.2 hc.1, ?_⟩
  intro a b hab
  exact hp.mem_iff.2 (hc.2 a b (hp.mem_iff.1 hab))

theorem closed_relabel {σ : ℕ → ℕ} {T : List Tri} {n : ℕ} (hi : IndicesBelow T n)
    (hinj : ∀ i < n, ∀ j < n, σ i = σ j → i = j) (hc : ClosedOriented T) : ClosedOriented (T.map (relabel σ)) := by
  unfold ClosedOriented
  rw [dirEdges_relabel]
  have hb := dirEdges_below hi
  refine ⟨?_, ?_⟩
  · refine List.Nodup.map_on ?_ hc.1
    intro x hx y hy hxy
    obtain ⟨x1, x2⟩ := hb x hx
    obtain ⟨y1, y2⟩ := hb y hy
    simp only [Prod.mk.injEq] at hxy
    exact Prod.ext (hinj _ x1 _ y1 hxy.1) (hinj _ x2 _ y2 hxy.2)
  · intro a b hab
    obtain ⟨e, he, hh⟩ := List.mem_map.1 hab
    simp only [Prod.mk.injEq] at hh
    exact List.mem_map.2 ⟨(e.2, e.1), hc.2 _ _ he, by simp [hh]⟩

theorem triangles_perm {V V' : List V3} {T T' : List Tri} {σ : ℕ → ℕ} (hi : IndicesBelow T V.length)
    (h : T'.Perm (T.map (relabel σ))) (hv : ∀ i < V.length, V'.getD (σ i) 0 = V.getD i 0) :
    (trianglesOf V' T').Perm (trianglesOf V T) := by
  unfold trianglesOf
  refine (h.map _).trans ?_
  rw [List.map_map]
  refine List.Perm.of_eq (List.map_congr_left ?_)
  intro t ht
  obtain ⟨h1, h2, h3⟩ := hi t ht
  simp only [Function.comp, relabel, hv _ h1, hv _ h2, hv _ h3]

/-- **C84.** Whatever direction the principal component analysis yields, `create_mesh` hands back the given surface: the same
vertices and the same triangles (same corner points in the same order) in another order; index bounds, closedness and
orientation are kept. -/
theorem C84_create_mesh {eig : Eig} (he : EigSpec eig) (V : List V3) (T : List Tri) (hT : IndicesBelow T V.length) :
    ∃ m, create_mesh eig V T = .ok m ∧ m.V.Perm V ∧ (trianglesOf m.V m.T).Perm (trianglesOf V T) ∧
      IndicesBelow m.T m.V.length ∧ (ClosedOriented T → ClosedOriented m.T) := by
  obtain ⟨m, σ, h1, h2, h3, h4, h5, h6⟩ := create_mesh_relabel he V T hT
  refine ⟨m, h1, h2, triangles_perm hT h3 h6, ?_, fun hc => closed_perm h3 (closed_relabel hT h5 hc)⟩
  intro t ht
  obtain ⟨t0, ht0, rfl⟩ := List.mem_map.1 (h3.mem_iff.1 ht)
  obtain ⟨a, b, c⟩ := hT t0 ht0
  rw [h2.length_eq]
  exact ⟨h4 _ a, h4 _ b, h4 _ c⟩

/-- a triangle that refers to a missing vertex makes it raise -/
theorem C84_bad_index {eig : Eig} (V : List V3) (T : List Tri) {t : Tri} (ht : t ∈ T)
    (h : ¬ (t.a < V.length ∧ t.b < V.length ∧ t.c < V.length)) : create_mesh eig V T = .error .indexError := by
  unfold create_mesh
  simp only
  have : ∃ i ∈ triRow t, V.length ≤ i := by
    simp only [not_and_or, not_lt] at h
    rcases h with h | h | h
    · exact ⟨_, by simp [triRow], h⟩
    · exact ⟨_, by simp [triRow], h⟩
    · exact ⟨_, by simp [triRow], h⟩
  obtain ⟨i, hi, hl⟩ := this
  rw [C32_bad_index V _ _ (List.mem_map_of_mem ht) hi hl]
  rfl

/-! ### `create_shape` -/

theorem rotate_zero (q : Quat) : Quat.rotate q 0 = 0 := by
  have := (C02_rotate_linear q 0 0 0).2
  simpa using this

theorem trianglesOf_map (f : V3 → V3) (V : List V3) (T : List Tri) (hi : IndicesBelow T V.length) :
    trianglesOf (V.map f) T = (trianglesOf V T).map fun t => (f t.1, f t.2.1, f t.2.2) := by
  unfold trianglesOf
  rw [List.map_map]
  apply List.map_congr_left
  intro t ht
  obtain ⟨h1, h2, h3⟩ := hi t ht
  simp only [Function.comp]
  rw [getD_map_lt _ _ 0 0 h1, getD_map_lt _ _ 0 0 h2, getD_map_lt _ _ 0 0 h3]

theorem zeroArea_of_ok {V : List V3} {T : List Tri} {ρ : ℝ} {p : Mass.MassProperties} (hi : IndicesBelow T V.length)
    (h : Mass.compute_mass_properties V T ρ = .ok p) : ∀ t ∈ T, ¬ ZeroArea V t := by
  intro t ht hz
  rw [C68_rejects_degenerate V T ρ hi ⟨t, ht, hz⟩] at h
  cases h

/-- The centroid of the solid bounded by a mesh. -/
noncomputable def centroid (V : List V3) (T : List Tri) : V3 :=
  ⟨solidIntegral (fun r => r.x) V T / solidIntegral (fun _ => 1) V T,
   solidIntegral (fun r => r.y) V T / solidIntegral (fun _ => 1) V T,
   solidIntegral (fun r => r.z) V T / solidIntegral (fun _ => 1) V T⟩

/-- The centre of mass as `compute_mass_properties` reports it: the centroid, with components of at most 1e-10 reported as 0. -/
noncomputable def massCentre (V : List V3) (T : List Tri) : V3 :=
  ⟨snap (centroid V T).x, snap (centroid V T).y, snap (centroid V T).z⟩

theorem mass_of_ok {V : List V3} {T : List Tri} {p : Mass.MassProperties} (hc : ClosedOriented T)
    (hi : IndicesBelow T V.length) (h : Mass.compute_mass_properties V T 1.0 = .ok p) :
    0 < enclosedVolume V T ∧ p.mass = snapPos (enclosedVolume V T) ∧ (⟨p.x, p.y, p.z⟩ : V3) = massCentre V T := by
  have hN := zeroArea_of_ok hi h
  have hV : 0 < solidIntegral (fun _ => 1) V T := by
    by_contra hcon
    rw [C68_rejects_volume V T _ hc hi hN (not_lt.1 hcon)] at h
    cases h
  obtain ⟨p', h1, h2, h3, h4, h5, -⟩ := C68_mass_integrals V T 1.0 hc hi hN hV
  rw [h1] at h
  cases h
  have hcentre : (⟨p.x, p.y, p.z⟩ : V3) = massCentre V T := by rw [h3, h4, h5]; rfl
  rw [solidIntegral_one] at h2 hV
  refine ⟨hV, ?_, hcentre⟩
  rw [h2, lit1, one_mul]

/-- The shape `sh` with the stored mesh `m` represents the surface (V, T): taken back to the frame the user modelled in, the
stored mesh has the vertices V and the triangles T. -/
def ShapeOf (sh : Shape) (m : Mesh) (V : List V3) (T : List Tri) : Prop :=
  IsUnitQ sh.q ∧ IndicesBelow m.T m.V.length ∧ (m.V.map (bodyToModel sh)).Perm V ∧
    (trianglesOf (m.V.map (bodyToModel sh)) m.T).Perm (trianglesOf V T)

/-- **C85.** When `create_shape` returns, the engine has the new shape under that name and is otherwise unchanged: the shape's
mass is the volume of the given closed mesh (at unit density), its origin is the centre of mass of the mesh, and its body-to-model transform takes the stored mesh back to the
given one, triangle by triangle. -/
theorem C85_create_shape {eig : Eig} (he : EigSpec eig) (s s' : Scene) (name : String) (mesh : Mesh)
    (hi : IndicesBelow mesh.T mesh.V.length) (hc : ClosedOriented mesh.T)
    (h : s.create_shape eig name mesh = .ok s') :
    s.eng.shapes.get? name = none ∧
    ∃ sh m, s' = { s with eng := { s.eng with shapes := s.eng.shapes.setItem name sh }, meshes := s.meshes.setItem name m } ∧
      sh.name = name ∧ 0 < enclosedVolume mesh.V mesh.T ∧
      (sh.mass = snapPos (enclosedVolume mesh.V mesh.T) ∧ sh.r = massCentre mesh.V mesh.T) ∧
      m.T = mesh.T ∧ m.V.map (bodyToModel sh) = mesh.V ∧ ShapeOf sh m mesh.V mesh.T := by
  unfold Scene.create_shape at h
  by_cases hm : s.eng.shapes.mem name = true
  · rw [if_pos hm] at h; cases h
  rw [if_neg hm] at h
  rw [Bool.not_eq_true] at hm
  refine ⟨(Dict.get?_eq_none _ _).2 hm, ?_⟩
  simp only [bind, Except.bind] at h
  cases hp : Mass.compute_mass_properties mesh.V mesh.T 1.0 with
  | error e => rw [hp] at h; cases h
  | ok prop =>
    rw [hp] at h
    simp only at h
    obtain ⟨hV, hmass⟩ := mass_of_ok hc hi hp
    obtain ⟨q, I, b, hx, -, hq, -⟩ := C49_xform he prop
    rw [hx] at h
    simp only at h
    obtain ⟨m', hr1, hr2, hr3, -⟩ := C63_rotate (SMesh.translate mesh (-⟨prop.x, prop.y, prop.z⟩)) (C01_unit_group hq hq).2.1
    rw [if_pos trivial, hr1] at h
    simp only at h
    unfold Engine.create_shape at h
    rw [if_neg (by simp [hm])] at h
    simp only [pure, Except.pure] at h
    cases h
    have hback : m'.V.map (bodyToModel ⟨name, prop.mass, I, ⟨prop.x, prop.y, prop.z⟩, q⟩) = mesh.V := by
      rw [hr3]
      simp only [SMesh.translate, List.map_map]
      conv_rhs => rw [← List.map_id mesh.V]
      apply List.map_congr_left
      intro v _
      simp only [Function.comp, bodyToModel, id]
      rw [(C02_rotate_conjugate hq _).2]
      simp
    refine ⟨⟨name, prop.mass, I, ⟨prop.x, prop.y, prop.z⟩, q⟩, m', rfl, rfl, hV, hmass, hr2, hback, hq, ?_, ?_, ?_⟩
    · rw [hr2, hr3]; simpa [SMesh.translate] using hi
    · rw [hback]
    · rw [hback, hr2]; simp [SMesh.translate]

/-- **C85.** `create_shape` succeeds for every new name and every closed mesh with positive volume and no degenerate
triangle. -/
theorem C85_create_shape_succeeds {eig : Eig} (s : Scene) (name : String) (mesh : Mesh)
    (hn : s.eng.shapes.get? name = none) (hi : IndicesBelow mesh.T mesh.V.length) (hc : ClosedOriented mesh.T)
    (hN : ∀ t ∈ mesh.T, ¬ ZeroArea mesh.V t) (hV : 0 < enclosedVolume mesh.V mesh.T) :
    ∃ s', s.create_shape eig name mesh = .ok s' := by
  rw [Dict.get?_eq_none] at hn
  obtain ⟨p, hp, -⟩ := C68_mass_integrals mesh.V mesh.T 1.0 hc hi hN (by rwa [solidIntegral_one])
  unfold Scene.create_shape
  rw [if_neg (by simp [hn]), hp]
  simp only [bind, Except.bind]
  rw [if_pos trivial]
  unfold SMesh.rotate
  rw [C05_rotate_array]
  simp only [bind, Except.bind]
  unfold Engine.create_shape
  rw [if_neg (by simp [hn])]
  exact ⟨_, rfl⟩

/-- **C85.** `create_shape` raises RuntimeError for a name in use, an inside-out or flat mesh, or a degenerate triangle. -/
theorem C85_create_shape_raises {eig : Eig} (s : Scene) (name : String) (mesh : Mesh) :
    (s.eng.shapes.get? name ≠ none → s.create_shape eig name mesh = .error .runtimeError) ∧
    (IndicesBelow mesh.T mesh.V.length → (∃ t ∈ mesh.T, ZeroArea mesh.V t) →
      s.create_shape eig name mesh = .error .runtimeError) ∧
    (IndicesBelow mesh.T mesh.V.length → ClosedOriented mesh.T → enclosedVolume mesh.V mesh.T ≤ 0 →
      s.create_shape eig name mesh = .error .runtimeError) := by
  have key : Mass.compute_mass_properties mesh.V mesh.T 1.0 = .error .runtimeError →
      s.create_shape eig name mesh = .error .runtimeError := by
    intro h
    unfold Scene.create_shape
    by_cases hm : s.eng.shapes.mem name = true
    · rw [if_pos hm]
    · rw [if_neg hm, h]; rfl
  refine ⟨?_, fun hi hz => key (C68_rejects_degenerate _ _ _ hi hz), ?_⟩
  · intro h
    unfold Scene.create_shape
    rw [if_pos]
    by_contra hm
    exact h ((Dict.get?_eq_none _ _).2 (by simpa using hm))
  · intro hi hc hV
    by_cases hN : ∃ t ∈ mesh.T, ZeroArea mesh.V t
    · exact key (C68_rejects_degenerate _ _ _ hi hN)
    · push Not at hN
      exact key (C68_rejects_volume _ _ _ hc hi hN (by rwa [solidIntegral_one]))

theorem solidIntegral_perm (f : V3 → ℝ) {V V' : List V3} {T T' : List Tri} (h : (trianglesOf V' T').Perm (trianglesOf V T)) :
    solidIntegral f V' T' = solidIntegral f V T := by
  have key : ∀ (V : List V3) (T : List Tri), solidIntegral f V T =
      ((trianglesOf V T).map fun t => tetIntegral f t.1 t.2.1 t.2.2).sum := by
    intro V T
    unfold solidIntegral trianglesOf
    rw [List.map_map]
    rfl
  rw [key, key, (h.map _).sum_eq]

theorem massCentre_perm {V V' : List V3} {T T' : List Tri} (h : (trianglesOf V' T').Perm (trianglesOf V T)) :
    massCentre V' T' = massCentre V T := by
  unfold massCentre centroid
  simp only [solidIntegral_perm _ h]

theorem enclosedVolume_perm {V V' : List V3} {T T' : List Tri} (h : (trianglesOf V' T').Perm (trianglesOf V T)) :
    enclosedVolume V' T' = enclosedVolume V T := by
  have key : ∀ (V : List V3) (T : List Tri), enclosedVolume V T = ((trianglesOf V T).map fun t => det3 t.1 t.2.1 t.2.2).sum / 6 := by
    intro V T
    unfold enclosedVolume trianglesOf
    rw [List.map_map]
    rfl
  rw [key, key, (h.map _).sum_eq]

end Verif
