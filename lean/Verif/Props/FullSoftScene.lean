import Verif.Props.FullSoftRun
import Verif.Props.Urdf

/-! C100: scenes that the whole soft body simulator can run. -/

open scoped BigOperators

namespace Verif

open VMesh (Tri Tet)
open Rigid (Eig SignedDistance)
open Soft Soft.Engine Mech
open SpatialHash (HashGrid)

/-- Every body has a material of positive density, and each of its nodes belongs to a tetrahedron. -/
def Heavy (e : Soft.Engine) : Prop := ∀ k b, HasBody e k b →
  (∃ rho, 0 < rho ∧ b.M_array = some (compute_mass_element_array rho b.vol0 true)) ∧ ∀ a, ∃ t p, b.T t p = a

/-- **C100** (the stepper). If no stepper has been made and all bodies have positive mass, the stepper can be made, and it has three rows per
node. -/
theorem C100_stepper {e : Soft.Engine} (hok : SoftOk e) (hfin : ∃ B, bodyList e = .ok B) (hh : Heavy e) (hno : e.stepper = none) :
    ∃ W, getStepper e = .ok W ∧ W.1 = e.number_of_nodes * 3 ∧ compute_inverse_mass_matrix e = .ok W.2 := by
  obtain ⟨B, hB⟩ := hfin
  have hM : ∃ M, compute_mass_matrix B = .ok M := mass_defined (e := e) fun b hb => by
    obtain ⟨k, hk⟩ := (mem_bodyList hok.nodup hB b).1 hb
    obtain ⟨⟨rho, -, h⟩, -⟩ := hh k b hk
    exact ⟨_, h⟩
  obtain ⟨M, hM⟩ := hM
  obtain ⟨W, hW⟩ := (C72_invertible hok hB hM).1 fun k b rho hb hrho a => by
    obtain ⟨⟨rho', hpos, hM'⟩, hn⟩ := hh k b hb
    have hbo := hok.bodyOk hb
    have hvol : ∀ i, 0 < b.vol0 i := fun i => by rw [hbo.vol0]; exact C54_volume_pos _ _ _ hbo.prepared i
    obtain ⟨i, p, hip⟩ := hn a
    rw [hrho] at hM'
    injection hM' with hM'
    have := congrFun (congrFun (congrFun hM' i) 0) 0
    have h00 := congrArg M3.m00 this
    simp [compute_mass_element_array, shapeProducts, M3.identity] at h00
    rcases h00 with h00 | h00
    · rw [h00]
      exact (((C72_node_mass b.T b.vol0 hvol rho' hpos.le).2.1 a).2 ⟨hpos, hn a⟩).ne'
    · exact absurd h00 (hvol i).ne'
  refine ⟨(e.number_of_nodes * 3, W), ?_, rfl, hW⟩
  unfold getStepper
  rw [hno, hW]
  rfl

/-- A scene that can be run from now on: it can be run, no tetrahedron is flat or inverted, and the stepper can be made. -/
structure Runnable (P : FullParams) (w : World) : Prop where
  ready : SoftReady P w
  upright : Upright w.eng
  heavy : Heavy w.eng
  fresh : w.eng.stepper = none

/-- A scene to which bodies can be added: it could be run but for the cell size of the hash grid, which is zero until there is a body. -/
def Extendable (P : FullParams) (w : World) : Prop :=
  0 ≤ w.hash_grid.cell_size ∧ Runnable P ⟨w.eng, w.geo, { w.hash_grid with cell_size := 1 }⟩

theorem Runnable.extendable {P : FullParams} {w : World} (h : Runnable P w) (hc : 0 ≤ w.hash_grid.cell_size) : Extendable P w :=
  ⟨hc, ⟨h.ready.ok, h.ready.finished, h.ready.geo, h.ready.elastic, h.ready.friction, h.ready.plain, h.ready.pins,
    fun hh => ⟨one_pos, (h.ready.hash hh).2⟩, h.ready.scheme⟩, h.upright, h.heavy, h.fresh⟩

/-- **C100** (the empty scene). Bodies can be added to an engine that has none so far, whatever materials and interactions have been made. -/
theorem C100_empty {eigh : M3 → V3 × M3} (Phi : ℤ → ℤ → ℤ → ℤ) {P : FullParams} {e : Soft.Engine} (he : Built eigh e) (hb : e.bodies = Dict.empty)
    (hst : e.stepper = none) (hpl : e.params.use_pre_stabilization = false ∧ e.params.use_post_stabilization = false)
    (hs : P.proximal_solver ∈ ["gauss_seidel", "parallel_gauss_seidel", "parallel_jacobi", "parallel_jacboi_hybrid"]) :
    Extendable P { World.create_engine eigh Phi with eng := e } := by
  have no : ∀ k b, ¬ HasBody e k b := by
    intro k b h
    unfold HasBody at h
    rw [hb] at h
    cases h
  refine ⟨le_refl (0:ℝ), ⟨⟨C71_history he, ⟨[], ?_⟩, fun k b h => absurd h (no k b), fun k b h => absurd h (no k b), fun k b _ _ _ _ h => absurd h (no k b),
    hpl, fun k b h => absurd h (no k b), fun _ => ⟨one_pos, ?_⟩, hs⟩, fun k b h => absurd h (no k b), fun k b h => absurd h (no k b), hst⟩⟩
  · show bodyList e = _
    unfold bodyList
    rw [hb]
    rfl
  · intro hv cell h
    cases h

theorem bodyList_ready {e : Soft.Engine} : (∃ B, bodyList e = .ok B) ↔ ∀ s ∈ e.bodies.values, ∃ b, s = .ready b := by
  constructor
  · rintro ⟨B, hB⟩ s hs
    rw [bodyList_entries hB, List.mem_map] at hs
    obtain ⟨b, -, rfl⟩ := hs
    exact ⟨b, rfl⟩
  · intro h
    obtain ⟨B, hB, -⟩ := mapM_except (L := e.bodies.values) (f := fun s => match s with
      | .ready b => .ok b
      | .broken => .error .typeError) (P := fun _ _ => True) (by
      intro s hs
      obtain ⟨b, rfl⟩ := h s hs
      exact ⟨b, rfl, trivial⟩)
    exact ⟨B, hB⟩

/-- The least coordinates of the box of the distance field that is made for these vertices — the bounding box, grown by a tenth of the greatest extent
or by twice the envelope if that is more — are not zero.  (Where one is zero the gradient at the first nodes of the grid is not a number, C25.) -/
def OffCorner (P : Rigid.GeoParams) (V : List V3) : Prop := ∀ L b, IsExtent V L → b = max (L / 10) (2 * P.envelope) →
  ((∃ v ∈ V, v.x < b) ∨ ∀ v ∈ V, b < v.x) ∧ ((∃ v ∈ V, v.y < b) ∨ ∀ v ∈ V, b < v.y) ∧ ((∃ v ∈ V, v.z < b) ∨ ∀ v ∈ V, b < v.z)

/-- So it is for a body that reaches the coordinate planes from below. -/
theorem offCorner_of_low {P : Rigid.GeoParams} (hP : GoodGeo P) {V : List V3} (h : (∃ v ∈ V, v.x ≤ 0) ∧ (∃ v ∈ V, v.y ≤ 0) ∧ ∃ v ∈ V, v.z ≤ 0) : OffCorner P V := by
  intro L b _ hb
  have hpos : 0 < b := by
    rw [hb]
    refine lt_max_of_lt_right ?_
    have := hP.envelope
    have : (0:ℝ) < 1e-9 := by norm_num
    linarith
  obtain ⟨⟨vx, hvx, lx⟩, ⟨vy, hvy, ly⟩, ⟨vz, hvz, lz⟩⟩ := h
  exact ⟨Or.inl ⟨vx, hvx, by linarith⟩, Or.inl ⟨vy, hvy, by linarith⟩, Or.inl ⟨vz, hvz, by linarith⟩⟩

/-- **C100** (adding a body). To a scene that can be extended add a body from a mesh whose vertices are distinct and all used, whose tetrahedra
are positively oriented and share faces in pairs at most, that has a boundary, and for whose distance field no least coordinate is exactly zero (see C25);
then give it a material with one of the two laws that work, compressible, of positive density, whose friction with itself and with the
materials in use is known.  Both calls succeed and the scene can be run (and extended again). -/
theorem C100_add {eig : Eig} {sd : SignedDistance} (hsd : OnePerNode sd) {P : FullParams} (hP : GoodGeo P.toGeoParams) {w : World}
    (hw : Extendable P w) {name : String} (hname : w.eng.bodies.mem name = false) {V : List V3} {T : List Tet}
    (hV : V.Nodup) (hused : ∀ i < V.length, ∃ t ∈ T, ∃ a : Fin 4, nodeOf t a = i)
    (hlow : OffCorner P.toGeoParams V)
    (hT : TetsBelow T V.length) (hv : ∀ t ∈ T, 0 < vol6 (tetPos V t)) (hm : FaceManifold T) (hb : HasBoundary T)
    {mat : String} {m : Material} (hmat : w.eng.materials.get? mat = some m) (hlaw : m.pk1_stress = SVK.pk1_stress ∨ m.pk1_stress = SNH.pk1_stress)
    (hnu : m.nu < 1 / 2) (hrho : 0 < m.rho) (hself : w.eng.get_interaction m.name m.name ≠ none)
    (hother : ∀ k b m', HasBody w.eng k b → material w.eng b = .ok m' →
      w.eng.get_interaction m.name m'.name ≠ none ∧ w.eng.get_interaction m'.name m.name ≠ none) :
    (w.create_soft_body eig sd P name V T).2 = none ∧
    ∃ e', set_material (w.create_soft_body eig sd P name V T).1.eng name mat = .ok e' ∧
      Runnable P { (w.create_soft_body eig sd P name V T).1 with eng := e' } ∧
      Extendable P { (w.create_soft_body eig sd P name V T).1 with eng := e' } ∧
      e'.materials = w.eng.materials ∧ e'.surfaces_interactions = w.eng.surfaces_interactions ∧ e'.params = w.eng.params ∧
      (∃ b, HasBody e' name b ∧ material e' b = .ok m) ∧ ∀ k b, k ≠ name → (HasBody e' k b ↔ HasBody w.eng k b) := by
  obtain ⟨hcs, hR⟩ := hw
  have hok : SoftOk w.eng := hR.ready.ok
  obtain ⟨b, g, h, hrun, hnew, hfit, hgrid, hbroad, hsok⟩ := C98_create (eig := eig) hsd hP hcs hname hT hv hm hb
  replace hsok := hsok hok
  rw [hrun] at hsok ⊢
  refine ⟨rfl, ?_⟩
  simp only at hsok ⊢
  obtain ⟨e1, he1⟩ : ∃ e : Soft.Engine, e = { w.eng with bodies := w.eng.bodies.setItem name (.ready b), number_of_nodes := w.eng.number_of_nodes + V.length } :=
    ⟨_, rfl⟩
  rw [← he1] at hsok ⊢
  have hb1 : HasBody e1 name b := by
    rw [he1]
    exact Dict.get?_setItem_self _ _ _
  obtain ⟨b', hb'⟩ : ∃ b' : SoftBody, b' = { b with
    material_description := some mat
    M_array := some (compute_mass_element_array m.rho b.vol0 b.is_lumped)
    C_array := some (compute_damping_element_array m.c b.vol0 b.is_lumped) } := ⟨_, rfl⟩
  have hset : set_material e1 name mat = .ok (e1.putBody name b') := by
    unfold set_material
    rw [hasBody_findBody hb1]
    have : e1.findMaterial mat = .ok m := by
      unfold findMaterial
      rw [he1]
      simp only [hmat]
    simp only [bind, Except.bind, this]
    rw [hb']
    rfl
  have hok2 : SoftOk (e1.putBody name b') := softOk_setter (eigh := fun _ => (0, 0)) hsok (.material hset)
  have hold : ∀ k c, k ≠ name → (HasBody (e1.putBody name b') k c ↔ HasBody w.eng k c) := by
    intro k c hk
    rw [(C74_put_body e1 name b').2.1 k c hk, he1]
    unfold HasBody
    simp only
    rw [Dict.get?_setItem, if_neg hk]
  have hbody : HasBody (e1.putBody name b') name b' := Dict.get?_setItem_self _ _ _
  have hcases : ∀ k c, HasBody (e1.putBody name b') k c → (k = name ∧ c = b') ∨ (k ≠ name ∧ HasBody w.eng k c) := by
    intro k c hc
    by_cases hk : k = name
    · subst hk
      unfold HasBody at hc hbody
      rw [hbody] at hc
      injection hc with hc
      injection hc with hc
      exact Or.inl ⟨rfl, hc.symm⟩
    · exact Or.inr ⟨hk, (hold k c hk).1 hc⟩
  have hmats : (e1.putBody name b').materials = w.eng.materials := by rw [he1]; rfl
  have hmaterial : ∀ c, material (e1.putBody name b') c = material w.eng c := by
    intro c
    unfold material
    rw [hmats]
  have hmb : material w.eng b' = .ok m := by
    unfold material
    rw [hb']
    simp only [hmat]
  have hint : ∀ A B, (e1.putBody name b').get_interaction A B = w.eng.get_interaction A B := by
    intro A B
    rw [he1]
    rfl
  have hx0 : Function.Injective b.x0 := by
    have : (List.ofFn b.x0).Nodup := hnew.vertices.nodup_iff.2 hV
    exact List.nodup_ofFn.1 this
  have hnodes : ∀ a : Fin b.n, ∃ t p, b.T t p = a := by
    intro a
    have hmem : b.x0 a ∈ V := hnew.vertices.mem_iff.1 ((List.mem_ofFn' _ _).2 ⟨a, rfl⟩)
    obtain ⟨i, hi, hia⟩ := List.getElem_of_mem hmem
    obtain ⟨t, ht, p, hp⟩ := hused i hi
    have hc : (fun a => tetPos V t a) ∈ tetCornersOf V T := List.mem_map_of_mem ht
    have hc' := hnew.tetrahedra.mem_iff.2 hc
    unfold bodyCorners at hc'
    rw [List.mem_ofFn'] at hc'
    obtain ⟨e, he⟩ := hc'
    refine ⟨e, p, hx0 ?_⟩
    have := congrFun he p
    simp only at this
    rw [this]
    unfold tetPos
    rw [hp, ← hia, List.getD_eq_getElem?_getD, List.getElem?_eq_getElem hi]
    rfl
  have hmin : g.grid.min_coord.x ≠ 0 ∧ g.grid.min_coord.y ≠ 0 ∧ g.grid.min_coord.z ≠ 0 := by
    have hmemV : ∀ v, v ∈ List.ofFn b.x0 ↔ v ∈ V := fun v => hnew.vertices.mem_iff
    have hne : List.ofFn b.x0 ≠ [] := by
      intro h0
      have hV0 : V = [] := List.eq_nil_of_length_eq_zero (by rw [← hnew.vertices.length_eq, h0]; rfl)
      obtain ⟨x, hx, -⟩ := hb
      have := hT _ (List.getElem_mem hx) 0
      rw [hV0] at this
      exact absurd this (by simp)
    obtain ⟨g', nodes, L, bd, hext, hbd, hg', -, -, -, hlo, -, ⟨vx, hvx, ex⟩, ⟨vy, hvy, ey⟩, ⟨vz, hvz, ez⟩, -⟩ := C96_shape_field (sd := sd) hsd (P := P.toGeoParams)
      (le_trans (by norm_num) hP.envelope) hP.resolution (m := ⟨List.ofFn b.x0, surfaceTris b⟩) hne
    rw [hgrid] at hg'
    injection hg' with hg'
    rw [hg']
    dsimp only at hext hlo hvx hvy hvz
    have hext' : IsExtent V L := ⟨fun v hv w hw => hext.bound v ((hmemV v).2 hv) w ((hmemV w).2 hw), by
      obtain ⟨v, hv, w, hw, h⟩ := hext.attained
      exact ⟨v, (hmemV v).1 hv, w, (hmemV w).1 hw, h⟩⟩
    obtain ⟨h1, h2, h3⟩ := hlow L bd hext' hbd
    refine ⟨?_, ?_, ?_⟩
    · rcases h1 with ⟨v, hv, hl⟩ | h1
      · have := (hlo v ((hmemV v).2 hv)).1
        exact fun h => by linarith
      · have := h1 vx ((hmemV vx).1 hvx)
        exact fun h => by linarith
    · rcases h2 with ⟨v, hv, hl⟩ | h2
      · have := (hlo v ((hmemV v).2 hv)).2.1
        exact fun h => by linarith
      · have := h2 vy ((hmemV vy).1 hvy)
        exact fun h => by linarith
    · rcases h3 with ⟨v, hv, hl⟩ | h3
      · have := (hlo v ((hmemV v).2 hv)).2.2
        exact fun h => by linarith
      · have := h3 vz ((hmemV vz).1 hvz)
        exact fun h => by linarith
  have hgeo : GeoFits b' g := by
    rw [hb']
    exact ⟨hfit.owned, hfit.owner, hfit.boundary, hfit.once, hfit.field⟩
  have hvals : (e1.putBody name b').bodies.values = w.eng.bodies.values ++ [.ready b'] := by
    rw [he1]
    unfold putBody
    simp only
    rw [setItem_setItem]
    unfold Dict.setItem Dict.values
    rw [if_neg (by simp [hname]), List.map_append]
    rfl
  have hready : ∀ cs : ℝ, (P.use_spatial_hashing = true → 0 < cs) → SoftReady P ⟨e1.putBody name b', w.geo.setItem name g, { h with cell_size := cs }⟩ := by
    intro cs hcs
    refine ⟨hok2, ?_, ?_, ?_, ?_, ?_, ?_, ?_, hR.ready.scheme⟩
    · rw [bodyList_ready]
      simp only [hvals]
      intro s hs
      rcases List.mem_append.1 hs with hs | hs
      · exact bodyList_ready.1 hR.ready.finished s hs
      · exact ⟨b', List.mem_singleton.1 hs⟩
    · intro k c hc
      rcases hcases k c hc with ⟨rfl, rfl⟩ | ⟨hk, hc⟩
      · refine ⟨g, Dict.get?_setItem_self _ _ _, hgeo, hmin, fun hh => ?_⟩
        unfold BroadFits at hbroad
        rw [hh, if_neg (by simp)] at hbroad
        obtain ⟨t, ht, trees, htr⟩ := hbroad.2
        refine ⟨t, ht, trees, ?_⟩
        rw [hb']
        exact htr
      · obtain ⟨g', h1, h2⟩ := hR.ready.geo k c hc
        refine ⟨g', ?_, h2⟩
        simp only
        rw [Dict.get?_setItem_ne _ _ hk]
        exact h1
    · intro k c hc
      simp only [hmaterial]
      rcases hcases k c hc with ⟨rfl, rfl⟩ | ⟨hk, hc⟩
      · exact ⟨m, hmb, hlaw, hnu⟩
      · exact hR.ready.elastic k c hc
    · intro k c k' c' m1 m2 hc hc' h1 h2
      simp only [hmaterial] at h1 h2
      simp only [hint]
      replace hc := hcases k c hc
      replace hc' := hcases k' c' hc'
      rcases hc with ⟨rfl, rfl⟩ | ⟨hk, hc⟩
      · rw [hmb] at h1
        injection h1 with h1
        subst h1
        rcases hc' with ⟨rfl, rfl⟩ | ⟨hk', hc'⟩
        · rw [hmb] at h2
          injection h2 with h2
          subst h2
          exact hself
        · exact (hother k' c' m2 hc' h2).1
      · rcases hc' with ⟨rfl, rfl⟩ | ⟨hk', hc'⟩
        · rw [hmb] at h2
          injection h2 with h2
          subst h2
          exact (hother k c m1 hc h1).2
        · exact hR.ready.friction k c k' c' m1 m2 hc hc' h1 h2
    · rw [he1]
      exact hR.ready.plain
    · intro k c hc i hi
      rcases hcases k c hc with ⟨rfl, rfl⟩ | ⟨hk, hc⟩
      · subst hb'
        exfalso
        unfold Pinned at hi
        simp only [hnew.pins] at hi
        simp at hi
      · exact hR.ready.pins k c hc i hi
    · intro hh
      refine ⟨hcs hh, ?_⟩
      unfold BroadFits at hbroad
      rw [hh, if_pos rfl] at hbroad
      intro hv cell hcell o ho
      simp only at hcell
      rw [hbroad.2.1] at hcell
      obtain ⟨n, h1, h2⟩ := (hR.ready.hash hh).2 hv cell hcell o ho
      refine ⟨n, ?_, h2⟩
      have : surfaceCounts (e1.putBody name b') = surfaceCounts w.eng ++ [b'.surface.length] := by
        unfold surfaceCounts
        rw [hvals, List.map_append]
        rfl
      simp only at this ⊢
      rw [this, List.getElem?_append_left (List.getElem?_eq_some_iff.1 h1).1]
      exact h1
  have hup : Upright (e1.putBody name b') := by
    intro k c hc t
    rcases hcases k c hc with ⟨rfl, rfl⟩ | ⟨hk, hc⟩
    · subst hb'
      have hx : b.x = b.x0 := hnew.undeformed
      simp only [hx]
      exact (prepared_iff.1 (hok2.bodyOk hbody).prepared).1 t
    · exact hR.upright k c hc t
  have hheavy : Heavy (e1.putBody name b') := by
    intro k c hc
    rcases hcases k c hc with ⟨rfl, rfl⟩ | ⟨hk, hc⟩
    · subst hb'
      refine ⟨⟨m.rho, hrho, ?_⟩, hnodes⟩
      simp only [hnew.lumped]
    · exact hR.heavy k c hc
  have hfresh : (e1.putBody name b').stepper = none := by
    rw [he1]
    exact hR.fresh
  have hcell : 0 ≤ h.cell_size ∧ (P.use_spatial_hashing = true → 0 < h.cell_size) := by
    unfold BroadFits at hbroad
    split at hbroad
    · exact ⟨hbroad.2.2.2.2.1.le, fun _ => hbroad.2.2.2.2.1⟩
    · rename_i hh
      rw [hbroad.1]
      exact ⟨hcs, fun h => absurd h hh⟩
  exact ⟨_, hset, ⟨hready h.cell_size hcell.2, hup, hheavy, hfresh⟩, ⟨hcell.1, ⟨hready 1 fun _ => one_pos, hup, hheavy, hfresh⟩⟩, hmats,
    by rw [he1]; rfl, by rw [he1]; rfl, ⟨b', hbody, (hmaterial b').trans hmb⟩, hold⟩

theorem block_nodup {I J K : ℕ} {V : List V3} {o h : V3} (hb : IsBlock I J K V o h) (hx : h.x ≠ 0) (hy : h.y ≠ 0) (hz : h.z ≠ 0) : V.Nodup := by
  have dig : ∀ n < V.length, ∃ i j k, i < I ∧ j < J ∧ k < K ∧ n = (k * J + j) * I + i := by
    intro n hn
    rw [hb.len] at hn
    have hI : 0 < I := by rcases Nat.eq_zero_or_pos I with h | h; · simp [h] at hn
                          · exact h
    have hJ : 0 < J := by rcases Nat.eq_zero_or_pos J with h | h; · simp [h] at hn
                          · exact h
    refine ⟨n % I, n / I % J, n / I / J, Nat.mod_lt _ hI, Nat.mod_lt _ hJ, ?_, ?_⟩
    · rw [Nat.div_div_eq_div_mul]
      exact Nat.div_lt_of_lt_mul hn
    · have h1 := Nat.div_add_mod n I
      have h2 := Nat.div_add_mod (n / I) J
      rw [mul_comm (n / I / J) J, h2, mul_comm, h1]
  rw [List.nodup_iff_injective_get]
  intro a b hab
  obtain ⟨i, j, k, hi, hj, hk, ha⟩ := dig a a.2
  obtain ⟨i', j', k', hi', hj', hk', hb'⟩ := dig b b.2
  have h1 := hb.pos i j k hi hj hk
  have h2 := hb.pos i' j' k' hi' hj' hk'
  rw [← ha, List.getElem?_eq_getElem a.2, Option.some.injEq] at h1
  rw [← hb', List.getElem?_eq_getElem b.2, Option.some.injEq] at h2
  have hab' : V[(a : ℕ)] = V[(b : ℕ)] := hab
  rw [h1, h2] at hab'
  injection hab' with ex ey ez
  have e1 : (i : ℝ) = i' := mul_right_cancel₀ hx (add_left_cancel ex)
  have e2 : (j : ℝ) = j' := mul_right_cancel₀ hy (add_left_cancel ey)
  have e3 : (k : ℝ) = k' := mul_right_cancel₀ hz (add_left_cancel ez)
  have e1' : i = i' := by exact_mod_cast e1
  have e2' : j = j' := by exact_mod_cast e2
  have e3' : k = k' := by exact_mod_cast e3
  subst e1' e2' e3'
  exact Fin.ext (ha.trans hb'.symm)

theorem block_used {I J K : ℕ} (hI : 2 ≤ I) (hJ : 2 ≤ J) (hK : 2 ≤ K) {n : ℕ} (hn : n < I * J * K) :
    ∃ t ∈ VMesh.create_tetrahedron_array_from_cube_mesh I J K, ∃ a : Fin 4, nodeOf t a = n := by
  obtain ⟨i, j, k, hi, hj, hk, rfl⟩ : ∃ i j k, i < I ∧ j < J ∧ k < K ∧ n = (k * J + j) * I + i := by
    refine ⟨n % I, n / I % J, n / I / J, Nat.mod_lt _ (by omega), Nat.mod_lt _ (by omega), ?_, ?_⟩
    · rw [Nat.div_div_eq_div_mul]
      exact Nat.div_lt_of_lt_mul hn
    · have h1 := Nat.div_add_mod n I
      have h2 := Nat.div_add_mod (n / I) J
      rw [mul_comm (n / I / J) J, h2, mul_comm, h1]
  have split : ∀ {i I : ℕ}, 2 ≤ I → i < I → ∃ i' o, i' + 1 < I ∧ o < 2 ∧ i = i' + o := by
    intro i I h2 hi
    by_cases h : i + 1 < I
    · exact ⟨i, 0, h, by norm_num, rfl⟩
    · exact ⟨i - 1, 1, by omega, by norm_num, by omega⟩
  obtain ⟨i', oi, hi', ho1, rfl⟩ := split hI hi
  obtain ⟨j', oj, hj', ho2, rfl⟩ := split hJ hj
  obtain ⟨k', ok, hk', ho3, rfl⟩ := split hK hk
  obtain ⟨c, hc⟩ : ∃ c : Fin 8, off c = (oi, oj, ok) := by
    interval_cases oi <;> interval_cases oj <;> interval_cases ok <;> simp [off] <;> decide
  have key : ∀ (f : Bool) (c : Fin 8), ∃ q ∈ pattern f, ∃ a : Fin 4, (![q.1, q.2.1, q.2.2.1, q.2.2.2] a : Fin 8) = c := by decide
  obtain ⟨q, hq, a, ha⟩ := key (decide ((i' + j' + k') % 2 = 1)) c
  refine ⟨⟨corner I J i' j' k' q.1, corner I J i' j' k' q.2.1, corner I J i' j' k' q.2.2.1, corner I J i' j' k' q.2.2.2⟩,
    mem_tets.2 ⟨i', j', k', hi', hj', hk', ?_⟩, a, ?_⟩
  · rw [cellTets_eq]
    exact List.mem_map_of_mem (f := fun q : Fin 8 × Fin 8 × Fin 8 × Fin 8 => (⟨corner I J i' j' k' q.1, corner I J i' j' k' q.2.1, corner I J i' j' k' q.2.2.1,
      corner I J i' j' k' q.2.2.2⟩ : Tet)) hq
  · have hcor : corner I J i' j' k' c = ((k' + ok) * J + (j' + oj)) * I + (i' + oi) := by
      unfold corner
      rw [hc]
      rfl
    rw [← hcor, ← ha]
    fin_cases a <;> rfl

/-- **C100** (beams). Adding a beam made by `create_beam`, with at least two nodes along each axis and positive sizes, to a scene that can be
extended, and giving it a material as in `C100_add`: the scene can be run. -/
theorem C100_add_beam {eig : Eig} {sd : SignedDistance} (hsd : OnePerNode sd) {P : FullParams} (hP : GoodGeo P.toGeoParams) {w : World}
    (hw : Extendable P w) {name : String} (hname : w.eng.bodies.mem name = false) {I J K : ℕ} {wd ht d : ℝ} (hI : 2 ≤ I)
    (hJ : 2 ≤ J) (hK : 2 ≤ K) (hwd : 0 < wd) (hht : 0 < ht) (hd : 0 < d)
    {mat : String} {m : Material} (hmat : w.eng.materials.get? mat = some m) (hlaw : m.pk1_stress = SVK.pk1_stress ∨ m.pk1_stress = SNH.pk1_stress)
    (hnu : m.nu < 1 / 2) (hrho : 0 < m.rho) (hself : w.eng.get_interaction m.name m.name ≠ none)
    (hother : ∀ k b m', HasBody w.eng k b → material w.eng b = .ok m' →
      w.eng.get_interaction m.name m'.name ≠ none ∧ w.eng.get_interaction m'.name m.name ≠ none) :
    ∃ V T, VMesh.create_beam I J K wd ht d = .ok (V, T) ∧ (w.create_soft_body eig sd P name V T).2 = none ∧
    ∃ e', set_material (w.create_soft_body eig sd P name V T).1.eng name mat = .ok e' ∧
      Runnable P { (w.create_soft_body eig sd P name V T).1 with eng := e' } ∧
      Extendable P { (w.create_soft_body eig sd P name V T).1 with eng := e' } ∧
      e'.materials = w.eng.materials ∧ e'.surfaces_interactions = w.eng.surfaces_interactions ∧ e'.params = w.eng.params ∧
      (∃ b, HasBody e' name b ∧ material e' b = .ok m) ∧ ∀ k b, k ≠ name → (HasBody e' k b ↔ HasBody w.eng k b) := by
  obtain ⟨V, T, vols, hc, hb, _⟩ := (C29_create_beam I J K wd ht d).1 hI hJ hK hwd hht hd
  have hT : T = VMesh.create_tetrahedron_array_from_cube_mesh I J K := by
    unfold VMesh.create_beam at hc
    rw [if_neg (by omega)] at hc
    simp only [bind, Except.bind, pure, Except.pure] at hc
    split at hc
    · exact absurd hc (by simp)
    · simp only [Except.ok.injEq, Prod.mk.injEq] at hc
      exact hc.2.symm
  subst hT
  have c : ∀ n : ℕ, 2 ≤ n → (0:ℝ) < n - 1 := by
    intro n hn
    have : (2:ℝ) ≤ n := by exact_mod_cast hn
    linarith
  have px := div_pos hwd (c I hI)
  have py := div_pos hht (c J hJ)
  have pz := div_pos hd (c K hK)
  have hn : NonOverlapping _ fun i => V.getD i 0 := C31_cube_mesh hb px py pz
  have hlen : V.length = I * J * K := hb.len
  have hbelow : TetsBelow (VMesh.create_tetrahedron_array_from_cube_mesh I J K) V.length := by
    intro t ht a
    obtain ⟨h0, h1, h2, h3, -⟩ := (C29_shape I J K).2 t ht
    rw [hlen]
    fin_cases a
    exacts [h0, h1, h2, h3]
  have hne : VMesh.create_tetrahedron_array_from_cube_mesh I J K ≠ [] := by
    intro h0
    have := (C29_shape I J K).1
    rw [h0, List.length_nil] at this
    have : 0 < (I - 1) * (J - 1) * (K - 1) := Nat.mul_pos (Nat.mul_pos (by omega) (by omega)) (by omega)
    omega
  obtain ⟨hm, he⟩ := C31_nonoverlapping _ _ hn
  have hfirst := hb.pos 0 0 0 (by omega) (by omega) (by omega)
  have hmem := List.mem_of_getElem? hfirst
  refine ⟨V, _, hc, C100_add hsd hP hw hname (block_nodup hb px.ne' py.ne' pz.ne')
    (fun i hi => block_used hI hJ hK (hlen ▸ hi)) (offCorner_of_low hP ⟨⟨_, hmem, ?_⟩, ⟨_, hmem, ?_⟩, ⟨_, hmem, ?_⟩⟩) hbelow (fun t ht => ?_) hm
    (hasBoundary_of_embedded V hne hm he) hmat hlaw hnu hrho hself hother⟩
  · simp only [Nat.cast_zero, zero_mul, add_zero]
    linarith
  · simp only [Nat.cast_zero, zero_mul, add_zero]
    linarith
  · simp only [Nat.cast_zero, zero_mul, add_zero]
    linarith
  · have := hn.1 t ht
    unfold meshVol at this
    have h6 : vol6 (tetPos V t) = V3.dot (V.getD t.m 0 - V.getD t.i 0) (V3.cross (V.getD t.j 0 - V.getD t.i 0) (V.getD t.k 0 - V.getD t.i 0)) := rfl
    rw [h6]
    linarith

/-- The hypotheses of C100 are met: two beams in a new engine with the default parameters; `simulate(T)` succeeds or reaches a flat or
inverted tetrahedron, and nothing else can happen. -/
example (eigh : M3 → V3 × M3) (Phi : ℤ → ℤ → ℤ → ℤ) (eig : Eig) (sd : SignedDistance) (hsd : OnePerNode sd) (eps : ℝ)
    (listOf : Finset (ℤ × ℤ) → List (ℤ × ℤ)) (hlist : ∀ s x, x ∈ listOf s ↔ x ∈ s) (T : ℝ) (hT : 0 < T) :
    ∃ w : World, Runnable FullParams.init w ∧ (∃ b, HasBody w.eng "beam" b) ∧ (∃ b, HasBody w.eng "bar" b) ∧
      ((∃ w', w.simulate eps listOf FullParams.init T = .ok w') ∨ w.simulate eps listOf FullParams.init T = .error .runtimeError) := by
  obtain ⟨m1, hm1⟩ : ∃ m1 : Material, m1 = { Material.init eigh with pk1_stress := SVK.pk1_stress, energy_density := SVK.energy_density } := ⟨_, rfl⟩
  obtain ⟨e0, he0⟩ : ∃ e0, e0 = (create_engine eigh).putMaterial "default" m1 := ⟨_, rfl⟩
  have hset : set_constitutive_model (create_engine eigh) "default" SVK.pk1_stress SVK.energy_density = .ok e0 := by
    rw [he0, hm1]
    rfl
  have hB : Built eigh e0 := Built.set Built.new (.constitutive hset)
  have hE := C100_empty Phi (P := FullParams.init) hB (by rw [he0]; rfl) (by rw [he0]; rfl) (by rw [he0]; exact ⟨rfl, rfl⟩) (by simp [FullParams.init])
  have hmat : e0.materials.get? "default" = some m1 := by rw [he0]; exact Dict.get?_setItem_self _ _ _
  have hname : m1.name = "default" := by rw [hm1]; rfl
  have hlaw : m1.pk1_stress = SVK.pk1_stress ∨ m1.pk1_stress = SNH.pk1_stress := by rw [hm1]; exact Or.inl rfl
  have hnu : m1.nu < 1 / 2 := by rw [hm1]; norm_num [Material.init]
  have hrho : 0 < m1.rho := by rw [hm1]; norm_num [Material.init]
  have hint : e0.get_interaction "default" "default" ≠ none := by
    rw [he0]
    exact Option.some_ne_none 1
  have hself : e0.get_interaction m1.name m1.name ≠ none := by rw [hname]; exact hint
  obtain ⟨V, T', -, -, e1, -, -, hx1, hmats, hints, hpar, ⟨b1, hb1, hmb⟩, hold⟩ := C100_add_beam (eig := eig) hsd fullParams_good hE (name := "beam")
    (by rw [he0]; rfl) (I := 3) (J := 3) (K := 3) (wd := 1) (ht := 1) (d := 1) (by norm_num) (by norm_num) (by norm_num) one_pos one_pos one_pos
    hmat hlaw hnu hrho hself (by
      intro k b m' hb
      rw [he0] at hb
      cases hb)
  obtain ⟨w1, hw1⟩ : ∃ w1, w1 = ({ (World.create_soft_body eig sd FullParams.init { World.create_engine eigh Phi with eng := e0 } "beam" V T').1 with eng := e1 } : World) := ⟨_, rfl⟩
  rw [← hw1] at hx1
  have hall : ∀ k b, HasBody e1 k b → k = "beam" := by
    intro k b hb
    by_contra hk
    have := (hold k b hk).1 hb
    rw [he0] at this
    cases this
  have e1eq : w1.eng = e1 := by rw [hw1]
  obtain ⟨V2, T2, -, -, e2, -, hr2, -, -, -, hpar2, ⟨b2, hb2, -⟩, hold2⟩ := C100_add_beam (eig := eig) hsd fullParams_good hx1 (name := "bar")
    (by
      rw [e1eq]
      by_contra hc
      rw [Bool.not_eq_false, Dict.mem_iff_get?] at hc
      obtain ⟨v, hv⟩ := hc
      obtain ⟨b, rfl⟩ := bodyList_ready.1 hx1.2.ready.finished v (by
        simp only [e1eq]
        obtain ⟨i, hi, he⟩ := Dict.get?_some hv
        exact List.mem_map.2 ⟨_, List.getElem_mem hi, by rw [he]⟩)
      exact absurd (hall "bar" b hv) (by decide)) (I := 4) (J := 2) (K := 2) (wd := 3) (ht := 1) (d := 2) (by norm_num) (by norm_num) (by norm_num) (by norm_num)
    (by norm_num) (by norm_num) (mat := "default") (m := m1) (by rw [e1eq, hmats]; exact hmat) hlaw hnu hrho
    (by rw [e1eq]; unfold get_interaction; rw [hints]; exact hself) (by
      intro k b m' hb hm'
      rw [e1eq] at hb hm' ⊢
      obtain rfl := hall k b hb
      unfold HasBody at hb hb1
      rw [hb1] at hb
      injection hb with hb
      injection hb with hb
      rw [← hb, hmb] at hm'
      injection hm' with hm'
      rw [← hm']
      unfold get_interaction
      rw [hints]
      exact ⟨hself, hself⟩)
  refine ⟨_, hr2, ⟨b1, (hold2 "beam" b1 (by decide)).2 (by rw [e1eq]; exact hb1)⟩, ⟨b2, hb2⟩, ?_⟩
  obtain ⟨W, hW, hsize, -⟩ := C100_stepper hr2.ready.ok hr2.ready.finished hr2.heavy hr2.fresh
  obtain ⟨dts, -, -, -, h⟩ := C100_simulate (eps := eps) hlist fullParams_good hr2.ready hW hsize (by
    simp only [hpar2, e1eq, hpar, he0]
    norm_num [create_engine, putMaterial]) hT
  rcases h with ⟨w', h, -⟩ | ⟨h, -⟩
  · exact Or.inl ⟨w', h⟩
  · exact Or.inr h

end Verif
