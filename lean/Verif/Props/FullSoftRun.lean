import Verif.Props.FullSoft
import Verif.Props.SoftExamples
import Verif.Props.SoftCollisionComplete

/-! C100: running the whole soft body simulator. -/

open scoped BigOperators

namespace Verif

open VMesh (Tri Tet)
open Soft Soft.Engine Mech
open SpatialHash (HashGrid)

/-! ### Specification -/

/-- No tetrahedron of any body is flat or inverted. -/
def Upright (e : Soft.Engine) : Prop := ∀ k b, HasBody e k b → ∀ t : Fin b.K, 0 < edgeTriple fun a => b.x (b.T t a)

/-- The number of surface triangles of every body, in the order of creation. -/
def surfaceCounts (e : Soft.Engine) : List ℕ := e.bodies.values.map fun s => match s with
  | .ready b => b.surface.length
  | .broken => 0

/-- A scene that can be run: all bodies are finished and have their geometry; their materials are Saint Venant-Kirchhoff or stable
neo-Hookean ones (the third law always raises, C52) and compressible; friction is known for every pair of materials in use; pinned nodes are
where they are pinned; neither stabilization is on (both always raise, C74); the contact solver is one of the four there are. -/
structure SoftReady (P : FullParams) (w : World) : Prop where
  ok : SoftOk w.eng
  finished : ∃ B, bodyList w.eng = .ok B
  geo : ∀ k b, HasBody w.eng k b → ∃ g, w.geo.get? k = some g ∧ GeoFits b g ∧
    (g.grid.min_coord.x ≠ 0 ∧ g.grid.min_coord.y ≠ 0 ∧ g.grid.min_coord.z ≠ 0) ∧
    (P.use_spatial_hashing = false → ∃ t, g.bvh = some t ∧ ∃ trees, LinksOK (Collision.rows (surfaceTris b)) t.chunks trees)
  elastic : ∀ k b, HasBody w.eng k b → ∃ m, material w.eng b = .ok m ∧
    (m.pk1_stress = SVK.pk1_stress ∨ m.pk1_stress = SNH.pk1_stress) ∧ m.nu < 1 / 2
  friction : ∀ k b k' b' m m', HasBody w.eng k b → HasBody w.eng k' b' → material w.eng b = .ok m → material w.eng b' = .ok m' →
    w.eng.get_interaction m.name m'.name ≠ none
  plain : w.eng.params.use_pre_stabilization = false ∧ w.eng.params.use_post_stabilization = false
  pins : PinsHold w.eng
  hash : P.use_spatial_hashing = true → 0 < w.hash_grid.cell_size ∧ GridRefers (surfaceCounts w.eng) w.hash_grid
  scheme : P.proximal_solver ∈ ["gauss_seidel", "parallel_gauss_seidel", "parallel_jacobi", "parallel_jacboi_hybrid"]

/-- The bodies of the world w under their names, as collision detection sees them (`viewBody`): every body of the engine, once. -/
structure Seen {N : ℕ} (w : World) (name : Fin N → String) (B : Fin N → SoftCollision.Body) : Prop where
  once : Function.Injective name
  all : ∀ k b, HasBody w.eng k b → ∃ i, name i = k
  body : ∀ i, ∃ b g t, HasBody w.eng (name i) b ∧ w.geo.get? (name i) = some g ∧ B i = viewBody b g t

/-! ### Collision detection -/

theorem bodyViews_ok {P : FullParams} {w : World} (hw : SoftReady P w) : ∃ L, bodyViews w.eng w.geo = .ok L ∧
    L.map (fun v => (v.1, Slot.ready v.2.1)) = w.eng.bodies.entries ∧ ∀ v ∈ L, w.geo.get? v.1 = some v.2.2 := by
  obtain ⟨B, hB⟩ := hw.finished
  have hent := bodyList_entries hB
  obtain ⟨L, hL, hF⟩ := mapM_except (L := w.eng.bodies.entries) (f := fun kv => match kv.2 with
    | .broken => .error .typeError
    | .ready b => match w.geo.get? kv.1 with
      | none => .error .attributeError
      | some g => .ok (kv.1, b, g)) (P := fun kv v => (v.1, Slot.ready v.2.1) = kv ∧ w.geo.get? v.1 = some v.2.2) (by
    rintro ⟨k, sl⟩ hkv
    have hm : sl ∈ w.eng.bodies.values := List.mem_map_of_mem hkv
    rw [hent, List.mem_map] at hm
    obtain ⟨b, -, rfl⟩ := hm
    obtain ⟨g, hg, -⟩ := hw.geo k b (dict_entry_get hw.ok.nodup hkv)
    refine ⟨(k, b, g), ?_, rfl, hg⟩
    simp only [hg])
  refine ⟨L, hL, ?_, ?_⟩
  · clear hL hent hB
    generalize w.eng.bodies.entries = E at hF ⊢
    induction hF with
    | nil => rfl
    | cons h1 _ ih => rw [List.map_cons, ih, h1.1]
  · intro v hv
    clear hL hent hB
    generalize w.eng.bodies.entries = E at hF
    induction hF with
    | nil => cases hv
    | cons h1 _ ih =>
      rcases List.mem_cons.1 hv with rfl | h
      · exact h1.2
      · exact ih h

theorem views_hasBody {P : FullParams} {w : World} (hw : SoftReady P w) {L : List (String × SoftBody × Geo)}
    (hL : L.map (fun v => (v.1, Slot.ready v.2.1)) = w.eng.bodies.entries) {v : String × SoftBody × Geo} (hv : v ∈ L) :
    HasBody w.eng v.1 v.2.1 := by
  refine dict_entry_get hw.ok.nodup ?_
  rw [← hL]
  exact List.mem_map_of_mem hv

theorem views_seen {P : FullParams} {w : World} (hw : SoftReady P w) {L : List (String × SoftBody × Geo)}
    (hL : L.map (fun v => (v.1, Slot.ready v.2.1)) = w.eng.bodies.entries) (hg : ∀ v ∈ L, w.geo.get? v.1 = some v.2.2)
    (t : Fin L.length → BVH.Tree) : Seen w (fun k : Fin L.length => L[k].1) (fun k => viewBody L[k].2.1 L[k].2.2 (t k)) := by
  have hnames : L.map Prod.fst = w.eng.bodies.keys := by
    unfold Dict.keys
    rw [← hL, List.map_map]
    rfl
  refine ⟨?_, ?_, ?_⟩
  · intro i j hij
    have hn := hw.ok.nodup
    rw [← hnames] at hn
    have := (List.Nodup.getElem_inj_iff hn (hi := by simp) (hj := by simp) (i := (i : ℕ)) (j := (j : ℕ))).1 (by simpa using hij)
    exact Fin.ext this
  · intro k b hb
    obtain ⟨i, hi, he⟩ := Dict.get?_some hb
    rw [show w.eng.bodies.entries[i] = (k, Slot.ready b) ↔ _ from Iff.rfl] at he
    have hm : (k, Slot.ready b) ∈ w.eng.bodies.entries := he ▸ List.getElem_mem hi
    rw [← hL, List.mem_map] at hm
    obtain ⟨v, hv, h1⟩ := hm
    obtain ⟨j, hj, rfl⟩ := List.getElem_of_mem hv
    simp only [Prod.mk.injEq] at h1
    exact ⟨⟨j, hj⟩, h1.1⟩
  · intro i
    have hv : L[i] ∈ L := List.getElem_mem i.2
    exact ⟨_, _, _, views_hasBody hw hL hv, hg _ hv, rfl⟩

theorem viewTet {b : SoftBody} {g : Geo} {t : BVH.Tree} (e : Fin b.K) :
    (viewBody b g t).T[(e : ℕ)]? = some ⟨b.T e 0, b.T e 1, b.T e 2, b.T e 3⟩ := by
  unfold viewBody
  simp only
  rw [List.getElem?_ofFn, dif_pos e.2]

theorem viewTet_lt {b : SoftBody} {g : Geo} {t : BVH.Tree} {i : ℕ} {τ : Tet} (h : (viewBody b g t).T[i]? = some τ) : i < b.K := by
  have := (List.getElem?_eq_some_iff.1 h).1
  simpa [viewBody] using this

theorem ofFn_getD {n : ℕ} (f : Fin n → V3) (i : Fin n) : (List.ofFn f).getD i 0 = f i := by
  rw [List.getD_eq_getElem?_getD, List.getElem?_ofFn, dif_pos i.2]
  rfl

theorem viewCorner {b : SoftBody} (x : Fin b.n → V3) (e : Fin b.K) (a : Fin 4) :
    tetPos (List.ofFn x) ⟨b.T e 0, b.T e 1, b.T e 2, b.T e 3⟩ a = x (b.T e a) := by
  have : ∀ a : Fin 4, nodeOf ⟨b.T e 0, b.T e 1, b.T e 2, b.T e 3⟩ a = b.T e a := by
    intro a
    fin_cases a <;> rfl
  unfold tetPos
  rw [this, ofFn_getD]

theorem view_shapeOK {e : Soft.Engine} (hok : SoftOk e) {k : String} {b : SoftBody} {g : Geo} {t : BVH.Tree} (hb : HasBody e k b) (hg : GeoFits b g)
    (hc : g.grid.min_coord.x ≠ 0 ∧ g.grid.min_coord.y ≠ 0 ∧ g.grid.min_coord.z ≠ 0)
    (hu : ∀ t : Fin b.K, 0 < edgeTriple fun a => b.x (b.T t a)) : SoftShapeOK (viewBody b g t) := by
  refine ⟨?_, ?_, ?_, hg.field, hc⟩
  · intro idx hidx i hi
    unfold viewBody Collision.rows at hidx
    simp only [List.map_map, List.mem_map, Function.comp] at hidx
    obtain ⟨f, -, rfl⟩ := hidx
    unfold viewBody
    simp only [List.length_ofFn]
    simp only [List.mem_cons, List.not_mem_nil, or_false] at hi
    rcases hi with rfl | rfl | rfl
    exacts [f.1.2, f.2.1.2, f.2.2.2]
  · unfold viewBody
    simp only [List.length_map]
    exact hg.owned
  · intro o ho
    obtain ⟨m, hm, rfl⟩ := List.getElem_of_mem ho
    have hm' : m < g.owners.length := hm
    have hms : m < b.surface.length := hg.owned ▸ hm'
    obtain ⟨e', he', -⟩ := hg.owner m b.surface[m] g.owners[m] (List.getElem?_eq_getElem hms) (List.getElem?_eq_getElem hm')
    refine ⟨⟨b.T e' 0, b.T e' 1, b.T e' 2, b.T e' 3⟩, ?_, ?_, ?_, ?_⟩
    · rw [show (viewBody b g t).owners[m].1 = (e' : ℕ) from he']
      exact viewTet e'
    · intro a
      unfold viewBody
      simp only [List.length_ofFn]
      fin_cases a
      exacts [⟨(b.T e' 0).2, (b.T e' 0).2⟩, ⟨(b.T e' 1).2, (b.T e' 1).2⟩, ⟨(b.T e' 2).2, (b.T e' 2).2⟩, ⟨(b.T e' 3).2, (b.T e' 3).2⟩]
    · have : vol6 (tetPos (viewBody b g t).x ⟨b.T e' 0, b.T e' 1, b.T e' 2, b.T e' 3⟩) = edgeTriple fun a => b.x (b.T e' a) := by
        rw [show (tetPos (viewBody b g t).x ⟨b.T e' 0, b.T e' 1, b.T e' 2, b.T e' 3⟩) = fun a => b.x (b.T e' a) from
          funext fun a => viewCorner b.x e' a]
        rfl
      rw [this]
      exact (hu e').ne'
    · have : vol6 (tetPos (viewBody b g t).x0 ⟨b.T e' 0, b.T e' 1, b.T e' 2, b.T e' 3⟩) = edgeTriple fun a => b.x0 (b.T e' a) := by
        rw [show (tetPos (viewBody b g t).x0 ⟨b.T e' 0, b.T e' 1, b.T e' 2, b.T e' 3⟩) = fun a => b.x0 (b.T e' a) from
          funext fun a => viewCorner b.x0 e' a]
        rfl
      rw [this]
      exact ((prepared_iff.1 (hok.bodyOk hb).prepared).1 e').ne'

/-- The contact points are correct, all different, and no pair of triangles of different bodies that meet is left out. -/
def Found (P : FullParams) (w : World) (cps : List ContactPoint) : Prop :=
  ∃ (N : ℕ) (name : Fin N → String) (B : Fin N → SoftCollision.Body) (cs : List (SoftCollision.Contact N)), Seen w name B ∧
    cps = cs.map (nameContact name) ∧ (∀ c ∈ cs, IsSoftContact P.toCDParams B c) ∧ cs.Pairwise (fun c d => ¬ SameSoftContact c d) ∧
    ∀ (i j : Fin N) (m n : ℕ), i ≠ j → SurfacesMeet (B i) (B j) m n → Examined P.toCDParams B cs i j m n

/-- The geometry of the bodies of e. -/
def GeoReady (P : FullParams) (e : Soft.Engine) (geo : Dict String Geo) : Prop :=
  ∀ k b, HasBody e k b → ∃ g, geo.get? k = some g ∧ GeoFits b g ∧
    (g.grid.min_coord.x ≠ 0 ∧ g.grid.min_coord.y ≠ 0 ∧ g.grid.min_coord.z ≠ 0) ∧
    (P.use_spatial_hashing = false → ∃ t, g.bvh = some t ∧ ∃ trees, LinksOK (Collision.rows (surfaceTris b)) t.chunks trees)

theorem foldl_setItem {N : ℕ} {name : Fin N → String} (hinj : Function.Injective name) (f : Fin N → Geo) (l : List (Fin N)) (d : Dict String Geo)
    (i : Fin N) : (l.foldl (fun d k => d.setItem (name k) (f k)) d).get? (name i) = if i ∈ l then some (f i) else d.get? (name i) := by
  induction l generalizing d with
  | nil => simp
  | cons k l ih =>
    rw [List.foldl_cons, ih]
    by_cases hl : i ∈ l
    · rw [if_pos hl, if_pos (List.mem_cons_of_mem _ hl)]
    · rw [if_neg hl]
      by_cases hk : i = k
      · subst hk
        rw [if_pos List.mem_cons_self, Dict.get?_setItem_self]
      · rw [if_neg (by simp [hk, hl]), Dict.get?_setItem_ne _ _ fun h => hk (hinj h)]

theorem hash_cell {N : ℕ} {eps : ℝ} {listOf : Finset (ℤ × ℤ) → List (ℤ × ℤ)} {P : Collision.CDParams} {B : Fin N → SoftCollision.Body}
    {grid grid' : HashGrid SpatialHash.Obj} {ts : ℤ} {cps} (hcs : 0 < grid.cell_size) (hg : GridRefers (shapeOf (SoftCollision.hashBodies B)) grid)
    (h : SoftCollision.run_hash eps listOf P B grid ts = .ok (grid', cps)) : grid'.cell_size = grid.cell_size := by
  obtain ⟨g', res, h1, h2, -⟩ := C22_no_missed_pair eps grid (SoftCollision.hashBodies B) ts hcs (by
    intro n b h
    obtain ⟨k, rfl, rfl⟩ := hashBodies_get' B h
    rfl) hg
  unfold SoftCollision.run_hash at h
  simp only [bind, Except.bind, h1] at h
  split at h
  · cases h
  simp only [pure, Except.pure, Except.ok.injEq, Prod.mk.injEq] at h
  rw [← h.1, h2]

theorem detect_ok {eps : ℝ} {listOf : Finset (ℤ × ℤ) → List (ℤ × ℤ)} (hlist : ∀ s x, x ∈ listOf s ↔ x ∈ s) {P : FullParams}
    (hP : GoodGeo P.toGeoParams) {w : World} (hw : SoftReady P w) (hu : Upright w.eng) :
    ∃ geo h cps, detect eps listOf P w.geo w.hash_grid w.eng = .ok (geo, h, cps) ∧ Found P w cps ∧ GeoReady P w.eng geo ∧
      (P.use_spatial_hashing = true → 0 < h.cell_size ∧ GridRefers (surfaceCounts w.eng) h) := by
  obtain ⟨L, hL, hent, hgeo⟩ := bodyViews_ok hw
  have hbody : ∀ k : Fin L.length, HasBody w.eng L[k].1 L[k].2.1 := fun k => views_hasBody hw hent (List.getElem_mem k.2)
  have hfit : ∀ k : Fin L.length, GeoFits L[k].2.1 L[k].2.2 ∧
      (L[k].2.2.grid.min_coord.x ≠ 0 ∧ L[k].2.2.grid.min_coord.y ≠ 0 ∧ L[k].2.2.grid.min_coord.z ≠ 0) ∧
      (P.use_spatial_hashing = false → ∃ t, L[k].2.2.bvh = some t ∧ ∃ trees, LinksOK (Collision.rows (surfaceTris L[k].2.1)) t.chunks trees) := by
    intro k
    obtain ⟨g, hg, h1, h2, h3⟩ := hw.geo _ _ (hbody k)
    rw [show w.geo.get? L[k].1 = some L[k].2.2 from hgeo _ (List.getElem_mem k.2)] at hg
    simp only [Option.some.injEq] at hg
    subst hg
    exact ⟨h1, h2, h3⟩
  have hshape : ∀ (t : Fin L.length → BVH.Tree) k, SoftShapeOK (viewBody L[k].2.1 L[k].2.2 (t k)) := fun t k =>
    view_shapeOK hw.ok (hbody k) (hfit k).1 (hfit k).2.1 (hu _ _ (hbody k))
  cases hh : P.use_spatial_hashing with
  | true =>
    obtain ⟨hcs, hrefs⟩ := hw.hash hh
    obtain ⟨B, hB⟩ : ∃ B : Fin L.length → SoftCollision.Body, B = fun k => viewBody L[k].2.1 L[k].2.2 ⟨none, []⟩ := ⟨_, rfl⟩
    have hcount : shapeOf (SoftCollision.hashBodies B) = surfaceCounts w.eng := by
      unfold surfaceCounts Dict.values shapeOf SoftCollision.hashBodies
      rw [← hent, List.map_map, List.map_map, hB]
      refine List.ext_getElem (by simp) ?_
      intro i h1 h2
      simp [viewBody]
    rw [← hcount] at hrefs
    obtain ⟨h', cs, hrun, hr1, hr2, -⟩ := C82_complete_hash (eps := eps) hlist (P := P.toCDParams) (B := B) (by rw [hB]; exact hshape fun _ => ⟨none, []⟩)
      w.hash_grid w.eng.params.time_stamp hcs hrefs
    obtain ⟨hs1, hs2⟩ := C82_sound_hash hrun
    refine ⟨w.geo, h', cs.map (nameContact fun k => L[k].1), ?_, ⟨_, _, B, cs, ?_, rfl, hs1, hs2, hr2⟩, hw.geo, fun _ => ⟨?_, hcount ▸ hr1⟩⟩
    · unfold detect detectHash
      simp only [bind, Except.bind, hL, hh, if_true]
      rw [← hB, hrun]
      rfl
    · rw [hB]
      exact views_seen hw hent hgeo fun _ => ⟨none, []⟩
    · rw [hash_cell hcs hrefs hrun]
      exact hcs
  | false =>
    have htree : ∀ k : Fin L.length, ∃ t, L[k].2.2.bvh = some t ∧ ∃ trees, LinksOK (Collision.rows (surfaceTris L[k].2.1)) t.chunks trees :=
      fun k => (hfit k).2.2 hh
    obtain ⟨B, hB⟩ : ∃ B : Fin L.length → SoftCollision.Body, B = fun k => viewBody L[k].2.1 L[k].2.2 (L[k].2.2.bvh.getD ⟨none, []⟩) := ⟨_, rfl⟩
    obtain ⟨B', cs, hrun, hr1, hr2⟩ := C82_complete_bvh (P := P.toCDParams) hP.K (le_trans (by norm_num) hP.envelope) (B := B)
      (by rw [hB]; exact hshape fun k => L[k].2.2.bvh.getD ⟨none, []⟩) (by
        intro k
        obtain ⟨t, ht, trees, h1⟩ := htree k
        rw [hB]
        refine ⟨trees, ?_⟩
        simp only [ht, Option.getD_some]
        exact h1)
    obtain ⟨hs1, hs2, hs3⟩ := C82_sound_bvh hrun
    refine ⟨(List.finRange L.length).foldl (fun d k => d.setItem L[k].1 { L[k].2.2 with bvh := some (B' k).bvh }) w.geo, w.hash_grid,
      cs.map (nameContact fun k => L[k].1), ?_, ⟨_, _, B, cs, ?_, rfl, fun c hc => (hs1 c hc).2, hs2, hr2⟩, ?_, fun h => by cases h⟩
    · unfold detect detectBVH
      simp only [bind, Except.bind, hL, hh]
      rw [if_neg (by decide), if_neg]
      · rw [← hB, hrun]
        rfl
      · rintro ⟨v, hv, hnone⟩
        obtain ⟨i, hi, rfl⟩ := List.getElem_of_mem hv
        obtain ⟨t, ht, -⟩ := htree ⟨i, hi⟩
        rw [show L[i].2.2.bvh = L[(⟨i, hi⟩ : Fin L.length)].2.2.bvh from rfl, ht] at hnone
        cases hnone
    · rw [hB]
      exact views_seen hw hent hgeo fun k => L[k].2.2.bvh.getD ⟨none, []⟩
    · intro k b hb
      have hseen := views_seen hw hent hgeo fun _ => ⟨none, []⟩
      obtain ⟨i, rfl⟩ := hseen.all k b hb
      have hbi := hbody i
      unfold HasBody at hbi hb
      rw [hb] at hbi
      simp only [Option.some.injEq, Slot.ready.injEq] at hbi
      refine ⟨{ L[i].2.2 with bvh := some (B' i).bvh }, ?_, ?_, ?_, ?_⟩
      · rw [foldl_setItem hseen.once (fun k => { L[k].2.2 with bvh := some (B' k).bvh }), if_pos (List.mem_finRange i)]
      · rw [hbi]
        obtain ⟨f1, f2, f3, f4, f5⟩ := (hfit i).1
        exact ⟨f1, f2, f3, f4, f5⟩
      · exact (hfit i).2.1
      · intro _
        obtain ⟨t, ht⟩ := hs3 i
        obtain ⟨-, trees, h1⟩ := hr1 i
        refine ⟨_, rfl, trees, ?_⟩
        rw [hbi]
        rw [ht, hB] at h1
        rw [ht]
        exact h1

/-! ### Forces -/

/-- The forces on every body exist when no element is inverted. -/
theorem upright_force {P : FullParams} {w : World} (hw : SoftReady P w) {k : String} {b : SoftBody} (hb : HasBody w.eng k b)
    (hu : ∀ t : Fin b.K, 0 < edgeTriple fun a => b.x (b.T t a)) : ∃ f, IsForce w.eng b b.x b.u f := by
  have hbo := hw.ok.bodyOk hb
  obtain ⟨m, hm, hpk, hn⟩ := hw.elastic k b hb
  have hr := material_ranges hw.ok hm
  have hl : ∃ lam, first_lame m.E m.nu = .ok lam := by
    unfold first_lame
    rw [if_neg]
    · exact ⟨_, rfl⟩
    · have h1 : 0 < 1 + m.nu := by linarith [hr.2.1]
      have h2 : 0 < 1 - 2 * m.nu := by linarith
      exact (mul_pos h1 h2).ne'
  have hm2 : ∃ mu, second_lame m.E m.nu = .ok mu := by
    unfold second_lame
    rw [if_neg]
    · exact ⟨_, rfl⟩
    · have h1 : 0 < 1 + m.nu := by linarith [hr.2.1]
      positivity
  obtain ⟨lam, hl⟩ := hl
  obtain ⟨mu, hm2⟩ := hm2
  obtain ⟨l1, l2⟩ := lame_pos hr.1 hr.2.1 hr.2.2.1 hl hm2
  have hstress : ∀ F, ∃ S, m.pk1_stress F lam mu = .ok S := by
    intro F
    rcases hpk with h | h
    · rw [h]
      exact ⟨_, rfl⟩
    · rw [h]
      unfold SNH.pk1_stress
      rw [if_neg]
      · exact ⟨_, rfl⟩
      · unfold snhLambda
        positivity
  choose S hS using hstress
  have hFe := (elasticForces_iff (x0 := b.x0) (x := b.x) (T := b.T) (B := b.invD0) (lam := lam) (mu := mu) (pk1 := m.pk1_stress)).2
    ⟨hu, fun e => S _, fun e => hS _, fun v => rfl⟩
  unfold elasticForces at hFe
  simp only [bind, Except.bind] at hFe
  cases hF : compute_deformation_gradient b.x b.T b.invD0 with
  | error err => rw [hF] at hFe; cases hFe
  | ok F =>
    rw [hF] at hFe
    simp only at hFe
    rw [← hbo.gradN0] at hFe
    have hC : ∃ C, b.C_array = some C := by
      rcases hbo.material with ⟨h1, -⟩ | ⟨_, _, _, _, _, _, _, _, h⟩
      · unfold material at hm
        rw [h1] at hm
        cases hm
      · exact ⟨_, h⟩
    obtain ⟨C, hC⟩ := hC
    exact ⟨_, m, F, lam, mu, _, C, hm, hF, hl, hm2, hFe, hC, fun a => rfl⟩

theorem pinnedX_hold {e : Soft.Engine} (h : PinsHold e) {k : String} {b : SoftBody} (hb : HasBody e k b) : pinnedX b = b.x ∧ pinnedU b = b.u := by
  constructor
  · funext a
    unfold pinnedX
    split
    · rename_i ha
      exact ((h k b hb a ha).1).symm
    · rfl
  · funext a
    unfold pinnedU
    split
    · rename_i ha
      exact ((h k b hb a ha).2).symm
    · rfl

theorem forces_ok {P : FullParams} {w : World} (hw : SoftReady P w) (hu : Upright w.eng) {B : List SoftBody} (hB : bodyList w.eng = .ok B) :
    ∃ F, totalForces w.eng B (apply_boundary_conditions_on_positions (get_position_vector B) B)
      (apply_boundary_conditions_on_velocities (get_velocity_vector B) B) = .ok F := by
  refine totalForces_exists hw.ok hB fun k b hb => ?_
  obtain ⟨h1, h2⟩ := pinnedX_hold hw.pins hb
  rw [h1, h2]
  exact upright_force hw hb (hu k b hb)

theorem foldlM_raises {α σ : Type*} {f : σ → α → Except PyErr σ} {err : PyErr} (L : List α) (bad : α → Prop)
    (h1 : ∀ a ∈ L, ¬ bad a → ∀ s, ∃ s', f s a = .ok s') (h2 : ∀ a ∈ L, bad a → ∀ s, f s a = .error err) (hex : ∃ a ∈ L, bad a) (s : σ) :
    L.foldlM f s = .error err := by
  induction L generalizing s with
  | nil => obtain ⟨a, ha, -⟩ := hex; cases ha
  | cons a L ih =>
    rw [List.foldlM_cons]
    by_cases hb : bad a
    · rw [h2 a List.mem_cons_self hb]
      rfl
    · obtain ⟨s', hs'⟩ := h1 a List.mem_cons_self hb s
      rw [hs']
      refine ih (fun c hc => h1 c (List.mem_cons_of_mem _ hc)) (fun c hc => h2 c (List.mem_cons_of_mem _ hc)) ?_ s'
      obtain ⟨c, hc, hbc⟩ := hex
      rcases List.mem_cons.1 hc with rfl | h
      · exact absurd hbc hb
      · exact ⟨c, h, hbc⟩

theorem forces_raise {P : FullParams} {w : World} (hw : SoftReady P w) (hu : ¬ Upright w.eng) {B : List SoftBody} (hB : bodyList w.eng = .ok B) :
    totalForces w.eng B (apply_boundary_conditions_on_positions (get_position_vector B) B)
      (apply_boundary_conditions_on_velocities (get_velocity_vector B) B) = .error .runtimeError := by
  generalize hx : apply_boundary_conditions_on_positions (get_position_vector B) B = x
  have hpos : ∀ b ∈ B, readSlice b.n x b.offset = b.x := by
    intro b hb
    obtain ⟨k, hk⟩ := (mem_bodyList hw.ok.nodup hB b).1 hb
    rw [← hx, readSlice_pinnedX hw.ok hB hk, (pinnedX_hold hw.pins hk).1]
  have h : global_elastic_forces w.eng B x = .error .runtimeError := by
    refine foldlM_raises B (fun b => ¬ ∀ t : Fin b.K, 0 < edgeTriple fun a => b.x (b.T t a)) ?_ ?_ ?_ _
    · intro b hb hgood y
      obtain ⟨k, hk⟩ := (mem_bodyList hw.ok.nodup hB b).1 hb
      obtain ⟨f, m, F, lam, mu, Fe, C, hm, hF, hl, hmu, hFe, -⟩ := upright_force hw hk (not_not.1 hgood)
      refine ⟨writeSlice y b.offset Fe, ?_⟩
      unfold bodyElastic
      rw [hpos b hb]
      simp only [bind, Except.bind, hF, hm, hl, hmu, hFe]
      rfl
    · intro b hb hbad y
      push Not at hbad
      unfold bodyElastic compute_deformation_gradient compute_D
      rw [hpos b hb, if_pos hbad]
      rfl
    · unfold Upright at hu
      push Not at hu
      obtain ⟨k, b, hb, t, ht⟩ := hu
      exact ⟨b, (mem_bodyList hw.ok.nodup hB b).2 ⟨k, hb⟩, fun h => absurd (h t) (not_lt.2 ht)⟩
  unfold totalForces
  rw [h]
  rfl

/-! ### The response to the contacts -/

/-- The contact point belongs to tetrahedra of bodies of e. -/
def ContactOn (e : Soft.Engine) (cp : ContactPoint) : Prop :=
  (∃ b, HasBody e cp.bodyA b ∧ cp.idx_tetA < b.K) ∧ ∃ b, HasBody e cp.bodyB b ∧ cp.idx_tetB < b.K

theorem found_on {P : FullParams} {w : World} {cps : List ContactPoint} (h : Found P w cps) : ∀ cp ∈ cps, ContactOn w.eng cp := by
  obtain ⟨N, name, B, cs, hseen, rfl, hsound, -⟩ := h
  intro cp hcp
  obtain ⟨c, hc, rfl⟩ := List.mem_map.1 hcp
  have hs := hsound c hc
  constructor
  · obtain ⟨b, g, t, hb, -, hv⟩ := hseen.body c.bodyA
    obtain ⟨o, τ, x, -, -, hT, -⟩ := hs.in_A
    rw [hv] at hT
    exact ⟨b, hb, viewTet_lt hT⟩
  · obtain ⟨b, g, t, hb, -, hv⟩ := hseen.body c.bodyB
    obtain ⟨m, f, o, τ, -, -, -, hT, -⟩ := hs.on_B
    rw [hv] at hT
    exact ⟨b, hb, viewTet_lt hT⟩

theorem softFindBody_eq {e : Soft.Engine} {k : String} {b : SoftBody} (h : HasBody e k b) : e.findBody k = .ok b := by
  unfold HasBody at h
  unfold Soft.Engine.findBody
  rw [h]

theorem globalTet_ok {e : Soft.Engine} {k : String} {i : ℕ} {b : SoftBody} (h : HasBody e k b) (hi : i < b.K) : ∃ t, globalTet e k i = .ok t := by
  unfold globalTet
  rw [softFindBody_eq h]
  simp only [bind, Except.bind]
  rw [dif_pos hi]
  exact ⟨_, rfl⟩

theorem softJacobian_exists {e : Soft.Engine} (h : ∀ cp ∈ e.contact_points, ContactOn e cp) : ∃ J, compute_jacobian_matrix e = .ok J := by
  obtain ⟨E, hE, -⟩ := mapM_except (L := e.contact_points.zipIdx) (f := fun p => contactEntries e p.2 p.1) (P := fun _ _ => True) (by
    rintro ⟨cp, k⟩ hp
    obtain ⟨⟨A, hA, hA'⟩, ⟨B, hB, hB'⟩⟩ := h cp (by
      have := List.mem_zipIdx' hp
      rw [this.2]
      exact List.getElem_mem _)
    obtain ⟨tA, htA⟩ := globalTet_ok hA hA'
    obtain ⟨tB, htB⟩ := globalTet_ok hB hB'
    unfold contactEntries
    simp only [bind, Except.bind, htA, htB]
    exact ⟨_, rfl, trivial⟩)
  unfold compute_jacobian_matrix
  simp only [bind, Except.bind, hE]
  exact ⟨_, rfl⟩

theorem friction_exists {P : FullParams} {w : World} (hw : SoftReady P w) {cps : List ContactPoint} (h : ∀ cp ∈ cps, ContactOn w.eng cp) :
    ∃ mu, get_friction_coefficient_vector { w.eng with contact_points := cps } = .ok mu := by
  obtain ⟨mu, hmu, -⟩ := mapM_except (L := cps) (f := frictionOf { w.eng with contact_points := cps }) (P := fun _ _ => True) (by
    intro cp hcp
    obtain ⟨⟨A, hA, hA'⟩, ⟨B, hB, hB'⟩⟩ := h cp hcp
    obtain ⟨mA, hmA, -⟩ := hw.elastic _ _ hA
    obtain ⟨mB, hmB, -⟩ := hw.elastic _ _ hB
    obtain ⟨v, hv⟩ := Option.ne_none_iff_exists'.1 (hw.friction _ _ _ _ _ _ hA hB hmA hmB)
    refine ⟨v, ?_, trivial⟩
    obtain ⟨e1, he1⟩ : ∃ e1, e1 = { w.eng with contact_points := cps } := ⟨_, rfl⟩
    rw [← he1]
    have h1 : e1.findBody cp.bodyA = .ok A := softFindBody_eq (e := e1) (by rw [he1]; exact hA)
    have h2 : e1.findBody cp.bodyB = .ok B := softFindBody_eq (e := e1) (by rw [he1]; exact hB)
    have h3 : material e1 A = .ok mA := by rw [he1]; exact hmA
    have h4 : material e1 B = .ok mB := by rw [he1]; exact hmB
    have h5 : e1.get_interaction mA.name mB.name = some v := by rw [he1]; exact hv
    unfold frictionOf
    simp only [bind, Except.bind, h1, h2, h3, h4, h5])
  exact ⟨mu, hmu⟩

theorem graph_exists {e : Soft.Engine} (h : ∀ cp ∈ e.contact_points, ContactOn e cp) : ∃ cs, e.contact_points.mapM (graphContact e) = .ok cs := by
  obtain ⟨cs, hcs, -⟩ := mapM_except (L := e.contact_points) (f := graphContact e) (P := fun _ _ => True) (by
    intro cp hcp
    obtain ⟨⟨A, hA, hA'⟩, ⟨B, hB, hB'⟩⟩ := h cp hcp
    unfold graphContact
    rw [softFindBody_eq hA, softFindBody_eq hB]
    simp only [bind, Except.bind]
    rw [dif_pos hA', dif_pos hB']
    exact ⟨_, rfl, trivial⟩)
  exact ⟨cs, hcs⟩

theorem contactSolve_exists {P : FullParams} (hs : P.proximal_solver ∈ ["gauss_seidel", "parallel_gauss_seidel", "parallel_jacobi", "parallel_jacboi_hybrid"])
    {e : Soft.Engine} (h : ∀ cp ∈ e.contact_points, ContactOn e cp) {K : ℕ} (hK : 0 < K) (J WJT : ℕ → ℕ → ℝ) (b : ℕ → ℝ) (mu : List ℝ) :
    ∃ sol, contactSolve P e K J WJT b mu = .ok sol := by
  unfold contactSolve
  obtain ⟨D, hD⟩ : ∃ D : ProxSolver.Data K 4 (Fin (e.number_of_nodes * 3)), D =
    { J := Matrix.of fun q i => J (q.1 * 4 + q.2) i, WJT := Matrix.of fun i q => WJT i (q.1 * 4 + q.2), b := fun q => b (q.1 * 4 + q.2) } := ⟨_, rfl⟩
  simp only [bind, Except.bind]
  rw [← hD]
  have hsw : ∃ sw, schemeSweep P.proximal_solver e D (fun k => mu.getD k 0) = .ok sw := by
    simp only [List.mem_cons, List.not_mem_nil, or_false] at hs
    unfold schemeSweep
    rcases hs with h1 | h1 | h1 | h1
    · rw [if_pos h1]; exact ⟨_, rfl⟩
    · obtain ⟨cs, hcs⟩ := graph_exists h
      rw [h1, if_neg (by decide), if_pos rfl, hcs]
      exact ⟨_, rfl⟩
    · rw [h1, if_neg (by decide), if_neg (by decide), if_pos rfl]; exact ⟨_, rfl⟩
    · rw [h1, if_neg (by decide), if_neg (by decide), if_neg (by decide), if_pos rfl]; exact ⟨_, rfl⟩
  obtain ⟨sw, hsw⟩ := hsw
  rw [hsw]
  simp only
  unfold ProxSolver.solve
  rw [if_neg]
  · exact ⟨_, rfl⟩
  · rintro ⟨h1, -⟩
    exact h1.false (⟨0, hK⟩, 0)

theorem response_exists {eps : ℝ} {listOf : Finset (ℤ × ℤ) → List (ℤ × ℤ)} {P : FullParams} {w : World} (hw : SoftReady P w) {cps : List ContactPoint}
    (hcps : w.contacts eps listOf P = cps) (h : ∀ cp ∈ cps, ContactOn w.eng cp) (W : ℕ → ℕ → ℝ) (u : ℕ → ℝ) :
    ∃ v, contactVelocity (w.plugins eps listOf P) { w.eng with contact_points := cps } W u = .ok v := by
  unfold contactVelocity
  split
  · rename_i hpos
    unfold contactResponse
    obtain ⟨J, hJ⟩ := softJacobian_exists (e := { w.eng with contact_points := cps }) h
    obtain ⟨mu, hmu⟩ := friction_exists hw h
    simp only [bind, Except.bind, hJ]
    rw [if_neg (by rw [hw.plain.1]; decide)]
    simp only [hmu]
    unfold World.plugins
    simp only
    rw [hcps]
    obtain ⟨sol, hsol⟩ := contactSolve_exists hw.scheme (e := { w.eng with contact_points := cps }) h hpos J
      (fun r q => ∑ c ∈ Finset.range (w.eng.number_of_nodes * 3), W r c * J q c) (matVec (w.eng.number_of_nodes * 3) J u) mu
    rw [hsol]
    exact ⟨_, rfl⟩
  · exact ⟨_, rfl⟩

/-! ### One step -/

theorem step_exists {eps : ℝ} {listOf : Finset (ℤ × ℤ) → List (ℤ × ℤ)} {P : FullParams} {w : World} (hw : SoftReady P w) (hu : Upright w.eng)
    {W : ℕ × (ℕ → ℕ → ℝ)} (hW : W.1 = w.eng.number_of_nodes * 3) (dt : ℝ) {geo h cps}
    (hd : detect eps listOf P w.geo w.hash_grid w.eng = .ok (geo, h, cps)) (hf : Found P w cps) :
    ∃ e', Soft.step (w.plugins eps listOf P) W dt w.eng = .ok e' := by
  obtain ⟨B, hB⟩ := hw.finished
  obtain ⟨F, hF⟩ := forces_ok hw hu hB
  have hcps : w.contacts eps listOf P = cps := by
    unfold World.contacts
    rw [hd]
  have hdet : (w.plugins eps listOf P).detect w.eng = .ok cps := by
    unfold World.plugins
    simp only [hd]
    rfl
  unfold Soft.step
  simp only [bind, Except.bind, hB, hF]
  unfold applyW
  rw [if_pos hW]
  simp only [hdet]
  obtain ⟨v, hv⟩ := response_exists hw hcps (found_on hf) W.2 (fun r =>
    flat (apply_boundary_conditions_on_velocities (get_velocity_vector B) B) r + dt * matVec W.1 W.2 (flat F) r)
  rw [hv]
  simp only [set_vectors]
  unfold postStep
  rw [if_neg (by simp only; rw [hw.plain.2]; decide)]
  exact ⟨_, rfl⟩

theorem geoFits_moved {b : SoftBody} {g : Geo} (h : GeoFits b g) (x u : Fin b.n → V3) : GeoFits { b with x := x, u := u } g :=
  ⟨h.owned, h.owner, h.boundary, h.once, h.field⟩

theorem moved_counts {P : Plugins} {W : ℕ × (ℕ → ℕ → ℝ)} {dt : ℝ} {e e' : Soft.Engine} (D : StepData P W dt e e') :
    surfaceCounts e' = surfaceCounts e := by
  unfold surfaceCounts Dict.values
  rw [D.bodies, List.map_map, List.map_map, List.map_map]
  refine List.map_congr_left fun kv _ => ?_
  simp only [Function.comp]
  cases kv.2 <;> rfl

theorem ready_step {P : FullParams} {w : World} (hw : SoftReady P w) {Q : Plugins} {W : ℕ × (ℕ → ℕ → ℝ)} {dt : ℝ} {e' : Soft.Engine}
    (hs : Soft.step Q W dt w.eng = .ok e') {geo : Dict String Geo} {h : HashGrid SpatialHash.Obj} (hgeo : GeoReady P w.eng geo)
    (hh : P.use_spatial_hashing = true → 0 < h.cell_size ∧ GridRefers (surfaceCounts w.eng) h) : SoftReady P ⟨e', geo, h⟩ := by
  obtain ⟨D⟩ := softStep_ok hs
  obtain ⟨hsame, hpar⟩ := C76_frame hs
  have hback : ∀ k c, HasBody e' k c → ∃ b, HasBody w.eng k b ∧ c = movedBody D.x D.u b := fun k c => (D.hasBody k c).1
  have hmat : ∀ b, material e' (movedBody D.x D.u b) = material w.eng b := by
    intro b
    unfold material
    rw [hsame.materials]
    rfl
  refine ⟨softOk_step hw.ok hs, bodyList_step hs, ?_, ?_, ?_, ?_, ?_, ?_, hw.scheme⟩
  · intro k c hc
    obtain ⟨b, hb, rfl⟩ := hback k c hc
    obtain ⟨g, h1, h2, h3, h4⟩ := hgeo k b hb
    exact ⟨g, h1, geoFits_moved h2 _ _, h3, h4⟩
  · intro k c hc
    obtain ⟨b, hb, rfl⟩ := hback k c hc
    obtain ⟨m, h1, h2, h3⟩ := hw.elastic k b hb
    exact ⟨m, (hmat b).trans h1, h2, h3⟩
  · intro k c k' c' m m' hc hc' h1 h2
    obtain ⟨b, hb, rfl⟩ := hback k c hc
    obtain ⟨b', hb', rfl⟩ := hback k' c' hc'
    have hmu := hw.friction k b k' b' m m' hb hb' ((hmat b).symm.trans h1) ((hmat b').symm.trans h2)
    unfold Soft.Engine.get_interaction at hmu ⊢
    rw [show (⟨e', geo, h⟩ : World).eng.surfaces_interactions = w.eng.surfaces_interactions from hsame.interactions]
    exact hmu
  · change e'.params.use_pre_stabilization = false ∧ e'.params.use_post_stabilization = false
    rw [hpar]
    exact hw.plain
  · intro k c hc i hi
    obtain ⟨b, hb, rfl⟩ := hback k c hc
    exact D.pins hw.ok hb hi
  · intro h1
    rw [show surfaceCounts (⟨e', geo, h⟩ : World).eng = surfaceCounts w.eng from moved_counts D]
    exact hh h1

/-- **C100** (one step). In a scene that can be run, a step succeeds exactly when no tetrahedron is flat or inverted; otherwise it raises RuntimeError.
When it succeeds, the scene can again be run, and the contact points it has used are correct and complete for the configuration at the
start of the step.  (What the step does with the contacts is the subject of C72-C76, whose hypothesis is the last conjunct.) -/
theorem C100_step {eps : ℝ} {listOf : Finset (ℤ × ℤ) → List (ℤ × ℤ)} (hlist : ∀ s x, x ∈ listOf s ↔ x ∈ s) {P : FullParams}
    (hP : GoodGeo P.toGeoParams) {w : World} (hw : SoftReady P w) {W : ℕ × (ℕ → ℕ → ℝ)} (hW : W.1 = w.eng.number_of_nodes * 3) (dt : ℝ) :
    (Upright w.eng → ∃ w', w.step eps listOf P W dt = .ok w' ∧ SoftReady P w' ∧ Found P w w'.eng.contact_points ∧ SoftSame w.eng w'.eng ∧
      ∃ Q : Plugins, Soft.step Q W dt w.eng = .ok w'.eng) ∧
    (¬ Upright w.eng → w.step eps listOf P W dt = .error .runtimeError) := by
  constructor
  · intro hu
    obtain ⟨geo, h, cps, hd, hf, hg, hh⟩ := detect_ok (eps := eps) hlist hP hw hu
    obtain ⟨e', he'⟩ := step_exists hw hu hW dt hd hf
    refine ⟨⟨e', geo, h⟩, ?_, ready_step hw he' hg hh, ?_, (C76_frame he').1, _, he'⟩
    · unfold World.step
      simp only [bind, Except.bind, he', hd]
      rfl
    · obtain ⟨D⟩ := softStep_ok he'
      have h1 : e'.contact_points = D.cps := congrArg Soft.Engine.contact_points D.he'
      have h2 := D.hcps
      unfold World.plugins at h2
      simp only [hd] at h2
      have h3 : cps = D.cps := Except.ok.inj h2
      change Found P w e'.contact_points
      rw [h1, ← h3]
      exact hf
  · intro hu
    obtain ⟨B, hB⟩ := hw.finished
    have : Soft.step (w.plugins eps listOf P) W dt w.eng = .error .runtimeError := by
      unfold Soft.step
      simp only [bind, Except.bind, hB, forces_raise hw hu hB]
    unfold World.step
    simp only [bind, Except.bind, this]

/-! ### Many steps -/

/-- Steps of the given sizes. -/
noncomputable def worldRun (eps : ℝ) (listOf : Finset (ℤ × ℤ) → List (ℤ × ℤ)) (P : FullParams) (W : ℕ × (ℕ → ℕ → ℝ)) : List ℝ → World → Except PyErr World
  | [], w => .ok w
  | dt :: dts, w => match w.step eps listOf P W dt with
    | .error err => .error err
    | .ok w' => worldRun eps listOf P W dts w'

theorem worldStep_params {eps : ℝ} {listOf : Finset (ℤ × ℤ) → List (ℤ × ℤ)} {P : FullParams} {W : ℕ × (ℕ → ℕ → ℝ)} {dt : ℝ} {w w' : World}
    (h : w.step eps listOf P W dt = .ok w') : w'.eng.params.time_step = w.eng.params.time_step ∧ w'.eng.number_of_nodes = w.eng.number_of_nodes := by
  unfold World.step at h
  simp only [bind, Except.bind] at h
  split at h
  · cases h
  rename_i e' he'
  split at h
  · cases h
  simp only [pure, Except.pure, Except.ok.injEq] at h
  rw [← h]
  obtain ⟨h1, h2⟩ := C76_frame he'
  exact ⟨by rw [h2], h1.nodes⟩

theorem worldLoop (eps : ℝ) (listOf : Finset (ℤ × ℤ) → List (ℤ × ℤ)) (P : FullParams) (W : ℕ × (ℕ → ℕ → ℝ)) (n : ℕ) (w : World) (T ts : ℝ)
    (hts : w.eng.params.time_step = ts) (h0 : 0 < ts) (h1 : n * ts < T) (h2 : T ≤ (n + 1) * ts) :
    LoopEnds (World.trip eps listOf P W) (w, T) ((worldRun eps listOf P W (List.replicate n ts ++ [T - n * ts]) w).map fun w' => (w', 0)) := by
  induction n generalizing w T with
  | zero =>
    simp only [Nat.cast_zero, zero_mul, zero_add, one_mul] at h1 h2
    simp only [Nat.cast_zero, zero_mul, sub_zero, List.replicate_zero, List.nil_append, worldRun]
    have hmin : min T w.eng.params.time_step = T := by rw [hts]; exact min_eq_left h2
    cases hs : w.step eps listOf P W T with
    | error e =>
      refine .raised ?_
      simp only [World.trip, if_neg h1.ne', hmin, hs]
    | ok w' =>
      refine .next (s' := (w', 0)) ?_ (.done ?_)
      · simp only [World.trip, if_neg h1.ne', hmin, hs, sub_self]
      · simp [World.trip]
  | succ n ih =>
    push_cast at h1 h2
    have hT : 0 < T := by nlinarith [(Nat.cast_nonneg n : (0 : ℝ) ≤ n)]
    have hmin : min T w.eng.params.time_step = ts := by
      rw [hts]
      exact min_eq_right (by nlinarith [(Nat.cast_nonneg n : (0 : ℝ) ≤ n)])
    rw [List.replicate_succ, List.cons_append]
    unfold worldRun
    cases hs : w.step eps listOf P W ts with
    | error e =>
      refine .raised ?_
      simp only [World.trip, if_neg hT.ne', hmin, hs]
    | ok w' =>
      have e : T - ((n + 1 : ℕ) : ℝ) * ts = (T - ts) - n * ts := by push_cast; ring
      rw [e]
      refine .next (s' := (w', T - ts)) ?_ (ih w' (T - ts) (by rw [(worldStep_params hs).1]; exact hts) (by linarith) (by linarith))
      simp only [World.trip, if_neg hT.ne', hmin, hs]

theorem worldRun_ready {eps : ℝ} {listOf : Finset (ℤ × ℤ) → List (ℤ × ℤ)} (hlist : ∀ s x, x ∈ listOf s ↔ x ∈ s) {P : FullParams}
    (hP : GoodGeo P.toGeoParams) {W : ℕ × (ℕ → ℕ → ℝ)} (dts : List ℝ) {w : World} (hw : SoftReady P w) (hW : W.1 = w.eng.number_of_nodes * 3) :
    (∃ w', worldRun eps listOf P W dts w = .ok w' ∧ SoftReady P w') ∨
    (worldRun eps listOf P W dts w = .error .runtimeError ∧ ∃ i w1, i < dts.length ∧ worldRun eps listOf P W (dts.take i) w = .ok w1 ∧
      SoftReady P w1 ∧ ¬ Upright w1.eng) := by
  induction dts generalizing w with
  | nil => exact Or.inl ⟨w, rfl, hw⟩
  | cons dt dts ih =>
    obtain ⟨hup, hdown⟩ := C100_step (eps := eps) hlist hP hw hW dt
    by_cases hu : Upright w.eng
    · obtain ⟨w', hs, hw', -⟩ := hup hu
      have hrec : ∀ l, worldRun eps listOf P W (dt :: l) w = worldRun eps listOf P W l w' := fun l => by simp only [worldRun, hs]
      rw [hrec]
      rcases ih hw' (by rw [(worldStep_params hs).2]; exact hW) with ⟨w2, h1, h2⟩ | ⟨h1, i, w1, hi, h2, h3⟩
      · exact Or.inl ⟨w2, h1, h2⟩
      · refine Or.inr ⟨h1, i + 1, w1, by simpa using hi, ?_, h3⟩
        rw [List.take_succ_cons]
        rw [hrec]
        exact h2
    · right
      refine ⟨?_, 0, w, by simp, rfl, hw, hu⟩
      unfold worldRun
      rw [hdown hu]

/-- **C100** (`simulate`). In a scene that can be run and whose stepper fits it, `simulate(T)` makes ⌈T / time_step⌉ steps whose sizes sum to T;
either all of them succeed and the scene can again be run, or it raises RuntimeError because it has reached a configuration with a flat or
inverted tetrahedron.  No other exception, and no infinite loop, is possible. -/
theorem C100_simulate {eps : ℝ} {listOf : Finset (ℤ × ℤ) → List (ℤ × ℤ)} (hlist : ∀ s x, x ∈ listOf s ↔ x ∈ s) {P : FullParams}
    (hP : GoodGeo P.toGeoParams) {w : World} (hw : SoftReady P w) {W : ℕ × (ℕ → ℕ → ℝ)} (hst : getStepper w.eng = .ok W)
    (hW : W.1 = w.eng.number_of_nodes * 3) (hts : 0 < w.eng.params.time_step) {T : ℝ} (hT : 0 < T) :
    ∃ dts : List ℝ, dts.length = ⌈T / w.eng.params.time_step⌉₊ ∧ dts.sum = T ∧ (∀ dt ∈ dts, 0 < dt ∧ dt ≤ w.eng.params.time_step) ∧
      ((∃ w', w.simulate eps listOf P T = .ok w' ∧ worldRun eps listOf P W dts { w with eng := { w.eng with stepper := some W } } = .ok w' ∧
        SoftReady P w') ∨
      (w.simulate eps listOf P T = .error .runtimeError ∧ ∃ i w1, i < dts.length ∧
        worldRun eps listOf P W (dts.take i) { w with eng := { w.eng with stepper := some W } } = .ok w1 ∧ SoftReady P w1 ∧ ¬ Upright w1.eng)) := by
  obtain ⟨ts, hts'⟩ : ∃ ts, ts = w.eng.params.time_step := ⟨_, rfl⟩
  rw [← hts'] at hts ⊢
  obtain ⟨n, hn⟩ : ∃ n, n = ⌈T / ts⌉₊ := ⟨_, rfl⟩
  have hn0 : 0 < n := by rw [hn]; exact Nat.ceil_pos.2 (div_pos hT hts)
  have h1 : ((n - 1 : ℕ) : ℝ) * ts < T := by
    have : ((n - 1 : ℕ) : ℝ) < T / ts := by
      rw [← Nat.lt_ceil, ← hn]
      exact Nat.sub_lt hn0 one_pos
    rwa [lt_div_iff₀ hts] at this
  have h2 : T ≤ (((n - 1 : ℕ) : ℝ) + 1) * ts := by
    have h3 := Nat.le_ceil (T / ts)
    rw [div_le_iff₀ hts, ← hn] at h3
    have h4 : ((n - 1 : ℕ) : ℝ) + 1 = (n : ℝ) := by
      rw [← Nat.cast_succ]; congr 1; omega
    rw [h4]
    exact h3
  obtain ⟨dts, hdts⟩ : ∃ dts, dts = List.replicate (n - 1) ts ++ [T - ((n - 1 : ℕ) : ℝ) * ts] := ⟨_, rfl⟩
  obtain ⟨w0, hw0⟩ : ∃ w0 : World, w0 = { w with eng := { w.eng with stepper := some W } } := ⟨_, rfl⟩
  have hready : SoftReady P w0 := by
    rw [hw0]
    refine ⟨hw.ok.congr rfl rfl rfl rfl, hw.finished, hw.geo, hw.elastic, hw.friction, hw.plain, hw.pins, hw.hash, hw.scheme⟩
  have hsim : w.simulate eps listOf P T = worldRun eps listOf P W dts w0 := by
    unfold World.simulate
    rw [if_neg (not_le.2 hT), hst]
    simp only [bind, Except.bind]
    rw [← hw0, whileLoop_eq (worldLoop eps listOf P W (n - 1) w0 T ts (by rw [hw0]; exact hts'.symm) hts h1 h2), ← hdts]
    cases worldRun eps listOf P W dts w0 <;> rfl
  refine ⟨dts, ?_, ?_, ?_, ?_⟩
  · rw [hdts, ← hn]
    simp only [List.length_append, List.length_replicate, List.length_singleton]
    omega
  · rw [hdts]
    simp only [List.sum_append, List.sum_replicate, List.sum_singleton, nsmul_eq_mul]
    ring
  · intro dt hdt
    rw [hdts] at hdt
    rcases List.mem_append.1 hdt with h | h
    · rw [(List.mem_replicate.1 h).2]
      exact ⟨hts, le_rfl⟩
    · rw [List.mem_singleton.1 h]
      exact ⟨by linarith, by linarith⟩
  · rw [hsim, ← hw0]
    rcases worldRun_ready (eps := eps) hlist hP (W := W) dts hready (by rw [hw0]; exact hW) with ⟨w', h3, h4⟩ | ⟨h3, i, w1, h4, h5⟩
    · exact Or.inl ⟨w', h3, h3, h4⟩
    · exact Or.inr ⟨h3, i, w1, h4, h5⟩

end Verif
