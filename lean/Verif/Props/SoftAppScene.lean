import Verif.Props.SoftAppFilm

/-! C123: bodies made by the soft body application; the script hanging_beam_simulation.py from the beginning to the end. -/

namespace Verif

open Soft SoftApp Mech
open VMesh (Tri Tet)

theorem surfaceCounts_put {e : Soft.Engine} (hn : e.bodies.keys.Nodup) {k : String} {b b' : SoftBody} (hb : HasBody e k b) (hs : b'.surface.length = b.surface.length) :
    surfaceCounts (e.putBody k b') = surfaceCounts e := by
  unfold surfaceCounts Engine.putBody
  simp only
  have hm : e.bodies.mem k = true := Dict.mem_of_get? hb
  unfold Dict.values Dict.setItem
  rw [if_pos hm]
  simp only [List.map_map]
  refine List.map_congr_left fun kv hkv => ?_
  obtain ⟨k0, s0⟩ := kv
  simp only [Function.comp]
  split_ifs with c
  · subst c
    obtain ⟨i, hi, he⟩ := List.getElem_of_mem hkv
    have := Dict.get?_entry hn hi
    rw [he] at this
    unfold HasBody at hb
    rw [hb] at this
    injection this with this
    simp only at this
    rw [← this]
    exact hs
  · rfl

/-- A scene stays one that can be run when the type, the gravity, the pins (to places where the nodes are) and the loads of a body change. -/
theorem runnable_tweak {P : FullParams} {w : World} (hw : Runnable P w) {k : String} {b : SoftBody} (hb : HasBody w.eng k b) {f : Bool} {g : V3}
    {D : List (Fin b.n × V3)} {R : List (TractionCondition b.n)}
    (hok : SoftOk (w.eng.putBody k { b with is_fixed := f, gravity := g, dirichlet_conditions := D, traction_conditions := R }))
    (hp : ∀ d ∈ D, b.x d.1 = b.x0 d.1 ∧ b.u d.1 = 0) :
    Runnable P { w with eng := w.eng.putBody k { b with is_fixed := f, gravity := g, dirichlet_conditions := D, traction_conditions := R } } := by
  obtain ⟨b', hb'⟩ : ∃ b' : SoftBody, b' = { b with is_fixed := f, gravity := g, dirichlet_conditions := D, traction_conditions := R } := ⟨_, rfl⟩
  rw [← hb'] at hok ⊢
  obtain ⟨p1, p2, p3, p4, p5, p6, p7⟩ := C74_put_body w.eng k b'
  have cases : ∀ j c, HasBody (w.eng.putBody k b') j c → (j = k ∧ c = b') ∨ (j ≠ k ∧ HasBody w.eng j c) := by
    intro j c hc
    by_cases hj : j = k
    · subst hj
      unfold HasBody at hc p1
      rw [p1] at hc
      injection hc with hc
      injection hc with hc
      exact Or.inl ⟨rfl, hc.symm⟩
    · exact Or.inr ⟨hj, (p2 j c hj).1 hc⟩
  have hmat : ∀ c, material (w.eng.putBody k b') c = material w.eng c := by
    intro c; unfold material; rw [p3]
  have hmb : material w.eng b' = material w.eng b := by rw [hb']; rfl
  have hR := hw.ready
  refine ⟨⟨hok, ?_, ?_, ?_, ?_, hR.plain, ?_, ?_, hR.scheme⟩, ?_, ?_, hw.fresh⟩
  · rw [bodyList_ready]
    intro s hs
    obtain ⟨kv, hkv, rfl⟩ := List.mem_map.1 hs
    obtain ⟨i, hi, he⟩ := List.getElem_of_mem hkv
    have hget := Dict.get?_entry hok.nodup hi
    rw [he] at hget
    obtain ⟨k0, s0⟩ := kv
    simp only at hget ⊢
    by_cases hk : k0 = k
    · subst hk
      unfold HasBody at p1
      rw [p1] at hget
      exact ⟨b', (Option.some.inj hget).symm⟩
    · have : w.eng.bodies.get? k0 = some s0 := by
        rw [← hget]
        unfold Engine.putBody
        simp only
        rw [Dict.get?_setItem_ne _ _ hk]
      obtain ⟨j, hj, hej⟩ := Dict.get?_some this
      refine bodyList_ready.1 hR.finished s0 (List.mem_map.2 ⟨_, List.getElem_mem hj, ?_⟩)
      rw [hej]
  · intro j c hc
    rcases cases j c hc with ⟨rfl, rfl⟩ | ⟨-, hc⟩
    · obtain ⟨geo, h1, h2, h3, h4⟩ := hR.geo j b hb
      subst hb'
      exact ⟨geo, h1, ⟨h2.owned, h2.owner, h2.boundary, h2.once, h2.field⟩, h3, h4⟩
    · exact hR.geo j c hc
  · intro j c hc
    simp only [hmat]
    rcases cases j c hc with ⟨rfl, rfl⟩ | ⟨-, hc⟩
    · rw [hmb]; exact hR.elastic j b hb
    · exact hR.elastic j c hc
  · intro j c j' c' m m' hc hc' hm hm'
    simp only [hmat] at hm hm'
    have key : ∀ j c m, HasBody (w.eng.putBody k b') j c → material w.eng c = .ok m → ∃ c0, HasBody w.eng j c0 ∧ material w.eng c0 = .ok m := by
      intro j c m hc hm
      rcases cases j c hc with ⟨rfl, rfl⟩ | ⟨-, hc⟩
      · rw [hmb] at hm; exact ⟨b, hb, hm⟩
      · exact ⟨c, hc, hm⟩
    obtain ⟨c0, h1, h2⟩ := key j c m hc hm
    obtain ⟨c0', h1', h2'⟩ := key j' c' m' hc' hm'
    exact hR.friction j c0 j' c0' m m' h1 h1' h2 h2'
  · intro j c hc i hi
    rcases cases j c hc with ⟨rfl, rfl⟩ | ⟨-, hc⟩
    · subst hb'
      obtain ⟨d, hd, rfl⟩ := hi
      exact hp d hd
    · exact hR.pins j c hc i hi
  · intro hh
    refine ⟨(hR.hash hh).1, ?_⟩
    simp only
    rw [surfaceCounts_put hR.ok.nodup hb (by rw [hb'])]
    exact (hR.hash hh).2
  · intro j c hc t
    rcases cases j c hc with ⟨rfl, rfl⟩ | ⟨-, hc⟩
    · subst hb'; exact hw.upright j b hb t
    · exact hw.upright j c hc t
  · intro j c hc
    rcases cases j c hc with ⟨rfl, rfl⟩ | ⟨-, hc⟩
    · subst hb'; exact hw.heavy j b hb
    · exact hw.heavy j c hc

theorem extendable_tweak {P : FullParams} {w : World} (hw : Extendable P w) {k : String} {b : SoftBody} (hb : HasBody w.eng k b) {f : Bool} {g : V3}
    {D : List (Fin b.n × V3)} {R : List (TractionCondition b.n)}
    (hok : SoftOk (w.eng.putBody k { b with is_fixed := f, gravity := g, dirichlet_conditions := D, traction_conditions := R }))
    (hp : ∀ d ∈ D, b.x d.1 = b.x0 d.1 ∧ b.u d.1 = 0) :
    Extendable P { w with eng := w.eng.putBody k { b with is_fixed := f, gravity := g, dirichlet_conditions := D, traction_conditions := R } } :=
  ⟨hw.1, runnable_tweak hw.2 hb hok hp⟩

theorem block_shift {I J K : ℕ} {X : List V3} {o h : V3} (hb : IsBlock I J K X o h) (c : V3) :
    IsBlock I J K (X.map fun p => (⟨p.x + c.x, p.y + c.y, p.z + c.z⟩ : V3)) ⟨o.x + c.x, o.y + c.y, o.z + c.z⟩ h := by
  refine ⟨by rw [List.length_map]; exact hb.len, fun i j k hi hj hk => ?_⟩
  rw [List.getElem?_map, hb.pos i j k hi hj hk]
  simp only [Option.map_some, Option.some.injEq]
  refine V3.ext ?_ ?_ ?_ <;> simp <;> ring

/-- What the user asked for: the nodes of a beam around c, undeformed and at rest, of that type, gravity and material. -/
structure Asked (e : Soft.Engine) (name mat : String) (mesh : BeamArgs) (gravity : ℝ) (free : Bool) (c : V3) (b : SoftBody) : Prop where
  has : HasBody e name b
  nodes : ∃ X, (List.ofFn b.x0).Perm X ∧ IsBlock mesh.I mesh.J mesh.K X ⟨c.x - mesh.width / 2, c.y - mesh.height / 2, c.z - mesh.depth / 2⟩
    ⟨mesh.width / (mesh.I - 1), mesh.height / (mesh.J - 1), mesh.depth / (mesh.K - 1)⟩
  elements : 0 < b.K
  undeformed : b.x = b.x0
  rest : ∀ i, b.u i = 0
  gravity : b.gravity = ⟨0, gravity, 0⟩
  fixed : b.is_fixed = !free
  material : b.material_description = some mat

/-- By how much the box of the distance field of a beam is larger than the beam. -/
noncomputable def fieldMargin (V : Env) (mesh : BeamArgs) : ℝ := max (max mesh.width (max mesh.height mesh.depth) / 10) (2 * V.P.envelope)

theorem fieldMargin_pos {V : Env} (hP : GoodGeo V.P.toGeoParams) (mesh : BeamArgs) : 0 < fieldMargin V mesh := by
  refine lt_max_of_lt_right ?_
  have := hP.envelope
  have : (0:ℝ) < 1e-9 := by norm_num
  linarith

/-- A beam that reaches the coordinate planes from below meets the condition on the place. -/
theorem offMargin_of_low {V : Env} (hP : GoodGeo V.P.toGeoParams) {mesh : BeamArgs} {c : V3} (h : c.x ≤ mesh.width / 2 ∧ c.y ≤ mesh.height / 2 ∧ c.z ≤ mesh.depth / 2) :
    c.x - mesh.width / 2 ≠ fieldMargin V mesh ∧ c.y - mesh.height / 2 ≠ fieldMargin V mesh ∧ c.z - mesh.depth / 2 ≠ fieldMargin V mesh := by
  have := fieldMargin_pos hP mesh
  exact ⟨by intro e; linarith [h.1], by intro e; linarith [h.2.1], by intro e; linarith [h.2.2]⟩

theorem block_offCorner {P : Rigid.GeoParams} {I J K : ℕ} {X : List V3} {o s : V3} (hI : 2 ≤ I) (hJ : 2 ≤ J) (hK : 2 ≤ K) (hw : 0 < s.x) (hh : 0 < s.y) (hd : 0 < s.z)
    (hb : IsBlock I J K X o ⟨s.x / (I - 1), s.y / (J - 1), s.z / (K - 1)⟩)
    (hc : o.x ≠ max (max s.x (max s.y s.z) / 10) (2 * P.envelope) ∧ o.y ≠ max (max s.x (max s.y s.z) / 10) (2 * P.envelope) ∧
      o.z ≠ max (max s.x (max s.y s.z) / 10) (2 * P.envelope)) : OffCorner P X := by
  have cast : ∀ n : ℕ, 2 ≤ n → (0:ℝ) < n - 1 := by
    intro n hn
    have : (2:ℝ) ≤ n := by exact_mod_cast hn
    linarith
  have box : ∀ v ∈ X, (o.x ≤ v.x ∧ v.x ≤ o.x + s.x) ∧ (o.y ≤ v.y ∧ v.y ≤ o.y + s.y) ∧ (o.z ≤ v.z ∧ v.z ≤ o.z + s.z) := by
    intro v hv
    obtain ⟨q, hq, he⟩ := List.getElem_of_mem hv
    rw [hb.len] at hq
    have h1 : q % I < I := Nat.mod_lt _ (by omega)
    have h2 : q / I % J < J := Nat.mod_lt _ (by omega)
    have h3 : q / I / J < K := by
      rw [Nat.div_div_eq_div_mul]
      exact Nat.div_lt_of_lt_mul hq
    have hp := hb.pos _ _ _ h1 h2 h3
    have hidx : (q / I / J * J + q / I % J) * I + q % I = q := by rw [Nat.div_add_mod', Nat.div_add_mod']
    rw [hidx, List.getElem?_eq_getElem (by rw [hb.len]; exact hq), he] at hp
    injection hp with hp
    have one : ∀ (o s : ℝ) (n i : ℕ), 2 ≤ n → i < n → 0 < s → o ≤ o + i * (s / (n - 1)) ∧ o + i * (s / (n - 1)) ≤ o + s := by
      intro o s n i hn hi hs
      have c := cast n hn
      have hi' : (i : ℝ) ≤ n - 1 := by
        have : i + 1 ≤ n := hi
        have : ((i + 1 : ℕ) : ℝ) ≤ n := by exact_mod_cast this
        push_cast at this
        linarith
      have : (i : ℝ) * (s / (n - 1)) ≤ s := by
        rw [mul_div_assoc', div_le_iff₀ c, mul_comm]
        exact mul_le_mul_of_nonneg_left hi' hs.le
      have h0 : 0 ≤ (i : ℝ) * (s / (n - 1)) := mul_nonneg (Nat.cast_nonneg _) (div_pos hs c).le
      exact ⟨by linarith, by linarith⟩
    rw [hp]
    exact ⟨one _ _ _ _ hI h1 hw, one _ _ _ _ hJ h2 hh, one _ _ _ _ hK h3 hd⟩
  have hfirst := List.mem_of_getElem? (hb.pos 0 0 0 (by omega) (by omega) (by omega))
  have hlast := List.mem_of_getElem? (hb.pos (I - 1) (J - 1) (K - 1) (by omega) (by omega) (by omega))
  have last : ∀ (s : ℝ) (n : ℕ), 2 ≤ n → ((n - 1 : ℕ) : ℝ) * (s / (n - 1)) = s := by
    intro s n hn
    rw [Nat.cast_sub (by omega), Nat.cast_one]
    exact mul_div_cancel₀ _ (cast n hn).ne'
  simp only [last _ I hI, last _ J hJ, last _ K hK] at hlast
  simp only [Nat.cast_zero, zero_mul, add_zero] at hfirst
  intro L b hL hbm
  have hLv : L = max s.x (max s.y s.z) := by
    refine le_antisymm ?_ ?_
    · obtain ⟨v, hv, w, hw', h⟩ := hL.attained
      obtain ⟨⟨a1, a2⟩, ⟨a3, a4⟩, a5, a6⟩ := box v hv
      obtain ⟨⟨b1, b2⟩, ⟨b3, b4⟩, b5, b6⟩ := box w hw'
      rcases h with h | h | h
      · exact le_max_of_le_left (by linarith)
      · exact le_max_of_le_right (le_max_of_le_left (by linarith))
      · exact le_max_of_le_right (le_max_of_le_right (by linarith))
    · obtain ⟨h1, h2, h3⟩ := hL.bound _ hlast _ hfirst
      dsimp only at h1 h2 h3
      exact max_le (by linarith) (max_le (by linarith) (by linarith))
  rw [← hLv, ← hbm] at hc
  refine ⟨?_, ?_, ?_⟩
  · rcases lt_or_gt_of_ne hc.1 with h | h
    · exact Or.inl ⟨_, hfirst, h⟩
    · exact Or.inr fun v hv => lt_of_lt_of_le h (box v hv).1.1
  · rcases lt_or_gt_of_ne hc.2.1 with h | h
    · exact Or.inl ⟨_, hfirst, h⟩
    · exact Or.inr fun v hv => lt_of_lt_of_le h (box v hv).2.1.1
  · rcases lt_or_gt_of_ne hc.2.2 with h | h
    · exact Or.inl ⟨_, hfirst, h⟩
    · exact Or.inr fun v hv => lt_of_lt_of_le h (box v hv).2.2.1

/-- **C123** (bodies). `create_soft_body` with a mesh of at least two nodes along each axis and of positive size, a name that is not taken and a material that
exists, obeys one of the two working laws, is compressible and has a density, and whose friction with itself and with the other materials in use is known, at
a place where no least coordinate of the box of its distance field is exactly zero (C25): it succeeds, adds this one body, and the scene can be run and extended again. -/
theorem C123_body {V : Env} (hsd : OnePerNode V.sd) (hP : GoodGeo V.P.toGeoParams) {app : SoftApp} (hw : Extendable V.P app.scene) {name mat : String}
    (hname : app.scene.eng.bodies.mem name = false) {mesh : BeamArgs} (hI : 2 ≤ mesh.I) (hJ : 2 ≤ mesh.J) (hK : 2 ≤ mesh.K) (hwd : 0 < mesh.width)
    (hht : 0 < mesh.height) (hd : 0 < mesh.depth) {c : V3} (hc : c.x - mesh.width / 2 ≠ fieldMargin V mesh ∧ c.y - mesh.height / 2 ≠ fieldMargin V mesh ∧ c.z - mesh.depth / 2 ≠ fieldMargin V mesh)
    {m : Material} (hmat : app.scene.eng.materials.get? mat = some m) (hlaw : m.pk1_stress = SVK.pk1_stress ∨ m.pk1_stress = SNH.pk1_stress)
    (hnu : m.nu < 1 / 2) (hrho : 0 < m.rho) (hself : app.scene.eng.get_interaction m.name m.name ≠ none)
    (hother : ∀ k b m', HasBody app.scene.eng k b → material app.scene.eng b = .ok m' →
      app.scene.eng.get_interaction m.name m'.name ≠ none ∧ app.scene.eng.get_interaction m'.name m.name ≠ none) (gravity : ℝ) (free : Bool) :
    ∃ app', create_soft_body V name mat mesh gravity free c app = (app', none) ∧ app'.usd = app.usd ∧ Runnable V.P app'.scene ∧ Extendable V.P app'.scene ∧
      app'.scene.eng.materials = app.scene.eng.materials ∧ app'.scene.eng.surfaces_interactions = app.scene.eng.surfaces_interactions ∧
      app'.scene.eng.params = app.scene.eng.params ∧ (∃ b, Asked app'.scene.eng name mat mesh gravity free c b ∧ b.dirichlet_conditions = [] ∧ b.traction_conditions = []) ∧
      ∀ k b, k ≠ name → (HasBody app'.scene.eng k b ↔ HasBody app.scene.eng k b) := by
  obtain ⟨X, T, vols, hcb, hb, _⟩ := (C29_create_beam mesh.I mesh.J mesh.K mesh.width mesh.height mesh.depth).1 hI hJ hK hwd hht hd
  have hT : T = VMesh.create_tetrahedron_array_from_cube_mesh mesh.I mesh.J mesh.K := by
    unfold VMesh.create_beam at hcb
    rw [if_neg (by omega)] at hcb
    simp only [bind, Except.bind, pure, Except.pure] at hcb
    split at hcb
    · exact absurd hcb (by simp)
    · simp only [Except.ok.injEq, Prod.mk.injEq] at hcb
      exact hcb.2.symm
  subst hT
  obtain ⟨Y, hY⟩ : ∃ Y, Y = X.map fun p => (⟨p.x + c.x, p.y + c.y, p.z + c.z⟩ : V3) := ⟨_, rfl⟩
  have hb2 := block_shift hb c
  rw [← hY] at hb2
  have pos : ∀ n : ℕ, 2 ≤ n → (0:ℝ) < n - 1 := by
    intro n hn
    have : (2:ℝ) ≤ n := by exact_mod_cast hn
    linarith
  have px := div_pos hwd (pos mesh.I hI)
  have py := div_pos hht (pos mesh.J hJ)
  have pz := div_pos hd (pos mesh.K hK)
  have hn : NonOverlapping _ fun i => Y.getD i 0 := C31_cube_mesh hb2 px py pz
  have hlen : Y.length = mesh.I * mesh.J * mesh.K := hb2.len
  have hbelow : TetsBelow (VMesh.create_tetrahedron_array_from_cube_mesh mesh.I mesh.J mesh.K) Y.length := by
    intro t ht a
    obtain ⟨h0, h1, h2, h3, -⟩ := (C29_shape mesh.I mesh.J mesh.K).2 t ht
    rw [hlen]
    fin_cases a
    exacts [h0, h1, h2, h3]
  have hne : VMesh.create_tetrahedron_array_from_cube_mesh mesh.I mesh.J mesh.K ≠ [] := by
    intro h0
    have := (C29_shape mesh.I mesh.J mesh.K).1
    rw [h0, List.length_nil] at this
    have : 0 < (mesh.I - 1) * (mesh.J - 1) * (mesh.K - 1) := Nat.mul_pos (Nat.mul_pos (by omega) (by omega)) (by omega)
    omega
  obtain ⟨hm, he⟩ := C31_nonoverlapping _ _ hn
  have hfirst := hb2.pos 0 0 0 (by omega) (by omega) (by omega)
  have hmem := List.mem_of_getElem? hfirst
  have hv : ∀ t ∈ VMesh.create_tetrahedron_array_from_cube_mesh mesh.I mesh.J mesh.K, 0 < vol6 (tetPos Y t) := by
    intro t ht
    have := hn.1 t ht
    unfold meshVol at this
    have h6 : vol6 (tetPos Y t) = V3.dot (Y.getD t.m 0 - Y.getD t.i 0) (V3.cross (Y.getD t.j 0 - Y.getD t.i 0) (Y.getD t.k 0 - Y.getD t.i 0)) := rfl
    rw [h6]
    linarith
  have hoff : OffCorner V.P.toGeoParams Y := by
    refine block_offCorner (o := ⟨c.x - mesh.width / 2, c.y - mesh.height / 2, c.z - mesh.depth / 2⟩) (s := ⟨mesh.width, mesh.height, mesh.depth⟩) hI hJ hK hwd hht hd ?_ hc
    convert hb2 using 2 <;> ring
  obtain ⟨-, e1, hset, hrun, hext, hmats, hint, hpar, -, hold⟩ := C100_add (eig := V.eig) hsd hP hw hname (block_nodup hb2 px.ne' py.ne' pz.ne')
    (fun i hi => block_used hI hJ hK (hlen ▸ hi)) hoff
    hbelow hv hm (hasBoundary_of_embedded Y hne hm he) hmat hlaw hnu hrho hself hother
  obtain ⟨b, g, h, hcreate, hnew, -⟩ := C98_create (eig := V.eig) hsd hP hw.1 hname hbelow hv hm (hasBoundary_of_embedded Y hne hm he)
  rw [hcreate] at hset hrun hext
  simp only at hset hrun hext
  obtain ⟨e0, he0⟩ : ∃ e : Soft.Engine, e = { app.scene.eng with bodies := app.scene.eng.bodies.setItem name (.ready b), number_of_nodes := app.scene.eng.number_of_nodes + Y.length } :=
    ⟨_, rfl⟩
  rw [← he0] at hset
  have hfind0 : e0.findBody name = .ok b := by
    unfold Engine.findBody
    rw [he0]
    simp only [Dict.get?_setItem_self]
  have hfindm : ∀ B : SoftBody, (e0.putBody name B).findMaterial mat = .ok m := by
    intro B
    unfold Engine.findMaterial Engine.putBody
    rw [he0]
    simp only [hmat]
  have hfindm0 : e0.findMaterial mat = .ok m := by
    unfold Engine.findMaterial
    rw [he0]
    simp only [hmat]
  have hfind : ∀ (e : Soft.Engine) (B : SoftBody), (e.putBody name B).findBody name = .ok B := by
    intro e B
    unfold Engine.findBody Engine.putBody
    simp only [Dict.get?_setItem_self]
  have hput : ∀ (e : Soft.Engine) (B B' : SoftBody), (e.putBody name B).putBody name B' = e.putBody name B' := by
    intro e B B'
    unfold Engine.putBody
    simp only [setItem_setItem]
  obtain ⟨b1, hb1⟩ : ∃ b1 : SoftBody, b1 = { b with
    material_description := some mat
    M_array := some (compute_mass_element_array m.rho b.vol0 b.is_lumped)
    C_array := some (compute_damping_element_array m.c b.vol0 b.is_lumped) } := ⟨_, rfl⟩
  have he1 : e1 = e0.putBody name b1 := by
    unfold Engine.set_material at hset
    simp only [hfind0, hfindm0, bind, Except.bind, pure, Except.pure, Except.ok.injEq] at hset
    rw [← hset, hb1]
  have hbody1 : HasBody e1 name b1 := by rw [he1]; exact Dict.get?_setItem_self _ _ _
  -- the same engine in the order of the application
  obtain ⟨b2, hb2'⟩ : ∃ b2 : SoftBody, b2 = { b1 with is_fixed := !free, gravity := ⟨0, gravity, 0⟩ } := ⟨_, rfl⟩
  have htype : e0.set_type name (some (!free)) = .ok (e0.putBody name { b with is_fixed := !free }) := by
    unfold Engine.set_type
    simp only [hfind0, bind, Except.bind, pure, Except.pure]
  have hgrav : (e0.putBody name { b with is_fixed := !free }).set_gravity name ⟨0, gravity, 0⟩ =
      .ok (e0.putBody name { b with is_fixed := !free, gravity := ⟨0, gravity, 0⟩ }) := by
    unfold Engine.set_gravity
    simp only [hfind, bind, Except.bind, pure, Except.pure, hput]
  have hmater : (e0.putBody name { b with is_fixed := !free, gravity := ⟨0, gravity, 0⟩ }).set_material name mat = .ok (e1.putBody name b2) := by
    unfold Engine.set_material
    subst hb2' hb1 he1
    simp only [hfind, hfindm, bind, Except.bind, pure, Except.pure, hput]
  have hok1 : SoftOk e1 := hrun.ready.ok
  have hok2 : SoftOk (e1.putBody name b2) := by
    have s1 : e1.set_type name (some (!free)) = .ok (e1.putBody name { b1 with is_fixed := !free }) := by
      unfold Engine.set_type
      rw [hasBody_findBody hbody1]
      rfl
    have s2 : (e1.putBody name { b1 with is_fixed := !free }).set_gravity name ⟨0, gravity, 0⟩ = .ok (e1.putBody name b2) := by
      unfold Engine.set_gravity
      simp only [hfind, bind, Except.bind, pure, Except.pure, hput, hb2']
    exact softOk_setter (eigh := V.eigh) (softOk_setter (eigh := V.eigh) hok1 (.type s1)) (.gravity s2)
  have hpins1 : b1.dirichlet_conditions = [] := by rw [hb1]; exact hnew.pins
  have hloads1 : b1.traction_conditions = [] := by rw [hb1]; exact hnew.loads
  have hb2'' : b2 = { b1 with is_fixed := !free, gravity := ⟨0, gravity, 0⟩, dirichlet_conditions := b1.dirichlet_conditions, traction_conditions := b1.traction_conditions } := hb2'
  have hok2' := hok2
  rw [hb2''] at hok2'
  refine ⟨⟨⟨e1.putBody name b2, app.scene.geo.setItem name g, h⟩, app.time_step, app.usd⟩, ?_, rfl, ?_, ?_, ?_, ?_, ?_, ⟨b2, ?_⟩, ?_⟩
  · unfold create_soft_body
    rw [hcb]
    dsimp only
    rw [← hY]
    unfold Call.andThen api addBody
    simp only [hcreate, ← he0, htype, hgrav, hmater]
  · rw [hb2'']
    exact runnable_tweak (w := ⟨e1, app.scene.geo.setItem name g, h⟩) hrun hbody1 hok2' (by rw [hpins1]; simp)
  · rw [hb2'']
    exact extendable_tweak (w := ⟨e1, app.scene.geo.setItem name g, h⟩) hext hbody1 hok2' (by rw [hpins1]; simp)
  · exact hmats
  · exact hint
  · exact hpar
  · refine ⟨⟨Dict.get?_setItem_self _ _ _, ⟨Y, ?_, ?_⟩, ?_, ?_, ?_, ?_, ?_, ?_⟩, ?_, ?_⟩
    · rw [hb2', hb1]; exact hnew.vertices
    · convert hb2 using 2 <;> ring
    · have hl := hnew.tetrahedra.length_eq
      unfold bodyCorners tetCornersOf at hl
      rw [List.length_ofFn, List.length_map] at hl
      rw [hb2', hb1]
      simp only
      rw [hl]
      exact List.length_pos_iff.2 hne
    · rw [hb2', hb1]; exact hnew.undeformed
    · rw [hb2', hb1]; exact hnew.rest
    · rw [hb2']
    · rw [hb2']
    · rw [hb2', hb1]
    · rw [hb2']; exact hpins1
    · rw [hb2']; exact hloads1
  · intro k c hk
    exact ((C74_put_body e1 name b2).2.1 k c hk).trans (hold k c hk)

end Verif
