import Verif.Props.FullHull
import Verif.Props.SceneBuild
import Verif.Props.SceneApart
import Verif.Props.CoordSys
import Verif.Props.RigidHistory

/-! C95: the meshes and engines that building a scene leaves behind. -/

namespace Verif

open Rigid Rigid.SceneM SMesh
open VMesh (Tri)

theorem det3_rotate {q : Quat} (hq : IsUnitQ q) (a b c : V3) :
    det3 (Quat.rotate q a) (Quat.rotate q b) (Quat.rotate q c) = det3 a b c := by
  have hd : ∀ a b c : V3, det3 a b c = V3.dot a (V3.cross b c) := by
    intro a b c; simp [det3, V3.dot, V3.cross]
  have hcr : V3.cross (Quat.rotate q b) (Quat.rotate q c) = Quat.rotate q (V3.cross b c) := by
    apply V3.toFun_injective
    rw [V3.toFun_cross, C02_rotate_cross hq]
  rw [hd, hd, hcr, rotate_dot_V3 hq]

theorem starShaped_xform {V : List V3} {T : List Tri} (h : StarShaped (V, T)) {X : CoordSys} (hX : X.Rigid) :
    StarShaped (V.map (CoordSys.xform_point X), T) := by
  obtain ⟨h1, h2, h3, c, h4⟩ := h
  refine ⟨by simpa using h1, h2, h3, CoordSys.xform_point X c, ?_⟩
  intro t ht
  have hg : ∀ i, i < V.length → (V.map (CoordSys.xform_point X)).getD i 0 - CoordSys.xform_point X c =
      Quat.rotate X.q (V.getD i 0 - c) := by
    intro i hi
    rw [List.getD_eq_getElem _ _ (by simpa using hi), List.getD_eq_getElem _ _ hi, List.getElem_map]
    unfold CoordSys.xform_point
    rw [sub_eq_add_neg (V[i]) c, rotate_add, rotate_neg]
    abel
  obtain ⟨i1, i2, i3⟩ := h1 t ht
  simp only at i1 i2 i3 ⊢
  rw [hg _ i1, hg _ i2, hg _ i3, det3_rotate hX]
  exact h4 t ht

theorem centroid_perm {V V' : List V3} {T T' : List Tri} (h : (trianglesOf V' T').Perm (trianglesOf V T)) :
    centroid V' T' = centroid V T := by
  unfold centroid
  simp only [solidIntegral_perm _ h]

/-! ### Meshes in the body frame -/

/-- The mesh of a shape as `create_shape` stores it: a solid, with its centre of mass at the origin (up to the threshold
1e-10 below which mass.py replaces coordinates by zero), so that each coordinate plane meets it or comes very near. -/
structure SolidMesh (m : Mesh) : Prop where
  idx : IndicesBelow m.T m.V.length
  closed : ClosedOriented m.T
  volume : 0 < enclosedVolume m.V m.T
  lowx : ∃ v ∈ m.V, v.x ≤ 1e-9
  lowy : ∃ v ∈ m.V, v.y ≤ 1e-9
  lowz : ∃ v ∈ m.V, v.z ≤ 1e-9

theorem snap_near (v : ℝ) : |v - snap v| ≤ 1e-10 := by
  unfold snap
  split_ifs with h
  · simp; norm_num
  · simpa using not_lt.1 h

/-- A point of the mesh on the low side of the (snapped) centre of mass, along any axis of length one. -/
theorem low_vertex {V : List V3} {T : List Tri} (h : Solid (V, T)) {r : V3} (hx : r.x = snap (centroid V T).x)
    (hy : r.y = snap (centroid V T).y) (hz : r.z = snap (centroid V T).z) {e : V3} (he : V3.dot e e = 1) :
    ∃ v ∈ V, V3.dot e (v - r) ≤ 1e-9 := by
  obtain ⟨v, hv, hle⟩ := h.hull e
  refine ⟨v, hv, ?_⟩
  have h1 := snap_near (centroid V T).x
  have h2 := snap_near (centroid V T).y
  have h3 := snap_near (centroid V T).z
  rw [← hx] at h1
  rw [← hy] at h2
  rw [← hz] at h3
  generalize centroid V T = g at *
  have hex : |e.x| ≤ 1 := by
    rw [abs_le_one_iff_mul_self_le_one]; simp only [V3.dot] at he; nlinarith [mul_self_nonneg e.y, mul_self_nonneg e.z]
  have hey : |e.y| ≤ 1 := by
    rw [abs_le_one_iff_mul_self_le_one]; simp only [V3.dot] at he; nlinarith [mul_self_nonneg e.x, mul_self_nonneg e.z]
  have hez : |e.z| ≤ 1 := by
    rw [abs_le_one_iff_mul_self_le_one]; simp only [V3.dot] at he; nlinarith [mul_self_nonneg e.x, mul_self_nonneg e.y]
  have key : ∀ a b : ℝ, |a| ≤ 1 → |b| ≤ 1e-10 → a * b ≤ 1e-10 := by
    intro a b ha hb
    calc a * b ≤ |a * b| := le_abs_self _
      _ = |a| * |b| := abs_mul _ _
      _ ≤ 1 * 1e-10 := mul_le_mul ha hb (abs_nonneg _) (by norm_num)
      _ = 1e-10 := one_mul _
  have k1 := key _ _ hex h1
  have k2 := key _ _ hey h2
  have k3 := key _ _ hez h3
  have e1 : V3.dot e (v - r) = (V3.dot e v - V3.dot e g) + (e.x * (g.x - r.x) + e.y * (g.y - r.y) + e.z * (g.z - r.z)) := by
    simp only [V3.dot, V3.sub_x, V3.sub_y, V3.sub_z]; ring
  rw [e1]
  have : (1e-10 : ℝ) + 1e-10 + 1e-10 ≤ 1e-9 := by norm_num
  linarith

/-- **C95.** `create_shape` stores the mesh of a solid in a frame whose origin is (up to 1e-10) its centre of mass. -/
theorem C95_solid_mesh {eig : Eig} (he : EigSpec eig) {s s' : Scene} {name : String} {mesh : Mesh} (hm : Solid (mesh.V, mesh.T))
    (h : s.create_shape eig name mesh = .ok s') : ∃ m, s'.meshes = s.meshes.setItem name m ∧ SolidMesh m := by
  obtain ⟨prop, hp, -, px, py, pz, -⟩ := C68_mass_integrals mesh.V mesh.T 1.0 hm.closed hm.idx hm.noZero
    (by rw [solidIntegral_one]; exact hm.volume)
  unfold Scene.create_shape at h
  by_cases hmem : s.eng.shapes.mem name = true
  · rw [if_pos hmem] at h; cases h
  rw [if_neg hmem] at h
  simp only [bind, Except.bind] at h
  rw [hp] at h
  simp only at h
  obtain ⟨q, I, b, hx, -, hq, -⟩ := C49_xform he prop
  rw [hx] at h
  simp only at h
  have hq' := (C01_unit_group hq hq).2.1
  obtain ⟨m', hr1, hr2, hr3, hr4⟩ := C63_rotate (SMesh.translate mesh (-⟨prop.x, prop.y, prop.z⟩)) hq'
  rw [if_pos trivial, hr1] at h
  simp only at h
  unfold Engine.create_shape at h
  rw [if_neg hmem] at h
  simp only [pure, Except.pure] at h
  cases h
  refine ⟨m', rfl, ?_⟩
  have hV : m'.V = mesh.V.map (fun v => Quat.rotate (Quat.conjugate q) (v - ⟨prop.x, prop.y, prop.z⟩)) := by
    rw [hr3]
    simp only [SMesh.translate, List.map_map]
    apply List.map_congr_left
    intro v _
    simp only [Function.comp, sub_eq_add_neg]
  have hT : m'.T = mesh.T := by rw [hr2]; rfl
  have hlow : ∀ a : V3, V3.dot a a = 1 → ∃ v ∈ m'.V, V3.dot a v ≤ 1e-9 := by
    intro a ha
    obtain ⟨v, hv, hle⟩ := low_vertex hm (r := ⟨prop.x, prop.y, prop.z⟩) px py pz (e := Quat.rotate q a)
      (by rw [rotate_dot_V3 hq]; exact ha)
    refine ⟨Quat.rotate (Quat.conjugate q) (v - ⟨prop.x, prop.y, prop.z⟩), ?_, ?_⟩
    · rw [hV]; exact List.mem_map_of_mem hv
    · have := rotate_dot_V3 hq a (Quat.rotate (Quat.conjugate q) (v - ⟨prop.x, prop.y, prop.z⟩))
      rw [(C02_rotate_conjugate hq _).2] at this
      rw [← this]; exact hle
  have hidx : IndicesBelow mesh.T mesh.V.length := hm.idx
  have htr := (C63_translate mesh (-⟨prop.x, prop.y, prop.z⟩)).2.2 hm.closed hm.idx
  refine ⟨?_, ?_, ?_, ?_, ?_, ?_⟩
  · rw [hT, hV]; simpa using hidx
  · rw [hT]; exact hm.closed
  · rw [hr4 (by simpa [SMesh.translate] using hidx), htr]; exact hm.volume
  · obtain ⟨v, hv, hle⟩ := hlow ⟨1, 0, 0⟩ (by norm_num [V3.dot])
    exact ⟨v, hv, by simpa [V3.dot] using hle⟩
  · obtain ⟨v, hv, hle⟩ := hlow ⟨0, 1, 0⟩ (by norm_num [V3.dot])
    exact ⟨v, hv, by simpa [V3.dot] using hle⟩
  · obtain ⟨v, hv, hle⟩ := hlow ⟨0, 0, 1⟩ (by norm_num [V3.dot])
    exact ⟨v, hv, by simpa [V3.dot] using hle⟩

/-! ### Consistent scenes -/

/-- What every scene built through the API satisfies: the engine is consistent, and every shape has a solid mesh in its body frame. -/
structure SceneGood (s : Scene) : Prop where
  eng : EngineOk s.eng
  meshes : ∀ n sh, s.eng.shapes.get? n = some sh → ∃ m, s.meshes.get? n = some m ∧ SolidMesh m

theorem updateBody_shapes {e e' : Engine} {n : String} {f : RigidBody → RigidBody} (h : e.updateBody n f = .ok e') : e'.shapes = e.shapes := by
  unfold Engine.updateBody at h
  cases hb : e.findBody n with
  | error err => rw [hb] at h; cases h
  | ok b => rw [hb] at h; cases h; rfl

/-- Only `create_shape` changes the shapes. -/
theorem call_shapes {e e' : Engine} {op : Engine.Op} (ho : ∀ n r q m I, op ≠ .createShape n r q m I) (h : e.call op = .ok e') :
    e'.shapes = e.shapes := by
  cases op with
  | createShape n r q m I => exact absurd rfl (ho n r q m I)
  | createBody n =>
    change e.create_rigid_body n = _ at h
    unfold Engine.create_rigid_body at h
    split at h <;> cases h; rfl
  | createHinge n =>
    change e.create_hinge n = _ at h
    unfold Engine.create_hinge at h
    split at h <;> cases h; rfl
  | setHinge hn p c o a m =>
    change e.set_hinge hn p c o a m = _ at h
    unfold Engine.set_hinge at h
    simp only [bind, Except.bind] at h
    split at h; · cases h
    split at h; · cases h
    split at h; · cases h
    split at h; · cases h
    cases h; rfl
  | connectShape b s =>
    change e.connect_shape b s = _ at h
    unfold Engine.connect_shape at h
    simp only [bind, Except.bind] at h
    split at h; · cases h
    split at h; · cases h
    exact updateBody_shapes h
  | createGravity n g up =>
    change e.create_gravity_force n g up = _ at h
    unfold Engine.create_gravity_force at h
    split at h; · cases h
    split at h <;> cases h; rfl
  | createDamping n a b =>
    change e.create_damping_force n a b = _ at h
    unfold Engine.create_damping_force at h
    split at h; · cases h
    split at h; · cases h
    split at h <;> cases h; rfl
  | connectForce b f =>
    change e.connect_force b f = _ at h
    unfold Engine.connect_force at h
    simp only [bind, Except.bind] at h
    split at h; · cases h
    split at h; · cases h
    split at h; · cases h
    exact updateBody_shapes h
  | setPosition b r m =>
    change e.set_position b r m = _ at h
    unfold Engine.set_position at h
    simp only [bind, Except.bind] at h
    split at h; · cases h
    split at h
    · split at h; · cases h
      exact updateBody_shapes h
    · exact updateBody_shapes h
  | setOrientation b q m =>
    change e.set_orientation b q m = _ at h
    unfold Engine.set_orientation at h
    simp only [bind, Except.bind] at h
    split at h; · cases h
    split at h
    · split at h; · cases h
      exact updateBody_shapes h
    · exact updateBody_shapes h
  | setVelocity b v =>
    unfold Engine.call Engine.set_velocity at h
    exact updateBody_shapes h
  | setSpin b w =>
    unfold Engine.call Engine.set_spin at h
    exact updateBody_shapes h
  | setMass b d =>
    change e.set_mass_properties b d = _ at h
    unfold Engine.set_mass_properties at h
    simp only [bind, Except.bind] at h
    split at h; · cases h
    split at h; · cases h
    exact updateBody_shapes h
  | setType b t =>
    change e.set_body_type b t = _ at h
    unfold Engine.set_body_type at h
    simp only [bind, Except.bind] at h
    split at h; · cases h
    split at h
    · exact updateBody_shapes h
    · split at h
      · exact updateBody_shapes h
      · cases h
  | setMaterial b m =>
    change e.set_body_material b m = _ at h
    unfold Engine.set_body_material at h
    simp only [bind, Except.bind] at h
    split at h; · cases h
    split at h; · cases h
    exact updateBody_shapes h
  | createInteraction A B ep mu =>
    change e.create_surfaces_interaction A B ep mu = _ at h
    unfold Engine.create_surfaces_interaction at h
    split at h; · cases h
    split at h; · cases h
    split at h; · cases h
    split at h; · cases h
    split at h <;> cases h; rfl

theorem SceneGood.call {s : Scene} (hs : SceneGood s) {op : Engine.Op} (ho : ∀ n r q m I, op ≠ .createShape n r q m I) {e : Engine}
    (h : s.eng.call op = .ok e) : SceneGood { s with eng := e } := by
  have hok : OpOk op := by
    cases op <;> first | trivial | exact (ho _ _ _ _ _ rfl).elim
  refine ⟨ok_after hs.eng hok h, ?_⟩
  intro n sh hn
  simp only [call_shapes ho h] at hn
  exact hs.meshes n sh hn

theorem SceneGood.shape {eig : Eig} (he : EigSpec eig) {s s' : Scene} (hs : SceneGood s) {name : String} {mesh : Mesh}
    (hm : Solid (mesh.V, mesh.T)) (h : s.create_shape eig name mesh = .ok s') : SceneGood s' := by
  obtain ⟨m, hmesh, hsolid⟩ := C95_solid_mesh he hm h
  obtain ⟨hnone, sh, m', hs', hname, -, -, -, -, hq, -⟩ := C85_create_shape he s s' name mesh hm.idx hm.closed h
  have hcall : s.eng.call (.createShape name sh.r sh.q sh.mass sh.inertia) = .ok s'.eng := by
    change s.eng.create_shape name sh.r sh.q sh.mass sh.inertia = _
    unfold Engine.create_shape
    rw [if_neg (by rw [(Dict.get?_eq_none _ _).1 hnone]; simp), hs']
    rw [show (⟨name, sh.mass, sh.inertia, sh.r, sh.q⟩ : Shape) = sh from by rw [← hname]]
  refine ⟨ok_after hs.eng (op := .createShape name sh.r sh.q sh.mass sh.inertia) hq hcall, ?_⟩
  intro n sh1 hn
  rw [hmesh]
  rw [hs'] at hn
  simp only at hn
  by_cases hnn : n = name
  · subst hnn
    exact ⟨m, Dict.get?_setItem_self _ _ _, hsolid⟩
  · rw [Dict.get?_setItem_ne _ _ hnn] at hn
    rw [Dict.get?_setItem_ne _ _ hnn]
    exact hs.meshes n sh1 hn

theorem SceneGood.gen {s : Scene} (hs : SceneGood s) (g : ℕ → String → String) : SceneGood { s with gen := g } := ⟨hs.eng, hs.meshes⟩

/-- `create_mesh` of a star shaped solid is star shaped. -/
theorem create_mesh_star {eig : Eig} (he : EigSpec eig) {VT : List V3 × List Tri} (hm : StarShaped VT) {m : Mesh}
    (h : create_mesh eig VT.1 VT.2 = .ok m) : StarShaped (m.V, m.T) := by
  obtain ⟨m', hm1, -, hm3, hm4, hm5⟩ := C84_create_mesh he VT.1 VT.2 hm.1
  rw [h] at hm1
  cases hm1
  obtain ⟨-, hc, hne, c, hp⟩ := hm
  refine ⟨hm4, hm5 hc, ?_, c, ?_⟩
  · intro h0
    have := hm3.length_eq
    simp only [trianglesOf, List.length_map] at this
    rw [show m.T = [] from h0] at this
    exact hne (List.length_eq_zero_iff.1 this.symm)
  · intro t ht
    have h1 : (m.V.getD t.a 0, m.V.getD t.b 0, m.V.getD t.c 0) ∈ trianglesOf VT.1 VT.2 :=
      hm3.mem_iff.1 (List.mem_map_of_mem (f := fun t => (m.V.getD t.a 0, m.V.getD t.b 0, m.V.getD t.c 0)) ht)
    obtain ⟨t', ht', e⟩ := List.mem_map.1 h1
    simp only [Prod.mk.injEq] at e
    have := hp t' ht'
    rw [e.1, e.2.1, e.2.2] at this
    exact this

/-- What `create_mesh` makes of a solid is a solid. -/
theorem create_mesh_solid {eig : Eig} (he : EigSpec eig) {VT : List V3 × List Tri} (hm : Solid VT) {m : Mesh}
    (h : create_mesh eig VT.1 VT.2 = .ok m) : Solid (m.V, m.T) := by
  obtain ⟨m', hm1, hm2, hm3, hm4, hm5⟩ := C84_create_mesh he VT.1 VT.2 hm.idx
  rw [h] at hm1
  cases hm1
  refine ⟨hm4, hm5 hm.closed, ?_, by rw [enclosedVolume_perm hm3]; exact hm.volume, ?_⟩
  · intro t ht hzero
    have h1 : (m.V.getD t.a 0, m.V.getD t.b 0, m.V.getD t.c 0) ∈ trianglesOf VT.1 VT.2 :=
      hm3.mem_iff.1 (List.mem_map_of_mem (f := fun t => (m.V.getD t.a 0, m.V.getD t.b 0, m.V.getD t.c 0)) ht)
    obtain ⟨t', ht', e⟩ := List.mem_map.1 h1
    simp only [Prod.mk.injEq] at e
    refine hm.noZero t' ht' ?_
    unfold ZeroArea at hzero ⊢
    rw [e.1, e.2.1, e.2.2]
    exact hzero
  · intro e
    obtain ⟨v, hv, hle⟩ := hm.hull e
    refine ⟨v, hm2.mem_iff.2 hv, ?_⟩
    simp only
    rw [centroid_perm hm3]
    exact hle

/-- `create_mesh` and `create_shape` accept every solid. -/
theorem solid_shape_succeeds {eig : Eig} (he : EigSpec eig) (s : Scene) (name : String) {VT : List V3 × List Tri}
    (hm : Solid VT) (hn : s.eng.shapes.get? name = none) :
    ∃ m s', create_mesh eig VT.1 VT.2 = .ok m ∧ s.create_shape eig name m = .ok s' := by
  obtain ⟨m, hm1, -⟩ := C84_create_mesh he VT.1 VT.2 hm.idx
  have hs := create_mesh_solid he hm hm1
  obtain ⟨s', hs'⟩ := C85_create_shape_succeeds (eig := eig) s name m hn hs.idx hs.closed hs.noZero hs.volume
  exact ⟨m, s', hm1, hs'⟩

/-- Calling an API function on a consistent scene leaves a consistent scene. -/
theorem SceneGood.api {s s' : Scene} {u : Unit} (hs : SceneGood s) {op : Engine.Op} (ho : ∀ n r q m I, op ≠ .createShape n r q m I)
    (h : SceneM.api (fun e => e.call op) s = .ok (u, s')) : SceneGood s' := by
  obtain ⟨e, h1, rfl⟩ := api_ok.1 h
  exact hs.call ho h1

theorem newSolid_good {eig : Eig} (he : EigSpec eig) {base : String} {VT : List V3 × List Tri} (hm : Solid VT) {s s' : Scene}
    {k : String} (hs : SceneGood s) (h : newShape eig base VT s = .ok (k, s')) : SceneGood s' := by
  unfold newShape at h
  rw [bind_ok] at h
  obtain ⟨n, s1, h1, h2⟩ := h
  cases h1
  simp only [bind, Except.bind] at h2
  split at h2; · cases h2
  rename_i mesh hmesh
  split at h2; · cases h2
  rename_i s2 hs2
  cases h2
  exact (hs.gen _).shape he (create_mesh_solid he hm hmesh) hs2

theorem newShape_good {eig : Eig} (he : EigSpec eig) {base : String} {VT : List V3 × List Tri} (hm : StarShaped VT) {s s' : Scene}
    {k : String} (hs : SceneGood s) (h : newShape eig base VT s = .ok (k, s')) : SceneGood s' := newSolid_good he hm.solid hs h

theorem newBody_good {base k : String} {r : V3} {q : Quat} {s s' : Scene} {n : String} (hs : SceneGood s)
    (h : newBody base k r q s = .ok (n, s')) : SceneGood s' := by
  unfold newBody at h
  rw [bind_ok] at h
  obtain ⟨m, s1, h1, h2⟩ := h
  cases h1
  rw [bind_ok] at h2
  obtain ⟨_, s2, h3, h2⟩ := h2
  rw [bind_ok] at h2
  obtain ⟨_, s3, h4, h2⟩ := h2
  rw [bind_ok] at h2
  obtain ⟨_, s4, h5, h2⟩ := h2
  rw [bind_ok] at h2
  obtain ⟨_, s5, h6, h2⟩ := h2
  rw [pure_ok] at h2
  obtain ⟨rfl, rfl⟩ := h2
  have g2 := (hs.gen _).api (op := .createBody (s.gen 0 base)) (fun _ _ _ _ _ => Engine.Op.noConfusion) h3
  have g3 := g2.api (op := .connectShape (s.gen 0 base) k) (fun _ _ _ _ _ => Engine.Op.noConfusion) h4
  have g4 := g3.api (op := .setPosition (s.gen 0 base) r true) (fun _ _ _ _ _ => Engine.Op.noConfusion) h5
  exact g4.api (op := .setOrientation (s.gen 0 base) q true) (fun _ _ _ _ _ => Engine.Op.noConfusion) h6

theorem setup_good {type material n : String} {density : ℝ} {s s' : Scene} {u : Unit} (hs : SceneGood s)
    (h : setup type material density n s = .ok (u, s')) : SceneGood s' := by
  unfold setup at h
  rw [bind_ok] at h
  obtain ⟨_, s2, h3, h2⟩ := h
  rw [bind_ok] at h2
  obtain ⟨_, s3, h4, h2⟩ := h2
  have g2 := hs.api (op := .setType n type) (fun _ _ _ _ _ => Engine.Op.noConfusion) h3
  have g3 := g2.api (op := .setMaterial n material) (fun _ _ _ _ _ => Engine.Op.noConfusion) h4
  exact g3.api (op := .setMass n density) (fun _ _ _ _ _ => Engine.Op.noConfusion) h2

end Verif
