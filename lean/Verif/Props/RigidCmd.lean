import Verif.Model.RigidCmd
import Verif.Props.FullScene
import Verif.Props.SceneApart
import Verif.Props.Urdf
import Verif.Props.MeshStar

/-! C124: the command line program for rigid bodies. -/

namespace Verif

open Rigid Rigid.SceneM SMesh Collision
open VMesh (Tri)

/-! ### One call after the other -/

theorem api_then {f : Engine → Except PyErr Engine} {s : Scene} {e : Engine} (h : f s.eng = .ok e) {β : Type} {m : Unit → SceneM β}
    {r : Except PyErr (β × Scene)} (h2 : m () { s with eng := e } = r) : (SceneM.api f >>= m) s = r := by
  show (StateT.bind _ _) s = _
  unfold StateT.bind SceneM.api
  rw [h]
  exact h2

theorem m_then {f : SceneM Unit} {s s1 : Scene} (h : f s = .ok ((), s1)) {β : Type} {m : Unit → SceneM β}
    {r : Except PyErr (β × Scene)} (h2 : m () s1 = r) : (f >>= m) s = r := by
  show (StateT.bind _ _) s = _
  unfold StateT.bind
  rw [h]
  exact h2

/-- The calls keep the scene consistent. -/
def KeepsGood (m : SceneM Unit) : Prop := ∀ s s' u, SceneGood s → m s = .ok (u, s') → SceneGood s'

theorem KeepsGood.bind {m : SceneM Unit} {f : Unit → SceneM Unit} (h1 : KeepsGood m) (h2 : KeepsGood (f ())) : KeepsGood (m >>= f) := by
  intro s s' u hs h
  rw [bind_ok] at h
  obtain ⟨⟨⟩, s1, h3, h4⟩ := h
  exact h2 _ _ _ (h1 _ _ _ hs h3) h4

theorem KeepsGood.api (op : Engine.Op) (ho : ∀ n r q m I, op ≠ .createShape n r q m I) : KeepsGood (SceneM.api fun e => e.call op) :=
  fun _ _ _ hs h => hs.api ho h

theorem KeepsGood.shape {eig : Eig} (he : EigSpec eig) (name : String) {VT : List V3 × List Tri} (hv : Solid VT) :
    KeepsGood (namedShape eig name VT) := by
  intro s s' u hs h
  cases hm : create_mesh eig VT.1 VT.2 with
  | error e => simp only [namedShape, Bind.bind, Except.bind, hm] at h; cases h
  | ok m =>
    cases hs1 : s.create_shape eig name m with
    | error e => simp only [namedShape, Bind.bind, Except.bind, hm] at h; rw [hs1] at h; cases h
    | ok s1 =>
      simp only [namedShape, Bind.bind, Except.bind, hm] at h
      rw [hs1] at h
      cases h
      exact hs.shape he (create_mesh_solid he hv hm) hs1

theorem KeepsGood.body (n k : String) (r : V3) : KeepsGood (cmdBody n k r) := by
  unfold cmdBody
  refine (KeepsGood.api (.createBody n) fun _ _ _ _ _ => Engine.Op.noConfusion).bind ?_
  refine (KeepsGood.api (.connectShape n k) fun _ _ _ _ _ => Engine.Op.noConfusion).bind ?_
  refine (KeepsGood.api (.setMass n 1.0) fun _ _ _ _ _ => Engine.Op.noConfusion).bind ?_
  refine (KeepsGood.api (.setOrientation n Quat.identity true) fun _ _ _ _ _ => Engine.Op.noConfusion).bind ?_
  refine (KeepsGood.api (.setPosition n r true) fun _ _ _ _ _ => Engine.Op.noConfusion).bind ?_
  refine (KeepsGood.api (.setVelocity n ⟨0.0, 0.0, 0.0⟩) fun _ _ _ _ _ => Engine.Op.noConfusion).bind ?_
  exact KeepsGood.api (.setSpin n ⟨0.0, 0.0, 0.0⟩) fun _ _ _ _ _ => Engine.Op.noConfusion

theorem setup_scene_good {eig : Eig} (he : EigSpec eig) : KeepsGood (setup_scene eig) := by
  obtain ⟨VT, hVT, hstar⟩ := sphere_star (r := 1) one_pos 16 16 (by norm_num) (by norm_num)
  rw [← lit1] at hVT
  unfold setup_scene
  rw [hVT]
  refine (KeepsGood.shape he _ (box_star (by norm_num) (by norm_num) (by norm_num)).solid).bind ?_
  refine (KeepsGood.shape he _ (box_star (by norm_num) (by norm_num) (by norm_num)).solid).bind ?_
  refine (KeepsGood.shape he _ hstar.solid).bind ?_
  refine (KeepsGood.body _ _ _).bind ?_
  refine (KeepsGood.api (.setType "A" "fixed") fun _ _ _ _ _ => Engine.Op.noConfusion).bind ?_
  refine (KeepsGood.body _ _ _).bind ?_
  refine (KeepsGood.body _ _ _).bind ?_
  refine (KeepsGood.api (.createGravity _ _ _) fun _ _ _ _ _ => Engine.Op.noConfusion).bind ?_
  refine (KeepsGood.api (.createDamping _ _ _) fun _ _ _ _ _ => Engine.Op.noConfusion).bind ?_
  refine (KeepsGood.api (.connectForce _ _) fun _ _ _ _ _ => Engine.Op.noConfusion).bind ?_
  refine (KeepsGood.api (.connectForce _ _) fun _ _ _ _ _ => Engine.Op.noConfusion).bind ?_
  refine (KeepsGood.api (.connectForce _ _) fun _ _ _ _ _ => Engine.Op.noConfusion).bind ?_
  refine (KeepsGood.api (.connectForce _ _) fun _ _ _ _ _ => Engine.Op.noConfusion).bind ?_
  refine (KeepsGood.api (.connectForce _ _) fun _ _ _ _ _ => Engine.Op.noConfusion).bind ?_
  exact KeepsGood.api (.connectForce _ _) fun _ _ _ _ _ => Engine.Op.noConfusion

/-! ### Shapes and bodies -/

theorem namedShape_runs {eig : Eig} (he : EigSpec eig) {s : Scene} {name : String} {VT : List V3 × List Tri} (hv : Solid VT)
    (hn : s.eng.shapes.get? name = none) :
    ∃ sh m, namedShape eig name VT s =
        .ok ((), { s with eng := { s.eng with shapes := s.eng.shapes.setItem name sh }, meshes := s.meshes.setItem name m }) ∧
      sh.name = name ∧ ShapeOf sh m VT.1 VT.2 ∧ sh.mass = snapPos (enclosedVolume VT.1 VT.2) := by
  obtain ⟨m, s', h1, h2⟩ := solid_shape_succeeds he s name hv hn
  obtain ⟨m1, hm1, hm2, hm3, hm4, hm5⟩ := C84_create_mesh he VT.1 VT.2 hv.idx
  rw [h1] at hm1
  cases hm1
  obtain ⟨-, sh, m', hs', hname, hV, hmass, -, -, hrep⟩ := C85_create_shape he _ _ _ _ hm4 (hm5 hv.closed) h2
  refine ⟨sh, m', ?_, hname, ⟨hrep.1, hrep.2.1, hrep.2.2.1.trans hm2, hrep.2.2.2.trans hm3⟩, ?_⟩
  · unfold namedShape
    simp only [bind, Except.bind, h1, h2, hs']
    rfl
  · rw [hmass.1, enclosedVolume_perm hm3]

/-- The body made by the program. -/
def CmdMade (n : String) (sh : Shape) (r : V3) (b : RigidBody) : Prop :=
  b.name = n ∧ b.shape = some sh ∧ b.mass = sh.mass ∧ b.v = 0 ∧ b.w = 0 ∧ b.is_fixed = false ∧ b.forces = [] ∧ b.material = "default" ∧
    ∀ x, bodyToWorld b x = bodyToModel sh x + r

theorem unit_identity : Quat.unit Quat.identity = Quat.identity :=
  Quat.unit_of_isUnit (by unfold IsUnitQ Quat.identity; norm_num)

theorem cmdBody_runs {s : Scene} {n k : String} {sh : Shape} (r : V3) (hn : s.eng.bodies.get? n = none)
    (hk : s.eng.shapes.get? k = some sh) (hq : IsUnitQ sh.q) :
    ∃ b, cmdBody n k r s = .ok ((), { s with eng := { s.eng with bodies := s.eng.bodies.setItem n ⟨s.eng.bodies.len, b⟩ } }) ∧
      CmdMade n sh r b := by
  have hui : IsUnitQ Quat.identity := by unfold IsUnitQ Quat.identity; norm_num
  have hq2 : IsUnitQ (Quat.prod Quat.identity sh.q) := (C01_unit_group hui hq).1
  obtain ⟨b1, hb1⟩ : ∃ b1 : RigidBody, b1 = { RigidBody.init n with
      shape := some sh, mass := sh.mass * 1.0, inertia := (1.0 : ℝ) • sh.inertia } := ⟨_, rfl⟩
  obtain ⟨b2, hb2⟩ : ∃ b2 : RigidBody, b2 = { b1 with
      q := (Engine.modelOrientation b1 sh Quat.identity).1, r := (Engine.modelOrientation b1 sh Quat.identity).2 } := ⟨_, rfl⟩
  obtain ⟨b3, hb3⟩ : ∃ b3 : RigidBody, b3 = { b2 with r := Engine.modelPosition b2 sh r } := ⟨_, rfl⟩
  have hsh1 : b1.shape = some sh := by rw [hb1]
  have hsh2 : b2.shape = some sh := by rw [hb2]; exact hsh1
  have hbq : b2.q = Quat.prod Quat.identity sh.q := by
    rw [hb2]
    show Quat.prod (Quat.unit Quat.identity) sh.q = _
    rw [unit_identity]
  refine ⟨{ b3 with v := ⟨0.0, 0.0, 0.0⟩, w := ⟨0.0, 0.0, 0.0⟩ }, ?_, ?_⟩
  · unfold cmdBody
    refine api_then (e := { s.eng with bodies := s.eng.bodies.setItem n ⟨s.eng.bodies.len, RigidBody.init n⟩ }) ?_ ?_
    · unfold Engine.create_rigid_body
      rw [if_neg (by rw [(Dict.get?_eq_none _ _).1 hn]; simp)]
    refine api_then (connect_shape_eq (e := { s.eng with bodies := s.eng.bodies.setItem n ⟨s.eng.bodies.len, RigidBody.init n⟩ }) (Dict.get?_setItem_self _ _ _) hk) ?_
    simp only [setItem_setItem]
    refine api_then (e := { s.eng with bodies := s.eng.bodies.setItem n ⟨s.eng.bodies.len, b1⟩ }) ?_ ?_
    · unfold Engine.set_mass_properties
      rw [findBody_ok.2 (Dict.get?_setItem_self _ _ _)]
      simp only [bind, Except.bind]
      rw [updateBody_some _ (Dict.get?_setItem_self _ _ _)]
      simp only [setItem_setItem, hb1]
    refine api_then (e := { s.eng with bodies := s.eng.bodies.setItem n ⟨s.eng.bodies.len, b2⟩ }) ?_ ?_
    · unfold Engine.set_orientation
      rw [findBody_ok.2 (Dict.get?_setItem_self _ _ _)]
      simp only [bind, Except.bind, hsh1, reduceIte]
      rw [updateBody_some _ (Dict.get?_setItem_self _ _ _)]
      simp only [setItem_setItem, hb2]
    refine api_then (e := { s.eng with bodies := s.eng.bodies.setItem n ⟨s.eng.bodies.len, b3⟩ }) ?_ ?_
    · unfold Engine.set_position
      rw [findBody_ok.2 (Dict.get?_setItem_self _ _ _)]
      simp only [bind, Except.bind, hsh2, reduceIte]
      rw [updateBody_some _ (Dict.get?_setItem_self _ _ _)]
      simp only [setItem_setItem, hb3]
    refine api_then (updateBody_some _ (Dict.get?_setItem_self _ _ _)) ?_
    simp only [setItem_setItem]
    refine api_ok.2 ⟨_, updateBody_some _ (Dict.get?_setItem_self _ _ _), ?_⟩
    simp only [setItem_setItem]
  · have hz : (⟨0.0, 0.0, 0.0⟩ : V3) = 0 := by refine V3.ext ?_ ?_ ?_ <;> simp [lit0]
    refine ⟨by rw [hb3, hb2, hb1]; rfl, by rw [hb3]; exact hsh2, ?_, hz, hz, by rw [hb3, hb2, hb1]; rfl, by rw [hb3, hb2, hb1]; rfl,
      by rw [hb3, hb2, hb1]; rfl, ?_⟩
    · rw [hb3, hb2, hb1]
      show sh.mass * 1.0 = _
      rw [lit1, mul_one]
    · intro x
      have e3 : b3.q = b2.q := by rw [hb3]
      have e4 : b3.r = Quat.rotate (Quat.prod b2.q (Quat.conjugate sh.q)) sh.r + r := by rw [hb3]; rfl
      show Quat.rotate b3.q x + b3.r = Quat.rotate sh.q x + sh.r + r
      have hi : ∀ p, Quat.rotate Quat.identity p = p := rotate_ident_V3
      rw [e3, e4, hbq, C02_rotate_prod, C02_rotate_prod, C02_rotate_prod, (C02_rotate_conjugate hq _).2, hi, hi]
      refine V3.ext ?_ ?_ ?_ <;> simp <;> ring

end Verif
