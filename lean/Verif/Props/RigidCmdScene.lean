import Verif.Props.RigidCmdMass
import Verif.Props.SceneAll2

/-! C124: the scene of the command line program. -/

namespace Verif

open Rigid Rigid.SceneM SMesh Collision
open VMesh (Tri)

/-- Gravity of the program: 10 along -y. -/
noncomputable def cmdGravity : Force := ⟨"earth-like", .gravity 10 V3.j⟩
/-- Damping of the program. -/
noncomputable def cmdDamping : Force := ⟨"windy-like", .damping 0.001 0.001⟩

/-- A body at rest whose surface is VT moved by r, without rotation; its mass is the volume of the solid; gravity and damping act on it. -/
def CmdBody (s : Scene) (n : String) (VT : List V3 × List Tri) (r : V3) (fixed : Bool) : Prop :=
  ∃ o m, s.eng.bodies.get? n = some o ∧ s.worldMesh n = some m ∧
    m.V.Perm (VT.1.map (· + r)) ∧ (trianglesOf m.V m.T).Perm ((trianglesOf VT.1 VT.2).map fun t => (t.1 + r, t.2.1 + r, t.2.2 + r)) ∧
    o.body.shape ≠ none ∧ o.body.v = 0 ∧ o.body.w = 0 ∧ o.body.is_fixed = fixed ∧ o.body.mass = enclosedVolume VT.1 VT.2 ∧ o.body.mass ≠ 0 ∧
    o.body.forces = [cmdGravity, cmdDamping] ∧ o.body.material = "default"

theorem cmdBody_of {s : Scene} {n k : String} {VT : List V3 × List Tri} {r : V3} {fixed : Bool} {sh : Shape} {m : Mesh} {b : RigidBody} {i : ℕ}
    (hv : 1e-10 < enclosedVolume VT.1 VT.2) (hrep : ShapeOf sh m VT.1 VT.2) (hmass : sh.mass = snapPos (enclosedVolume VT.1 VT.2))
    (hk : sh.name = k) (hb : CmdMade n sh r b) (hm : s.meshes.get? k = some m)
    (hget : s.eng.bodies.get? n = some ⟨i, { b with is_fixed := fixed, forces := [cmdGravity, cmdDamping] }⟩) :
    CmdBody s n VT r fixed := by
  obtain ⟨h1, h2, h3, h4, h5, h6, h7, h8, h9⟩ := hb
  obtain ⟨r1, r2, r3, r4⟩ := hrep
  have hmap : (m.V.map fun v => Quat.rotate b.q v + b.r) = (m.V.map (bodyToModel sh)).map (· + r) := by
    rw [List.map_map]
    exact List.map_congr_left fun x _ => h9 x
  have hms : b.mass = enclosedVolume VT.1 VT.2 := by rw [h3, hmass, snapPos, if_pos hv]
  refine ⟨_, ⟨m.V.map fun v => Quat.rotate b.q v + b.r, m.T⟩, hget, ?_, ?_, ?_, ?_, h4, h5, rfl, hms, ?_, rfl, h8⟩
  · unfold Scene.worldMesh
    rw [hget]
    show (b.shape >>= _) = _
    rw [h2]
    show (s.meshes.get? sh.name >>= _) = _
    rw [hk, hm]
    rfl
  · simp only
    rw [hmap]
    exact r3.map _
  · simp only
    rw [hmap, trianglesOf_map _ _ _ (by simpa using r2)]
    exact r4.map _
  · simp only [h2]; exact Option.some_ne_none _
  · show b.mass ≠ 0
    rw [hms]
    have : (0 : ℝ) < 1e-10 := by norm_num
    linarith

/-- The ground, the ball and the cube of the program. -/
def CmdScene (s : Scene) : Prop :=
  ∃ ball, create_sphere 1 16 16 = .ok ball ∧ s.eng.bodies.keys = ["A", "B", "C"] ∧ s.eng.hinges = Dict.empty ∧
    s.eng.params = Params.init ∧
    CmdBody s "A" (create_box 10 1 10) 0 true ∧ CmdBody s "B" ball ⟨-2, 2, 0⟩ false ∧ CmdBody s "C" (create_box 2 2 2) ⟨2, 2, 0⟩ false

theorem setup_scene_runs {eig : Eig} (he : EigSpec eig) (gen : ℕ → String → String) :
    ∃ s', setup_scene eig ⟨Engine.create_engine, Dict.empty, gen⟩ = .ok ((), s') ∧ CmdScene s' := by
  obtain ⟨ball, hball, hstar⟩ := sphere_star (r := 1) one_pos 16 16 (by norm_num) (by norm_num)
  have hball' := hball
  rw [← lit1] at hball'
  obtain ⟨sh1, m1, e1, n1, rep1, mass1⟩ := namedShape_runs he (s := ⟨Engine.create_engine, Dict.empty, gen⟩) (name := "ground")
    (VT := create_box 10.0 1.0 10.0) (box_star (by norm_num) (by norm_num) (by norm_num)).solid rfl
  obtain ⟨sh2, m2, e2, n2, rep2, mass2⟩ := namedShape_runs he (s := { (⟨Engine.create_engine, Dict.empty, gen⟩ : Scene) with
      eng := { Engine.create_engine with shapes := Dict.empty.setItem "ground" sh1 }, meshes := Dict.empty.setItem "ground" m1 }) (name := "box")
    (VT := create_box 2.0 2.0 2.0) (box_star (by norm_num) (by norm_num) (by norm_num)).solid (by
      rw [Dict.get?_setItem_ne _ _ (by decide)]; rfl)
  obtain ⟨sh3, m3, e3, n3, rep3, mass3⟩ := namedShape_runs he (s := { (⟨Engine.create_engine, Dict.empty, gen⟩ : Scene) with
      eng := { Engine.create_engine with shapes := (Dict.empty.setItem "ground" sh1).setItem "box" sh2 },
      meshes := (Dict.empty.setItem "ground" m1).setItem "box" m2 }) (name := "sphere")
    hstar.solid (by
      rw [Dict.get?_setItem_ne _ _ (by decide), Dict.get?_setItem_ne _ _ (by decide)]; rfl)
  obtain ⟨S, hS⟩ : ∃ S, S = ((Dict.empty.setItem "ground" sh1).setItem "box" sh2).setItem "sphere" sh3 := ⟨_, rfl⟩
  obtain ⟨M, hM⟩ : ∃ M, M = ((Dict.empty.setItem "ground" m1).setItem "box" m2).setItem "sphere" m3 := ⟨_, rfl⟩
  have S1 : S.get? "ground" = some sh1 := by
    rw [hS, Dict.get?_setItem_ne _ _ (by decide), Dict.get?_setItem_ne _ _ (by decide), Dict.get?_setItem_self]
  have S2 : S.get? "box" = some sh2 := by rw [hS, Dict.get?_setItem_ne _ _ (by decide), Dict.get?_setItem_self]
  have S3 : S.get? "sphere" = some sh3 := by rw [hS, Dict.get?_setItem_self]
  have M1 : M.get? "ground" = some m1 := by
    rw [hM, Dict.get?_setItem_ne _ _ (by decide), Dict.get?_setItem_ne _ _ (by decide), Dict.get?_setItem_self]
  have M2 : M.get? "box" = some m2 := by rw [hM, Dict.get?_setItem_ne _ _ (by decide), Dict.get?_setItem_self]
  have M3 : M.get? "sphere" = some m3 := by rw [hM, Dict.get?_setItem_self]
  obtain ⟨E0, hE0⟩ : ∃ E0 : Engine, E0 = { Engine.create_engine with shapes := S } := ⟨_, rfl⟩
  have e3' : namedShape eig "sphere" ball { (⟨Engine.create_engine, Dict.empty, gen⟩ : Scene) with
      eng := { Engine.create_engine with shapes := (Dict.empty.setItem "ground" sh1).setItem "box" sh2 },
      meshes := (Dict.empty.setItem "ground" m1).setItem "box" m2 } = .ok ((), ⟨E0, M, gen⟩) := by
    rw [e3, hE0, hS, hM]
  obtain ⟨bA, eA, cA⟩ := cmdBody_runs (s := ⟨E0, M, gen⟩) (n := "A") (k := "ground") ⟨0.0, 0.0, 0.0⟩ (by rw [hE0]; rfl)
    (by rw [hE0]; exact S1) rep1.1
  have hlen0 : E0.bodies = Dict.empty := by rw [hE0]; rfl
  obtain ⟨D1, hD1⟩ : ∃ D1 : Dict String BodyObj, D1 = Dict.empty.setItem "A" ⟨0, { bA with is_fixed := true }⟩ := ⟨_, rfl⟩
  have eT : ({ E0 with bodies := E0.bodies.setItem "A" ⟨E0.bodies.len, bA⟩ } : Engine).set_body_type "A" "fixed" = .ok { E0 with bodies := D1 } := by
    unfold Engine.set_body_type
    rw [findBody_ok.2 (Dict.get?_setItem_self _ _ _)]
    simp only [bind, Except.bind]
    rw [if_pos (by decide), updateBody_some _ (Dict.get?_setItem_self _ _ _), hD1, hlen0, setItem_setItem]
    rfl
  have D1A : D1.get? "A" = some ⟨0, { bA with is_fixed := true }⟩ := by rw [hD1, Dict.get?_setItem_self]
  have D1k : D1.keys = ["A"] := by rw [hD1]; rfl
  obtain ⟨bB, eB, cB⟩ := cmdBody_runs (s := ⟨{ E0 with bodies := D1 }, M, gen⟩) (n := "B") (k := "sphere") ⟨-2.0, 2.0, 0.0⟩ (by
      show D1.get? "B" = none
      rw [hD1, Dict.get?_setItem_ne _ _ (by decide)]; rfl) (by show E0.shapes.get? _ = _; rw [hE0]; exact S3) rep3.1
  obtain ⟨D2, hD2⟩ : ∃ D2 : Dict String BodyObj, D2 = D1.setItem "B" ⟨D1.len, bB⟩ := ⟨_, rfl⟩
  have D2A : D2.get? "A" = some ⟨0, { bA with is_fixed := true }⟩ := by rw [hD2, Dict.get?_setItem_ne _ _ (by decide), D1A]
  have D2B : D2.get? "B" = some ⟨D1.len, bB⟩ := by rw [hD2, Dict.get?_setItem_self]
  have D2k : D2.keys = ["A", "B"] := by
    rw [hD2, get?_keys_setItem_new, D1k]; · rfl
    rw [hD1, Dict.get?_setItem_ne _ _ (by decide)]; rfl
  have D2C : D2.get? "C" = none := by
    rw [hD2, Dict.get?_setItem_ne _ _ (by decide), hD1, Dict.get?_setItem_ne _ _ (by decide)]; rfl
  obtain ⟨bC, eC, cC⟩ := cmdBody_runs (s := ⟨{ E0 with bodies := D2 }, M, gen⟩) (n := "C") (k := "box") ⟨2.0, 2.0, 0.0⟩ D2C
    (by show E0.shapes.get? _ = _; rw [hE0]; exact S2) rep2.1
  obtain ⟨D3, hD3⟩ : ∃ D3 : Dict String BodyObj, D3 = D2.setItem "C" ⟨D2.len, bC⟩ := ⟨_, rfl⟩
  have D3A : D3.get? "A" = some ⟨0, { bA with is_fixed := true }⟩ := by rw [hD3, Dict.get?_setItem_ne _ _ (by decide), D2A]
  have D3B : D3.get? "B" = some ⟨D1.len, bB⟩ := by rw [hD3, Dict.get?_setItem_ne _ _ (by decide), D2B]
  have D3C : D3.get? "C" = some ⟨D2.len, bC⟩ := by rw [hD3, Dict.get?_setItem_self]
  have D3k : D3.keys = ["A", "B", "C"] := by
    rw [hD3, get?_keys_setItem_new D2C, D2k]; rfl
  rw [← hD2] at eB
  rw [← hD3] at eC
  have hj := unit_j
  obtain ⟨F, hF⟩ : ∃ F : Dict String Force, F = (Dict.empty.setItem "earth-like" cmdGravity).setItem "windy-like" cmdDamping := ⟨_, rfl⟩
  have F1 : F.get? "earth-like" = some cmdGravity := by rw [hF, Dict.get?_setItem_ne _ _ (by decide), Dict.get?_setItem_self]
  have F2 : F.get? "windy-like" = some cmdDamping := by rw [hF, Dict.get?_setItem_self]
  have eG : ({ E0 with bodies := D3 } : Engine).create_gravity_force "earth-like" 10.0 V3.j =
      .ok { E0 with bodies := D3, forces := Dict.empty.setItem "earth-like" cmdGravity } := by
    unfold Engine.create_gravity_force
    rw [if_neg (by
      have : E0.forces.get? "earth-like" = none := by rw [hE0]; rfl
      rw [(Dict.get?_eq_none _ _).1 this]; simp), if_neg (by norm_num), hj, hE0]
    unfold cmdGravity
    rw [show (10.0 : ℝ) = 10 by norm_num]
    rfl
  have eD : ({ E0 with bodies := D3, forces := Dict.empty.setItem "earth-like" cmdGravity } : Engine).create_damping_force "windy-like" 0.001 0.001 =
      .ok { E0 with bodies := D3, forces := F } := by
    unfold Engine.create_damping_force
    rw [if_neg (by
      have : (Dict.empty.setItem "earth-like" cmdGravity).get? "windy-like" = none := by
        rw [Dict.get?_setItem_ne _ _ (by decide)]; rfl
      rw [(Dict.get?_eq_none _ _).1 this]; simp), if_neg (by norm_num), if_neg (by norm_num), hF]
    rfl
  obtain ⟨-, -, -, -, -, fA, gA, -, -⟩ := id cA
  obtain ⟨-, -, -, -, -, fB, gB, -, -⟩ := id cB
  obtain ⟨-, -, -, -, -, fC, gC, -, -⟩ := id cC
  have hne : cmdGravity.name ≠ cmdDamping.name := by decide
  -- gravity
  have c1 := connect_runs (e := { E0 with bodies := D3, forces := F }) D3A F1 (by simp [gA])
  obtain ⟨D4, hD4⟩ : ∃ D4 : Dict String BodyObj, D4 = D3.setItem "A" ⟨0, { bA with is_fixed := true, forces := [cmdGravity] }⟩ := ⟨_, rfl⟩
  replace c1 : ({ E0 with bodies := D3, forces := F } : Engine).connect_force "A" "earth-like" = .ok { E0 with bodies := D4, forces := F } := by
    rw [c1, hD4]; simp only [gA, List.nil_append]
  have D4A := (congrArg (fun d => d.get? "A") hD4).trans (Dict.get?_setItem_self _ _ _)
  have D4B : D4.get? "B" = some ⟨D1.len, bB⟩ := by rw [hD4, Dict.get?_setItem_ne _ _ (by decide), D3B]
  have D4C : D4.get? "C" = some ⟨D2.len, bC⟩ := by rw [hD4, Dict.get?_setItem_ne _ _ (by decide), D3C]
  have D4k : D4.keys = ["A", "B", "C"] := by rw [hD4, Dict.keys_replace D3A, D3k]
  have c2 := connect_runs (e := { E0 with bodies := D4, forces := F }) D4B F1 (by simp [gB])
  obtain ⟨D5, hD5⟩ : ∃ D5 : Dict String BodyObj, D5 = D4.setItem "B" ⟨D1.len, { bB with forces := [cmdGravity] }⟩ := ⟨_, rfl⟩
  replace c2 : ({ E0 with bodies := D4, forces := F } : Engine).connect_force "B" "earth-like" = .ok { E0 with bodies := D5, forces := F } := by
    rw [c2, hD5]; simp only [gB, List.nil_append]
  have D5A := (congrArg (fun d => d.get? "A") hD5).trans ((Dict.get?_setItem_ne _ _ (by decide)).trans D4A)
  have D5B := (congrArg (fun d => d.get? "B") hD5).trans (Dict.get?_setItem_self _ _ _)
  have D5C : D5.get? "C" = some ⟨D2.len, bC⟩ := by rw [hD5, Dict.get?_setItem_ne _ _ (by decide), D4C]
  have D5k : D5.keys = ["A", "B", "C"] := by rw [hD5, Dict.keys_replace D4B, D4k]
  have c3 := connect_runs (e := { E0 with bodies := D5, forces := F }) D5C F1 (by simp [gC])
  obtain ⟨D6, hD6⟩ : ∃ D6 : Dict String BodyObj, D6 = D5.setItem "C" ⟨D2.len, { bC with forces := [cmdGravity] }⟩ := ⟨_, rfl⟩
  replace c3 : ({ E0 with bodies := D5, forces := F } : Engine).connect_force "C" "earth-like" = .ok { E0 with bodies := D6, forces := F } := by
    rw [c3, hD6]; simp only [gC, List.nil_append]
  have D6A := (congrArg (fun d => d.get? "A") hD6).trans ((Dict.get?_setItem_ne _ _ (by decide)).trans D5A)
  have D6B := (congrArg (fun d => d.get? "B") hD6).trans ((Dict.get?_setItem_ne _ _ (by decide)).trans D5B)
  have D6C := (congrArg (fun d => d.get? "C") hD6).trans (Dict.get?_setItem_self _ _ _)
  have D6k : D6.keys = ["A", "B", "C"] := by rw [hD6, Dict.keys_replace D5C, D5k]
  -- damping
  have c4 := connect_runs (e := { E0 with bodies := D6, forces := F }) D6A F2 (by simpa using hne)
  obtain ⟨D7, hD7⟩ : ∃ D7 : Dict String BodyObj, D7 = D6.setItem "A" ⟨0, { bA with is_fixed := true, forces := [cmdGravity, cmdDamping] }⟩ := ⟨_, rfl⟩
  replace c4 : ({ E0 with bodies := D6, forces := F } : Engine).connect_force "A" "windy-like" = .ok { E0 with bodies := D7, forces := F } := by
    rw [c4, hD7]; rfl
  have D7A := (congrArg (fun d => d.get? "A") hD7).trans (Dict.get?_setItem_self _ _ _)
  have D7B := (congrArg (fun d => d.get? "B") hD7).trans ((Dict.get?_setItem_ne _ _ (by decide)).trans D6B)
  have D7C := (congrArg (fun d => d.get? "C") hD7).trans ((Dict.get?_setItem_ne _ _ (by decide)).trans D6C)
  have D7k : D7.keys = ["A", "B", "C"] := by rw [hD7, Dict.keys_replace D6A, D6k]
  have c5 := connect_runs (e := { E0 with bodies := D7, forces := F }) D7B F2 (by simpa using hne)
  obtain ⟨D8, hD8⟩ : ∃ D8 : Dict String BodyObj, D8 = D7.setItem "B" ⟨D1.len, { bB with forces := [cmdGravity, cmdDamping] }⟩ := ⟨_, rfl⟩
  replace c5 : ({ E0 with bodies := D7, forces := F } : Engine).connect_force "B" "windy-like" = .ok { E0 with bodies := D8, forces := F } := by
    rw [c5, hD8]; rfl
  have D8A := (congrArg (fun d => d.get? "A") hD8).trans ((Dict.get?_setItem_ne _ _ (by decide)).trans D7A)
  have D8B := (congrArg (fun d => d.get? "B") hD8).trans (Dict.get?_setItem_self _ _ _)
  have D8C := (congrArg (fun d => d.get? "C") hD8).trans ((Dict.get?_setItem_ne _ _ (by decide)).trans D7C)
  have D8k : D8.keys = ["A", "B", "C"] := by rw [hD8, Dict.keys_replace D7B, D7k]
  have c6 := connect_runs (e := { E0 with bodies := D8, forces := F }) D8C F2 (by simpa using hne)
  obtain ⟨D9, hD9⟩ : ∃ D9 : Dict String BodyObj, D9 = D8.setItem "C" ⟨D2.len, { bC with forces := [cmdGravity, cmdDamping] }⟩ := ⟨_, rfl⟩
  replace c6 : ({ E0 with bodies := D8, forces := F } : Engine).connect_force "C" "windy-like" = .ok { E0 with bodies := D9, forces := F } := by
    rw [c6, hD9]; rfl
  have D9A := (congrArg (fun d => d.get? "A") hD9).trans ((Dict.get?_setItem_ne _ _ (by decide)).trans D8A)
  have D9B := (congrArg (fun d => d.get? "B") hD9).trans ((Dict.get?_setItem_ne _ _ (by decide)).trans D8B)
  have D9C := (congrArg (fun d => d.get? "C") hD9).trans (Dict.get?_setItem_self _ _ _)
  have D9k : D9.keys = ["A", "B", "C"] := by rw [hD9, Dict.keys_replace D8C, D8k]
  refine ⟨⟨{ E0 with bodies := D9, forces := F }, M, gen⟩, ?_, ball, hball, D9k, by rw [hE0]; rfl, by rw [hE0]; rfl, ?_, ?_, ?_⟩
  · unfold setup_scene
    rw [hball']
    refine m_then e1 (m_then e2 (m_then e3' (m_then eA (api_then eT (m_then eB (m_then eC (api_then eG (api_then eD ?_))))))))
    exact api_then c1 (api_then c2 (api_then c3 (api_then c4 (api_then c5 (api_ok.2 ⟨_, c6, rfl⟩)))))
  · have := cmdBody_of (s := ⟨{ E0 with bodies := D9, forces := F }, M, gen⟩) (fixed := true) (VT := create_box 10.0 1.0 10.0) (by
      rw [(C33_box _ _ _).2.2]; norm_num) rep1 mass1 n1 cA M1 D9A
    rw [show (10.0 : ℝ) = 10 by norm_num, lit1, show (⟨0.0, 0.0, 0.0⟩ : V3) = 0 by refine V3.ext ?_ ?_ ?_ <;> simp [lit0]] at this
    exact this
  · have := cmdBody_of (s := ⟨{ E0 with bodies := D9, forces := F }, M, gen⟩) (fixed := false) (VT := ball) (by
      have := cmd_sphere_heavy hball
      norm_num at this ⊢; linarith) rep3 mass3 n3 cB M3 (D9B.trans (by rw [← fB]))
    rw [show (⟨-2.0, 2.0, 0.0⟩ : V3) = ⟨-2, 2, 0⟩ by refine V3.ext ?_ ?_ ?_ <;> norm_num] at this
    exact this
  · have := cmdBody_of (s := ⟨{ E0 with bodies := D9, forces := F }, M, gen⟩) (fixed := false) (VT := create_box 2.0 2.0 2.0) (by
      rw [(C33_box _ _ _).2.2]; norm_num) rep2 mass2 n2 cC M2 (D9C.trans (by rw [← fC]))
    rw [show (⟨2.0, 2.0, 0.0⟩ : V3) = ⟨2, 2, 0⟩ by refine V3.ext ?_ ?_ ?_ <;> norm_num, lit2] at this
    exact this

/-- The surfaces stand clear of each other: the ball and the cube are at least half a unit above the ground, and the ball is left of the cube. -/
def CmdClear (s : Scene) : Prop :=
  ∃ a b c, s.worldMesh "A" = some a ∧ s.worldMesh "B" = some b ∧ s.worldMesh "C" = some c ∧
    (∀ v ∈ a.V, |v.x| ≤ 5 ∧ |v.y| ≤ 1 / 2 ∧ |v.z| ≤ 5) ∧ (∀ v ∈ b.V, 1 ≤ v.y ∧ v.y ≤ 3 ∧ -3 ≤ v.x ∧ v.x ≤ -1 ∧ |v.z| ≤ 1) ∧
    (∀ v ∈ c.V, 1 ≤ v.y ∧ v.y ≤ 3 ∧ 1 ≤ v.x ∧ v.x ≤ 3 ∧ |v.z| ≤ 1) ∧
    ¬ Overlap a.V b.V ∧ ¬ Overlap a.V c.V ∧ ¬ Overlap b.V c.V

theorem box_vertex {w h d : ℝ} (hw : 0 ≤ w) (hh : 0 ≤ h) (hd : 0 ≤ d) {v : V3} (hv : v ∈ (create_box w h d).1) :
    |v.x| ≤ w / 2 ∧ |v.y| ≤ h / 2 ∧ |v.z| ≤ d / 2 := by
  have hlit : (0.5 : ℝ) = 1 / 2 := by norm_num
  simp only [create_box, List.mem_cons, List.not_mem_nil, or_false] at hv
  rcases hv with h | h | h | h | h | h | h | h <;> subst h <;>
    simp only [hlit, V3.smul_x, V3.smul_y, V3.smul_z, abs_le] <;>
    refine ⟨⟨?_, ?_⟩, ⟨?_, ?_⟩, ⟨?_, ?_⟩⟩ <;> linarith

theorem CmdScene.clear {s : Scene} (h : CmdScene s) : CmdClear s := by
  obtain ⟨ball, hb, -, -, -, ⟨oa, a, -, ha, pa, -⟩, ⟨ob, b, -, hb', pb, -⟩, ⟨oc, c, -, hc, pc, -⟩⟩ := h
  obtain ⟨V, T, h1, -, -, h2, -⟩ := C33_sphere 1 16 16 (by norm_num) (by norm_num)
  rw [hb] at h1
  cases h1
  have qa : ∀ v ∈ a.V, |v.x| ≤ 5 ∧ |v.y| ≤ 1 / 2 ∧ |v.z| ≤ 5 := by
    intro v hv
    obtain ⟨u, hu, rfl⟩ := List.mem_map.1 (pa.mem_iff.1 hv)
    have := box_vertex (by norm_num) (by norm_num) (by norm_num) hu
    rw [add_zero]
    norm_num at this ⊢
    exact this
  have qb : ∀ v ∈ b.V, 1 ≤ v.y ∧ v.y ≤ 3 ∧ -3 ≤ v.x ∧ v.x ≤ -1 ∧ |v.z| ≤ 1 := by
    intro v hv
    obtain ⟨u, hu, rfl⟩ := List.mem_map.1 (pb.mem_iff.1 hv)
    have := h2 u hu
    have hx := abs_le.1 (abs_le_one_iff_mul_self_le_one.2 (by nlinarith [sq_nonneg u.y, sq_nonneg u.z] : u.x * u.x ≤ 1))
    have hy := abs_le.1 (abs_le_one_iff_mul_self_le_one.2 (by nlinarith [sq_nonneg u.x, sq_nonneg u.z] : u.y * u.y ≤ 1))
    have hz := (abs_le_one_iff_mul_self_le_one.2 (by nlinarith [sq_nonneg u.x, sq_nonneg u.y] : u.z * u.z ≤ 1))
    simp only [V3.add_x, V3.add_y, V3.add_z, add_zero]
    refine ⟨by linarith, by linarith, by linarith, by linarith, hz⟩
  have qc : ∀ v ∈ c.V, 1 ≤ v.y ∧ v.y ≤ 3 ∧ 1 ≤ v.x ∧ v.x ≤ 3 ∧ |v.z| ≤ 1 := by
    intro v hv
    obtain ⟨u, hu, rfl⟩ := List.mem_map.1 (pc.mem_iff.1 hv)
    obtain ⟨h1, h2, h3⟩ := box_vertex (by norm_num) (by norm_num) (by norm_num) hu
    simp only [V3.add_x, V3.add_y, V3.add_z, add_zero]
    rw [abs_le] at h1 h2
    refine ⟨by linarith [h2.1], by linarith [h2.2], by linarith [h1.1], by linarith [h1.2], by linarith⟩
  refine ⟨a, b, c, ha, hb', hc, qa, qb, qc, ?_, ?_, ?_⟩
  · exact (PlaneApart.of_y (1 / 2) (fun v hv => (abs_le.1 (qa v hv).2.1).2) fun v hv => by linarith [(qb v hv).1]).not_overlap
  · exact (PlaneApart.of_y (1 / 2) (fun v hv => (abs_le.1 (qa v hv).2.1).2) fun v hv => by linarith [(qc v hv).1]).not_overlap
  · exact (PlaneApart.of_x 0 (fun v hv => by linarith [(qb v hv).2.2.2.1]) fun v hv => by linarith [(qc v hv).2.2.1]).not_overlap

theorem CmdScene.complete {s : Scene} (h : CmdScene s) : Complete s := by
  obtain ⟨ball, -, hk, hh, -, ⟨oa, a, a1, -, -, -, a2, -, -, -, -, a3, -⟩, ⟨ob, b, b1, -, -, -, b2, -, -, -, -, b3, -⟩,
    ⟨oc, c, c1, -, -, -, c2, -, -, -, -, c3, -⟩⟩ := h
  have hcase : ∀ n o, s.eng.bodies.get? n = some o → o = oa ∨ o = ob ∨ o = oc := by
    intro n o ho
    have hn : n ∈ s.eng.bodies.keys := (Dict.mem_iff_keys _ _).1 (Dict.mem_of_get? ho)
    rw [hk] at hn
    simp only [List.mem_cons, List.not_mem_nil, or_false] at hn
    rcases hn with rfl | rfl | rfl
    · left; rw [a1] at ho; exact (Option.some.inj ho).symm
    · right; left; rw [b1] at ho; exact (Option.some.inj ho).symm
    · right; right; rw [c1] at ho; exact (Option.some.inj ho).symm
  refine ⟨?_, ?_, ?_⟩
  · intro n o ho
    rcases hcase n o ho with h | h | h <;> rw [h] <;> assumption
  · intro n o ho _
    rcases hcase n o ho with h | h | h <;> rw [h] <;> assumption
  · intro n h hh'
    rw [hh] at hh'
    cases hh'

/-- **C124.** `setup_scene` on a fresh engine does not raise, whatever names the engine generates.  It makes exactly the fixed ground (a
10 × 1 × 10 box centred in the origin), a ball of radius 1 centred in (-2, 2, 0) and a cube of side 2 centred in (2, 2, 0), all at rest and
not rotated, of unit density, under gravity 10 along -y and damping; they stand clear of each other. -/
theorem C124_scene {eig : Eig} (he : EigSpec eig) (gen : ℕ → String → String) :
    ∃ s, setup_scene eig ⟨Engine.create_engine, Dict.empty, gen⟩ = .ok ((), s) ∧ CmdScene s ∧ CmdClear s ∧ Complete s ∧ SceneGood s := by
  obtain ⟨s, h1, h2⟩ := setup_scene_runs he gen
  exact ⟨s, h1, h2, h2.clear, h2.complete, setup_scene_good he _ _ _ ⟨create_engine_ok, fun n sh h => by cases h⟩ h1⟩

/-- **C124.** `setup_scene` cannot be run a second time on the same engine. -/
theorem C124_scene_twice {eig : Eig} (he : EigSpec eig) {s : Scene} (h : s.eng.shapes.get? "ground" ≠ none) :
    setup_scene eig s = .error .runtimeError := by
  unfold setup_scene
  show (StateT.bind _ _) s = _
  unfold StateT.bind
  obtain ⟨m, hm, -⟩ := C84_create_mesh he (create_box 10.0 1.0 10.0).1 (create_box 10.0 1.0 10.0).2
    (box_star (w := 10.0) (h := 1.0) (d := 10.0) (by norm_num) (by norm_num) (by norm_num)).solid.idx
  have : namedShape eig "ground" (create_box 10.0 1.0 10.0) s = .error .runtimeError := by
    unfold namedShape
    simp only [bind, Except.bind, hm, (C85_create_shape_raises (eig := eig) s "ground" m).1 h]
  rw [this]
  rfl

end Verif
