import Verif.Props.SoftAppBeam

/-! C123: the script soft_sheet.py. -/

namespace Verif

open Soft SoftApp Mech

/-- The start of soft_sheet.py: after the material, its friction with itself and its damping have been set, bodies can be added. -/
theorem sheet_start {V : Env} (hs : V.P.proximal_solver ∈ ["gauss_seidel", "parallel_gauss_seidel", "parallel_jacobi", "parallel_jacboi_hybrid"]) (ts : ℝ) :
    ∃ app m, (((create_soft_material V "default_material").andThen (set_friction_coefficient "default_material" "default_material" 0.5)).andThen
        (set_damping_coefficient "default_material" 0.5)) (SoftApp.init V ts) = (app, none) ∧
      Extendable V.P app.scene ∧ app.scene.eng.bodies = Dict.empty ∧ app.scene.eng.params.time_step = 0.001 ∧
      app.scene.eng.materials.get? "default_material" = some m ∧ m.pk1_stress = SVK.pk1_stress ∧ m.energy_density = SVK.energy_density ∧ m.nu < 1 / 2 ∧ m.c = 0.5 ∧ 0 < m.rho ∧ m.name = "default_material" ∧
      app.scene.eng.get_interaction "default_material" "default_material" ≠ none := by
  obtain ⟨m, hm⟩ : ∃ m : Material, m = ⟨SVK.pk1_stress, SVK.energy_density, 0, 1000, 10e5, 0.3, "default_material"⟩ := ⟨_, rfl⟩
  have hmat := C123_material (V := V) (app := SoftApp.init V ts) (name := "default_material") (by
      simp only [SoftApp.init, World.create_engine, Engine.create_engine, Dict.empty, Dict.setItem, Dict.mem]
      simp) (E := 10e5) (nu := 0.3) (rho := 1000) (by norm_num) (by norm_num) (by norm_num) (model := "SVK") (law := (SVK.pk1_stress, SVK.energy_density)) (by
      simp [ MODEL_MAP]) (viscosity := 0.5) (by norm_num)
  rw [← hm] at hmat
  obtain ⟨app1, happ1⟩ : ∃ app1, app1 = (create_soft_material V "default_material" 10e5 0.3 1000 "SVK" 0.5 (SoftApp.init V ts)).1 := ⟨_, rfl⟩
  rw [hmat] at happ1
  dsimp only at happ1
  rw [← happ1] at hmat
  have hget : app1.scene.eng.materials.get? "default_material" = some m := by rw [happ1]; exact Dict.get?_setItem_self _ _ _
  obtain ⟨e2, he2⟩ : ∃ e2 : Soft.Engine, e2 = { app1.scene.eng with surfaces_interactions := app1.scene.eng.surfaces_interactions.setItem (interactionKey "default_material" "default_material") 0.5 } := ⟨_, rfl⟩
  have hmem : app1.scene.eng.materials.mem "default_material" = true := Dict.mem_of_get? hget
  have hno : app1.scene.eng.exist_interaction "default_material" "default_material" = false := by
    rw [happ1]
    simp [Engine.exist_interaction, interactionKey, SoftApp.init, World.create_engine, Engine.create_engine, Dict.empty, Dict.setItem, Dict.mem]
  have hfr : app1.scene.eng.create_surfaces_interaction "default_material" "default_material" 0.5 = .ok e2 := by
    unfold Engine.create_surfaces_interaction
    rw [if_neg (by simp [hmem]), if_neg (by simp [hmem]), if_neg (by simp [hno]), if_neg (by norm_num), he2]
  have hcall : set_friction_coefficient "default_material" "default_material" 0.5 app1 = ({ app1 with scene := { app1.scene with eng := e2 } }, none) := by
    unfold set_friction_coefficient api
    dsimp only
    rw [hfr]
  have hB1 : Built V.eigh app1.scene.eng := by
    have := keeps_material (V := V) "default_material" 10e5 0.3 1000 "SVK" 0.5 (SoftApp.init V ts) Built.new
    rw [hmat] at this
    exact this
  have hB2 : Built V.eigh e2 := .set hB1 (.interaction hfr)
  obtain ⟨m3, hm3⟩ : ∃ m3 : Material, m3 = { m with c := 0.5 } := ⟨_, rfl⟩
  have hget2 : e2.materials.get? "default_material" = some m := by rw [he2]; exact hget
  obtain ⟨e3, he3⟩ : ∃ e3 : Soft.Engine, e3 = e2.putMaterial "default_material" m3 := ⟨_, rfl⟩
  have hvis : e2.set_viscosity "default_material" 0.5 = .ok e3 := by
    unfold Engine.set_viscosity Engine.findMaterial
    rw [hget2]
    simp only [bind, Except.bind, pure, Except.pure]
    rw [if_neg (by norm_num), he3, hm3]
  have hcall3 : set_damping_coefficient "default_material" 0.5 { app1 with scene := { app1.scene with eng := e2 } } =
      ({ app1 with scene := { app1.scene with eng := e3 } }, none) := by
    unfold set_damping_coefficient api
    dsimp only
    rw [hget2, he3, hm3]
  have hB3 : Built V.eigh e3 := .set hB2 (.viscosity hvis)
  refine ⟨{ app1 with scene := { app1.scene with eng := e3 } }, m3, ?_, ?_, ?_, ?_, ?_, ?_, ?_, ?_, ?_, ?_, ?_, ?_⟩
  · rw [andThen_ok (by rw [andThen_ok hmat]; exact hcall)]
    exact hcall3
  · have hE := C100_empty V.Phi (P := V.P) hB3 (by rw [he3, he2, happ1]; rfl) (by rw [he3, he2, happ1]; rfl) (by rw [he3, he2, happ1]; exact ⟨rfl, rfl⟩) hs
    have e : ({ app1.scene with eng := e3 } : World) = { World.create_engine V.eigh V.Phi with eng := e3 } := by rw [happ1]; rfl
    dsimp only
    rw [e]
    exact hE
  · simp only [he3, he2, happ1]; rfl
  · simp only [he3, he2, happ1]; rfl
  · simp only [he3]; exact Dict.get?_setItem_self _ _ _
  · rw [hm3, hm]
  · rw [hm3, hm]
  · rw [hm3, hm]; norm_num
  · rw [hm3]
  · rw [hm3, hm]; norm_num
  · rw [hm3, hm]
  · unfold Engine.get_interaction Engine.putMaterial at *
    simp only [he3, he2, Dict.get?_setItem_self]
    simp

theorem asked_y {e : Soft.Engine} {name mat : String} {mesh : BeamArgs} {g : ℝ} {free : Bool} {c : V3} {b : SoftBody} (h : Asked e name mat mesh g free c b)
    (hI : 1 ≤ mesh.I) (hJ : 1 ≤ mesh.J) (a : Fin b.n) : ∃ j < mesh.J, (b.x0 a).y = c.y - mesh.height / 2 + j * (mesh.height / (mesh.J - 1)) := by
  obtain ⟨X, hperm, hblock⟩ := h.nodes
  have hmem : b.x0 a ∈ X := hperm.mem_iff.1 (List.mem_ofFn.2 ⟨a, rfl⟩)
  obtain ⟨q, hq, he⟩ := List.getElem_of_mem hmem
  rw [hblock.len] at hq
  have h1 : q % mesh.I < mesh.I := Nat.mod_lt _ (by omega)
  have h2 : q / mesh.I % mesh.J < mesh.J := Nat.mod_lt _ (by omega)
  have h3 : q / mesh.I / mesh.J < mesh.K := by
    rw [Nat.div_div_eq_div_mul]
    exact Nat.div_lt_of_lt_mul (by rw [← Nat.mul_comm]; rw [Nat.mul_comm]; exact hq)
  have := hblock.pos _ _ _ h1 h2 h3
  have hidx : (q / mesh.I / mesh.J * mesh.J + q / mesh.I % mesh.J) * mesh.I + q % mesh.I = q := by
    rw [Nat.div_add_mod', Nat.div_add_mod']
  rw [hidx, List.getElem?_eq_getElem (by rw [hblock.len]; exact hq), he] at this
  injection this with this
  exact ⟨q / mesh.I % mesh.J, h2, by rw [this]⟩

/-- **C123** (soft_sheet.py). Every call of the script that makes the scene succeeds.  The scene then has exactly two free bodies: the cube [-¼,¼]³ and the
sheet [-2,2]×[¼,3/10]×[-2,2], pinned at exactly its nodes with x = -2 or x = 2, both undeformed and at rest under gravity -9.8 along y, and the film that
follows ends well or with RuntimeError.  But the cube does not lie on the sheet, as the script says: it is below it, and nothing holds it; and the time step
is not the one the script asks for. -/
theorem C123_soft_sheet {V : Env} (hsd : OnePerNode V.sd) (hP : GoodGeo V.P.toGeoParams) (hlist : ∀ s x, x ∈ V.listOf s ↔ x ∈ s)
    (hs : V.P.proximal_solver ∈ ["gauss_seidel", "parallel_gauss_seidel", "parallel_jacobi", "parallel_jacboi_hybrid"])
    (hlegal : V.px.legal "cube" = true ∧ V.px.legal "sheet" = true) :
    ∃ app cube sheet, softSheet V = (app, none) ∧ Runnable V.P app.scene ∧
      Asked app.scene.eng "cube" "default_material" ⟨4, 4, 4, 0.5, 0.5, 0.5⟩ (-9.8) true ⟨0, 0, 0⟩ cube ∧ cube.dirichlet_conditions = [] ∧
      Asked app.scene.eng "sheet" "default_material" ⟨20, 2, 10, 4, 0.05, 4⟩ (-9.8) true ⟨0, 0.275, 0⟩ sheet ∧
      (∀ i p, (i, p) ∈ sheet.dirichlet_conditions ↔ p = sheet.x0 i ∧ ((sheet.x0 i).x = -2 ∨ (sheet.x0 i).x = 2)) ∧
      (∀ k b, HasBody app.scene.eng k b → k = "cube" ∨ k = "sheet") ∧
      (∀ i j, (cube.x i).y ≤ 0.25 ∧ 0.25 ≤ (sheet.x j).y) ∧ app.scene.eng.params.time_step = 0.001 ∧
      ∀ (T fps : ℝ) (skip : List String), 0 < fps → 0 < frameCount T fps → ∃ app1, initialize_usd V app = .ok app1 ∧ app1.scene = app.scene ∧
        ((∃ app2, simulate V app1 T fps true skip = .ok app2) ∨ simulate V app1 T fps true skip = .error .runtimeError) := by
  obtain ⟨app0, m, h0, hx0, hb0, ht0, hm0, hlaw, henl, hnu, -, hrho, hmn, hint⟩ := sheet_start (V := V) hs 0.0001
  have no0 : ∀ k b, ¬ HasBody app0.scene.eng k b := by
    intro k b h
    unfold HasBody at h
    rw [hb0] at h
    cases h
  obtain ⟨app1, h1, hu1, hr1, hx1, hmats1, hint1, hpar1, ⟨b1, ask1, pins1, loads1⟩, hold1⟩ := C123_body hsd hP hx0 (name := "cube") (mat := "default_material")
    (by rw [hb0]; rfl) (mesh := ⟨4, 4, 4, 0.5, 0.5, 0.5⟩) (by norm_num) (by norm_num) (by norm_num) (by norm_num) (by norm_num) (by norm_num) (c := ⟨0, 0, 0⟩)
    (offMargin_of_low hP (by norm_num)) hm0 (Or.inl hlaw) hnu hrho (by rw [hmn]; exact hint) (fun k b _ hb => absurd hb (no0 k b)) (-9.8) true
  have only1 : ∀ k b, HasBody app1.scene.eng k b → k = "cube" := by
    intro k b hb
    by_contra hk
    exact no0 k b ((hold1 k b hk).1 hb)
  have hoff : ((⟨0, 0.275, 0⟩ : V3).x - (⟨20, 2, 10, 4, 0.05, 4⟩ : BeamArgs).width / 2 ≠ fieldMargin V ⟨20, 2, 10, 4, 0.05, 4⟩) ∧
      ((⟨0, 0.275, 0⟩ : V3).y - (⟨20, 2, 10, 4, 0.05, 4⟩ : BeamArgs).height / 2 ≠ fieldMargin V ⟨20, 2, 10, 4, 0.05, 4⟩) ∧
      ((⟨0, 0.275, 0⟩ : V3).z - (⟨20, 2, 10, 4, 0.05, 4⟩ : BeamArgs).depth / 2 ≠ fieldMargin V ⟨20, 2, 10, 4, 0.05, 4⟩) := by
    have : (4 : ℝ) / 10 ≤ fieldMargin V ⟨20, 2, 10, 4, 0.05, 4⟩ := by
      refine le_max_of_le_left ?_
      have := le_max_left (4 : ℝ) (max 0.05 4)
      dsimp only
      linarith
    refine ⟨?_, ?_, ?_⟩ <;> dsimp only <;> refine ne_of_lt (lt_of_lt_of_le ?_ this) <;> norm_num
  obtain ⟨app2, h2, hu2, hr2, hx2, hmats2, hint2, hpar2, ⟨b2, ask2, pins2, loads2⟩, hold2⟩ := C123_body hsd hP hx1 (name := "sheet") (mat := "default_material")
    (mem_of_no_body hr1.ready fun b hb => absurd (only1 "sheet" b hb) (by decide))
    (mesh := ⟨20, 2, 10, 4, 0.05, 4⟩) (by norm_num) (by norm_num) (by norm_num) (by norm_num) (by norm_num) (by norm_num) (c := ⟨0, 0.275, 0⟩) hoff
    (m := m) (by rw [hmats1]; exact hm0) (Or.inl hlaw) hnu hrho (by unfold Engine.get_interaction; rw [hint1, hmn]; exact hint) (by
      intro k b m' hb hm'
      obtain rfl := only1 k b hb
      have e : b = b1 := one_body ask1.has hb
      subst e
      have : m' = m := by
        unfold material at hm'
        rw [ask1.material] at hm'
        simp only [hmats1, hm0] at hm'
        exact (Except.ok.inj hm').symm
      subst this
      unfold Engine.get_interaction
      rw [hint1, hmn]
      exact ⟨hint, hint⟩) (-9.8) true
  have hcube2 : HasBody app2.scene.eng "cube" b1 := (hold2 "cube" b1 (by decide)).2 ask1.has
  obtain ⟨D, e3, h3, he3, hD, hr3, hx3⟩ := C123_pins (V := V) hr2 hx2 ask2.has ⟨ask2.undeformed, ask2.rest⟩ (fun x => x.x + 1.9)
  have ask3 := asked_put ask2 D b2.traction_conditions
  have hput3 : app2.scene.eng.putBody "sheet" { b2 with dirichlet_conditions := D, traction_conditions := b2.traction_conditions } = e3 := he3.symm
  rw [hput3] at ask3
  obtain ⟨app3, happ3⟩ : ∃ app3 : SoftApp, app3 = { app2 with scene := { app2.scene with eng := e3 } } := ⟨_, rfl⟩
  have hD2 : ∀ i p, (i, p) ∈ D ↔ p = b2.x0 i ∧ (b2.x0 i).x + 1.9 ≤ 0 := by
    intro i p
    rw [hD i p, pins2]
    simp
  obtain ⟨b3, hb3, hp3⟩ : ∃ b3 : SoftBody, b3 = { b2 with dirichlet_conditions := D, traction_conditions := b2.traction_conditions } ∧
      (∀ i p, (i, p) ∈ b3.dirichlet_conditions ↔ p = b3.x0 i ∧ (b3.x0 i).x + 1.9 ≤ 0) := ⟨_, rfl, hD2⟩
  rw [← hb3] at ask3
  rw [← happ3] at h3
  have eng3 : app3.scene.eng = e3 := by rw [happ3]
  rw [← eng3] at ask3
  obtain ⟨D', e4, h4, he4, hD', hr4, hx4⟩ := C123_pins (V := V) (app := app3) (by rw [happ3]; exact hr3) (by rw [happ3]; exact hx3) ask3.has ⟨ask3.undeformed, ask3.rest⟩ (fun x => 1.9 - x.x)
  have ask4 := asked_put ask3 D' b3.traction_conditions
  have hput4 : app3.scene.eng.putBody "sheet" { b3 with dirichlet_conditions := D', traction_conditions := b3.traction_conditions } = e4 := he4.symm
  rw [hput4] at ask4
  have hscript : softSheet V = ({ app3 with scene := { app3.scene with eng := e4 } }, none) := by
    unfold softSheet
    rw [andThen_ok (by rw [andThen_ok h0]; exact h1), andThen_ok h2, andThen_ok h3]
    exact h4
  have hcube : HasBody e4 "cube" b1 := by
    rw [he4, eng3, he3]
    exact ((C74_put_body _ "sheet" _).2.1 "cube" b1 (by decide)).2 (((C74_put_body _ "sheet" _).2.1 "cube" b1 (by decide)).2 hcube2)
  have only4 : ∀ k b, HasBody e4 k b → (k = "cube" ∧ b = b1) ∨ k = "sheet" := by
    intro k b hb
    by_cases hk : k = "sheet"
    · exact Or.inr hk
    · left
      have hb2 := hb
      rw [he4, eng3, he3] at hb2
      have h5 := ((C74_put_body _ "sheet" _).2.1 k b hk).1 (((C74_put_body _ "sheet" _).2.1 k b hk).1 hb2)
      obtain rfl := only1 k b ((hold2 k b hk).1 h5)
      exact ⟨rfl, one_body hcube hb⟩
  have htime : e4.params.time_step = 0.001 := by
    have : e4.params = app0.scene.eng.params := by
      rw [he4, eng3.symm.symm, he3]
      exact hpar2.trans hpar1
    rw [this, ht0]
  refine ⟨{ app3 with scene := { app3.scene with eng := e4 } }, b1, _, hscript, hr4, ?_, pins1, ask4, ?_, ?_, ?_, htime, ?_⟩
  · exact ⟨hcube, ask1.nodes, ask1.elements, ask1.undeformed, ask1.rest, ask1.gravity, ask1.fixed, ask1.material⟩
  · intro i p
    have hi : (i, p) ∈ D' ↔ p = b3.x0 i ∧ ((b3.x0 i).x + 1.9 ≤ 0 ∨ 1.9 - (b3.x0 i).x ≤ 0) := by
      rw [hD' i p]
      rw [hp3 i p]
      exact and_or_left.symm
    refine hi.trans (and_congr Iff.rfl ?_)
    obtain ⟨a, ha, hax⟩ := asked_x ask4 (by norm_num) (by norm_num) i
    dsimp only at ha hax
    change (b3.x0 i).x = _ at hax
    change (b3.x0 i).x + 1.9 ≤ 0 ∨ 1.9 - (b3.x0 i).x ≤ 0 ↔ (b3.x0 i).x = -2 ∨ (b3.x0 i).x = 2
    rw [hax]
    have e : (4 : ℝ) / (((20 : ℕ) : ℝ) - 1) = 4 / 19 := by norm_num
    have e9 : (1.9 : ℝ) = 19 / 10 := by norm_num
    rw [e, e9]
    constructor
    · rintro (h | h)
      · left
        have : (a : ℝ) < 1 := by linarith
        have : a = 0 := by
          have : a < 1 := by exact_mod_cast this
          omega
        subst this
        norm_num
      · right
        have : (18 : ℝ) < a := by linarith
        have : a = 19 := by
          have : 18 < a := by exact_mod_cast this
          omega
        subst this
        norm_num
    · rintro (h | h)
      · left; linarith
      · right; linarith
  · intro k b hb
    exact (only4 k b hb).imp (·.1) id
  · intro i j
    constructor
    · rw [ask1.undeformed]
      obtain ⟨a, ha, hay⟩ := asked_y ask1 (by norm_num) (by norm_num) i
      dsimp only at ha hay
      rw [hay]
      have : (a : ℝ) ≤ 3 := by
        have : a ≤ 3 := by omega
        exact_mod_cast this
      norm_num
      linarith
    · rw [ask4.undeformed]
      obtain ⟨a, ha, hay⟩ := asked_y ask4 (by norm_num) (by norm_num) j
      dsimp only at ha hay
      change 0.25 ≤ (b3.x0 j).y
      change (b3.x0 j).y = _ at hay
      rw [hay]
      have : (0 : ℝ) ≤ a := Nat.cast_nonneg a
      norm_num
  · intro T fps skip hfps hn
    refine (C123_outcome hlist hP (app := { app3 with scene := { app3.scene with eng := e4 } }) hr4 ?_ ?_ ?_ hfps hn skip).1
    · dsimp only
      rw [htime]
      norm_num
    · refine energyKnown_one (d := "default_material") (m := m) ?_ (Or.inl henl) fun k b hb => ?_
      · dsimp only
        rw [he4, eng3.symm.symm, he3]
        change app2.scene.eng.materials.get? _ = _
        rw [hmats2, hmats1]
        exact hm0
      · rcases only4 k b hb with ⟨rfl, rfl⟩ | rfl
        · exact ask1.material
        · obtain rfl := one_body ask4.has hb
          exact ask4.material
    · intro k b hb
      rcases only4 k b hb with ⟨rfl, rfl⟩ | rfl
      · exact ⟨ask1.elements, hlegal.1⟩
      · obtain rfl := one_body ask4.has hb
        exact ⟨ask4.elements, hlegal.2⟩

/-- The hypotheses are met: the film of the script, 5 seconds with 60 frames per second, with the default parameters. -/
example (V : Env) (hV : V.P = FullParams.init) (hsd : OnePerNode V.sd) (hlist : ∀ s x, x ∈ V.listOf s ↔ x ∈ s)
    (hlegal : V.px.legal "cube" = true ∧ V.px.legal "sheet" = true) :
    ∃ app app1, softSheet V = (app, none) ∧ initialize_usd V app = .ok app1 ∧
      ((∃ app2, simulate V app1 5 60 true [] = .ok app2) ∨ simulate V app1 5 60 true [] = .error .runtimeError) := by
  obtain ⟨app, cube, sheet, h1, -, -, -, -, -, -, -, -, h2⟩ := C123_soft_sheet hsd (by rw [hV]; exact fullParams_good) hlist (by rw [hV]; simp [FullParams.init]) hlegal
  have hn : 0 < frameCount 5 60 := by
    by_contra h
    have h0 : frameCount 5 60 = 0 := by omega
    have := C123_frames (T := 5) (fps := 60) (by norm_num)
    rw [h0] at this
    norm_num at this
  obtain ⟨app1, h3, -, h4⟩ := h2 5 60 [] (by norm_num) hn
  exact ⟨app, app1, h1, h3, h4⟩

end Verif
