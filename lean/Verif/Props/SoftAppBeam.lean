import Verif.Props.SoftAppRun

/-! C123: pins and loads; the scripts hanging_beam_simulation.py and midpoint_traction_beam_simulation.py. -/

namespace Verif

open Soft SoftApp Mech
open Soft.Engine (dirichletLoop tractionLoop)
open VMesh (Tri Tet)

/-- **C123** (pins). On a body that is undeformed and at rest, `create_dirichlet_conditions` succeeds and pins, in addition, exactly the nodes where the
condition is not positive, where they are; nothing else changes, and the scene can be run and extended as before. -/
theorem C123_pins {V : Env} {app : SoftApp} (hr : Runnable V.P app.scene) (hx : Extendable V.P app.scene) {name : String} {b : SoftBody} (hb : HasBody app.scene.eng name b)
    (hrest : b.x = b.x0 ∧ ∀ i, b.u i = 0) (phi : V3 → ℝ) :
    ∃ D : List (Fin b.n × V3), ∃ e, create_dirichlet_conditions name phi app = ({ app with scene := { app.scene with eng := e } }, none) ∧
      e = app.scene.eng.putBody name { b with dirichlet_conditions := D } ∧
      (∀ i p, (i, p) ∈ D ↔ (i, p) ∈ b.dirichlet_conditions ∨ (p = b.x0 i ∧ phi (b.x0 i) ≤ 0)) ∧
      Runnable V.P { app.scene with eng := e } ∧ Extendable V.P { app.scene with eng := e } := by
  obtain ⟨D, hD⟩ : ∃ D, D = dirichletLoop b.x0 phi b.dirichlet_conditions := ⟨_, rfl⟩
  have hset : app.scene.eng.create_dirichlet_conditions name phi = .ok (app.scene.eng.putBody name { b with dirichlet_conditions := D }) := by
    unfold Engine.create_dirichlet_conditions
    rw [hasBody_findBody hb, hD]
    rfl
  have hok : SoftOk (app.scene.eng.putBody name { b with dirichlet_conditions := D }) := softOk_setter (eigh := V.eigh) hr.ready.ok (.dirichlet hset)
  refine ⟨D, _, ?_, rfl, ?_, runnable_tweak hr hb hok ?_, extendable_tweak hx hb hok ?_⟩
  · unfold SoftApp.create_dirichlet_conditions api
    dsimp only
    rw [hset]
  · intro i p
    rw [hD, dirichletLoop_mem, List.mem_append]
    refine or_congr Iff.rfl ?_
    simp only [List.mem_map, List.mem_filter, List.mem_finRange, true_and, decide_eq_true_eq, Prod.mk.injEq]
    constructor
    · rintro ⟨a, ha, rfl, rfl⟩
      exact ⟨rfl, ha⟩
    · rintro ⟨rfl, h⟩
      exact ⟨i, h, rfl, rfl⟩
  · exact fun d _ => ⟨congrFun hrest.1 _, hrest.2 _⟩
  · exact fun d _ => ⟨congrFun hrest.1 _, hrest.2 _⟩

/-- **C123** (loads). On a body that is undeformed and at rest, `create_traction_conditions` succeeds and loads, in addition, exactly the surface triangles
with the condition not positive at all three corners; nothing else changes, and the scene can be run and extended as before. -/
theorem C123_loads {V : Env} {app : SoftApp} (hr : Runnable V.P app.scene) (hx : Extendable V.P app.scene) {name : String} {b : SoftBody} (hb : HasBody app.scene.eng name b)
    (hrest : b.x = b.x0 ∧ ∀ i, b.u i = 0) (phi : V3 → ℝ) (load : V3) :
    ∃ R : List (TractionCondition b.n), ∃ e, create_traction_conditions name phi load app = ({ app with scene := { app.scene with eng := e } }, none) ∧
      e = app.scene.eng.putBody name { b with traction_conditions := R } ∧
      (∀ c, c ∈ R ↔ c ∈ b.traction_conditions ∨ (c.traction = load ∧ (c.i, c.j, c.k) ∈ b.surface ∧ phi (b.x0 c.i) ≤ 0 ∧ phi (b.x0 c.j) ≤ 0 ∧ phi (b.x0 c.k) ≤ 0)) ∧
      Runnable V.P { app.scene with eng := e } ∧ Extendable V.P { app.scene with eng := e } := by
  obtain ⟨R, hR⟩ : ∃ R, R = tractionLoop b.x0 b.surface phi load b.traction_conditions := ⟨_, rfl⟩
  have hset : app.scene.eng.create_traction_conditions name phi load = .ok (app.scene.eng.putBody name { b with traction_conditions := R }) := by
    unfold Engine.create_traction_conditions
    rw [hasBody_findBody hb, hR]
    rfl
  have hok : SoftOk (app.scene.eng.putBody name { b with traction_conditions := R }) := softOk_setter (eigh := V.eigh) hr.ready.ok (.traction hset)
  have hp : ∀ d ∈ b.dirichlet_conditions, b.x d.1 = b.x0 d.1 ∧ b.u d.1 = 0 := fun d _ => ⟨congrFun hrest.1 _, hrest.2 _⟩
  refine ⟨R, _, ?_, rfl, ?_, runnable_tweak hr hb hok hp, extendable_tweak hx hb hok hp⟩
  · unfold SoftApp.create_traction_conditions api
    dsimp only
    rw [hset]
  · intro c
    have key : ∀ (S : List (Fin b.n × Fin b.n × Fin b.n)) (L : List (TractionCondition b.n)), c ∈ tractionLoop b.x0 S phi load L ↔
        c ∈ L ∨ (c.traction = load ∧ (c.i, c.j, c.k) ∈ S ∧ phi (b.x0 c.i) ≤ 0 ∧ phi (b.x0 c.j) ≤ 0 ∧ phi (b.x0 c.k) ≤ 0) := by
      intro S
      induction S with
      | nil => intro L; simp [tractionLoop]
      | cons t S ih =>
        intro L
        have hstep : tractionLoop b.x0 (t :: S) phi load L = tractionLoop b.x0 S phi load
            (if phi (b.x0 t.1) ≤ 0 ∧ phi (b.x0 t.2.1) ≤ 0 ∧ phi (b.x0 t.2.2) ≤ 0 then L ++ [⟨t.1, t.2.1, t.2.2, load⟩] else L) := rfl
        rw [hstep, ih]
        obtain ⟨t1, t2, t3⟩ := t
        split_ifs with h
        · rw [List.mem_append, List.mem_singleton, List.mem_cons, or_assoc]
          refine or_congr Iff.rfl ⟨?_, ?_⟩
          · rintro (rfl | ⟨h1, h2, h3⟩)
            · exact ⟨rfl, Or.inl rfl, h⟩
            · exact ⟨h1, Or.inr h2, h3⟩
          · rintro ⟨h1, h2 | h2, h3⟩
            · left
              obtain ⟨c1, c2, c3, c4⟩ := c
              simp only [Prod.mk.injEq] at h1 h2 ⊢
              obtain ⟨rfl, rfl, rfl⟩ := h2
              rw [h1]
            · exact Or.inr ⟨h1, h2, h3⟩
        · rw [List.mem_cons]
          refine or_congr Iff.rfl ⟨fun ⟨h1, h2, h3⟩ => ⟨h1, Or.inr h2, h3⟩, ?_⟩
          rintro ⟨h1, h2 | h2, h3⟩
          · exfalso
            simp only [Prod.mk.injEq] at h2
            obtain ⟨e1, e2, e3⟩ := h2
            rw [e1, e2, e3] at h3
            exact h h3
          · exact ⟨h1, h2, h3⟩
    rw [hR]
    exact key _ _

namespace SoftApp

/-- The call keeps the engine one that the API can build. -/
def Keeps (V : Env) (c : SoftApp.Call) : Prop := ∀ app, Built V.eigh app.scene.eng → Built V.eigh (c app).1.scene.eng

theorem keeps_andThen {V : Env} {a b : SoftApp.Call} (ha : Keeps V a) (hb : Keeps V b) : Keeps V (a.andThen b) := by
  intro app h
  unfold Call.andThen
  have := ha app h
  cases hc : a app with
  | mk s e =>
    rw [hc] at this
    cases e with
    | none => exact hb s this
    | some e => exact this

theorem keeps_api {V : Env} {f : Soft.Engine → Except PyErr Soft.Engine} (hf : ∀ e e', f e = .ok e' → Setter V.eigh e e') : Keeps V (api f) := by
  intro app h
  unfold api
  cases hc : f app.scene.eng with
  | error e => exact h
  | ok e' => exact .set h (hf _ _ hc)

theorem keeps_raise {V : Env} (e : PyErr) : Keeps V (SoftApp.raise e) := fun _ h => h

theorem keeps_material {V : Env} (name : String) (E nu rho : ℝ) (model : String) (v : ℝ) : Keeps V (create_soft_material V name E nu rho model v) := by
  unfold create_soft_material
  cases MODEL_MAP V model with
  | none => exact keeps_raise _
  | some law =>
    dsimp only
    split_ifs
    · exact keeps_raise _
    · exact keeps_andThen (keeps_andThen (keeps_api fun _ _ h => .newMaterial h) (keeps_api fun _ _ h => .elasticity h))
        (keeps_andThen (keeps_api fun _ _ h => .density h) (keeps_api fun _ _ h => .constitutive h))

theorem keeps_friction {V : Env} (a b : String) (mu : ℝ) : Keeps V (set_friction_coefficient a b mu) := keeps_api fun _ _ h => .interaction h

theorem andThen_ok {a b : SoftApp.Call} {s s' : SoftApp} (h : a s = (s', none)) : (a.andThen b) s = b s' := by
  unfold Call.andThen
  rw [h]

end SoftApp

/-- What the two scripts share: after the material and its friction with itself have been made, bodies can be added. -/
theorem script_start {V : Env} (hs : V.P.proximal_solver ∈ ["gauss_seidel", "parallel_gauss_seidel", "parallel_jacobi", "parallel_jacboi_hybrid"]) (ts : ℝ) :
    ∃ app m, ((create_soft_material V "default_material" (model_name := "SNH")).andThen (set_friction_coefficient "default_material" "default_material" 0.5))
        (SoftApp.init V ts) = (app, none) ∧
      Extendable V.P app.scene ∧ app.scene.eng.bodies = Dict.empty ∧ app.scene.eng.params.time_step = 0.001 ∧
      app.scene.eng.materials.get? "default_material" = some m ∧ m.pk1_stress = SNH.pk1_stress ∧ m.energy_density = SNH.energy_density ∧ m.nu < 1 / 2 ∧ 0 < m.rho ∧ m.name = "default_material" ∧
      app.scene.eng.get_interaction "default_material" "default_material" ≠ none := by
  obtain ⟨m, hm⟩ : ∃ m : Material, m = ⟨SNH.pk1_stress, SNH.energy_density, 0, 1000, 10e5, 0.3, "default_material"⟩ := ⟨_, rfl⟩
  have hmat := C123_material (V := V) (app := SoftApp.init V ts) (name := "default_material") (by
      simp only [SoftApp.init, World.create_engine, Engine.create_engine, Dict.empty, Dict.setItem, Dict.mem]
      simp) (E := 10e5) (nu := 0.3) (rho := 1000) (by norm_num) (by norm_num) (by norm_num) (model := "SNH") (law := (SNH.pk1_stress, SNH.energy_density)) (by
      simp [ MODEL_MAP]) (viscosity := 0.5) (by norm_num)
  rw [← hm] at hmat
  obtain ⟨app1, happ1⟩ : ∃ app1, app1 = (create_soft_material V "default_material" 10e5 0.3 1000 "SNH" 0.5 (SoftApp.init V ts)).1 := ⟨_, rfl⟩
  rw [hmat] at happ1
  dsimp only at happ1
  rw [← happ1] at hmat
  have hget : app1.scene.eng.materials.get? "default_material" = some m := by rw [happ1]; exact Dict.get?_setItem_self _ _ _
  obtain ⟨e2, he2⟩ : ∃ e2 : Soft.Engine, e2 = { app1.scene.eng with surfaces_interactions := app1.scene.eng.surfaces_interactions.setItem (interactionKey "default_material" "default_material") 0.5 } := ⟨_, rfl⟩
  have hmem : app1.scene.eng.materials.mem "default_material" = true := Dict.mem_of_get? hget
  have hno : app1.scene.eng.exist_interaction "default_material" "default_material" = false := by
    rw [happ1]
    simp [Engine.exist_interaction, interactionKey, SoftApp.init, World.create_engine, Engine.create_engine, Dict.empty, Dict.setItem, Dict.mem]
  have hfr : app1.scene.eng.create_surfaces_interaction "default_material" "default_material" 0.5 = .ok e2 := by
    unfold Engine.create_surfaces_interaction
    rw [if_neg (by simp [hmem]), if_neg (by simp [hmem]), if_neg (by simp [hno]), if_neg (by norm_num), he2]
  have hcall : set_friction_coefficient "default_material" "default_material" 0.5 app1 = ({ app1 with scene := { app1.scene with eng := e2 } }, none) := by
    unfold set_friction_coefficient api
    dsimp only
    rw [hfr]
  have hB1 : Built V.eigh app1.scene.eng := by
    have := keeps_material (V := V) "default_material" 10e5 0.3 1000 "SNH" 0.5 (SoftApp.init V ts) Built.new
    rw [hmat] at this
    exact this
  have hB2 : Built V.eigh e2 := .set hB1 (.interaction hfr)
  refine ⟨{ app1 with scene := { app1.scene with eng := e2 } }, m, ?_, ?_, ?_, ?_, ?_, ?_, ?_, ?_, ?_, ?_, ?_⟩
  · rw [andThen_ok hmat]
    exact hcall
  · have hE := C100_empty V.Phi (P := V.P) hB2 (by rw [he2, happ1]; rfl) (by rw [he2, happ1]; rfl) (by rw [he2, happ1]; exact ⟨rfl, rfl⟩) hs
    have e : ({ app1.scene with eng := e2 } : World) = { World.create_engine V.eigh V.Phi with eng := e2 } := by rw [happ1]; rfl
    dsimp only
    rw [e]
    exact hE
  · simp only [he2, happ1]; rfl
  · simp only [he2, happ1]; rfl
  · simp only [he2]; exact hget
  · rw [hm]
  · rw [hm]
  · rw [hm]; norm_num
  · rw [hm]; norm_num
  · rw [hm]
  · unfold Engine.get_interaction
    simp only [he2, Dict.get?_setItem_self]
    simp

/-- The coordinates of the nodes of a body that was asked for. -/
theorem asked_x {e : Soft.Engine} {name mat : String} {mesh : BeamArgs} {g : ℝ} {free : Bool} {c : V3} {b : SoftBody} (h : Asked e name mat mesh g free c b)
    (hI : 1 ≤ mesh.I) (hJ : 1 ≤ mesh.J) (a : Fin b.n) : ∃ i < mesh.I, (b.x0 a).x = c.x - mesh.width / 2 + i * (mesh.width / (mesh.I - 1)) := by
  obtain ⟨X, hperm, hblock⟩ := h.nodes
  have hmem : b.x0 a ∈ X := hperm.mem_iff.1 (List.mem_ofFn.2 ⟨a, rfl⟩)
  obtain ⟨q, hq, he⟩ := List.getElem_of_mem hmem
  rw [hblock.len] at hq
  have h1 : q % mesh.I < mesh.I := Nat.mod_lt _ (by omega)
  have h2 : q / mesh.I % mesh.J < mesh.J := Nat.mod_lt _ (by omega)
  have h3 : q / mesh.I / mesh.J < mesh.K := by
    rw [Nat.div_div_eq_div_mul]
    exact Nat.div_lt_of_lt_mul (by rw [← Nat.mul_comm]; rw [Nat.mul_comm]; exact hq)
  have := hblock.pos _ _ _ h1 h2 h3
  have hidx : (q / mesh.I / mesh.J * mesh.J + q / mesh.I % mesh.J) * mesh.I + q % mesh.I = q := by
    rw [Nat.div_add_mod', Nat.div_add_mod']
  rw [hidx, List.getElem?_eq_getElem (by rw [hblock.len]; exact hq), he] at this
  injection this with this
  exact ⟨q % mesh.I, h1, by rw [this]⟩

theorem asked_put {e : Soft.Engine} {name mat : String} {mesh : BeamArgs} {g : ℝ} {free : Bool} {c : V3} {b : SoftBody} (h : Asked e name mat mesh g free c b)
    (D : List (Fin b.n × V3)) (R : List (TractionCondition b.n)) :
    Asked (e.putBody name { b with dirichlet_conditions := D, traction_conditions := R }) name mat mesh g free c { b with dirichlet_conditions := D, traction_conditions := R } :=
  ⟨Dict.get?_setItem_self _ _ _, h.nodes, h.elements, h.undeformed, h.rest, h.gravity, h.fixed, h.material⟩

theorem one_body {e : Soft.Engine} {k : String} {b b' : SoftBody} (h : HasBody e k b) (h' : HasBody e k b') : b' = b := by
  unfold HasBody at h h'
  rw [h] at h'
  exact (Slot.ready.inj (Option.some.inj h')).symm

theorem mem_of_no_body {P : FullParams} {w : World} (hw : SoftReady P w) {name : String} (h : ∀ b, ¬ HasBody w.eng name b) : w.eng.bodies.mem name = false := by
  by_contra hc
  rw [Bool.not_eq_false, Dict.mem_iff_get?] at hc
  obtain ⟨v, hv⟩ := hc
  obtain ⟨b, rfl⟩ := bodyList_ready.1 hw.finished v (by
    obtain ⟨i, hi, he⟩ := Dict.get?_some hv
    exact List.mem_map.2 ⟨_, List.getElem_mem hi, by rw [he]⟩)
  exact h b hv

/-- **C123** (hanging_beam_simulation.py). Every call of the script that makes the scene succeeds.  The scene then has exactly two bodies: the free beam
[-2,2]×[-½,½]×[-½,½], pinned at exactly its nodes in the plane x = -2, and the fixed wall [-2.1,-2]×[-4,4]×[-4,4], both undeformed and at rest, under
gravity -9.8 along y; the scene can be run, `initialize_usd` succeeds, and the film that follows ends well or with RuntimeError — nothing else
can happen. -/
theorem C123_hanging_beam {V : Env} (hsd : OnePerNode V.sd) (hP : GoodGeo V.P.toGeoParams) (hlist : ∀ s x, x ∈ V.listOf s ↔ x ∈ s)
    (hs : V.P.proximal_solver ∈ ["gauss_seidel", "parallel_gauss_seidel", "parallel_jacobi", "parallel_jacboi_hybrid"])
    (hlegal : V.px.legal "beam" = true ∧ V.px.legal "wall" = true) :
    ∃ app beam wall, hangingBeam V = (app, none) ∧ Runnable V.P app.scene ∧
      Asked app.scene.eng "beam" "default_material" ⟨12, 3, 3, 4, 1, 1⟩ (-9.8) true ⟨0, 0, 0⟩ beam ∧
      (∀ i p, (i, p) ∈ beam.dirichlet_conditions ↔ p = beam.x0 i ∧ (beam.x0 i).x = -2) ∧
      Asked app.scene.eng "wall" "default_material" ⟨2, 2, 2, 0.1, 8, 8⟩ (-9.8) false ⟨-2.05, 0, 0⟩ wall ∧ wall.dirichlet_conditions = [] ∧
      (∀ k b, HasBody app.scene.eng k b → k = "beam" ∨ k = "wall") ∧
      ∀ (T fps : ℝ) (skip : List String), 0 < fps → 0 < frameCount T fps → ∃ app1, initialize_usd V app = .ok app1 ∧ app1.scene = app.scene ∧
        ((∃ app2, simulate V app1 T fps true skip = .ok app2) ∨ simulate V app1 T fps true skip = .error .runtimeError) := by
  obtain ⟨app0, m, h0, hx0, hb0, ht0, hm0, hlaw, henl, hnu, hrho, hmn, hint⟩ := script_start (V := V) hs 0.001
  have no0 : ∀ k b, ¬ HasBody app0.scene.eng k b := by
    intro k b h
    unfold HasBody at h
    rw [hb0] at h
    cases h
  obtain ⟨app1, h1, hu1, hr1, hx1, hmats1, hint1, hpar1, ⟨b1, ask1, pins1, loads1⟩, hold1⟩ := C123_body hsd hP hx0 (name := "beam") (mat := "default_material")
    (by rw [hb0]; rfl) (mesh := ⟨12, 3, 3, 4.0, 1.0, 1.0⟩) (by norm_num) (by norm_num) (by norm_num) (by norm_num) (by norm_num) (by norm_num) (c := ⟨0, 0, 0⟩) (offMargin_of_low hP (by norm_num))
    hm0 (Or.inr hlaw) hnu hrho (by rw [hmn]; exact hint) (fun k b _ hb => absurd hb (no0 k b)) (-9.8) true
  have only1 : ∀ k b, HasBody app1.scene.eng k b → k = "beam" := by
    intro k b hb
    by_contra hk
    exact no0 k b ((hold1 k b hk).1 hb)
  obtain ⟨app2, h2, hu2, hr2, hx2, hmats2, hint2, hpar2, ⟨b2, ask2, pins2, loads2⟩, hold2⟩ := C123_body hsd hP hx1 (name := "wall") (mat := "default_material")
    (mem_of_no_body hr1.ready fun b hb => absurd (only1 "wall" b hb) (by decide))
    (mesh := ⟨2, 2, 2, 0.1, 8.0, 8.0⟩) (by norm_num) (by norm_num) (by norm_num) (by norm_num) (by norm_num) (by norm_num) (c := ⟨-2.05, 0, 0⟩) (offMargin_of_low hP (by norm_num))
    (m := m) (by rw [hmats1]; exact hm0) (Or.inr hlaw) hnu hrho (by unfold Engine.get_interaction; rw [hint1, hmn]; exact hint) (by
      intro k b m' hb hm'
      obtain rfl := only1 k b hb
      have e : b = b1 := one_body ask1.has hb
      subst e
      have : m' = m := by
        unfold material at hm'
        rw [ask1.material] at hm'
        simp only [hmats1, hm0] at hm'
        exact (Except.ok.inj hm').symm
      subst this
      unfold Engine.get_interaction
      rw [hint1, hmn]
      exact ⟨hint, hint⟩) (-9.8) false
  have hbeam2 : HasBody app2.scene.eng "beam" b1 := (hold2 "beam" b1 (by decide)).2 ask1.has
  obtain ⟨D, e3, h3, he3, hD, hr3, hx3⟩ := C123_pins hr2 hx2 hbeam2 ⟨ask1.undeformed, ask1.rest⟩ (fun x => x.x + 1.9)
  have ask1' : Asked app2.scene.eng "beam" "default_material" ⟨12, 3, 3, 4.0, 1.0, 1.0⟩ (-9.8) true ⟨0, 0, 0⟩ b1 :=
    ⟨hbeam2, ask1.nodes, ask1.elements, ask1.undeformed, ask1.rest, ask1.gravity, ask1.fixed, ask1.material⟩
  have askb := asked_put ask1' D b1.traction_conditions
  have hput : app2.scene.eng.putBody "beam" { b1 with dirichlet_conditions := D, traction_conditions := b1.traction_conditions } = e3 := he3.symm
  rw [hput] at askb
  have hwall : HasBody e3 "wall" b2 := by
    rw [he3]
    exact ((C74_put_body _ "beam" _).2.1 "wall" b2 (by decide)).2 ask2.has
  have hscript : hangingBeam V = ({ app2 with scene := { app2.scene with eng := e3 } }, none) := by
    unfold hangingBeam
    rw [andThen_ok (by rw [andThen_ok h0]; exact h1), andThen_ok h2]
    exact h3
  have hl : ∀ (a : ℝ), (4.0 : ℝ) = 4 ∧ (1.0 : ℝ) = 1 ∧ (8.0 : ℝ) = 8 := fun _ => by norm_num
  obtain ⟨l4, l1, l8⟩ := hl 0
  rw [l4, l1] at askb
  rw [l8] at ask2
  have honly : ∀ k b, HasBody e3 k b → (k = "beam" ∧ b = { b1 with dirichlet_conditions := D }) ∨ (k = "wall" ∧ b = b2) := by
    intro k b hb
    by_cases hk : k = "beam"
    · subst hk
      exact Or.inl ⟨rfl, one_body askb.has hb⟩
    · by_cases hk2 : k = "wall"
      · subst hk2
        exact Or.inr ⟨rfl, one_body hwall hb⟩
      · rw [he3] at hb
        have h4 := ((C74_put_body _ "beam" _).2.1 k b hk).1 hb
        exact absurd (only1 k b ((hold2 k b hk2).1 h4)) hk
  refine ⟨{ app2 with scene := { app2.scene with eng := e3 } }, _, b2, hscript, hr3, askb, ?_, ?_, pins2, ?_, ?_⟩
  · intro i p
    dsimp only at i p ⊢
    rw [hD i p, pins1]
    simp only [List.not_mem_nil, false_or]
    refine and_congr Iff.rfl ?_
    obtain ⟨a, ha, hax⟩ := asked_x askb (by norm_num) (by norm_num) i
    dsimp only at ha hax
    rw [hax]
    constructor
    · intro h
      have : (a : ℝ) < 1 := by
        have e : (4 : ℝ) / (((12 : ℕ) : ℝ) - 1) = 4 / 11 := by norm_num
        rw [e] at h
        have : (1.9 : ℝ) = 19 / 10 := by norm_num
        rw [this] at h
        linarith
      have : a = 0 := by
        have : a < 1 := by exact_mod_cast this
        omega
      subst this
      norm_num
    · intro h
      norm_num at h ⊢
      rw [h]
      norm_num
  · exact ⟨hwall, ask2.nodes, ask2.elements, ask2.undeformed, ask2.rest, ask2.gravity, ask2.fixed, ask2.material⟩
  · intro k b hb
    exact (honly k b hb).imp (·.1) (·.1)
  · intro T fps skip hfps hn
    refine (C123_outcome hlist hP (app := { app2 with scene := { app2.scene with eng := e3 } }) hr3 ?_ ?_ ?_ hfps hn skip).1
    · have : e3.params = app0.scene.eng.params := by
        rw [he3]
        exact hpar2.trans hpar1
      dsimp only
      rw [this, ht0]
      norm_num
    · refine energyKnown_one (d := "default_material") (m := m) ?_ (Or.inr henl) fun k b hb => ?_
      · dsimp only
        rw [he3]
        change app2.scene.eng.materials.get? _ = _
        rw [hmats2, hmats1]
        exact hm0
      · rcases honly k b hb with ⟨rfl, rfl⟩ | ⟨rfl, rfl⟩
        · exact ask1.material
        · exact ask2.material
    · intro k b hb
      rcases honly k b hb with ⟨rfl, rfl⟩ | ⟨rfl, rfl⟩
      · exact ⟨ask1.elements, hlegal.1⟩
      · exact ⟨ask2.elements, hlegal.2⟩

/-- **C123** (midpoint_traction_beam_simulation.py). Every call of the script that makes the scene succeeds; the beam [-2,2]×[-0.05,0.05]×[-0.05,0.05] is
pinned at exactly its nodes with x = -2 or x = 2, and the film that follows ends well or with RuntimeError.  But the load of the "midpoint" acts on
every triangle of the surface: the condition of the script is true everywhere. -/
theorem C123_midpoint_traction {V : Env} (hsd : OnePerNode V.sd) (hP : GoodGeo V.P.toGeoParams) (hlist : ∀ s x, x ∈ V.listOf s ↔ x ∈ s)
    (hs : V.P.proximal_solver ∈ ["gauss_seidel", "parallel_gauss_seidel", "parallel_jacobi", "parallel_jacboi_hybrid"]) (hlegal : V.px.legal "beam" = true) :
    ∃ app beam, midpointTraction V = (app, none) ∧ Runnable V.P app.scene ∧
      Asked app.scene.eng "beam" "default_material" ⟨20, 2, 2, 4, 0.1, 0.1⟩ 0 true ⟨0, 0, 0⟩ beam ∧
      (∀ i p, (i, p) ∈ beam.dirichlet_conditions ↔ p = beam.x0 i ∧ ((beam.x0 i).x = -2 ∨ (beam.x0 i).x = 2)) ∧
      (∀ c, c ∈ beam.traction_conditions ↔ c.traction = ⟨0, 2000, 0⟩ ∧ (c.i, c.j, c.k) ∈ beam.surface) ∧
      (∀ k b, HasBody app.scene.eng k b → k = "beam") ∧
      ∀ (T fps : ℝ) (skip : List String), 0 < fps → 0 < frameCount T fps → ∃ app1, initialize_usd V app = .ok app1 ∧ app1.scene = app.scene ∧
        ((∃ app2, simulate V app1 T fps true skip = .ok app2) ∨ simulate V app1 T fps true skip = .error .runtimeError) := by
  obtain ⟨app0, m, h0, hx0, hb0, ht0, hm0, hlaw, henl, hnu, hrho, hmn, hint⟩ := script_start (V := V) hs 0.001
  have no0 : ∀ k b, ¬ HasBody app0.scene.eng k b := by
    intro k b h
    unfold HasBody at h
    rw [hb0] at h
    cases h
  obtain ⟨app1, h1, hu1, hr1, hx1, hmats1, hint1, hpar1, ⟨b1, ask1, pins1, loads1⟩, hold1⟩ := C123_body hsd hP hx0 (name := "beam") (mat := "default_material")
    (by rw [hb0]; rfl) (mesh := ⟨20, 2, 2, 4.0, 0.1, 0.1⟩) (by norm_num) (by norm_num) (by norm_num) (by norm_num) (by norm_num) (by norm_num) (c := ⟨0, 0, 0⟩) (offMargin_of_low hP (by norm_num))
    hm0 (Or.inr hlaw) hnu hrho (by rw [hmn]; exact hint) (fun k b _ hb => absurd hb (no0 k b)) 0.0 true
  have only1 : ∀ k b, HasBody app1.scene.eng k b → k = "beam" := by
    intro k b hb
    by_contra hk
    exact no0 k b ((hold1 k b hk).1 hb)
  obtain ⟨R, e2, h2, he2, hR, hr2, hx2⟩ := C123_loads hr1 hx1 ask1.has ⟨ask1.undeformed, ask1.rest⟩ center_beam ⟨0, 2000, 0⟩
  have ask2 := asked_put ask1 b1.dirichlet_conditions R
  have hput2 : app1.scene.eng.putBody "beam" { b1 with dirichlet_conditions := b1.dirichlet_conditions, traction_conditions := R } = e2 := he2.symm
  rw [hput2] at ask2
  obtain ⟨app2, happ2⟩ : ∃ app2 : SoftApp, app2 = { app1 with scene := { app1.scene with eng := e2 } } := ⟨_, rfl⟩
  have hall : ∀ x, center_beam x ≤ 0 := by
    intro x
    unfold center_beam
    rw [if_pos]
    · norm_num
    · by_contra hh
      rw [not_or] at hh
      norm_num at hh
      linarith [hh.1, hh.2]
  have hR' : ∀ c, c ∈ R ↔ c.traction = ⟨0, 2000, 0⟩ ∧ (c.i, c.j, c.k) ∈ b1.surface := by
    intro c
    rw [hR c, loads1]
    simp [hall]
  obtain ⟨b2, hb2, hp2, hl2⟩ : ∃ b2 : SoftBody, b2 = { b1 with dirichlet_conditions := b1.dirichlet_conditions, traction_conditions := R } ∧
      b2.dirichlet_conditions = [] ∧ ∀ c, c ∈ b2.traction_conditions ↔ c.traction = ⟨0, 2000, 0⟩ ∧ (c.i, c.j, c.k) ∈ b2.surface := ⟨_, rfl, pins1, hR'⟩
  rw [← hb2] at ask2
  rw [← happ2] at h2
  have eng2 : app2.scene.eng = e2 := by rw [happ2]
  rw [← eng2] at ask2
  obtain ⟨D, e3, h3, he3, hD, hr3, hx3⟩ := C123_pins (V := V) (app := app2) (by rw [happ2]; exact hr2) (by rw [happ2]; exact hx2) ask2.has ⟨ask2.undeformed, ask2.rest⟩ (fun x => x.x + 1.9)
  have ask3 := asked_put ask2 D b2.traction_conditions
  have hput3 : app2.scene.eng.putBody "beam" { b2 with dirichlet_conditions := D, traction_conditions := b2.traction_conditions } = e3 := he3.symm
  rw [hput3] at ask3
  obtain ⟨app3, happ3⟩ : ∃ app3 : SoftApp, app3 = { app2 with scene := { app2.scene with eng := e3 } } := ⟨_, rfl⟩
  have hD2 : ∀ i p, (i, p) ∈ D ↔ p = b2.x0 i ∧ (b2.x0 i).x + 1.9 ≤ 0 := by
    intro i p
    rw [hD i p, hp2]
    simp
  obtain ⟨b3, hb3, hp3, hl3⟩ : ∃ b3 : SoftBody, b3 = { b2 with dirichlet_conditions := D, traction_conditions := b2.traction_conditions } ∧
      (∀ i p, (i, p) ∈ b3.dirichlet_conditions ↔ p = b3.x0 i ∧ (b3.x0 i).x + 1.9 ≤ 0) ∧
      ∀ c, c ∈ b3.traction_conditions ↔ c.traction = ⟨0, 2000, 0⟩ ∧ (c.i, c.j, c.k) ∈ b3.surface := ⟨_, rfl, hD2, hl2⟩
  rw [← hb3] at ask3
  rw [← happ3] at h3
  have eng3 : app3.scene.eng = e3 := by rw [happ3]
  rw [← eng3] at ask3
  obtain ⟨D', e4, h4, he4, hD', hr4, hx4⟩ := C123_pins (V := V) (app := app3) (by rw [happ3]; exact hr3) (by rw [happ3]; exact hx3) ask3.has ⟨ask3.undeformed, ask3.rest⟩ (fun x => 1.9 - x.x)
  have ask4 := asked_put ask3 D' b3.traction_conditions
  have hput4 : app3.scene.eng.putBody "beam" { b3 with dirichlet_conditions := D', traction_conditions := b3.traction_conditions } = e4 := he4.symm
  rw [hput4] at ask4
  have hscript : midpointTraction V = ({ app3 with scene := { app3.scene with eng := e4 } }, none) := by
    unfold midpointTraction
    rw [andThen_ok (by rw [andThen_ok h0]; exact h1), andThen_ok h2, andThen_ok h3]
    exact h4
  obtain ⟨l4, l0⟩ : (4.0 : ℝ) = 4 ∧ (0.0 : ℝ) = 0 := by norm_num
  rw [l4, l0] at ask4
  have other : ∀ (e : Soft.Engine) (b : SoftBody), (∀ k c, HasBody e k c → k = "beam") → ∀ k c, HasBody (e.putBody "beam" b) k c → k = "beam" := by
    intro e b h k c hc
    by_contra hk
    exact hk (h k c (((C74_put_body e "beam" b).2.1 k c hk).1 hc))
  have only4 : ∀ k b, HasBody e4 k b → k = "beam" := by
    rw [he4, eng3, he3, eng2, he2]
    exact other _ _ (other _ _ (other _ _ only1))
  refine ⟨{ app3 with scene := { app3.scene with eng := e4 } }, _, hscript, hr4, ask4, ?_, ?_, only4, ?_⟩
  · intro i p
    have hi : (i, p) ∈ D' ↔ p = b3.x0 i ∧ ((b3.x0 i).x + 1.9 ≤ 0 ∨ 1.9 - (b3.x0 i).x ≤ 0) := by
      rw [hD' i p]
      rw [hp3 i p]
      exact and_or_left.symm
    refine hi.trans (and_congr Iff.rfl ?_)
    obtain ⟨a, ha, hax⟩ := asked_x ask4 (by norm_num) (by norm_num) i
    dsimp only at ha hax
    change (b3.x0 i).x = _ at hax
    change (b3.x0 i).x + 1.9 ≤ 0 ∨ 1.9 - (b3.x0 i).x ≤ 0 ↔ (b3.x0 i).x = -2 ∨ (b3.x0 i).x = 2
    rw [hax]
    have e : (4 : ℝ) / (((20 : ℕ) : ℝ) - 1) = 4 / 19 := by norm_num
    have e9 : (1.9 : ℝ) = 19 / 10 := by norm_num
    rw [e, e9]
    constructor
    · rintro (h | h)
      · left
        have : (a : ℝ) < 1 := by linarith
        have : a = 0 := by
          have : a < 1 := by exact_mod_cast this
          omega
        subst this
        norm_num
      · right
        have : (18 : ℝ) < a := by linarith
        have : a = 19 := by
          have : 18 < a := by exact_mod_cast this
          omega
        subst this
        norm_num
    · rintro (h | h)
      · left; linarith
      · right; linarith
  · exact hl3
  · intro T fps skip hfps hn
    refine (C123_outcome hlist hP (app := { app3 with scene := { app3.scene with eng := e4 } }) hr4 ?_ ?_ ?_ hfps hn skip).1
    · have : e4.params = app0.scene.eng.params := by
        rw [he4, eng3.symm.symm, he3]
        change app2.scene.eng.params = _
        rw [eng2, he2]
        exact hpar1
      dsimp only
      rw [this, ht0]
      norm_num
    · refine energyKnown_one (d := "default_material") (m := m) ?_ (Or.inr henl) fun k b hb => ?_
      · dsimp only
        rw [he4, eng3.symm.symm, he3]
        change app2.scene.eng.materials.get? _ = _
        rw [eng2, he2]
        change app1.scene.eng.materials.get? _ = _
        rw [hmats1]
        exact hm0
      · obtain rfl := only4 k b hb
        obtain rfl := one_body ask4.has hb
        exact ask4.material
    · intro k b hb
      obtain rfl := only4 k b hb
      obtain rfl := one_body ask4.has hb
      exact ⟨ask4.elements, hlegal⟩

/-- The hypotheses are met: the film of the script, 5 seconds with 60 frames per second, with the default parameters. -/
example (V : Env) (hV : V.P = FullParams.init) (hsd : OnePerNode V.sd) (hlist : ∀ s x, x ∈ V.listOf s ↔ x ∈ s)
    (hlegal : V.px.legal "beam" = true ∧ V.px.legal "wall" = true) :
    ∃ app app1, hangingBeam V = (app, none) ∧ initialize_usd V app = .ok app1 ∧
      ((∃ app2, simulate V app1 5 60 true ["wall"] = .ok app2) ∨ simulate V app1 5 60 true ["wall"] = .error .runtimeError) := by
  obtain ⟨app, beam, wall, h1, -, -, -, -, -, -, h2⟩ := C123_hanging_beam hsd (by rw [hV]; exact fullParams_good) hlist (by rw [hV]; simp [FullParams.init]) hlegal
  have hn : 0 < frameCount 5 60 := by
    by_contra h
    have h0 : frameCount 5 60 = 0 := by omega
    have := C123_frames (T := 5) (fps := 60) (by norm_num)
    rw [h0] at this
    norm_num at this
  obtain ⟨app1, h3, -, h4⟩ := h2 5 60 ["wall"] (by norm_num) hn
  exact ⟨app, app1, h1, h3, h4⟩

end Verif
