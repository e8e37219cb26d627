import Verif.Props.SoftTotals

/-! C76: a contact-free scene of bodies in free flight can always be simulated; and a concrete scene, built by API calls, that meets the
hypotheses of the theorems on the soft body stepper (C55, C71–C76). -/

open scoped BigOperators

namespace Verif

open Soft Soft.Engine Mech

/-- Every body is in free flight and compressible. -/
def AllFree (e : Soft.Engine) : Prop :=
  (∃ B, bodyList e = .ok B) ∧ ∀ k b, HasBody e k b → ∃ R t v, FreeFlight e k b R t v ∧ ∀ m, material e b = .ok m → m.nu < 1 / 2

theorem freeFlight_force {e : Soft.Engine} (hok : SoftOk e) {k : String} {b : SoftBody} {R : M3} {t v : V3} (hf : FreeFlight e k b R t v)
    (hnu : ∀ m, material e b = .ok m → m.nu < 1 / 2) : ∃ f, IsForce e b (pinnedX b) (pinnedU b) f := by
  have hp : ∀ a, ¬ Pinned b a := by
    rintro a ⟨d, hd, -⟩
    rw [hf.nopins] at hd
    cases hd
  have hbo := hok.bodyOk hf.body
  rw [pinnedX_free hp, pinnedU_free hp]
  obtain ⟨m, hm, hpk, -, -⟩ := hf.material
  have hr := material_ranges hok hm
  have hn := hnu m hm
  have hl : ∃ lam, first_lame m.E m.nu = .ok lam := by
    unfold first_lame
    rw [if_neg]
    · exact ⟨_, rfl⟩
    · have h1 : 0 < 1 + m.nu := by linarith [hr.2.1]
      have h2 : 0 < 1 - 2 * m.nu := by linarith
      exact (mul_pos h1 h2).ne'
  have hm2 : ∃ mu, second_lame m.E m.nu = .ok mu := by
    unfold second_lame
    rw [if_neg]
    · exact ⟨_, rfl⟩
    · have h1 : 0 < 1 + m.nu := by linarith [hr.2.1]
      positivity
  obtain ⟨lam, hl⟩ := hl
  obtain ⟨mu, hm2⟩ := hm2
  obtain ⟨l1, l2⟩ := lame_pos hr.1 hr.2.1 hr.2.2.1 hl hm2
  obtain ⟨r1, r2⟩ := C52_rigid_no_force b.x0 b.T b.invD0 hbo.prepared R hf.rot t lam mu
  have hFe : ∃ F Fe, compute_deformation_gradient b.x b.T b.invD0 = .ok F ∧
      Soft.compute_elastic_forces b.T b.gradN0 F lam mu m.pk1_stress = .ok Fe := by
    have : elasticForces b.x0 b.x b.T b.invD0 lam mu m.pk1_stress = .ok 0 := by
      rw [hf.x]
      rcases hpk with h | h
      · rw [h]; exact r1
      · rw [h]; exact r2 (by positivity)
    unfold elasticForces at this
    rw [hbo.gradN0]
    simp only [bind, Except.bind] at this
    cases hF : compute_deformation_gradient b.x b.T b.invD0 with
    | error err => rw [hF] at this; cases this
    | ok F => rw [hF] at this; exact ⟨F, _, rfl, this⟩
  obtain ⟨F, Fe, hF, hFe⟩ := hFe
  exact ⟨_, m, F, lam, mu, Fe, _, hm, hF, hl, hm2, hFe, hf.undamped, fun a => rfl⟩

theorem bodyList_step {P : Plugins} {W : ℕ × (ℕ → ℕ → ℝ)} {dt : ℝ} {e e' : Soft.Engine} (h : Soft.step P W dt e = .ok e') :
    ∃ B, bodyList e' = .ok B := by
  obtain ⟨D⟩ := softStep_ok h
  have hv : e'.bodies.values = D.B.map fun b => Slot.ready (movedBody D.x D.u b) := by
    rw [D.bodies]
    have := bodyList_entries D.hB
    unfold Dict.values at this ⊢
    simp only [List.map_map]
    rw [show (Prod.snd ∘ fun kv : String × Slot => (kv.1, movedSlot D.x D.u kv.2)) = movedSlot D.x D.u ∘ Prod.snd from rfl,
      ← List.map_map, this, List.map_map]
    rfl
  refine ⟨D.B.map (movedBody D.x D.u), ?_⟩
  unfold bodyList
  rw [hv]
  induction D.B with
  | nil => rfl
  | cons b B ih =>
    rw [List.map_cons, List.mapM_cons, ih]
    rfl

theorem allFree_step {P : Plugins} {W : ℕ × (ℕ → ℕ → ℝ)} {dt : ℝ} {e e' : Soft.Engine} (hok : SoftOk e)
    (hW : compute_inverse_mass_matrix e = .ok W.2) (h : Soft.step P W dt e = .ok e') (hc : e'.contact_points = []) (hf : AllFree e) : AllFree e' := by
  have hS := (C76_frame h).1
  refine ⟨bodyList_step h, fun k c hb => ?_⟩
  obtain ⟨b, hb0, x, u, rfl, hb1⟩ := (hS.bodies k c).1 hb
  obtain ⟨R, t, v, hfl, hnu⟩ := hf.2 k b hb0
  have h1 := C72_free_fall hok hW h hc hfl
  have h2 : HasBody e' k _ := h1.body
  have heq : ({ b with x := x, u := u } : SoftBody) =
      { b with x := rigidMove R (t + dt • (v + dt • b.gravity)) b.x0, u := fun _ => v + dt • b.gravity } := by
    unfold HasBody at h2 hb1
    rw [hb1] at h2
    injection h2 with h2
    injection h2
  rw [heq]
  refine ⟨R, _, _, h1, fun m hm => hnu m ?_⟩
  unfold material at hm ⊢
  rw [hS.materials] at hm
  exact hm

theorem mass_defined {e : Soft.Engine} {B : List SoftBody} (h : ∀ b ∈ B, ∃ M, b.M_array = some M) : ∃ M, compute_mass_matrix B = .ok M := by
  have : ∃ E, B.mapM massEntries = .ok E := by
    induction B with
    | nil => exact ⟨[], rfl⟩
    | cons b B ih =>
      obtain ⟨E, hE⟩ := ih fun b hb => h b (List.mem_cons_of_mem _ hb)
      obtain ⟨M, hM⟩ := h b List.mem_cons_self
      have hb : ∃ L, massEntries b = .ok L := by
        unfold massEntries getArray
        rw [hM]
        exact ⟨_, rfl⟩
      obtain ⟨L, hL⟩ := hb
      rw [List.mapM_cons, hL, hE]
      exact ⟨_, rfl⟩
  obtain ⟨E, hE⟩ := this
  unfold compute_mass_matrix
  rw [hE]
  exact ⟨_, rfl⟩

theorem allFree_inverse {e : Soft.Engine} (hok : SoftOk e) (hf : AllFree e) : ∃ W, compute_inverse_mass_matrix e = .ok W := by
  obtain ⟨⟨B, hB⟩, hall⟩ := hf
  have hM : ∃ M, compute_mass_matrix B = .ok M := mass_defined (e := e) fun b hb => by
    obtain ⟨k, hk⟩ := (mem_bodyList hok.nodup hB b).1 hb
    obtain ⟨R, t, v, hfl, -⟩ := hall k b hk
    obtain ⟨m, -, -, -, hM⟩ := hfl.material
    exact ⟨_, hM⟩
  obtain ⟨M, hM⟩ := hM
  refine (C72_invertible hok hB hM).1 fun k b rho hb hrho a => ?_
  obtain ⟨R, t, v, hfl, -⟩ := hall k b hb
  obtain ⟨m, hm, -, hpos, hM'⟩ := hfl.material
  have hbo := hok.bodyOk hb
  have hvol : ∀ i, 0 < b.vol0 i := fun i => by rw [hbo.vol0]; exact C54_volume_pos _ _ _ hbo.prepared i
  obtain ⟨i, p, hip⟩ := hfl.nodes a
  rw [hrho] at hM'
  injection hM' with hM'
  have := congrFun (congrFun (congrFun hM' i) 0) 0
  have h00 := congrArg M3.m00 this
  simp [compute_mass_element_array, shapeProducts, M3.identity] at h00
  rcases h00 with h00 | h00
  · rw [h00]
    exact (((C72_node_mass b.T b.vol0 hvol m.rho hpos.le).2.1 a).2 ⟨hpos, hfl.nodes a⟩).ne'
  · exact absurd h00 (hvol i).ne'

/-- **C76** (free fall never fails). If every body is in free flight and compressible and no contacts are ever found, then `simulate` succeeds
for every positive time T and time step, the first time and again afterwards. -/
theorem C76_free_fall_succeeds {P : Plugins} (hP : ∀ e, P.detect e = .ok []) {e : Soft.Engine} (hok : SoftOk e) {T : ℝ} (hT : 0 < T)
    (hts : 0 < e.params.time_step)
    (hst : ∀ W, e.stepper = some W → W.1 = e.number_of_nodes * 3 ∧ compute_inverse_mass_matrix e = .ok W.2) (hf : AllFree e) :
    ∃ e', Soft.simulate P e T = .ok e' ∧ AllFree e' ∧
      ∀ W, e'.stepper = some W → W.1 = e'.number_of_nodes * 3 ∧ compute_inverse_mass_matrix e' = .ok W.2 := by
  obtain ⟨h1, -, -, -, -⟩ := C76_simulate P e hT hts
  have hW : ∃ W, getStepper e = .ok W ∧ W.1 = e.number_of_nodes * 3 ∧ compute_inverse_mass_matrix e = .ok W.2 := by
    unfold getStepper
    cases hs : e.stepper with
    | some W => exact ⟨W, rfl, hst W hs⟩
    | none =>
      obtain ⟨V, hV⟩ := allFree_inverse hok hf
      simp only [hV]
      exact ⟨(e.number_of_nodes * 3, V), rfl, rfl, rfl⟩
  obtain ⟨W, hg, hsize, hinv⟩ := hW
  rw [h1 W hg]
  have key : ∀ (dts : List ℝ) (e0 : Soft.Engine), SoftOk e0 → W.1 = e0.number_of_nodes * 3 → compute_inverse_mass_matrix e0 = .ok W.2 → AllFree e0 →
      e0.stepper = some W → ∃ e', softRun P W dts e0 = .ok e' ∧ AllFree e' ∧
        ∀ W, e'.stepper = some W → W.1 = e'.number_of_nodes * 3 ∧ compute_inverse_mass_matrix e' = .ok W.2 := by
    intro dts
    induction dts with
    | nil =>
      intro e0 _ g1 g2 g3 g4
      refine ⟨e0, rfl, g3, fun W' hW' => ?_⟩
      rw [g4] at hW'
      injection hW' with hW'
      rw [← hW']
      exact ⟨g1, g2⟩
    | cons dt dts ih =>
      intro e0 g0 g1 g2 g3 g4
      obtain ⟨B, hB⟩ := g3.1
      obtain ⟨e1, hs⟩ := (C74_step_succeeds (P := P) (W := W) (dt := dt) g0 hB (hP e0)).2
        ⟨g1, fun k b hb => by obtain ⟨R, t, v, hfl, hnu⟩ := g3.2 k b hb; exact freeFlight_force g0 hfl hnu⟩
      have hcp : e1.contact_points = [] := by
        obtain ⟨D⟩ := softStep_ok hs
        have := D.hcps
        rw [hP] at this
        injection this with this
        rw [this]
        exact congrArg Engine.contact_points D.he'
      have hS := (C76_frame hs).1
      unfold softRun
      rw [hs]
      exact ih e1 (softOk_step g0 hs) (by rw [hS.nodes]; exact g1) ((inverse_step hs).trans g2) (allFree_step g0 g2 hs hcp g3)
        (hS.stepper.trans g4)
  refine key _ { e with stepper := some W } (hok.congr rfl rfl rfl rfl) hsize hinv ⟨hf.1, fun k b hb => ?_⟩ rfl
  obtain ⟨R, t, v, hfl, hnu⟩ := hf.2 k b hb
  exact ⟨R, t, v, ⟨hfl.body, hfl.rot, hfl.nopins, hfl.noloads, hfl.x, hfl.u, hfl.undamped, hfl.nodes, hfl.material⟩, hnu⟩

/-! ### A concrete scene -/

section Example

variable (eigh : M3 → V3 × M3)

/-- One corner tetrahedron with the Saint Venant-Kirchhoff material. -/
theorem ex_scene : ∃ e, Built eigh e ∧ AllFree e ∧ e.stepper = none ∧ e.params.time_step = 0.001 ∧ e.number_of_nodes = 4 ∧
    ∃ b, HasBody e "jelly" b ∧ b.n = 4 ∧ b.K = 1 ∧ FreeFlight e "jelly" b M3.identity 0 0 := by
  set e0 := create_engine eigh with he0
  have hb0 : e0.bodies.mem "jelly" = false := rfl
  obtain ⟨b1, hmk, hb1⟩ : ∃ b, makeBody e0 "jelly" exX0 exT [] = .ok b ∧
      b = { n := 4, K := 1, name := "jelly", idx := 0, offset := 0, T := exT, surface := [], x0 := exX0, vol0 := compute_volumes exX0 exT,
            gradN0 := compute_outward_face_vectors exX0 exT, invD0 := fun _ => M3.identity, dirichlet_conditions := [], traction_conditions := [],
            M_array := none, C_array := none, x := exX0, u := fun _ => V3.zero, material_description := none, gravity := ⟨0, -9.82, 0⟩,
            is_lumped := true, is_fixed := false } := by
    refine ⟨_, ?_, rfl⟩
    unfold makeBody
    have := ex_prepared
    unfold Prepared at this
    rw [this]
    rfl
  set e1 : Soft.Engine := { e0 with bodies := e0.bodies.setItem "jelly" (.ready b1), number_of_nodes := e0.number_of_nodes + 4 } with he1
  have h1 : (create_soft_body e0 "jelly" exX0 exT []).1 = e1 := by
    unfold create_soft_body
    rw [hb0, hmk]
    rfl
  have B1 : Built eigh e1 := h1 ▸ Built.body "jelly" exX0 exT [] Built.new
  set m1 : Material := { Material.init eigh with pk1_stress := SVK.pk1_stress, energy_density := SVK.energy_density } with hm1
  set e2 : Soft.Engine := e1.putMaterial "default" m1 with he2
  have h2 : set_constitutive_model e1 "default" SVK.pk1_stress SVK.energy_density = .ok e2 := rfl
  have B2 : Built eigh e2 := Built.set B1 (.constitutive h2)
  set b3 : SoftBody := { b1 with
    material_description := some "default"
    M_array := some (compute_mass_element_array m1.rho b1.vol0 b1.is_lumped)
    C_array := some (compute_damping_element_array m1.c b1.vol0 b1.is_lumped) } with hb3
  set e3 : Soft.Engine := e2.putBody "jelly" b3 with he3
  have h3 : set_material e2 "jelly" "default" = .ok e3 := rfl
  have B3 : Built eigh e3 := Built.set B2 (.material h3)
  have hbody : HasBody e3 "jelly" b3 := Dict.get?_setItem_self _ _ _
  have honly : ∀ k b, HasBody e3 k b → k = "jelly" ∧ b = b3 := by
    intro k b hb
    have hk : k = "jelly" := by
      by_contra hne
      have := ((C74_put_body e2 "jelly" b3).2.1 k b hne).1 hb
      have := ((C74_put_body e0 "jelly" b1).2.1 k b hne).1 this
      cases this
    subst hk
    unfold HasBody at hb hbody
    rw [hbody] at hb
    injection hb with hb
    injection hb with hb
    exact ⟨rfl, hb.symm⟩
  have hmat : material e3 b3 = .ok m1 := rfl
  have hff : FreeFlight e3 "jelly" b3 M3.identity 0 0 := by
    subst hb1
    refine ⟨hbody, ?_, rfl, rfl, ?_, rfl, ?_, ?_, m1, hmat, .inl rfl, ?_, rfl⟩
    · exact (isRotation_iff _).2 ⟨by ext <;> simp [M3.identity, M3.transpose, M3.mul], by simp [M3.identity, M3.det]⟩
    · funext a
      refine V3.ext ?_ ?_ ?_ <;> simp [rigidMove, M3.identity, M3.mulVec] <;> rfl
    · rfl
    · intro a
      have : ∀ a : Fin 4, exT 0 a = a := by decide
      exact ⟨(0 : Fin 1), a, this a⟩
    · simp [hm1, Material.init]
  have hblist : ∃ B, bodyList e3 = .ok B := ⟨[b3], rfl⟩
  refine ⟨e3, B3, ⟨hblist, fun k b hb => ?_⟩, rfl, rfl, rfl, b3, hbody, ?_, ?_, hff⟩
  · obtain ⟨rfl, rfl⟩ := honly k b hb
    refine ⟨_, _, _, hff, fun m hm => ?_⟩
    rw [hmat] at hm
    injection hm with hm
    rw [← hm]
    simp [hm1, Material.init]
    norm_num
  · subst hb1; rfl
  · subst hb1; rfl

/-- The scene can be simulated for every positive time when no contacts are found, and the tetrahedron ends with velocity T g. -/
theorem ex_scene_runs (P : Plugins) (hP : ∀ e, P.detect e = .ok []) (T : ℝ) (hT : 0 < T) :
    ∃ e e', Built eigh e ∧ Soft.simulate P e T = .ok e' ∧ ∃ b x, HasBody e "jelly" b ∧
      HasBody e' "jelly" { b with x := x, u := fun _ => T • b.gravity } := by
  obtain ⟨e, hB, hf, hs, hts, -, b, hb, -, -, hff⟩ := ex_scene eigh
  have hok := C71_history hB
  have hts' : 0 < e.params.time_step := by rw [hts]; norm_num
  obtain ⟨e', he', -⟩ := C76_free_fall_succeeds hP hok hT hts' (by rw [hs]; intro W h; cases h) hf
  obtain ⟨x, t', hx, -⟩ := C76_free_fall (fun e cps h => by rw [hP] at h; injection h with h; exact h.symm) hok hts'
    (by rw [hs]; intro W h; cases h) he' hff
  rw [zero_add] at hx
  exact ⟨e, e', hB, he', b, x, hb, hx⟩

end Example

end Verif
