import Verif.Props.SoftAppBeam

/-! C127: debugging changes the outcome of a run. -/

namespace Verif

open Soft Mech SoftApp
open VMesh (Tri Tet)

variable {eps : ℝ} {listOf : Finset (ℤ × ℤ) → List (ℤ × ℤ)} {P : FullParams}

/-- With hierarchies, no contact is found when there is only one body. -/
theorem alone_no_contacts (hh : P.use_spatial_hashing = false) {w : World} {k : String} (hk : ∀ k' b, HasBody w.eng k' b → k' = k) (hw : SoftReady P w)
    {r} (h : detect eps listOf P w.geo w.hash_grid w.eng = .ok r) : r.2.2 = [] := by
  obtain ⟨L, hL, hent, hgeo⟩ := bodyViews_ok hw
  have hbody : ∀ k : Fin L.length, HasBody w.eng L[k].1 L[k].2.1 := fun k => views_hasBody hw hent (List.getElem_mem k.2)
  have hseen := views_seen hw hent hgeo fun _ => ⟨none, []⟩
  have hone : ∀ i j : Fin L.length, i = j := fun i j => hseen.once ((hk _ _ (hbody i)).trans (hk _ _ (hbody j)).symm)
  unfold detect detectBVH at h
  simp only [bind, Except.bind, hL, hh] at h
  rw [if_neg (by decide)] at h
  split_ifs at h with c
  cases hrun : SoftCollision.run_bvh P.toCDParams (fun k : Fin L.length => viewBody L[k].2.1 L[k].2.2 (L[k].2.2.bvh.getD ⟨none, []⟩)) with
  | error err => rw [hrun] at h; cases h
  | ok v =>
    obtain ⟨B', cs⟩ := v
    rw [hrun] at h
    rw [← Except.ok.inj h]
    have hs := (C82_sound_bvh hrun).1
    dsimp only
    rw [List.map_eq_nil_iff, List.eq_nil_iff_forall_not_mem]
    intro c hc
    exact (hs c hc).1 (hone _ _)

/-- Reflecting one corner of a tetrahedron at another one inverts it. -/
theorem edgeTriple_reflect (X Y : Fin 4 → V3) (p q : Fin 4) (hpq : q ≠ p) (hp : Y p = X p - (2 : ℝ) • (X p - X q)) (hq : ∀ a, a ≠ p → Y a = X a) :
    edgeTriple Y = - edgeTriple X := by
  fin_cases p <;> fin_cases q <;> first
    | exact absurd rfl hpq
    | (unfold edgeTriple
       simp only [Fin.mk_zero, Fin.mk_one, Fin.reduceFinMk, ne_eq] at hp hq ⊢
       simp only [hp]
       simp (disch := decide) only [hq]
       simp [V3.dot, V3.cross]
       ring)

/-- **C127** (debugging changes the outcome). A scene that can be run (with bounding volume hierarchies), with one body, free, undeformed and at rest, one of whose
tetrahedra has exactly one corner that is not pinned.  Then there is a gravity such that, after `set_gravity`, `simulate` for one time step returns, and the same
call with `debug_on=True` raises RuntimeError. -/
theorem C127_changes (hlist : ∀ s x, x ∈ listOf s ↔ x ∈ s) (hP : GoodGeo P.toGeoParams) (hh : P.use_spatial_hashing = false) {w : World} (hw : Runnable P w)
    (hen : EnergyKnown w.eng) (hts : 0 < w.eng.params.time_step) {k : String} {b : SoftBody} (hb : HasBody w.eng k b) (hk : ∀ k' b', HasBody w.eng k' b' → k' = k)
    (hx : b.x = b.x0) (hu : ∀ a, b.u a = 0) (hfree : b.is_fixed = false) (hloads : b.traction_conditions = [])
    (hrho : ∀ m, material w.eng b = .ok m → 0 < m.rho)
    {t : Fin b.K} {p : Fin 4} (hp : ¬ Pinned b (b.T t p)) (hq : ∀ a, a ≠ p → Pinned b (b.T t a)) :
    ∃ g e1 w', w.eng.set_gravity k g = .ok e1 ∧ World.simulate eps listOf P { w with eng := e1 } w.eng.params.time_step = .ok w' ∧
      ∀ log, World.simulateLogged eps listOf P true ({ w with eng := e1 }, log) w.eng.params.time_step = .error .runtimeError := by
  obtain ⟨dt, hdt⟩ : ∃ dt, dt = w.eng.params.time_step := ⟨_, rfl⟩
  rw [← hdt] at hts ⊢
  obtain ⟨q, hqp⟩ : ∃ q : Fin 4, q ≠ p := by
    by_cases h0 : p = 0
    · exact ⟨1, by rw [h0]; decide⟩
    · exact ⟨0, fun h => h0 h.symm⟩
  obtain ⟨⟨r0, hr0, hM0⟩, -⟩ := hw.heavy k b hb
  obtain ⟨m, hmat, hlaw, hnu⟩ := hw.ready.elastic k b hb
  have hpos := hrho m hmat
  obtain ⟨g, hg⟩ : ∃ g : V3, g = -(2 * r0 / (dt * dt * m.rho)) • (b.x0 (b.T t p) - b.x0 (b.T t q)) := ⟨_, rfl⟩
  obtain ⟨e1, he1⟩ : ∃ e1, e1 = w.eng.putBody k { b with gravity := g } := ⟨_, rfl⟩
  have hset : w.eng.set_gravity k g = .ok e1 := by
    unfold Engine.set_gravity
    rw [hasBody_findBody hb, he1]
    rfl
  have hok1 : SoftOk e1 := softOk_setter (eigh := fun _ => (0, 0)) hw.ready.ok (.gravity hset)
  have hr1 : Runnable P { w with eng := e1 } := by
    rw [he1] at hok1 ⊢
    exact runnable_tweak hw hb (f := b.is_fixed) (g := g) (D := b.dirichlet_conditions) (R := b.traction_conditions) hok1 fun d _ => ⟨congrFun hx _, hu _⟩
  obtain ⟨p1, p2, p3, p4, p5, p6, p7⟩ := C74_put_body w.eng k { b with gravity := g }
  rw [← he1] at p1 p2 p3
  have hk1 : ∀ k' b', HasBody e1 k' b' → k' = k := by
    intro k' b' h
    by_contra hne
    exact hne (hk k' b' ((p2 k' b' hne).1 h))
  have hen1 : EnergyKnown e1 := by
    intro k' b' m' h h'
    obtain rfl := hk1 k' b' h
    obtain rfl := one_body p1 h
    refine hen k' b m' hb ?_
    unfold material at h' ⊢
    rw [p3] at h'
    exact h'
  have htime : e1.params.time_step = dt := by rw [he1, hdt]; rfl
  obtain ⟨W, hst, hsize, hinv⟩ := C100_stepper hr1.ready.ok hr1.ready.finished hr1.heavy hr1.fresh
  dsimp only at hst hsize hinv
  obtain ⟨e2, he2⟩ : ∃ e2 : Soft.Engine, e2 = { e1 with stepper := some W } := ⟨_, rfl⟩
  have hready : SoftReady P { w with eng := e2 } := by
    rw [he2]
    have h := hr1.ready
    exact ⟨h.ok.congr rfl rfl rfl rfl, h.finished, h.geo, h.elastic, h.friction, h.plain, h.pins, h.hash, h.scheme⟩
  have hup : Upright e2 := by rw [he2]; exact hr1.upright
  obtain ⟨w', hs, hready', -, -, -⟩ := (C100_step (eps := eps) hlist hP hready (W := W) (by rw [he2]; exact hsize) dt).1 hup
  have hsizes : stepSizes dt dt = [dt] := by
    unfold stepSizes
    rw [div_self hts.ne']
    simp
  have hsim : World.simulate eps listOf P { w with eng := e1 } dt = .ok w' := by
    rw [simulate_run { w with eng := e1 } hst hts (by rw [htime]; exact hts)]
    dsimp only
    rw [htime, hsizes, ← he2]
    simp only [worldRun, hs]
  have hflat : ¬ FreeUpright w'.eng := by
    have hs' := hs
    unfold World.step at hs'
    simp only [bind, Except.bind] at hs'
    split at hs'
    · cases hs'
    rename_i e' hstep
    split at hs'
    · cases hs'
    rename_i r hdet
    simp only [pure, Except.pure, Except.ok.injEq] at hs'
    have hcp : e'.contact_points = [] := by
      obtain ⟨D⟩ := softStep_ok hstep
      have h1 : e'.contact_points = D.cps := congrArg Soft.Engine.contact_points D.he'
      have h2 := D.hcps
      unfold World.plugins at h2
      simp only [hdet] at h2
      rw [h1, ← Except.ok.inj h2]
      exact alone_no_contacts hh (k := k) (w := { w with eng := e2 }) (by rw [he2]; exact hk1) hready hdet
    have hw' : w'.eng = e' := by rw [← hs']
    rw [hw']
    obtain ⟨fc, hfc, hall⟩ := C72_newton hready.ok (by rw [he2]; exact hinv) hstep
    have hB2 : HasBody e2 k { b with gravity := g } := by rw [he2]; exact p1
    obtain ⟨rho, x', u', f, hb', hM', hF, hnode⟩ := hall k _ hB2
    dsimp only at rho x' u' f hM' hnode
    have hbo := hready.ok.bodyOk hB2
    have hpx : pinnedX { b with gravity := g } = b.x0 := by
      funext a
      unfold pinnedX
      split_ifs
      · rfl
      · exact congrFun hx a
    have hpu : pinnedU { b with gravity := g } = fun _ => 0 := by
      funext a
      unfold pinnedU
      split_ifs
      · rfl
      · exact hu a
    rw [hpx, hpu] at hF
    obtain ⟨m1, lam, mu, Fe, C, hm, hl, hmu, hFe, hC, hfa⟩ := isForce_elastic hbo hF
    dsimp only at Fe C hFe hC hfa
    have hmm : m1 = m := by
      unfold material at hm hmat
      rw [he2] at hm
      dsimp only at hm
      rw [p3] at hm
      rw [hmat] at hm
      exact (Except.ok.inj hm).symm
    subst hmm
    have hr := material_ranges hready.ok hm
    obtain ⟨hlam, hmup⟩ := lame_pos hr.1 hr.2.1 hr.2.2.1 hl hmu
    have hfc0 : ∀ q, fc q = 0 := by
      rcases hfc with ⟨-, rfl⟩ | ⟨J, WJT, bb, mu, lamc, hJ, -, -, rfl⟩
      · intro q; rfl
      · intro q
        unfold nodalImpulse
        simp only [hcp, List.length_nil, zero_mul, Finset.range_zero, Finset.sum_empty]
        rfl
    have hFe0 : Fe = 0 := by
      have hid : b.x0 = rigidMove M3.identity 0 b.x0 := by
        funext a
        refine V3.ext ?_ ?_ ?_ <;> simp [rigidMove, M3.identity, M3.mulVec]
      have hrot : IsRotation M3.identity := (isRotation_iff _).2 ⟨by ext <;> simp [M3.identity, M3.transpose, M3.mul], by simp [M3.identity, M3.det]⟩
      obtain ⟨r1, r2⟩ := C52_rigid_no_force b.x0 b.T b.invD0 hbo.prepared M3.identity hrot 0 lam mu
      rw [← hid] at r1 r2
      rcases hlaw with hpk | hpk
      · rw [hpk] at hFe; exact solverElastic_unique hFe r1
      · rw [hpk] at hFe; exact solverElastic_unique hFe (r2 (by positivity))
    have hvol : ∀ i, 0 < b.vol0 i := by
      intro i
      have h1 : b.vol0 = _ := hbo.vol0
      rw [h1]
      exact C54_volume_pos _ _ _ hbo.prepared i
    have hrr : rho = r0 := by
      rw [hM0] at hM'
      injection hM' with hM'
      have h00 := congrArg M3.m00 (congrFun (congrFun (congrFun hM' t) 0) 0)
      simp [compute_mass_element_array, shapeProducts, M3.identity] at h00
      rcases h00 with h00 | h00
      · exact h00.symm
      · exact absurd h00 (hvol t).ne'
    have hlin : ∀ r, nodeMass b.T b.vol0 r (b.T t p) = r * nodeMass b.T b.vol0 1 (b.T t p) := by
      intro r
      unfold nodeMass
      rw [Finset.mul_sum]
      refine Finset.sum_congr rfl fun i _ => ?_
      rw [Finset.mul_sum]
      refine Finset.sum_congr rfl fun p _ => ?_
      split_ifs <;> ring
    have hCz : Soft.compute_damping_forces b.T C (fun _ => (0 : V3)) (b.T t p) = 0 := by
      simp only [Soft.compute_damping_forces, Pi.neg_apply, prod_mat_vec_apply]
      rw [neg_eq_zero]
      refine Finset.sum_eq_zero fun e _ => Finset.sum_eq_zero fun i _ => Finset.sum_eq_zero fun j _ => ?_
      split_ifs
      · ext <;> simp [M3.mulVec]
      · rfl
    have hmass : 0 < nodeMass b.T b.vol0 1 (b.T t p) := ((C72_node_mass b.T b.vol0 hvol 1 zero_le_one).2.1 _).2 ⟨zero_lt_one, t, p, rfl⟩
    obtain ⟨h1, h2⟩ := hnode (b.T t p) hp
    have ht0 : Soft.compute_traction_forces b.x0 b.traction_conditions (b.T t p) = 0 := by rw [hloads]; rfl
    rw [hfa, hfc0, hFe0, gravity_nodeMass, hCz, ht0, hrr, hu, hlin r0, hlin m1.rho] at h1
    rw [hx] at h2
    have hu' : u' (b.T t p) = (dt * m1.rho / r0) • g := by
      have hx1 := congrArg V3.x h1; have hy1 := congrArg V3.y h1; have hz1 := congrArg V3.z h1
      simp at hx1 hy1 hz1
      generalize nodeMass b.T b.vol0 1 (b.T t p) = N at *
      have key : ∀ r s : ℝ, r0 * N * r = dt * (m1.rho * N * s) → r = dt * m1.rho / r0 * s := by
        intro r s h
        have : N * (r0 * r - dt * m1.rho * s) = 0 := by linear_combination h
        rcases mul_eq_zero.1 this with h | h
        · exact absurd h hmass.ne'
        · have e : r0 * r = dt * m1.rho * s := by linarith
          field_simp
          linarith
      refine V3.ext ?_ ?_ ?_
      · simpa using key _ _ hx1
      · simpa using key _ _ hy1
      · simpa using key _ _ hz1
    intro hup'
    have h3 := hup' k _ hb' hfree t
    dsimp only at h3
    have h4 : 0 < edgeTriple fun a => b.x0 (b.T t a) := by
      have := hw.upright k b hb t
      rw [hx] at this
      exact this
    have h5 := edgeTriple_reflect (fun a => b.x0 (b.T t a)) (fun a => x' (b.T t a)) p q hqp (by
      rw [h2, hu', hg]
      have hd : dt ≠ 0 := hts.ne'
      have hr0' : r0 ≠ 0 := hr0.ne'
      have hp0 : m1.rho ≠ 0 := hpos.ne'
      refine V3.ext ?_ ?_ ?_ <;> simp <;> field_simp <;> ring) (fun a ha => by
      have hpin := hready'.pins
      rw [hw'] at hpin
      exact (hpin k _ hb' (b.T t a) (hq a ha)).1)
    rw [h5] at h3
    linarith
  refine ⟨g, e1, w', hset, hsim, fun log => ?_⟩
  exact (C127_outcome hlist hP hr1.ready hen1 hst hsize (by rw [htime]; exact hts) hts log).2.1 w' hsim hflat

theorem edgeTriple_apart {X : Fin 4 → V3} (h : edgeTriple X ≠ 0) {p q : Fin 4} (hpq : q ≠ p) : X q ≠ X p := by
  intro e
  apply h
  fin_cases p <;> fin_cases q <;> first
    | exact absurd rfl hpq
    | (unfold edgeTriple
       simp only [Fin.mk_zero, Fin.mk_one, Fin.reduceFinMk] at e
       rw [e]
       simp [V3.dot, V3.cross]
       try ring)

/-- The call is reachable: a cube of the application, pinned at all its corners but one. -/
theorem C127_changes_cube {V : Env} (hsd : OnePerNode V.sd) (hP : GoodGeo V.P.toGeoParams) (hlist : ∀ s x, x ∈ V.listOf s ↔ x ∈ s)
    (hs : V.P.proximal_solver ∈ ["gauss_seidel", "parallel_gauss_seidel", "parallel_jacobi", "parallel_jacboi_hybrid"]) (hh : V.P.use_spatial_hashing = false) :
    ∃ app g e1 w', ((((create_soft_material V "default_material" (model_name := "SNH")).andThen (set_friction_coefficient "default_material" "default_material" 0.5)).andThen
        (create_soft_body V "cube" "default_material" ⟨2, 2, 2, 1, 1, 1⟩ 0 true ⟨0, 0, 0⟩)).andThen (create_dirichlet_conditions "cube" fun x => x.x + x.y + x.z - 1))
        (SoftApp.init V 0.001) = (app, none) ∧ app.scene.eng.set_gravity "cube" g = .ok e1 ∧
      World.simulate V.eps V.listOf V.P { app.scene with eng := e1 } 0.001 = .ok w' ∧
      ∀ log, World.simulateLogged V.eps V.listOf V.P true ({ app.scene with eng := e1 }, log) 0.001 = .error .runtimeError := by
  obtain ⟨app0, m, h0, hx0, hb0, ht0, hm0, hlaw, henl, hnu, hrho, hmn, hint⟩ := script_start (V := V) hs 0.001
  have no0 : ∀ k b, ¬ HasBody app0.scene.eng k b := by
    intro k b h
    unfold HasBody at h
    rw [hb0] at h
    cases h
  obtain ⟨app1, h1, hu1, hr1, hx1, hmats1, hint1, hpar1, ⟨b, ask, pins, loads⟩, hold1⟩ := C123_body hsd hP hx0 (name := "cube") (mat := "default_material")
    (by rw [hb0]; rfl) (mesh := ⟨2, 2, 2, 1, 1, 1⟩) (by norm_num) (by norm_num) (by norm_num) (by norm_num) (by norm_num) (by norm_num) (c := ⟨0, 0, 0⟩)
    (offMargin_of_low hP (by norm_num)) hm0 (Or.inr hlaw) hnu hrho (by rw [hmn]; exact hint) (fun k b _ hb => absurd hb (no0 k b)) 0 true
  have only1 : ∀ k b, HasBody app1.scene.eng k b → k = "cube" := by
    intro k b hb
    by_contra hk
    exact no0 k b ((hold1 k b hk).1 hb)
  obtain ⟨D, e2, h2, he2, hD, hr2, hx2⟩ := C123_pins (V := V) hr1 hx1 ask.has ⟨ask.undeformed, ask.rest⟩ (fun x => x.x + x.y + x.z - 1)
  have hget2 : HasBody e2 "cube" { b with dirichlet_conditions := D } := by rw [he2]; exact Dict.get?_setItem_self _ _ _
  have only2 : ∀ k c, HasBody e2 k c → k = "cube" := by
    intro k c hc
    by_contra hk
    rw [he2] at hc
    exact hk (only1 k c (((C74_put_body _ "cube" _).2.1 k c hk).1 hc))
  have hmats2 : e2.materials.get? "default_material" = some m := by
    rw [he2]
    change app1.scene.eng.materials.get? _ = _
    rw [hmats1]
    exact hm0
  have hen : EnergyKnown e2 := energyKnown_one (d := "default_material") hmats2 (Or.inr henl) fun k c hc => by
    obtain rfl := only2 k c hc
    obtain rfl := one_body hget2 hc
    exact ask.material
  have htime : e2.params.time_step = 0.001 := by
    rw [he2]
    change app1.scene.eng.params.time_step = _
    rw [hpar1]
    exact ht0
  obtain ⟨X, hperm, hblock⟩ := ask.nodes
  dsimp only at hblock
  -- the corner that is not pinned
  obtain ⟨a, ha⟩ : ∃ a, b.x0 a = ⟨1 / 2, 1 / 2, 1 / 2⟩ := by
    have h7 := hblock.pos 1 1 1 (by norm_num) (by norm_num) (by norm_num)
    have hmem : (⟨1 / 2, 1 / 2, 1 / 2⟩ : V3) ∈ List.ofFn b.x0 := by
      refine hperm.mem_iff.2 (List.mem_of_getElem? (h7.trans ?_))
      norm_num
    obtain ⟨a, ha⟩ := List.mem_ofFn.1 hmem
    exact ⟨a, ha⟩
  have hpin : ∀ i, Pinned { b with dirichlet_conditions := D } i ↔ (b.x0 i).x + (b.x0 i).y + (b.x0 i).z - 1 ≤ 0 := by
    intro i
    constructor
    · rintro ⟨d, hd, hi⟩
      dsimp only at d hd hi
      have := (hD d.1 d.2).1 hd
      rw [pins] at this
      rcases this with h | ⟨-, h⟩
      · cases h
      · rw [← hi]; exact h
    · intro h
      exact ⟨(i, b.x0 i), (hD i _).2 (Or.inr ⟨rfl, h⟩), rfl⟩
  have hcoord : ∀ i, (b.x0 i = ⟨1 / 2, 1 / 2, 1 / 2⟩) ∨ (b.x0 i).x + (b.x0 i).y + (b.x0 i).z - 1 ≤ 0 := by
    intro i
    have hmem : b.x0 i ∈ X := hperm.mem_iff.1 (List.mem_ofFn.2 ⟨i, rfl⟩)
    obtain ⟨n, hn, he⟩ := List.getElem_of_mem hmem
    have hlen := hblock.len
    rw [hlen] at hn
    have hpos := hblock.pos (n % 2) (n / 2 % 2) (n / 2 / 2) (by omega) (by omega) (by omega)
    have hidx : (n / 2 / 2 * 2 + n / 2 % 2) * 2 + n % 2 = n := by omega
    rw [hidx, List.getElem?_eq_getElem (by rw [hlen]; exact hn), he] at hpos
    have hx := Option.some.inj hpos
    have h8 : n < 8 := by omega
    rw [hx]
    dsimp only
    interval_cases n <;> norm_num
  obtain ⟨t, p, htp⟩ := (hr2.heavy "cube" _ hget2).2 a
  dsimp only at t htp
  have hne : ∀ q, q ≠ p → b.x0 (b.T t q) ≠ b.x0 (b.T t p) := by
    intro q hq
    have hup := hr2.upright "cube" _ hget2 t
    dsimp only at hup
    rw [ask.undeformed] at hup
    exact edgeTriple_apart (X := fun a => b.x0 (b.T t a)) hup.ne' hq
  obtain ⟨g, e3, w', g1, g2, g3⟩ := C127_changes (eps := V.eps) hlist hP hh hr2 hen (by dsimp only; rw [htime]; norm_num) hget2 only2 ask.undeformed ask.rest ask.fixed loads
    (fun m' hm' => by
      unfold material at hm'
      dsimp only at hm'
      rw [ask.material] at hm'
      simp only [hmats2] at hm'
      rw [← Except.ok.inj hm']
      exact hrho) (t := t) (p := p)
    (by
      rw [hpin]
      change ¬ ((b.x0 (b.T t p)).x + (b.x0 (b.T t p)).y + (b.x0 (b.T t p)).z - 1 ≤ 0)
      rw [htp, ha]
      norm_num)
    (fun q hq => (hpin _).2 ((hcoord (b.T t q)).resolve_left fun h => hne q hq (by rw [htp, ha]; exact h)))
  dsimp only at g2 g3
  rw [htime] at g2 g3
  refine ⟨{ app1 with scene := { app1.scene with eng := e2 } }, g, e3, w', ?_, g1, g2, g3⟩
  rw [andThen_ok (by rw [andThen_ok h0]; exact h1)]
  exact h2

end Verif
