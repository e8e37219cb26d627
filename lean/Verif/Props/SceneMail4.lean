import Verif.Props.SceneMail3
import Verif.Props.FullScene

/-! C106: the chain mail can be built, and simulated. -/

namespace Verif

open Rigid Rigid.SceneM SMesh
open VMesh (Tri)

theorem setType_runs {material n : String} {s : Scene} (hr : Ready material s) (hn : n ∈ s.eng.bodies.keys) :
    ∃ s', api (fun e => e.set_body_type n "fixed") s = .ok ((), s') ∧ Ready material s' ∧ s'.eng.bodies.keys = s.eng.bodies.keys := by
  obtain ⟨o, ho⟩ := Dict.mem_iff_get?.1 ((Dict.mem_iff_keys _ _).2 hn)
  have h1 : s.eng.set_body_type n "fixed" =
      .ok { s.eng with bodies := s.eng.bodies.setItem n { o with body := { o.body with is_fixed := true } } } := by
    unfold Engine.set_body_type
    rw [findBody_ok.2 ho]
    simp only [bind, Except.bind]
    rw [if_pos (by decide), updateBody_some _ ho]
  have hrun : api (fun e => e.set_body_type n "fixed") s = .ok ((), _) := api_ok.2 ⟨_, h1, rfl⟩
  have hp := (MadeFixed.refl s).step hrun
  refine ⟨_, hrun, ⟨?_, ⟨?_, hr.names.2⟩, hr.material, hr.good.api (op := .setType n "fixed") (fun _ _ _ _ _ => Engine.Op.noConfusion) hrun⟩, hp.keys⟩
  · exact hr.ok
  · intro i b
    refine ⟨(hr.names.1 i b).1, ?_⟩
    have := (hr.names.1 i b).2
    rw [Dict.get?_eq_none] at this ⊢
    rw [← Bool.not_eq_true, Dict.mem_iff_keys] at this ⊢
    rw [hp.keys]
    exact this

theorem mailPins_runs {material : String} {N : List String} {columns rows : ℕ} {s : Scene} (hr : Ready material s)
    (hl : (rows + 1) * (columns + 1) ≤ N.length) (hN : ∀ n ∈ N, n ∈ s.eng.bodies.keys) :
    ∃ (u : Unit) (s' : Scene), mailPins N columns rows s = .ok (u, s') ∧ Ready material s' := by
  have hle : rows * (columns + 1) + (columns + 1) ≤ N.length := by rw [← Nat.succ_mul]; exact hl
  have get : ∀ (k : ℕ), k < N.length → ∀ s : Scene, ∃ n s', nameAt N k s = .ok (n, s') ∧ (n ∈ N ∧ s' = s) := by
    intro k hk s
    exact ⟨N[k], s, nameAt_ok.2 ⟨List.getElem?_eq_getElem hk, rfl⟩, List.getElem_mem hk, rfl⟩
  have hk : (rows + 1) * (columns + 1) = rows * (columns + 1) + (columns + 1) := Nat.succ_mul _ _
  unfold mailPins
  refine bind_runs (get _ (by omega) s) ?_
  rintro a s1 ⟨ha, e⟩; rw [e]; clear e
  refine bind_runs (get _ (by omega) s) ?_
  rintro b s1 ⟨hb, e⟩; rw [e]; clear e
  refine bind_runs (get _ (by rw [hk]; omega) s) ?_
  rintro c s1 ⟨hc, e⟩; rw [e]; clear e
  refine bind_runs (get _ (by rw [hk]; omega) s) ?_
  rintro d s1 ⟨hd, e⟩; rw [e]; clear e
  obtain ⟨t1, g1, r1, k1⟩ := setType_runs hr (hN _ ha)
  obtain ⟨t2, g2, r2, k2⟩ := setType_runs r1 (n := b) (by rw [k1]; exact hN _ hb)
  obtain ⟨t3, g3, r3, k3⟩ := setType_runs r2 (n := c) (by rw [k2, k1]; exact hN _ hc)
  obtain ⟨t4, g4, r4, k4⟩ := setType_runs r3 (n := d) (by rw [k3, k2, k1]; exact hN _ hd)
  exact ⟨(), t4, bind_ok.2 ⟨_, _, g1, bind_ok.2 ⟨_, _, g2, bind_ok.2 ⟨_, _, g3, g4⟩⟩⟩, r4⟩

theorem mail_runs {eig : Eig} (he : EigSpec eig) {R r : ℝ} (hr0 : 0 < r) (hR : r < R) (columns rows : ℕ) (stretch density : ℝ)
    {material : String} {s : Scene} (hr : Ready material s) :
    Succeeds material (create_chainmail eig R r columns rows stretch density material false) s := by
  unfold Succeeds create_chainmail
  simp only [Bool.false_eq_true, if_false]
  refine bind_runs (newSolid_runs he hr (C33_torus_solid hr0 hR (by norm_num) (by norm_num)).1) ?_
  rintro k s1 ⟨r1, hs1, g1⟩
  refine bind_runs (mapM_rows_runs (fun s => Ready material s ∧ HasShape s k (create_torus R r 24 24)) ?_ s1 ⟨r1, hs1⟩) ?_
  · intro l _ s hi
    refine mapM_bodies_runs (fun s => Ready material s ∧ HasShape s k (create_torus R r 24 24)) ?_ s hi
    intro j _ s hi
    exact body_runs hi
  rintro rows1 s2 ⟨i2, u2⟩
  refine bind_runs (mapM_rows_runs (fun s => Ready material s ∧ HasShape s k (create_torus R r 24 24)) ?_ s2 i2) ?_
  · intro l _ s hi
    refine mapM_bodies_runs (fun s => Ready material s ∧ HasShape s k (create_torus R r 24 24)) ?_ s hi
    intro j _ s hi
    exact body_runs hi
  rintro rows2 s3 ⟨i3, u3⟩
  refine bind_runs (mapM_rows_runs (fun s => Ready material s ∧ HasShape s k (create_torus R r 24 24)) ?_ s3 i3) ?_
  · intro l _ s hi
    refine mapM_bodies_runs (fun s => Ready material s ∧ HasShape s k (create_torus R r 24 24)) ?_ s hi
    intro j _ s hi
    exact body_runs hi
  rintro rows3 s4 ⟨⟨r4, -⟩, u4⟩
  refine bind_runs (((u2.append u3).append u4).setup_runs r4) ?_
  rintro _ s5 ⟨r5, u5⟩
  exact pure_runs ⟨r5, u5.of_grows g1⟩

theorem mail_pinned (eig : Eig) (R r : ℝ) (columns rows : ℕ) (stretch density : ℝ) (material : String) :
    create_chainmail eig R r columns rows stretch density material true =
      (create_chainmail eig R r columns rows stretch density material false >>= fun names => mailPins names columns rows >>= fun _ => pure names) := by
  unfold create_chainmail
  simp only [bind_assoc, if_true, Bool.false_eq_true, if_false, pure_bind]

theorem mailHoops_length (D : ℝ) (columns rows : ℕ) :
    (mailHoops D columns rows).length = (rows + 1) * (columns + 1) + (rows + 1) * columns + rows * (columns + 1) := by
  unfold mailHoops
  simp [Nat.add_assoc]

/-- **C106.** Building a chain mail succeeds for every ring with 0 < r < R, whatever the numbers of rows and columns, in an engine that knows
the material and as long as the generated names are new; and more can be built afterwards. -/
theorem C106_succeeds {eig : Eig} (he : EigSpec eig) {R r : ℝ} (hr0 : 0 < r) (hR : r < R) (columns rows : ℕ) (stretch density : ℝ)
    {material : String} (pinned : Bool) {s : Scene} (hr : Ready material s) :
    ∃ names s', create_chainmail eig R r columns rows stretch density material pinned s = .ok (names, s') ∧ Ready material s' := by
  cases pinned with
  | false =>
    obtain ⟨n, s', h1, h2, -⟩ := mail_runs he hr0 hR columns rows stretch density hr
    exact ⟨n, s', h1, h2⟩
  | true =>
    obtain ⟨n, s1, h1, h2, -⟩ := mail_runs he hr0 hR columns rows stretch density hr
    obtain ⟨hl, -, hk, -⟩ := C106_chainmail he (hr0.trans hR) hr0 hr.ok h1
    rw [mailHoops_length] at hl
    rw [mail_pinned]
    refine bind_runs (P := fun a s => a = n ∧ s = s1) ⟨n, s1, h1, rfl, rfl⟩ ?_
    rintro a s2 ⟨e1, e2⟩
    rw [e1, e2]; clear e1 e2
    refine bind_runs (mailPins_runs h2 (by rw [hl]; omega) (fun m hm => by rw [hk]; simp [hm])) ?_
    intro _ s3 h3
    exact pure_runs h3

theorem Complete.pinned {s s' : Scene} {P : List String} (hc : Complete s) (h : MadeFixed s s' P) : Complete s' := by
  have hcase : ∀ n o, s'.eng.bodies.get? n = some o → ∃ o', s.eng.bodies.get? n = some o' ∧ o.body.shape = o'.body.shape ∧
      o.body.mass = o'.body.mass ∧ (o.body.is_fixed = false → o'.body.is_fixed = false) := by
    intro n o ho
    by_cases hn : n ∈ P
    · obtain ⟨o', h1, h2⟩ := h.upd n hn
      rw [ho] at h2
      cases h2
      exact ⟨o', h1, rfl, rfl, fun h => by cases h⟩
    · rw [h.old n hn] at ho
      exact ⟨o, ho, rfl, rfl, id⟩
  refine ⟨?_, ?_, ?_⟩
  · intro n o ho
    obtain ⟨o', h1, h2, -⟩ := hcase n o ho
    rw [h2]; exact hc.shape n o' h1
  · intro n o ho hf
    obtain ⟨o', h1, -, h2, h3⟩ := hcase n o ho
    rw [h2]; exact hc.mass n o' h1 (h3 hf)
  · intro n hh hn
    rw [h.rest] at hn
    exact hc.hinge n hh hn

theorem torus24_volume {R r : ℝ} (hR : 0 ≤ R) : 8 * (R * r ^ 2) ≤ enclosedVolume (create_torus R r 24 24).1 (create_torus R r 24 24).2 := by
  rw [C33_torus_volume R r (by norm_num) (by norm_num)]
  have h1 : 1 / 6 ≤ Real.sin (2 * Real.pi / 24) := by
    have hp := Real.pi_pos
    have := Real.mul_le_sin (x := 2 * Real.pi / 24) (by positivity) (by linarith)
    refine le_trans (le_of_eq ?_) this
    field_simp; norm_num
  push_cast
  generalize Real.sin (2 * Real.pi / 24) = σ at *
  have h2 : 1 / 36 ≤ σ * σ := by nlinarith
  have h3 : 0 ≤ R * r ^ 2 := by positivity
  nlinarith

/-- The mail leaves nothing missing. -/
theorem mail_complete {eig : Eig} (he : EigSpec eig) {R r : ℝ} (hR : 0 < R) (hv : 1e-10 < 8 * (R * r ^ 2)) {columns rows : ℕ}
    {stretch density : ℝ} (hden : density ≠ 0) {material : String} {pinned : Bool} {s s' : Scene} {names : List String} (hok : s.OK)
    (hc : Complete s) (hrun : create_chainmail eig R r columns rows stretch density material pinned s = .ok (names, s')) :
    Complete s' := by
  obtain ⟨s1, hput, hpin⟩ := mail_built he hok hrun
  have hc1 : Complete s1 := hc.adds hput.adds (Or.inr ⟨hden, by
    intro b hb
    have : (b.V, b.T) = create_torus R r 24 24 := by
      unfold mailPlan at hb
      simp only [List.mem_append, List.mem_flatMap, List.mem_map] at hb
      rcases hb with (⟨_, _, _, _, rfl⟩ | ⟨_, _, _, _, rfl⟩) | ⟨_, _, _, _, rfl⟩ <;> rfl
    have e1 : b.V = (create_torus R r 24 24).1 := by rw [← this]
    have e2 : b.T = (create_torus R r 24 24).2 := by rw [← this]
    rw [e1, e2]
    exact hv.trans_le (torus24_volume hR.le)⟩)
  cases pinned with
  | false =>
    rw [if_neg (by simp)] at hpin
    rw [hpin]; exact hc1
  | true =>
    rw [if_pos rfl] at hpin
    obtain ⟨_, _, _, _, -, -, -, -, hp⟩ := hpin
    exact hc1.pinned hp

/-- **C106.** From the first call to the last: a chain mail is built in a fresh engine and simulated, for every size (0 < r < R, not
microscopic), stretch, density other than zero and time; whatever the distance fields say, nothing raises; in a pinned mail the rings at
the corners keep their places. -/
theorem C106_simulates {eig : Eig} (he : EigSpec eig) {R r : ℝ} (hr0 : 0 < r) (hR : r < R) (hv : 1e-10 < 8 * (R * r ^ 2)) (columns rows : ℕ)
    (stretch : ℝ) {density : ℝ} (hden : density ≠ 0) (pinned : Bool) {sd : SignedDistance} (hsd : OnePerNode sd) {T : ℝ} (hT : 0 < T) :
    ∃ names s W C s', create_chainmail eig R r columns rows stretch density "default" pinned freshScene = .ok (names, s) ∧
      names.length = (rows + 1) * (columns + 1) + (rows + 1) * columns + rows * (columns + 1) ∧
      s.eng.toWorld = some W ∧ (∀ i, s.collider sd GeoParams.init (W.bodies i) = .ok (C i)) ∧
      fullSimulate GeoParams.init.toCDParams (W, C) T = .ok s' ∧ SameWorld (W, C) s' ∧ Simulable s' := by
  obtain ⟨names, s, h1, h2⟩ := C106_succeeds he hr0 hR columns rows stretch density pinned freshScene_ready
  obtain ⟨hl, -, -, -, -, -, -, -, -, hpar, -⟩ := C106_chainmail he (hr0.trans hR) hr0 freshScene_ready.ok h1
  have hc0 : Complete freshScene := ⟨fun n o h => (by cases h), fun n o h => (by cases h), fun n o h => (by cases h)⟩
  have hc := mail_complete he (hr0.trans hR) hv hden freshScene_ready.ok hc0 h1
  have hts : s.eng.params.time_step = 0.01 := by rw [hpar]; rfl
  obtain ⟨W, C, a1, a2, -, a4⟩ := C95_scene hsd goodGeo_default h2.good hc (by rw [hts]; norm_num)
  obtain ⟨s', dts, b1, -, -, -, -, b2, b3⟩ := a4 T hT
  exact ⟨names, s, W, C, s', h1, hl.trans (mailHoops_length _ _ _), a1, a2, b1, b2, b3⟩

/-- The mail of create_scene.py: 10 × 10, R = 2, r = 0.5. -/
example (eig : Eig) (he : EigSpec eig) : ∃ names s, create_chainmail eig 2 0.5 10 10 0.75 1 "default" false freshScene = .ok (names, s) ∧
    names.length = 341 := by
  obtain ⟨names, s, W, C, s', h1, h2, -⟩ := C106_simulates he (R := 2) (r := 0.5) (by norm_num) (by norm_num) (by norm_num) 10 10 0.75
    (density := 1) one_ne_zero false (sd := fun nodes _ _ => nodes.map fun _ => 1) (fun _ _ _ => by simp) (T := 1) one_pos
  exact ⟨names, s, h1, h2⟩

/-- Two rings joined by a third: the middle one goes through both. -/
example : ∃ h h' : Hoop, (mailHoops (2 + (2 - 2 * (1 / 2)) * min (max (3 / 4) 0) 1) 1 0)[0]? = some h ∧
    (mailHoops (2 + (2 - 2 * (1 / 2)) * min (max (3 / 4) 0) 1) 1 0)[2]? = some h' ∧ ∃! p, h.On 2 p ∧ h'.Inside 2 p := by
  refine ⟨_, _, rfl, rfl, ?_⟩
  refine (C106_linked (R := 2) (r := 1 / 2) (stretch := 3 / 4) (by norm_num) (by norm_num) (columns := 1) (rows := 0) (i := 0) (j := 2) (by norm_num) rfl rfl rfl).1 ?_
  simp [V3.dot]
  norm_num

end Verif
