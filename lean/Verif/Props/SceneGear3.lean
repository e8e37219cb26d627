import Verif.Props.SceneGear2
import Verif.Props.GearSolid3
import Mathlib.Analysis.Real.Pi.Bounds

/-! C107: the gear train can be built and simulated. -/

namespace Verif

open Rigid Rigid.SceneM Gear SMesh
open VMesh (Tri)

theorem teethSolid_20 {m : ℝ} (hm : 0 < m) {Z : ℕ} (hf : TeethFit m Z 20) (h58 : Z ≤ 58)
    (hr : (((Z : ℝ) + 2) / (Z * 0.9396)) ^ 2 - 1 ≤ 1) (hz41 : (Z : ℝ) * 0.0604 < 2.5) : TeethSolid m Z 20 := by
  have hz : (3 : ℝ) ≤ Z := by exact_mod_cast hf.number
  have h9 : Real.pi * 20 / 180 = Real.pi / 9 := by ring
  have hc := cos_20
  obtain ⟨d1, d2, d3, d4, -⟩ := C107_dimensions m Z 20
  have hR0 : 0 < m * Z / 2 := by positivity
  refine ⟨hf, h58, ?_, ?_⟩
  · unfold roll_angle
    refine Real.sqrt_le_iff.2 ⟨by norm_num, le_trans ?_ (hr.trans (by norm_num))⟩
    rw [d2, d4, h9]
    have e : (m * Z / 2 + m) / (m * Z / 2 * Real.cos (Real.pi / 9)) ≤ ((Z : ℝ) + 2) / (Z * 0.9396) := by
      rw [div_le_div_iff₀ (mul_pos hR0 (by linarith)) (by positivity)]
      have : m * Z * (Z + 2) * 0.9396 ≤ m * Z * (Z + 2) * Real.cos (Real.pi / 9) := mul_le_mul_of_nonneg_left hc (by positivity)
      linarith
    have e0 : 0 ≤ (m * Z / 2 + m) / (m * Z / 2 * Real.cos (Real.pi / 9)) := div_nonneg (by positivity) (mul_pos hR0 (by linarith)).le
    nlinarith
  · rw [d3, d4, h9]
    have h1 : m * Z / 2 * 0.9396 ≤ m * Z / 2 * Real.cos (Real.pi / 9) := mul_le_mul_of_nonneg_left hc hR0.le
    have h2 : m * ((Z : ℝ) * 0.0604) < m * 2.5 := mul_lt_mul_of_pos_left hz41 hm
    norm_num at h1 h2 ⊢
    linarith

/-- **C107.** All four gears of the scene bound a solid. -/
theorem C107_scene_solid {Z : ℕ} (hZ : Z ∈ [7, 12, 15, 28]) : TeethSolid 1.0 Z 20 := by
  have hf := C107_scene_gears hZ
  simp only [List.mem_cons, List.not_mem_nil, or_false] at hZ
  rcases hZ with rfl | rfl | rfl | rfl <;> exact teethSolid_20 (by norm_num) hf (by norm_num) (by norm_num) (by norm_num)

theorem teethOf_mem (Z : ℕ → Fin 4) (i : ℕ) : teethOf Z i ∈ [7, 12, 15, 28] := by
  unfold teethOf
  generalize Z i = z
  fin_cases z <;> simp

/-- **C107.** How big a gear is at least. -/
theorem C107_volume_lower {m : ℝ} {Z : ℕ} {alpha w : ℝ} (h : TeethFit m Z alpha) (h4 : 4 ≤ Z) (hw : 0 < w) :
    2 * min (make_gear_specs m Z alpha).base_radius (make_gear_specs m Z alpha).root_radius ^ 2 * w ≤
      enclosedVolume (make_gear_mesh (make_gear_specs m Z alpha) w).1 (make_gear_mesh (make_gear_specs m Z alpha) w).2 := by
  have hZ : 0 < Z := by omega
  have hz4 : (4 : ℝ) ≤ Z := by exact_mod_cast h4
  rw [C107_volume m Z alpha w hZ]
  obtain ⟨hl, r, a, hp, hmono, hper, hround, hr, hstep, -⟩ := C107_profile h
  obtain ⟨q1, q2, -⟩ := h.radii
  obtain ⟨ρ, hρ⟩ : ∃ ρ, ρ = min (make_gear_specs m Z alpha).base_radius (make_gear_specs m Z alpha).root_radius := ⟨_, rfl⟩
  have hρ0 : 0 < ρ := by rw [hρ]; exact lt_min q2 q1
  simp only [← hρ] at hr ⊢
  have hp2 : 2 * (Real.pi / Z) ≤ Real.pi / 2 := by
    have : Real.pi / Z ≤ Real.pi / 4 := div_le_div_of_nonneg_left Real.pi_pos.le (by norm_num) hz4
    linarith
  have hsin : ∀ n, 2 / Real.pi * (a (n + 1) - a n) ≤ Real.sin (a (n + 1) - a n) ∧ 0 ≤ a (n + 1) - a n := by
    intro n
    have h1 := hmono (Nat.le_succ n)
    have h2 := hmono (show n + 1 ≤ n + 34 by omega)
    have h3 := (hper n).2
    exact ⟨Real.mul_le_sin (sub_nonneg.2 h1) (by linarith), sub_nonneg.2 h1⟩
  have term : ∀ i ∈ Finset.range (34 * Z), ((make_gear_specs m Z alpha).xy.getD i 0).1 * ((make_gear_specs m Z alpha).xy.getD ((i + 1) % (34 * Z)) 0).2 -
      ((make_gear_specs m Z alpha).xy.getD i 0).2 * ((make_gear_specs m Z alpha).xy.getD ((i + 1) % (34 * Z)) 0).1 =
      r i * r ((i + 1) % (34 * Z)) * Real.sin (a (i + 1) - a i) := by
    intro i hi
    have hi := Finset.mem_range.1 hi
    rw [hp i hi, hp _ (Nat.mod_lt _ (by omega))]
    have e : Real.sin (a (i + 1) - a i) = Real.sin (a ((i + 1) % (34 * Z)) - a i) := by
      rcases next_spec hi with ⟨e, _⟩ | ⟨e, e2⟩
      · rw [e]
      · rw [e, e2, hround, show a 0 + 2 * Real.pi - a i = a 0 - a i + 2 * Real.pi by ring, Real.sin_add_two_pi]
    rw [e, Real.sin_sub]
    simp only [polar]
    ring
  have hs : 4 * ρ ^ 2 ≤ shoelace (make_gear_specs m Z alpha).xy := by
    unfold shoelace
    rw [hl, Finset.sum_congr rfl term]
    have hle : ∀ i ∈ Finset.range (34 * Z), ρ ^ 2 * (2 / Real.pi) * (a (i + 1) - a i) ≤ r i * r ((i + 1) % (34 * Z)) * Real.sin (a (i + 1) - a i) := by
      intro i _
      have h1 : ρ * ρ ≤ r i * r ((i + 1) % (34 * Z)) := mul_le_mul (hr i).1 (hr _).1 hρ0.le (hρ0.le.trans (hr i).1)
      obtain ⟨h2, h3⟩ := hsin i
      have h5 : 0 ≤ 2 / Real.pi * (a (i + 1) - a i) := mul_nonneg (by have := Real.pi_pos; positivity) h3
      calc ρ ^ 2 * (2 / Real.pi) * (a (i + 1) - a i) = ρ * ρ * (2 / Real.pi * (a (i + 1) - a i)) := by ring
        _ ≤ r i * r ((i + 1) % (34 * Z)) * (2 / Real.pi * (a (i + 1) - a i)) := mul_le_mul_of_nonneg_right h1 h5
        _ ≤ _ := mul_le_mul_of_nonneg_left h2 ((mul_pos hρ0 hρ0).le.trans h1)
    refine le_trans (le_of_eq ?_) (Finset.sum_le_sum hle)
    rw [← Finset.mul_sum, Finset.sum_range_sub, hround]
    have := Real.pi_ne_zero
    field_simp
    ring
  have := mul_le_mul_of_nonneg_left hs hw.le
  linarith

/-! ### The builder runs -/

theorem body_unit {s : Scene} (hg : SceneGood s) {n : String} {o : BodyObj} (ho : s.eng.bodies.get? n = some o) :
    IsUnitQ o.body.q ∧ ∀ sh, o.body.shape = some sh → IsUnitQ sh.q := by
  obtain ⟨i, -, -, -, h1, -, -, h2, -⟩ := hg.eng.bodies.get? ho
  refine ⟨h1, fun sh hsh => ?_⟩
  obtain ⟨j, -, -, h3⟩ := hg.eng.shapes.get? (h2 sh hsh)
  exact h3

/-- moving a body with a shape -/
theorem place_runs {material : String} {s : Scene} {n : String} {r : V3} {q : Quat} {o : BodyObj} {sh : Shape}
    (hr : Ready material s) (ho : s.eng.bodies.get? n = some o) (hsh : o.body.shape = some sh) :
    ∃ s1 s2, (api fun e => e.set_position n r true) s = .ok ((), s1) ∧ (api fun e => e.set_orientation n q true) s1 = .ok ((), s2) ∧ Ready material s2 ∧
      (∃ o', s2.eng.bodies.get? n = some o' ∧ o'.body.shape = some sh) := by
  obtain ⟨hu, hsu⟩ := body_unit hr.good ho
  have hsu := hsu sh hsh
  obtain ⟨r', hp1, -⟩ := ((C44_set_position s.eng n r).2 _ ho).2.2 sh hsh hsu hu
  obtain ⟨o1, ho1⟩ : ∃ o1 : BodyObj, o1 = { o with body := { o.body with r := r' } } := ⟨_, rfl⟩
  have hsh1 : o1.body.shape = some sh := by rw [ho1]; exact hsh
  have hu1 : IsUnitQ o1.body.q := by rw [ho1]; exact hu
  rw [← ho1] at hp1
  clear ho1
  obtain ⟨e1, he1⟩ : ∃ e1 : Engine, e1 = { s.eng with bodies := s.eng.bodies.setItem n o1 } := ⟨_, rfl⟩
  rw [← he1] at hp1
  have hg : e1.bodies.get? n = some o1 := by rw [he1]; exact Dict.get?_setItem_self _ _ _
  obtain ⟨q', r'', hq1, -⟩ := ((C44_set_orientation e1 n q).2 _ hg).2.2 sh hsh1 hsu hu1
  obtain ⟨o2, ho2⟩ : ∃ o2 : BodyObj, o2 = { o1 with body := { o1.body with q := q', r := r'' } } := ⟨_, rfl⟩
  have hsh2 : o2.body.shape = some sh := by rw [ho2]; exact hsh1
  rw [← ho2] at hq1
  clear ho2
  obtain ⟨e2, he2⟩ : ∃ e2 : Engine, e2 = { e1 with bodies := e1.bodies.setItem n o2 } := ⟨_, rfl⟩
  rw [← he2] at hq1
  have g1 : SceneGood { s with eng := e1 } := hr.good.call (op := .setPosition n r true) (by intros; simp) hp1
  have g2 : SceneGood { s with eng := e2 } := g1.call (op := .setOrientation n q true) (by intros; simp) hq1
  refine ⟨{ s with eng := e1 }, { s with eng := e2 }, api_ok.2 ⟨_, hp1, rfl⟩, api_ok.2 ⟨_, hq1, rfl⟩, ⟨?_, ⟨?_, hr.names.2⟩, ?_, g2⟩, ?_⟩
  · intro k hk
    rw [he2, he1] at hk
    exact hr.ok k hk
  · intro i b
    rw [he2, he1]
    refine ⟨(hr.names.1 i b).1, ?_⟩
    have h0 := (hr.names.1 i b).2
    show (Dict.setItem (Dict.setItem _ _ _) _ _).get? (s.gen i b) = none
    have hne : s.gen i b ≠ n := by
      intro e
      rw [e, ho] at h0; cases h0
    rw [Dict.get?_setItem_ne _ _ hne, Dict.get?_setItem_ne _ _ hne]
    exact h0
  · rw [he2, he1]
    exact hr.material
  · rw [he2]
    exact ⟨_, Dict.get?_setItem_self _ _ _, hsh2⟩

theorem placeGears_runs {w : ℝ} {omega : ℕ → ℝ} {material : String} {m alpha : ℝ} : ∀ (L : List (Specs × String)) (i : ℕ) (cx cy cz θ : ℝ) (s : Scene),
    Ready material s → (∀ p ∈ L, p.1.module = m ∧ p.1.pressure_angle = alpha) → (L.map Prod.snd).Nodup →
    (∀ p ∈ L, ∃ o sh, s.eng.bodies.get? p.2 = some o ∧ o.body.shape = some sh) →
    ∃ s', placeGears w omega i L cx cy cz θ s = .ok ((), s') ∧ Ready material s' ∧ s'.gen = s.gen := by
  intro L
  induction L with
  | nil => intro i cx cy cz θ s hr _ _ _; exact ⟨s, rfl, hr, rfl⟩
  | cons a L ih =>
    cases L with
    | nil => intro i cx cy cz θ s hr _ _ _; exact ⟨s, rfl, hr, rfl⟩
    | cons b L =>
      intro i cx cy cz θ s hr hspec hnd hL
      obtain ⟨⟨x, y, φ⟩, hq⟩ := (C107_assembly_raises a.1 b.1 cx cy θ (omega i)).2.2 ⟨by rw [(hspec a (by simp)).1, (hspec b (by simp)).1],
        by rw [(hspec a (by simp)).2, (hspec b (by simp)).2]⟩
      obtain ⟨o, sh, ho, hsh⟩ := hL b (by simp)
      obtain ⟨s1, s2, h1, h2, r2, ob, hob, hobs⟩ := place_runs (r := Quat.rotate gearFrame ⟨x, y, cz + w / 2⟩) (q := Quat.prod gearFrame (Quat.Rz φ)) hr ho hsh
      obtain ⟨hu, hsu⟩ := body_unit hr.good ho
      obtain ⟨-, -, -, he, -, -, hold, -⟩ := place_ok (s' := s2) (u := ()) ho hsh hu (hsu sh hsh) (bind_ok.2 ⟨_, _, h1, h2⟩)
      rw [List.map_cons, List.nodup_cons] at hnd
      obtain ⟨s', h3, r3, g3⟩ := ih (i + 1) x y (cz + w / 2) φ s2 r2 (fun p hp => hspec p (by simp only [List.mem_cons] at hp ⊢; tauto)) hnd.2 (by
        intro p hp
        by_cases hpb : p.2 = b.2
        · rw [hpb]; exact ⟨ob, sh, hob, hobs⟩
        · rw [hold _ hpb]; exact hL p (List.mem_cons_of_mem _ hp))
      refine ⟨s', ?_, r3, ?_⟩
      · unfold placeGears
        rw [hq]
        exact bind_ok.2 ⟨(), s1, h1, bind_ok.2 ⟨(), s2, h2, h3⟩⟩
      · rw [g3, he]

theorem gearHinge_runs {w : ℝ} {p c : String} {s : Scene} {pb cb : BodyObj} (hpb : s.eng.bodies.get? p = some pb) (hcb : s.eng.bodies.get? c = some cb)
    (hn : s.eng.hinges.get? (p ++ "_" ++ c) = none) (hg : SceneGood s) : ∃ s', gearHinge w p c s = .ok ((), s') ∧ SceneGood s' := by
  unfold gearHinge
  have h3 : s.eng.create_hinge (p ++ "_" ++ c) = .ok
      { s.eng with hinges := s.eng.hinges.setItem (p ++ "_" ++ c) (HingeObj.init (p ++ "_" ++ c) s.eng.hinges.len) } := by
    unfold Engine.create_hinge
    rw [if_neg]
    rw [(Dict.get?_eq_none _ _).1 hn]; simp
  have g3 : SceneGood _ := hg.call (op := .createHinge (p ++ "_" ++ c)) (by intros; simp) h3
  have h4 : ∀ (e : Engine) (g : HingeObj) (O S : V3), e.hinges.get? (p ++ "_" ++ c) = some g → e.bodies.get? p = some pb →
      e.bodies.get? c = some cb → ∃ e', e.set_hinge (p ++ "_" ++ c) p c O S .world = .ok e' := by
    intro e g O S a1 a2 a3
    unfold Engine.set_hinge
    rw [findHinge_ok.2 a1, findBody_ok.2 a2, findBody_ok.2 a3]
    exact ⟨_, rfl⟩
  obtain ⟨e', h5⟩ := h4
    { s.eng with hinges := s.eng.hinges.setItem (p ++ "_" ++ c) (HingeObj.init (p ++ "_" ++ c) s.eng.hinges.len) } _
    (cb.body.r - ⟨0.0, w / 2.0, 0.0⟩) V3.k (Dict.get?_setItem_self _ _ _) hpb hcb
  have g5 : SceneGood _ := g3.call (op := .setHinge (p ++ "_" ++ c) p c _ V3.k .world) (by intros; simp) h5
  refine ⟨_, bind_ok.2 ⟨(), _, api_ok.2 ⟨_, h3, rfl⟩, ?_⟩, g5⟩
  exact bind_ok.2 ⟨cb.body.r, _, query_ok.2 ⟨getPosition_ok.2 ⟨cb, hcb, rfl⟩, rfl⟩, api_ok.2 ⟨_, h5, rfl⟩⟩

theorem gearHinges_run {w : ℝ} {p : String} {pb : BodyObj} : ∀ (L : List String) (s : Scene), SceneGood s → s.eng.bodies.get? p = some pb →
    (∀ c ∈ L, ∃ cb, s.eng.bodies.get? c = some cb) → (∀ c ∈ L, s.eng.hinges.get? (p ++ "_" ++ c) = none) → L.Nodup →
    ∃ s', L.forM (gearHinge w p) s = .ok ((), s') ∧ SceneGood s' := by
  intro L
  induction L with
  | nil => intro s hg _ _ _ _; exact ⟨s, rfl, hg⟩
  | cons c L ih =>
    intro s hg hp hL hn hd
    obtain ⟨cb, hcb⟩ := hL c (by simp)
    obtain ⟨s1, h1, g1⟩ := gearHinge_runs (w := w) hp hcb (hn c (by simp)) hg
    obtain ⟨-, ⟨ho, hs1⟩, -⟩ := gearHinge_ok hp hcb (body_unit hg hp).1 (body_unit hg hcb).1 h1
    rw [List.nodup_cons] at hd
    obtain ⟨s2, h2, g2⟩ := ih s1 g1 (by rw [hs1]; exact hp) (fun d hdL => by rw [hs1]; exact hL d (by simp [hdL])) (by
      intro d hdL
      rw [hs1]
      show (Dict.setItem _ _ _).get? _ = _
      rw [Dict.get?_setItem_ne]
      · exact hn d (by simp [hdL])
      · intro e
        have : d = c := by
          have := congrArg String.toList e
          simp only [String.toList_append] at this
          exact String.toList_inj.1 (List.append_cancel_left this)
        exact hd.1 (this ▸ hdL)) hd.2
    exact ⟨s2, bind_ok.2 ⟨(), s1, h1, h2⟩, g2⟩

/-- The generator of s' is that of s, some names later, and the bodies of s' are those of s or have generated names. -/
def GenAfter (s s' : Scene) : Prop :=
  (∃ k, s'.gen = fun i => s.gen (i + k)) ∧ ∀ n o, s'.eng.bodies.get? n = some o → s.eng.bodies.get? n ≠ none ∨ ∃ i b, n = s.gen i b

theorem newBody_gen {base k : String} {VT : List V3 × List Tri} {r : V3} {q : Quat} {s s' : Scene} {n : String} (hsh : HasShape s k VT)
    (h : newBody base k r q s = .ok (n, s')) : n = s.gen 0 base ∧ s'.gen = fun i => s.gen (i + 1) := by
  unfold newBody generate_unique_name at h
  rw [bind_ok] at h
  obtain ⟨name, s1, h1, h⟩ := h
  simp only [Except.ok.injEq, Prod.mk.injEq] at h1
  obtain ⟨rfl, rfl⟩ := h1
  rw [bind_ok] at h
  obtain ⟨u, s2, h2, h⟩ := h
  replace h2 := api_ok.1 h2
  obtain ⟨e1, h2, rfl⟩ := h2
  rw [bind_ok] at h
  obtain ⟨u, s3, h3, h⟩ := h
  replace h3 := api_ok.1 h3
  obtain ⟨e2, h3, rfl⟩ := h3
  rw [bind_ok] at h
  obtain ⟨u, s4, h4, h⟩ := h
  replace h4 := api_ok.1 h4
  obtain ⟨e2, h4, rfl⟩ := h4
  rw [bind_ok] at h
  obtain ⟨u, s4, h4, h⟩ := h
  replace h4 := api_ok.1 h4
  obtain ⟨e2, h4, rfl⟩ := h4
  obtain ⟨rfl, rfl⟩ := pure_ok.1 h
  exact ⟨rfl, rfl⟩

theorem setup_gen {type material : String} {density : ℝ} {n : String} {s s' : Scene} {u : Unit} (h : setup type material density n s = .ok (u, s')) :
    s'.gen = s.gen := by
  unfold setup at h
  rw [bind_ok] at h
  obtain ⟨u, s2, h2, h⟩ := h
  replace h2 := api_ok.1 h2
  obtain ⟨e1, h2, rfl⟩ := h2
  rw [bind_ok] at h
  obtain ⟨u, s3, h3, h⟩ := h
  replace h3 := api_ok.1 h3
  obtain ⟨e2, h3, rfl⟩ := h3
  replace h := api_ok.1 h
  obtain ⟨e2, h3, rfl⟩ := h
  rfl

/-- shape, body, set up -/
theorem solidBody_runs {eig : Eig} (he : EigSpec eig) {base base' type material : String} (ht : type = "fixed" ∨ type = "free") {density : ℝ} {VT : List V3 × List Tri}
    (hv : Solid VT) (r : V3) (q : Quat) {s0 s : Scene} (hr : Ready material s) (hg : GenAfter s0 s) :
    ∃ n s', (do
      let k ← newShape eig base VT
      let n ← newBody base' k r q
      setup type material density n
      return n : SceneM String) s = .ok (n, s') ∧ (Ready material s' ∧ GenAfter s0 s') ∧ Up s s' [n] := by
  obtain ⟨k, s1, h1, r1, hs1, g1⟩ := newSolid_runs he (base := base) hr hv
  obtain ⟨n, s2, h2, r2, u2⟩ := newBody_runs (base := base') (r := r) (q := q) r1 hs1
  obtain ⟨b, -, o, sh, m, b1, b2, -⟩ := placed_mem u2.2 (List.mem_singleton.2 rfl)
  obtain ⟨s3, h3, r3⟩ := setup_runs (density := density) ht r2 b1 b2
  obtain ⟨fixed, hf⟩ : ∃ fixed : Bool, (type = "fixed" ∧ fixed = true) ∨ (type = "free" ∧ fixed = false) := by
    rcases ht with h | h
    · exact ⟨true, Or.inl ⟨h, rfl⟩⟩
    · exact ⟨false, Or.inr ⟨h, rfl⟩⟩
  have hs := setup_ok hf h3
  have hU : Up s s3 [n] := ⟨_, ((u2.setup hs).mono fun _ _ _ _ hh => hh.1).of_grows g1⟩
  refine ⟨n, s3, bind_ok.2 ⟨k, s1, h1, bind_ok.2 ⟨n, s2, h2, bind_ok.2 ⟨(), s3, h3, rfl⟩⟩⟩, ⟨r3, ?_⟩, hU⟩
  obtain ⟨⟨c, hc⟩, hb⟩ := hg
  have e1 := newShape_gen h1
  obtain ⟨en, e2⟩ := newBody_gen hs1 h2
  have e3 := setup_gen h3
  refine ⟨⟨c + 2, ?_⟩, ?_⟩
  · rw [e3, e2, e1, hc]
    funext i
    show s0.gen (i + 1 + 1 + c) = s0.gen (i + (c + 2))
    congr 1; omega
  · intro x ox hx
    by_cases hxn : x = n
    · right
      refine ⟨0 + 1 + c, base', ?_⟩
      rw [hxn, en, e1, hc]
    · obtain ⟨B, hU⟩ := hU
      rw [hU.1.old x (by simpa using hxn)] at hx
      exact hb x ox hx

/-- **C107.** `create_gear_train` does return, whatever it draws, for every number of gears, every density and every material the engine knows, as long as
the generated names are new and the hinge names made from them are, too. -/
theorem C107_train_succeeds {eig : Eig} (he : EigSpec eig) (Z : ℕ → Fin 4) (omega : ℕ → ℝ) (N : ℕ) (density : ℝ) {material : String} {s : Scene}
    (hr : Ready material s) (hnew : ∀ i j b c, s.eng.hinges.get? (s.gen i b ++ "_" ++ s.gen j c) = none) :
    ∃ names s', create_gear_train eig Z omega N density material s = .ok (names, s') ∧ SceneGood s' := by
  unfold create_gear_train
  simp only
  have hspecs : ((List.range N).map fun (i : ℕ) => make_gear_specs 1.0 ([7, 12, 15, 28].getD (Z i) 0) 20) = (List.range N).map (trainSpecs Z) := rfl
  rw [hspecs]
  have h0 : GenAfter s s := ⟨⟨0, rfl⟩, fun n o h => Or.inl (by rw [h]; simp)⟩
  obtain ⟨G, s1, h1, ⟨r1, g1⟩, B, u1⟩ := mapM_bodies_runs (f := newGear eig 10.0 density material) (l := (List.range N).map (trainSpecs Z))
    (fun t => Ready material t ∧ GenAfter s t) (by
      intro g hg t ht
      obtain ⟨i, -, rfl⟩ := List.mem_map.1 hg
      exact solidBody_runs he (Or.inr rfl) (C107_solid (C107_scene_solid (teethOf_mem Z i)) (by norm_num)) _ _ ht.1 ht.2) s ⟨hr, h0⟩
  rw [scene_bind h1]
  have hGb : ∀ n ∈ G, ∃ o sh, s1.eng.bodies.get? n = some o ∧ o.body.shape = some sh := by
    intro n hn
    obtain ⟨b, -, o, sh, m, b1, b2, -⟩ := placed_mem u1.2 hn
    exact ⟨o, sh, b1, b2⟩
  have hlen : G.length = N := by
    rw [List.mapM_map] at h1
    have := mapM_built (Q := MountedFin false material density) (fun (i : ℕ) => newGear eig 10.0 density material (trainSpecs Z i)) (fun n => [n])
      (fun i => [gearBrick 10.0 (trainSpecs Z i) (0, 0, 0) 0]) Rigid.Scene.OK (fun s s' N hg => hg.ok) (fun i s b s' hok h => newGear_ok he hok h) (List.range N) s s1 G hr.ok h1
    have := this.length
    simpa [flatMap_singleton_id, flatMap_singleton_map] using this
  have hsnd : ((((List.range N).map (trainSpecs Z)).zip G).map Prod.snd) = G := List.map_snd_zip (by simp [hlen])
  have hpair : ∀ p ∈ ((List.range N).map (trainSpecs Z)).zip G, ∃ i, p.1 = trainSpecs Z i := by
    intro p hp
    obtain ⟨i, -, hi⟩ := List.mem_map.1 (List.of_mem_zip (a := p.1) (b := p.2) hp).1
    exact ⟨i, hi.symm⟩
  obtain ⟨s2, h2, r2, g2⟩ := placeGears_runs (w := 10.0) (omega := omega) (m := 1.0) (alpha := 20) _ 0 0 0 0 0 s1 r1 (by
      intro p hp
      obtain ⟨i, hi⟩ := hpair p hp
      rw [hi]
      exact ⟨rfl, rfl⟩) (by rw [hsnd]; exact u1.1.nodup) (by
      intro p hp
      exact hGb p.2 (List.of_mem_zip (a := p.1) (b := p.2) hp).2)
  obtain ⟨e1, e2, e3, -⟩ := placeGears_ok (material := material) (density := density) _ 0 0 0 0 0 s1 s2 () (by rw [hsnd]; exact u1.1.nodup) (by
    intro p hp
    have hput : PutUp (MountedFin false material density) s s1 (((List.range N).map (trainSpecs Z)).flatMap fun g => [gearBrick 10.0 g (0, 0, 0) 0]) (G.flatMap fun n => [n]) := by
      rw [List.mapM_map] at h1
      have := mapM_built (Q := MountedFin false material density) (fun (i : ℕ) => newGear eig 10.0 density material (trainSpecs Z i)) (fun n => [n])
        (fun i => [gearBrick 10.0 (trainSpecs Z i) (0, 0, 0) 0]) Rigid.Scene.OK (fun s s' N hg => hg.ok) (fun i s b s' hok h => newGear_ok he hok h) (List.range N) s s1 G hr.ok h1
      rw [List.flatMap_map]
      exact this
    rw [flatMap_singleton_id, flatMap_singleton_map, List.map_map] at hput
    obtain ⟨i, hi⟩ := List.mem_iff_getElem?.1 hp
    obtain ⟨c1, c2⟩ := List.getElem?_zip_eq_some.1 hi
    have hlt : i < G.length := by
      by_contra hc
      rw [List.getElem?_eq_none (by omega)] at c2; cases c2
    have := List.Forall₂.get hput.2 (i := i) hlt (by simpa [hlen] using hlt)
    rw [List.getElem?_eq_getElem hlt] at c2
    rw [List.getElem?_map, List.getElem?_range (by omega)] at c1
    simp only [Option.map_some, Option.some.injEq] at c1 c2
    rw [← c1, ← c2]
    exact ⟨_, _, by simp only [List.get_eq_getElem, List.getElem_map, List.getElem_range, Function.comp] at this; exact this⟩) h2
  rw [scene_bind h2]
  have hm2 : ∀ n, (∃ o, s2.eng.bodies.get? n = some o) ↔ ∃ o, s1.eng.bodies.get? n = some o := by
    intro n
    rw [← Dict.mem_iff_get?, ← Dict.mem_iff_get?, Dict.mem_iff_keys, Dict.mem_iff_keys, e2]
  have hg2 : GenAfter s s2 := by
    refine ⟨by rw [g2]; exact g1.1, ?_⟩
    intro n o ho
    obtain ⟨o', ho'⟩ := (hm2 n).1 ⟨o, ho⟩
    exact g1.2 n o' ho'
  obtain ⟨gr, s5, h5, ⟨r5, g5⟩, B5, u5⟩ := solidBody_runs he (base := "ground_shape") (base' := "ground_body") (type := "fixed") (density := density) (Or.inl rfl)
    (box_star (w := 200.0) (h := 1.0) (d := 200.0) (by norm_num) (by norm_num) (by norm_num)).solid ⟨0.0, -0.5 - 10.0, 0.0⟩ Quat.identity r2 hg2
  obtain ⟨k, s3, h3, h5⟩ := bind_ok.1 h5
  obtain ⟨n', s4, h4, h5⟩ := bind_ok.1 h5
  obtain ⟨u', s5', h6, h7⟩ := bind_ok.1 h5
  obtain ⟨hgn, hgs⟩ := pure_ok.1 h7
  subst hgs
  rw [hgn] at h4 h6
  rw [scene_bind h3, scene_bind h4, scene_bind h6]
  obtain ⟨-, -, og, -, -, hog, -⟩ := placed_mem u5.2 (List.mem_singleton.2 rfl)
  have hb5 : ∀ c ∈ G, ∃ cb, s5'.eng.bodies.get? c = some cb := by
    intro c hc
    obtain ⟨o, -, ho, -⟩ := hGb c hc
    obtain ⟨o2, ho2⟩ := (hm2 c).2 ⟨o, ho⟩
    refine ⟨o2, ?_⟩
    rw [u5.1.old c]
    · exact ho2
    · simp only [List.mem_singleton]
      rintro rfl
      have := u5.1.fresh c (by simp)
      rw [this] at ho2; cases ho2
  have hfreshG : ∀ c ∈ G, ∃ i b, c = s.gen i b := by
    intro c hc
    obtain ⟨o, ho⟩ := hb5 c hc
    rcases g5.2 c o ho with h | h
    · exact absurd (u1.1.fresh c hc) h
    · exact h
  have hgr : ∃ i b, gr = s.gen i b := by
    rcases g5.2 gr og hog with h | h
    · have h1 := u5.1.fresh gr (by simp)
      exfalso
      apply h
      have hk : gr ∉ s2.eng.bodies.keys := by
        rw [← Dict.mem_iff_keys, Bool.not_eq_true]; exact (Dict.get?_eq_none _ _).1 h1
      rw [e2, u1.1.keys, List.mem_append, not_or] at hk
      rw [Dict.get?_eq_none, ← Bool.not_eq_true, Dict.mem_iff_keys]
      exact hk.1
    · exact h
  obtain ⟨s6, h8, g8⟩ := gearHinges_run (w := 10.0) (p := gr) G s5' r5.good hog hb5 (by
      intro c hc
      obtain ⟨i, b, rfl⟩ := hgr
      obtain ⟨j, b', rfl⟩ := hfreshG c hc
      rw [u5.1.hinges, e1]
      show s1.eng.hinges.get? _ = _
      rw [u1.1.hinges]
      exact hnew i j b b') u1.1.nodup
  rw [scene_bind h8]
  exact ⟨_, _, rfl, g8⟩

/-- The gears weigh something. -/
theorem gear_heavy (Z : ℕ → Fin 4) (i : ℕ) : 1e-10 < enclosedVolume (make_gear_mesh (trainSpecs Z i) 10).1 (make_gear_mesh (trainSpecs Z i) 10).2 := by
  have hS := C107_scene_solid (teethOf_mem Z i)
  have h7 : 7 ≤ teethOf Z i := by
    have := teethOf_mem Z i
    simp only [List.mem_cons, List.not_mem_nil, or_false] at this
    omega
  have hz : (7 : ℝ) ≤ (teethOf Z i : ℕ) := by exact_mod_cast h7
  have h := C107_volume_lower hS.fit (by omega) (show (0 : ℝ) < 10 by norm_num)
  rw [min_eq_right hS.foot.le] at h
  obtain ⟨-, -, d3, -⟩ := C107_dimensions 1.0 (teethOf Z i) 20
  rw [d3] at h
  refine lt_of_lt_of_le ?_ h
  rw [lit1] at *
  have h2 : (2 : ℝ) ≤ 1 * (teethOf Z i : ℕ) / 2 - 5 / 4 * 1 := by linarith
  have h3 := pow_le_pow_left₀ (by norm_num) h2 2
  norm_num at h3 ⊢
  linarith

/-- **C107.** A train of any number of gears is built in a fresh engine and simulated, whatever was drawn; nothing raises, whatever the distance fields say. -/
theorem C107_train_simulates {eig : Eig} (he : EigSpec eig) (Z : ℕ → Fin 4) (omega : ℕ → ℝ) (N : ℕ) {density : ℝ} (hden : density ≠ 0) {sd : SignedDistance}
    (hsd : OnePerNode sd) {T : ℝ} (hT : 0 < T) :
    ∃ names s W C s', create_gear_train eig Z omega N density "default" freshScene = .ok (names, s) ∧
      s.eng.toWorld = some W ∧ (∀ i, s.collider sd GeoParams.init (W.bodies i) = .ok (C i)) ∧
      fullSimulate GeoParams.init.toCDParams (W, C) T = .ok s' ∧ SameWorld (W, C) s' ∧ Simulable s' := by
  obtain ⟨names, s, h1, hgood⟩ := C107_train_succeeds he Z omega N density freshScene_ready (fun _ _ _ _ => rfl)
  obtain ⟨G, gr, pose, hn, hl, hk, hnd, hfr, hold, -, -, hst, hgr, hhk, hj, hho, -, -, hpar⟩ := C107_gear_train he freshScene_ready.ok h1
  have hcase : ∀ n o, s.eng.bodies.get? n = some o → o.body.shape ≠ none ∧ (o.body.is_fixed = false → o.body.mass ≠ 0) := by
    intro n o ho
    by_cases hin : n ∈ names
    · rw [hn] at hin
      rcases List.mem_append.1 hin with hin | hin
      · obtain ⟨i, hi⟩ := List.mem_iff_getElem?.1 hin
        obtain ⟨o', sh, m, a1, a2, -, -, -, -, a3⟩ := hst i n hi
        rw [ho] at a1
        cases a1
        refine ⟨by rw [a2]; simp, fun _ => ?_⟩
        rw [a3]
        have := gear_heavy Z i
        unfold snapPos
        show (if (1e-10 : ℝ) < enclosedVolume (make_gear_mesh (trainSpecs Z i) 10).1 (make_gear_mesh (trainSpecs Z i) 10).2 then _ else _) * density ≠ 0
        rw [if_pos this]
        refine mul_ne_zero ?_ hden
        have h0 : (0 : ℝ) < 1e-10 := by norm_num
        exact ne_of_gt (h0.trans this)
      · rw [List.mem_singleton] at hin
        subst hin
        obtain ⟨o', sh, m, a1, a2, -, -, a4, -⟩ := hgr
        rw [ho] at a1
        cases a1
        exact ⟨by rw [a2]; simp, fun h => by rw [a4] at h; cases h⟩
    · rw [hold n hin] at ho; cases ho
  have hc : Complete s := by
    refine ⟨fun n o ho => (hcase n o ho).1, fun n o ho => (hcase n o ho).2, ?_⟩
    intro n hh hnn
    by_cases hin : n ∈ G.map (fun g => gr ++ "_" ++ g)
    · obtain ⟨g, hg, rfl⟩ := List.mem_map.1 hin
      obtain ⟨b, -, ho, pb, cb, ap, ac, np, nc, f0, -, -, f3, -⟩ := hj g hg
      rw [f0] at hnn
      cases hnn
      rw [f3]; simp
    · rw [hho n hin] at hnn; cases hnn
  have hts : s.eng.params.time_step = 0.01 := by rw [hpar]; rfl
  obtain ⟨W, C, a1, a2, -, a4⟩ := C95_scene hsd goodGeo_default hgood hc (by rw [hts]; norm_num)
  obtain ⟨s', dts, b1, -, -, -, -, b2, b3⟩ := a4 T hT
  exact ⟨names, s, W, C, s', h1, a1, a2, b1, b2, b3⟩

end Verif
