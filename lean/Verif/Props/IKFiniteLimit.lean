import Verif.Props.IKFinite
import Mathlib.Analysis.Calculus.ContDiff.Operations
import Mathlib.Analysis.Calculus.ContDiff.Basic
import Mathlib.Analysis.Calculus.Deriv.MeanValue
import Mathlib.Analysis.SpecialFunctions.Trigonometric.Deriv
import Mathlib.Analysis.SpecialFunctions.Trigonometric.DerivHyp

/-! Property C78, continued: as the step goes to zero, the finite differences tend to the derivatives. -/

namespace Verif

open IK Topology

/-! ### Calculus -/

/-- A central second difference is a second derivative nearby. -/
theorem mixed_diff_mean {f f1 f12 : ℝ → ℝ → ℝ} (h1 : ∀ x y, HasDerivAt (fun x => f x y) (f1 x y) x) (h2 : ∀ x y, HasDerivAt (fun y => f1 x y) (f12 x y) y)
    (a b : ℝ) {h : ℝ} (hh : 0 < h) : ∃ x y, |x - a| < h ∧ |y - b| < h ∧
      (f (a + h) (b + h) - f (a + h) (b - h) - f (a - h) (b + h) + f (a - h) (b - h)) / (4 * h * h) = f12 x y := by
  have d1 : ∀ x, HasDerivAt (fun x => f x (b + h) - f x (b - h)) (f1 x (b + h) - f1 x (b - h)) x := fun x => (h1 x _).sub (h1 x _)
  obtain ⟨x, hx, hx'⟩ := exists_hasDerivAt_eq_slope (fun x => f x (b + h) - f x (b - h)) (fun x => f1 x (b + h) - f1 x (b - h))
    (by linarith : a - h < a + h) (fun x _ => (d1 x).continuousAt.continuousWithinAt) (fun x _ => d1 x)
  obtain ⟨y, hy, hy'⟩ := exists_hasDerivAt_eq_slope (fun y => f1 x y) (fun y => f12 x y) (by linarith : b - h < b + h)
    (fun y _ => (h2 x y).continuousAt.continuousWithinAt) (fun y _ => h2 x y)
  refine ⟨x, y, abs_sub_lt_iff.2 ⟨by linarith [hx.2], by linarith [hx.1]⟩, abs_sub_lt_iff.2 ⟨by linarith [hy.2], by linarith [hy.1]⟩, ?_⟩
  rw [hy', hx']
  have : h ≠ 0 := hh.ne'
  have e1 : a + h - (a - h) = 2 * h := by ring
  have e2 : b + h - (b - h) = 2 * h := by ring
  rw [e1, e2]
  field_simp
  ring

theorem mixed_diff_limit {f f1 f12 : ℝ → ℝ → ℝ} (h1 : ∀ x y, HasDerivAt (fun x => f x y) (f1 x y) x) (h2 : ∀ x y, HasDerivAt (fun y => f1 x y) (f12 x y) y)
    (a b : ℝ) (hc : ContinuousAt (fun p : ℝ × ℝ => f12 p.1 p.2) (a, b)) :
    Filter.Tendsto (fun h => (f (a + h) (b + h) - f (a + h) (b - h) - f (a - h) (b + h) + f (a - h) (b - h)) / (4 * h * h)) (𝓝[≠] 0) (𝓝 (f12 a b)) := by
  rw [Metric.tendsto_nhdsWithin_nhds]
  intro ε hε
  obtain ⟨δ, hδ, hδ'⟩ := Metric.continuousAt_iff.1 hc ε hε
  refine ⟨δ, hδ, fun {h} h0 hd => ?_⟩
  have key : ∀ h : ℝ, 0 < h → h < δ →
      dist ((f (a + h) (b + h) - f (a + h) (b - h) - f (a - h) (b + h) + f (a - h) (b - h)) / (4 * h * h)) (f12 a b) < ε := by
    intro h hp hl
    obtain ⟨x, y, hx, hy, he⟩ := mixed_diff_mean h1 h2 a b hp
    rw [he]
    refine hδ' (x := (x, y)) ?_
    rw [Prod.dist_eq, max_lt_iff, Real.dist_eq, Real.dist_eq]
    exact ⟨hx.trans hl, hy.trans hl⟩
  rw [Real.dist_eq, sub_zero] at hd
  rcases lt_or_gt_of_ne (show h ≠ 0 from h0) with hneg | hpos
  · have := key (-h) (by linarith) (by rwa [abs_of_neg hneg] at hd)
    have e : (f (a + h) (b + h) - f (a + h) (b - h) - f (a - h) (b + h) + f (a - h) (b - h)) / (4 * h * h) =
        (f (a + -h) (b + -h) - f (a + -h) (b - -h) - f (a - -h) (b + -h) + f (a - -h) (b - -h)) / (4 * -h * -h) := by
      rw [sub_neg_eq_add, sub_neg_eq_add, ← sub_eq_add_neg, ← sub_eq_add_neg]
      congr 1 <;> ring
    rw [e]
    exact this
  · exact key h hpos (by rwa [abs_of_pos hpos] at hd)

theorem diag_diff_limit {f f1 f2 : ℝ → ℝ} (h1 : ∀ x, HasDerivAt f (f1 x) x) (h2 : ∀ x, HasDerivAt f1 (f2 x) x) (a : ℝ) (hc : ContinuousAt f2 a) :
    Filter.Tendsto (fun h => (f (a + h) - 2 * f a + f (a - h)) / (h * h)) (𝓝[≠] 0) (𝓝 (f2 a)) := by
  have hlim := mixed_diff_limit (f := fun x y => f (x + y)) (f1 := fun x y => f1 (x + y)) (f12 := fun x y => f2 (x + y))
    (fun x y => (h1 (x + y)).comp_add_const x y) (fun x y => (h2 (x + y)).comp_const_add x y)
    a 0 (by
      have hf : ContinuousAt (fun p : ℝ × ℝ => p.1 + p.2) (a, 0) := by fun_prop
      exact ContinuousAt.comp (g := f2) (f := fun p : ℝ × ℝ => p.1 + p.2) (by simpa using hc) hf)
  have hhalf : Filter.Tendsto (fun h : ℝ => h / 2) (𝓝[≠] 0) (𝓝[≠] 0) := by
    refine tendsto_nhdsWithin_iff.2 ⟨?_, ?_⟩
    · have : Filter.Tendsto (fun h : ℝ => h / 2) (𝓝 0) (𝓝 (0 / 2)) := (continuous_id.div_const 2).tendsto 0
      rw [zero_div] at this
      exact this.mono_left nhdsWithin_le_nhds
    · filter_upwards [self_mem_nhdsWithin] with h hh
      exact div_ne_zero hh two_ne_zero
  have := hlim.comp hhalf
  simp only [add_zero] at this
  refine this.congr' ?_
  filter_upwards [self_mem_nhdsWithin] with h _
  dsimp only [Function.comp]
  have e1 : a + h / 2 + (0 + h / 2) = a + h := by ring
  have e2 : a + h / 2 + (0 - h / 2) = a := by ring
  have e3 : a - h / 2 + (0 + h / 2) = a := by ring
  have e4 : a - h / 2 + (0 - h / 2) = a - h := by ring
  rw [e1, e2, e3, e4]
  congr 1 <;> ring

theorem first_diff_limit {f : ℝ → ℝ} {f1 a : ℝ} (h1 : HasDerivAt f f1 a) :
    Filter.Tendsto (fun h => (f (a + h) - f (a - h)) / (2 * h)) (𝓝[≠] 0) (𝓝 f1) := by
  have hp := hasDerivAt_iff_tendsto_slope_zero.1 h1
  have hn : Filter.Tendsto (fun h : ℝ => -h) (𝓝[≠] 0) (𝓝[≠] 0) := by
    refine tendsto_nhdsWithin_iff.2 ⟨?_, ?_⟩
    · have : Filter.Tendsto (fun h : ℝ => -h) (𝓝 0) (𝓝 (-0)) := continuous_neg.tendsto 0
      rw [neg_zero] at this
      exact this.mono_left nhdsWithin_le_nhds
    · filter_upwards [self_mem_nhdsWithin] with h hh
      exact neg_ne_zero.2 hh
  have := (hp.add (hp.comp hn)).div_const 2
  rw [show (f1 + f1) / 2 = f1 by ring] at this
  refine this.congr' ?_
  filter_upwards [self_mem_nhdsWithin] with h hh
  have hh' : h ≠ 0 := hh
  simp only [Function.comp, smul_eq_mul]
  rw [← sub_eq_add_neg]
  field_simp
  ring

namespace IK

/-! ### The poses are smooth functions of the angles -/

section smooth
variable {E : Type*} [NormedAddCommGroup E] [NormedSpace ℝ E]

def SmoothV (f : E → V3) : Prop := ContDiff ℝ 2 (fun p => (f p).x) ∧ ContDiff ℝ 2 (fun p => (f p).y) ∧ ContDiff ℝ 2 (fun p => (f p).z)

def SmoothQ (f : E → Quat) : Prop :=
  ContDiff ℝ 2 (fun p => (f p).s) ∧ ContDiff ℝ 2 (fun p => (f p).x) ∧ ContDiff ℝ 2 (fun p => (f p).y) ∧ ContDiff ℝ 2 (fun p => (f p).z)

theorem SmoothV.const (v : V3) : SmoothV fun _ : E => v := ⟨contDiff_const, contDiff_const, contDiff_const⟩

theorem SmoothV.add {f g : E → V3} (hf : SmoothV f) (hg : SmoothV g) : SmoothV fun p => f p + g p :=
  ⟨hf.1.add hg.1, hf.2.1.add hg.2.1, hf.2.2.add hg.2.2⟩

theorem SmoothV.sub {f g : E → V3} (hf : SmoothV f) (hg : SmoothV g) : SmoothV fun p => f p - g p :=
  ⟨hf.1.sub hg.1, hf.2.1.sub hg.2.1, hf.2.2.sub hg.2.2⟩

theorem SmoothV.dot {f g : E → V3} (hf : SmoothV f) (hg : SmoothV g) : ContDiff ℝ 2 fun p => V3.dot (f p) (g p) := by
  obtain ⟨h1, h2, h3⟩ := hf
  obtain ⟨k1, k2, k3⟩ := hg
  unfold V3.dot
  fun_prop

theorem SmoothQ.prod {f g : E → Quat} (hf : SmoothQ f) (hg : SmoothQ g) : SmoothQ fun p => Quat.prod (f p) (g p) := by
  obtain ⟨h1, h2, h3, h4⟩ := hf
  obtain ⟨k1, k2, k3, k4⟩ := hg
  unfold SmoothQ
  simp only [Quat.prod, Quat.vec, V3.dot, V3.cross, V3.add_x, V3.add_y, V3.add_z, V3.smul_x, V3.smul_y, V3.smul_z]
  refine ⟨?_, ?_, ?_, ?_⟩ <;> fun_prop

theorem SmoothQ.conj {f : E → Quat} (hf : SmoothQ f) : SmoothQ fun p => Quat.conjugate (f p) :=
  ⟨hf.1, hf.2.1.neg, hf.2.2.1.neg, hf.2.2.2.neg⟩

theorem SmoothQ.rotate {f : E → Quat} (hf : SmoothQ f) (v : V3) : SmoothV fun p => Quat.rotate (f p) v := by
  have := (hf.prod (g := fun _ => (⟨0, v.x, v.y, v.z⟩ : Quat)) ⟨contDiff_const, contDiff_const, contDiff_const, contDiff_const⟩).prod hf.conj
  exact ⟨this.2.1, this.2.2.1, this.2.2.2⟩

theorem SmoothQ.rot (a : Axis) {θ : E → ℝ} (h : ContDiff ℝ 2 θ) : SmoothQ fun p => a.rot (θ p) := by
  have hc : ContDiff ℝ 2 fun p => Real.cos (θ p / 2) := Real.contDiff_cos.comp (h.div_const 2)
  have hs : ContDiff ℝ 2 fun p => Real.sin (θ p / 2) := Real.contDiff_sin.comp (h.div_const 2)
  cases a
  · exact ⟨hc, hs, contDiff_const, contDiff_const⟩
  · exact ⟨hc, contDiff_const, hs, contDiff_const⟩
  · exact ⟨hc, contDiff_const, contDiff_const, hs⟩

theorem contDiff_list_sum {α : Type*} (L : List α) (f : α → E → ℝ) (h : ∀ a ∈ L, ContDiff ℝ 2 (f a)) : ContDiff ℝ 2 fun p => (L.map fun a => f a p).sum := by
  induction L with
  | nil => simpa using contDiff_const
  | cons a L ih =>
    simp only [List.map_cons, List.sum_cons]
    exact (h a List.mem_cons_self).add (ih fun b hb => h b (List.mem_cons_of_mem _ hb))

/-- The pose of bone j after an update, as a function of parameters of the angles. -/
theorem pose_smooth {S : Skeleton} (hS : IK.Built S) {v : E → List ℝ} (hv : ∀ i, ContDiff ℝ 2 fun p => (v p).getD i 0)
    {U : E → Skeleton} (hU : ∀ p, HasAngles S (U p) (v p)) (hpos : ∀ p, ∀ b ∈ U p, Posed (U p) b) (j : ℕ) :
    ∀ B : E → Bone, (∀ p, (U p)[j]? = some (B p)) → SmoothQ (fun p => (B p).q_wcs) ∧ SmoothV fun p => (B p).t_wcs := by
  induction j using Nat.strong_induction_on with
  | _ j ih =>
    intro B hB
    have hang : ∀ o, o < 3 → ContDiff ℝ 2 fun p => (B p).angle o := by
      intro o ho
      have he : (fun p => (B p).angle o) = fun p => (v p).getD (j * 3 + o) 0 := by
       funext p
       have := flatMap_angles_get (U p) j o ho
       rw [(hU p).angles, hB p] at this
       rw [List.getD_eq_getElem?_getD, this]
       rfl
      rw [he]
      exact hv _
    -- the shape does not depend on p
    obtain ⟨b, hb, hshape⟩ : ∃ b, S[j]? = some b ∧ ∀ p, b.shape = (B p).shape := by
      obtain ⟨b, hb, -⟩ := (hU 0).shape.get (hB 0)
      refine ⟨b, hb, fun p => ?_⟩
      obtain ⟨b', hb', he⟩ := (hU p).shape.get (hB p)
      rw [hb] at hb'
      injection hb' with hb'
      subst hb'
      exact he
    have hcode : ∀ p, (B p).euler_code = b.euler_code := fun p => by
      have := hshape p
      simp only [Bone.shape, Prod.mk.injEq] at this
      exact this.2.2.2.2.symm
    have ht : ∀ p, (B p).t = b.t := fun p => by
      have := hshape p
      simp only [Bone.shape, Prod.mk.injEq] at this
      exact this.2.2.2.1.symm
    have hpar : ∀ p, (B p).parent = b.parent := fun p => by
      have := hshape p
      simp only [Bone.shape, Prod.mk.injEq] at this
      exact this.2.1.symm
    have hjoint : SmoothQ fun p => (B p).joint := by
      unfold Bone.joint
      simp only [hcode]
      exact ((SmoothQ.rot _ (hang 0 (by omega))).prod (SmoothQ.rot _ (hang 1 (by omega)))).prod (SmoothQ.rot _ (hang 2 (by omega)))
    cases hp : b.parent with
    | none =>
      have h1 : ∀ p, (B p).t_wcs = b.t ∧ (B p).q_wcs = (B p).joint := by
        intro p
        have := (hpos p (B p) (List.mem_of_getElem? (hB p))).1 ((hpar p).trans hp)
        rw [ht p] at this
        exact this
      simp only [h1]
      exact ⟨hjoint, SmoothV.const _⟩
    | some q =>
      have hlt : q < j := (C56_tree hS).parent j b q hb hp
      have hl : ∀ p, q < (U p).length := fun p => by
        have := getElem?_lt (hB p)
        omega
      obtain ⟨i1, i2⟩ := ih q hlt (fun p => (U p)[q]'(hl p)) fun p => List.getElem?_eq_getElem (hl p)
      have h1 : ∀ p, (B p).t_wcs = ((U p)[q]'(hl p)).t_wcs + Quat.rotate ((U p)[q]'(hl p)).q_wcs b.t ∧
          (B p).q_wcs = Quat.prod ((U p)[q]'(hl p)).q_wcs (B p).joint := by
        intro p
        have := (hpos p (B p) (List.mem_of_getElem? (hB p))).2 q _ ((hpar p).trans hp) (List.getElem?_eq_getElem (hl p))
        rw [ht p] at this
        exact this
      simp only [h1]
      exact ⟨i1.prod hjoint, i2.add (i1.rotate _)⟩

/-- The objective is a smooth function of the angles. -/
theorem objective_smooth {S : Skeleton} {limit : ℕ} (hS : IK.Built S) (hu : ∃ S1, update_skeleton limit S = .ok S1) (cs : List Chain)
    (hcs : ∀ c ∈ cs, GoodChain S c) {F : List ℝ → ℝ} (hF : ∀ w, w.length = S.length * 3 → objectiveOf limit S cs w = .ok (F w))
    {v : E → List ℝ} (hl : ∀ p, (v p).length = S.length * 3) (hv : ∀ i, ContDiff ℝ 2 fun p => (v p).getD i 0) : ContDiff ℝ 2 fun p => F (v p) := by
  have hex : ∀ p, ∃ U, HasAngles S U (v p) ∧ (∀ b ∈ U, Posed U b) ∧ compute_objective cs U = .ok (F (v p)) := by
    intro p
    obtain ⟨S1, hS1⟩ := (C58_set hS (v p)).1.2 (hl p).ge
    obtain ⟨h1, h2⟩ := (C58_set hS (v p)).2 S1 hS1
    have hB1 : IK.Built S1 := .angles hS hS1
    rw [C58_get hB1, List.take_of_length_le (hl p).le] at h2
    injection h2 with h2
    obtain ⟨f, S2, T1, h3, h4, h5, h6, h7⟩ := HasAngles.objective hS hu cs hcs (T := S1) (w := v p) ⟨hB1, sameStill_shape h1, h2⟩
    refine ⟨T1, h7, (C57_update (.angles hS h5) h6).2, ?_⟩
    have h8 := hF (v p) (hl p)
    unfold objectiveOf at h8
    simp only [bind, Except.bind] at h8
    rw [h5] at h8
    dsimp only at h8
    rw [h6] at h8
    exact h8
  choose U hU hpos hobj using hex
  have h0 : ∀ p, U p ≠ [] := by
    intro p hc
    have := (hU p).shape.length
    rw [hc] at this
    exact ((C57_success hS limit).1 hu).1 (List.eq_nil_of_length_eq_zero this.symm)
  have hval : ∀ p, F (v p) = (cs.map fun c => V3.dot (c.goal - endOf (U p) c) (c.goal - endOf (U p) c)).sum * 0.5 := by
    intro p
    have := objective_ok cs (endOf (U p)) fun c hc => endOf_ok (h0 p) (goodChain_congr (hU p).shape (hcs c hc))
    rw [hobj p] at this
    injection this
  rw [funext hval]
  refine ContDiff.mul ?_ contDiff_const
  refine contDiff_list_sum cs (fun c p => V3.dot (c.goal - endOf (U p) c) (c.goal - endOf (U p) c)) fun c hc => ?_
  have hend : SmoothV fun p => endOf (U p) c := by
    obtain ⟨j, h1, h2, h3⟩ := hcs c hc
    have hjS : j < S.length := path_lt (((C57_success hS limit).1 hu).1) ⟨h1, h2, h3⟩ j (List.mem_of_getLast? h2)
    have hj : ∀ p, j < (U p).length := fun p => by rw [(hU p).shape.length]; exact hjS
    obtain ⟨s1, s2⟩ := pose_smooth hS hv hU hpos j (fun p => (U p)[j]'(hj p)) fun p => List.getElem?_eq_getElem (hj p)
    have he : ∀ p, endOf (U p) c = ((U p)[j]'(hj p)).t_wcs + Quat.rotate ((U p)[j]'(hj p)).q_wcs c.tool := by
      intro p
      have e1 := endOf_ok (h0 p) (goodChain_congr (hU p).shape (hcs c hc))
      rw [end_effector_ok h2 (List.getElem?_eq_getElem (hj p))] at e1
      injection e1 with e1
      exact e1.symm
    simp only [he]
    exact s2.add (s1.rotate _)
  have := (SmoothV.const c.goal).sub hend
  exact this.dot this

end smooth

theorem smooth_first {f : ℝ → ℝ} (h : ContDiff ℝ 2 f) : ∃ f1 f2 : ℝ → ℝ, (∀ x, HasDerivAt f (f1 x) x) ∧ (∀ x, HasDerivAt f1 (f2 x) x) ∧ Continuous f2 := by
  have h1 : ContDiff ℝ 1 (deriv f) := by
    have e : (1 + 1 : WithTop ℕ∞) = 2 := by norm_num
    exact (contDiff_succ_iff_deriv.1 (e ▸ h)).2.2
  refine ⟨deriv f, deriv (deriv f), fun x => (h.differentiable (by norm_num) x).hasDerivAt, fun x => (h1.differentiable (by norm_num) x).hasDerivAt, ?_⟩
  exact h1.continuous_deriv (by norm_num)

theorem smooth_pair {f : ℝ × ℝ → ℝ} (h : ContDiff ℝ 2 f) : ∃ f1 f12 : ℝ → ℝ → ℝ, (∀ x y, HasDerivAt (fun x => f (x, y)) (f1 x y) x) ∧
    (∀ x y, HasDerivAt (fun y => f1 x y) (f12 x y) y) ∧ Continuous fun p : ℝ × ℝ => f12 p.1 p.2 := by
  have hd : ContDiff ℝ 1 fun p => fderiv ℝ f p ((1, 0) : ℝ × ℝ) := (h.fderiv_right (m := 1) (by norm_num)).clm_apply contDiff_const
  refine ⟨fun x y => fderiv ℝ f (x, y) (1, 0), fun x y => fderiv ℝ (fun p => fderiv ℝ f p ((1, 0) : ℝ × ℝ)) (x, y) (0, 1), fun x y => ?_, fun x y => ?_, ?_⟩
  · exact ((h.differentiable (by norm_num) (x, y)).hasFDerivAt).comp_hasDerivAt x ((hasDerivAt_id x).prodMk (hasDerivAt_const x y))
  · exact ((hd.differentiable (by norm_num) (x, y)).hasFDerivAt).comp_hasDerivAt y ((hasDerivAt_const y x).prodMk (hasDerivAt_id y))
  · exact (hd.continuous_fderiv (by norm_num)).clm_apply continuous_const

theorem HasAngles.objAt {S T : Skeleton} {w : List ℝ} {limit : ℕ} (hS : IK.Built S) (hu : ∃ S1, update_skeleton limit S = .ok S1) (cs : List Chain)
    (hcs : ∀ c ∈ cs, GoodChain S c) {F : List ℝ → ℝ} (hF : ∀ w, w.length = S.length * 3 → objectiveOf limit S cs w = .ok (F w)) (h : HasAngles S T w)
    {k : ℕ} (hk : k < w.length) (x : ℝ) : IK.objAt limit T cs k x = .ok (F (w.set k x)) := by
  obtain ⟨T1, h1, a1, -⟩ := h.set_angle hk x
  obtain ⟨T2, h2, -⟩ := a1.objectiveF hS hu cs hcs hF
  unfold IK.objAt
  unfold updateObjective at h2
  simp only [bind, Except.bind] at h2 ⊢
  rw [h1]
  dsimp only
  cases hc : update_skeleton limit T1 with
  | error err => rw [hc] at h2; cases h2
  | ok T3 =>
    rw [hc] at h2
    dsimp only at h2 ⊢
    cases hc2 : compute_objective cs T3 with
    | error err => rw [hc2] at h2; cases h2
    | ok f =>
      rw [hc2] at h2
      simp only [pure, Except.pure, Except.ok.injEq, Prod.mk.injEq] at h2
      rw [h2.1]

/-- The entries of the gradient at a skeleton with one angle changed. -/
theorem grad_entry {S : Skeleton} {limit : ℕ} (hS : IK.Built S) (hu : ∃ S1, update_skeleton limit S = .ok S1) (cs : List Chain)
    (hcs : ∀ c ∈ cs, GoodChain S c) {F : List ℝ → ℝ} (hF : ∀ w, w.length = S.length * 3 → objectiveOf limit S cs w = .ok (F w)) {v : List ℝ}
    (hA : HasAngles S S v) {i k : ℕ} (hi : i < v.length) (hk : k < v.length) {y : ℝ} {g : ℕ → ℝ} (hg : gradAt limit S cs i y = .ok g) :
    HasDerivAt (fun x => F ((v.set i y).set k x)) (g k) ((v.set i y).getD k 0) := by
  obtain ⟨T1, h1, a1, -⟩ := hA.set_angle hi y
  obtain ⟨T2, h2⟩ := update_ok_of_shape hS hu a1.built a1.shape
  obtain ⟨-, T2', -, -, h2', a2⟩ := a1.update hS hu
  rw [h2] at h2'
  injection h2' with h2'
  subst h2'
  obtain ⟨J, g', hJ, hg', hder⟩ := C59_gradient a1.built h2 cs fun c hc => goodChain_congr a2.shape (hcs c hc)
  have hgg : g' = g := by
    unfold gradAt at hg
    simp only [bind, Except.bind] at hg
    rw [h1] at hg
    dsimp only at hg
    rw [h2] at hg
    dsimp only at hg
    rw [hJ] at hg
    dsimp only at hg
    rw [hg'] at hg
    injection hg
  subst hgg
  have hlen := a2.length
  have hkw : k < (v.set i y).length := by simpa using hk
  obtain ⟨θ, F', h3, h4, -, h5⟩ := hder k (by rw [a2.shape.length, ← hlen]; exact hkw)
  have hθ : θ = (v.set i y).getD k 0 := by
    have := a2.get_angle (List.getElem?_eq_getElem hkw)
    rw [h3] at this
    injection this with this
    rw [this, List.getD_eq_getElem?_getD, List.getElem?_eq_getElem hkw]
    rfl
  rw [hθ] at h5
  have hFF : F' = fun x => F ((v.set i y).set k x) := by
    funext x
    have := h4 x
    rw [a2.objAt hS hu cs hcs hF hkw x] at this
    injection this with this
    exact this.symm
  rw [hFF] at h5
  exact h5

theorem contDiff_set {E : Type*} [NormedAddCommGroup E] [NormedSpace ℝ E] {v : E → List ℝ} (hv : ∀ j, ContDiff ℝ 2 fun p => (v p).getD j 0) {n : ℕ}
    (hl : ∀ p, (v p).length = n) (i : ℕ) {θ : E → ℝ} (h : ContDiff ℝ 2 θ) : ∀ j, ContDiff ℝ 2 fun p => ((v p).set i (θ p)).getD j 0 := by
  intro j
  by_cases hij : i = j
  · subst hij
    by_cases hi : i < n
    · have : (fun p => ((v p).set i (θ p)).getD i 0) = θ := by
        funext p
        rw [List.getD_eq_getElem?_getD, List.getElem?_set_self (by rw [hl]; exact hi)]
        rfl
      rw [this]
      exact h
    · have : (fun p => ((v p).set i (θ p)).getD i 0) = fun _ => 0 := by
        funext p
        rw [List.getD_eq_getElem?_getD, List.getElem?_eq_none (by rw [List.length_set, hl]; omega)]
        rfl
      rw [this]
      exact contDiff_const
  · have : (fun p => ((v p).set i (θ p)).getD j 0) = fun p => (v p).getD j 0 := by
      funext p
      rw [List.getD_eq_getElem?_getD, List.getElem?_set_ne hij, ← List.getD_eq_getElem?_getD]
    rw [this]
    exact hv j

/-- The second differences of the objective tend to the second derivative. -/
theorem secondDiff_limit {S : Skeleton} {limit : ℕ} (hS : IK.Built S) (hu : ∃ S1, update_skeleton limit S = .ok S1) (cs : List Chain)
    (hcs : ∀ c ∈ cs, GoodChain S c) {F : List ℝ → ℝ} (hF : ∀ w, w.length = S.length * 3 → objectiveOf limit S cs w = .ok (F w)) {v : List ℝ}
    (hA : HasAngles S S v) {i k : ℕ} {a b : ℝ} (hi : v[i]? = some a) (hk : v[k]? = some b) {D : ℝ} (hD : IsSecond limit S cs i k D) :
    Filter.Tendsto (fun h => secondDiff F v i k a b h) (𝓝[≠] 0) (𝓝 D) := by
  obtain ⟨θ, G, hθ, hG, hder⟩ := hD
  have hil := (List.getElem?_eq_some_iff.1 hi).1
  have hkl := (List.getElem?_eq_some_iff.1 hk).1
  rw [hA.get_angle hi] at hθ
  injection hθ with hθ
  subst hθ
  have hgrad := fun y => grad_entry hS hu cs hcs hF hA hil hkl (hG y)
  have hlen := hA.length
  unfold secondDiff
  by_cases hik : i = k
  · subst hik
    simp only [if_true, List.set_set] at hgrad ⊢
    have hsm : ContDiff ℝ 2 fun x => F (v.set i x) :=
      objective_smooth hS hu cs hcs hF (v := fun x : ℝ => v.set i x) (fun p => by simpa using hlen) (contDiff_set (v := fun _ : ℝ => v) (fun j => contDiff_const) (fun _ => rfl) i contDiff_id)
    obtain ⟨f1, f2, d1, d2, hc⟩ := smooth_first hsm
    have e1 : (fun y => G y i) = f1 := by
      funext y
      have := hgrad y
      rw [List.getD_eq_getElem?_getD, List.getElem?_set_self hil] at this
      exact this.unique (d1 y)
    rw [e1] at hder
    have e2 : D = f2 a := hder.unique (d2 a)
    rw [e2]
    have := diag_diff_limit d1 d2 a hc.continuousAt
    have hv : v.set i a = v := by
      obtain ⟨h1, h2⟩ := List.getElem?_eq_some_iff.1 hi
      rw [← h2, List.set_getElem_self]
    rw [hv] at this
    exact this
  · simp only [if_neg hik]
    have hsm : ContDiff ℝ 2 fun p : ℝ × ℝ => F ((v.set i p.2).set k p.1) :=
      objective_smooth hS hu cs hcs hF (v := fun p : ℝ × ℝ => (v.set i p.2).set k p.1) (fun p => by simpa using hlen)
        (contDiff_set (n := v.length) (v := fun p : ℝ × ℝ => v.set i p.2) (contDiff_set (v := fun _ : ℝ × ℝ => v) (fun j => contDiff_const) (fun _ => rfl) i contDiff_snd)
          (fun p => by simp) k contDiff_fst)
    obtain ⟨f1, f12, d1, d2, hc⟩ := smooth_pair hsm
    have e1 : (fun y => G y k) = f1 b := by
      funext y
      have := hgrad y
      rw [List.getD_eq_getElem?_getD, List.getElem?_set_ne hik, hk] at this
      exact this.unique (d1 b y)
    rw [e1] at hder
    have e2 : D = f12 b a := hder.unique (d2 b a)
    rw [e2]
    refine (mixed_diff_limit (f := fun x y => F ((v.set i y).set k x)) d1 d2 b a hc.continuousAt).congr fun h => ?_
    congr 1
    ring

end IK

/-- **C78** (the gradient is the limit). For an updated skeleton, as the step goes to zero, every entry of the finite difference gradient tends to that entry of
`compute_gradient`. -/
theorem C78_gradient_limit {S0 S : Skeleton} {limit : ℕ} (hS0 : IK.Built S0) (hu : update_skeleton limit S0 = .ok S) (cs : List Chain)
    (hcs : ∀ c ∈ cs, ∃ j, IsPath S c.bones j) {J : Array2} {g : ℕ → ℝ} (hJ : compute_jacobian cs S = .ok J) (hg : compute_gradient cs S J = .ok g) :
    ∃ fd : ℝ → List ℝ, (∀ h, h ≠ 0 → ∃ S', compute_finite_difference_gradient limit cs S h = .ok (fd h, S')) ∧
      ∀ i, i < S.length * 3 → Filter.Tendsto (fun h => (fd h).getD i 0) (𝓝[≠] 0) (𝓝 (g i)) := by
  have hS : IK.Built S := .update hS0 hu
  have hu' : ∃ S1, update_skeleton limit S = .ok S1 := update_ok_of_shape hS0 ⟨S, hu⟩ hS (C57_update hS0 hu).1.shape
  have hv := C58_get hS
  have hA : HasAngles S S (S.flatMap Bone.angles) := ⟨hS, .refl S, rfl⟩
  have hlen := hA.length
  generalize S.flatMap Bone.angles = v at hv hA hlen
  obtain ⟨F, hF, hfd⟩ := C78_gradient hS hu' cs hcs hv
  have hfd' : ∀ h, ∃ fd, h ≠ 0 → (∃ S', compute_finite_difference_gradient limit cs S h = .ok (fd, S')) ∧
      ∀ i a, v[i]? = some a → fd[i]? = some ((F (v.set i (a + h)) - F (v.set i (a - h))) / (2 * h)) := by
    intro h
    by_cases h0 : h = 0
    · exact ⟨[], fun hc => absurd h0 hc⟩
    · obtain ⟨fd, S', h1, -, h2, -⟩ := hfd h h0
      exact ⟨fd, fun _ => ⟨⟨S', h1⟩, h2⟩⟩
  choose fd hfd' using hfd'
  refine ⟨fd, fun h h0 => (hfd' h h0).1, fun i hi => ?_⟩
  obtain ⟨J', g', hJ', hg', hder⟩ := C59_gradient hS0 hu cs hcs
  rw [hJ] at hJ'
  injection hJ' with hJ'
  subst hJ'
  rw [hg] at hg'
  injection hg' with hg'
  subst hg'
  obtain ⟨θ, F', h3, h4, -, h5⟩ := hder i hi
  have hil : i < v.length := by omega
  have hθ := hA.get_angle (List.getElem?_eq_getElem hil)
  rw [h3] at hθ
  injection hθ with hθ
  have hFF : F' = fun x => F (v.set i x) := by
    funext x
    have := h4 x
    rw [hA.objAt hS hu' cs hcs (fun w hw => hF w (hw.trans hlen.symm)) hil x] at this
    injection this with this
    exact this.symm
  rw [hFF, hθ] at h5
  refine (first_diff_limit h5).congr' ?_
  filter_upwards [self_mem_nhdsWithin] with h hh
  rw [List.getD_eq_getElem?_getD, (hfd' h hh).2 i _ (List.getElem?_eq_getElem hil)]
  rfl

/-- **C78** (the second derivative is the limit). For an updated skeleton, as the step goes to zero, every entry (i, k) of the finite difference Hessian tends to
the second derivative of the objective in the angles i and k. -/
theorem C78_hessian_limit {S0 S : Skeleton} {limit : ℕ} (hS0 : IK.Built S0) (hu : update_skeleton limit S0 = .ok S) (cs : List Chain)
    (hcs : ∀ c ∈ cs, ∃ j, IsPath S c.bones j) :
    ∃ fd : ℝ → List (List ℝ), (∀ h, h ≠ 0 → ∃ S', compute_finite_difference_hessian limit cs S h = .ok (fd h, S')) ∧
      ∀ i k, i < S.length * 3 → k < S.length * 3 → ∃ D, IsSecond limit S cs i k D ∧
        Filter.Tendsto (fun h => ((fd h).getD i []).getD k 0) (𝓝[≠] 0) (𝓝 D) := by
  have hS : IK.Built S := .update hS0 hu
  have hu' : ∃ S1, update_skeleton limit S = .ok S1 := update_ok_of_shape hS0 ⟨S, hu⟩ hS (C57_update hS0 hu).1.shape
  have hv := C58_get hS
  have hA : HasAngles S S (S.flatMap Bone.angles) := ⟨hS, .refl S, rfl⟩
  have hlen := hA.length
  generalize S.flatMap Bone.angles = v at hv hA hlen
  obtain ⟨F, hF, hfd⟩ := C78_hessian hS hu' cs hcs hv
  have hfd' : ∀ h, ∃ fd, h ≠ 0 → (∃ S', compute_finite_difference_hessian limit cs S h = .ok (fd, S')) ∧
      ∀ i j a b, v[i]? = some a → v[j]? = some b → ∃ row, fd[i]? = some row ∧ row[j]? = some (secondDiff F v i j a b h) := by
    intro h
    by_cases h0 : h = 0
    · exact ⟨[], fun hc => absurd h0 hc⟩
    · obtain ⟨fd, S', h1, -, -, h2, -⟩ := hfd h h0
      exact ⟨fd, fun _ => ⟨⟨S', h1⟩, h2⟩⟩
  choose fd hfd' using hfd'
  refine ⟨fd, fun h h0 => (hfd' h h0).1, fun i k hi hk => ?_⟩
  obtain ⟨D, hD, -⟩ := C77_second_symmetric hS0 hu cs hcs hi hk
  have hil : i < v.length := by omega
  have hkl : k < v.length := by omega
  refine ⟨D, hD, ?_⟩
  refine (secondDiff_limit hS hu' cs hcs (fun w hw => hF w (hw.trans hlen.symm)) hA (List.getElem?_eq_getElem hil) (List.getElem?_eq_getElem hkl) hD).congr' ?_
  filter_upwards [self_mem_nhdsWithin] with h hh
  obtain ⟨row, h1, h2⟩ := (hfd' h hh).2 i k _ _ (List.getElem?_eq_getElem hil) (List.getElem?_eq_getElem hkl)
  rw [List.getD_eq_getElem?_getD, List.getD_eq_getElem?_getD, h1, Option.getD_some, h2]
  rfl

/-- **C78** (finding). The poses after the call are not those before: for one root bone with zero angles, updated, the end effector with tool (0, 1, 0) is at
(0, 1, 0), and at (sin h, cos h, 0) after a finite difference gradient with step h, with the same joint angles; another update is needed. -/
theorem C78_stale (h : ℝ) (h0 : h ≠ 0) : ∃ S S' g, ∃ c : Chain, IK.Built S ∧ update_skeleton 1000 S = .ok S ∧ IsPath S c.bones 0 ∧
    compute_finite_difference_gradient 1000 [c] S h = .ok (g, S') ∧ get_joint_angles S' = get_joint_angles S ∧
    get_end_effector c S = .ok ⟨0, 1, 0⟩ ∧ get_end_effector c S' = .ok ⟨Real.sin h, Real.cos h, 0⟩ := by
  have hv : get_joint_angles exRoot = .ok [0, 0, 0] := C58_get exRoot_built
  obtain ⟨F, -, hfd⟩ := C78_gradient exRoot_built ⟨_, exRoot_update⟩ [exTool] (by simpa using ⟨0, exTool_path⟩) hv
  obtain ⟨g, S', h1, -, -, h2, h3⟩ := hfd h h0
  obtain ⟨S1, S2, h4, h5, h6⟩ := h3 0 rfl
  refine ⟨exRoot, S', g, exTool, exRoot_built, exRoot_update, exTool_path, h1, h2.trans hv.symm, ?_, ?_⟩
  · rw [endOf_ok (by simp [exRoot]) ⟨0, exTool_path⟩, exTool_end]
  · have hB1 : IK.Built S1 := .angles exRoot_built h4
    have hB2 : IK.Built S2 := .update hB1 h5
    obtain ⟨s1, a1⟩ := (C58_set exRoot_built _).2 S1 h4
    obtain ⟨s3, a3⟩ := (C58_set hB2 _).2 S' h6
    obtain ⟨d2, p2⟩ := C57_update hB1 h5
    have hl1 : S1.length = 1 := sameStill_length s1
    have hl2 : S2.length = 1 := by rw [d2.shape.length, hl1]
    obtain ⟨b1, rfl⟩ := List.length_eq_one_iff.1 hl1
    obtain ⟨b2, rfl⟩ := List.length_eq_one_iff.1 hl2
    obtain ⟨b3, rfl⟩ := List.length_eq_one_iff.1 ((sameStill_length s3).trans rfl)
    rw [C58_get hB1] at a1
    have hs1 : exRoot.map Bone.still = [b1].map Bone.still := s1
    have hs3 : [b2].map Bone.still = [b3].map Bone.still := s3
    have hd2 : [b1].map Bone.data = [b2].map Bone.data := d2
    obtain ⟨i1, c1, α1, β1, γ1, q1, w1, t1, r1, k1⟩ := b1
    obtain ⟨i2, c2, α2, β2, γ2, q2, w2, t2, r2, k2⟩ := b2
    obtain ⟨i3, c3, α3, β3, γ3, q3, w3, t3, r3, k3⟩ := b3
    simp only [exRoot, List.map_cons, List.map_nil, Bone.still, Bone.data, Bone.shape, List.cons.injEq, Prod.mk.injEq, and_true] at hs1 hs3 hd2
    obtain ⟨⟨rfl, rfl, rfl, rfl, rfl⟩, rfl, rfl⟩ := hs1
    obtain ⟨⟨rfl, rfl, rfl, rfl, rfl⟩, rfl, rfl, rfl⟩ := hd2
    obtain ⟨⟨rfl, rfl, rfl, rfl, rfl⟩, rfl, rfl⟩ := hs3
    have ha : [α1, β1, γ1] = [0, 0, 0 - h] := by
      injection a1
    simp only [List.cons.injEq, and_true, zero_sub] at ha
    obtain ⟨rfl, rfl, rfl⟩ := ha
    obtain ⟨x1, x2⟩ := (p2 _ List.mem_cons_self).1 rfl
    dsimp only [Bone.joint] at x1 x2
    rw [end_effector_ok (j := 0) rfl (b := _) rfl, x1, x2]
    congr 1
    have e : -h / 2 = -(h / 2) := by ring
    have hs : Real.sin h = 2 * Real.sin (h / 2) * Real.cos (h / 2) := by rw [← Real.sin_two_mul]; congr 1; ring
    have hc : Real.cos h = Real.cos (h / 2) ^ 2 - Real.sin (h / 2) ^ 2 := by rw [← Real.cos_two_mul']; congr 1; ring
    rw [hs, hc]
    refine V3.ext ?_ ?_ ?_ <;>
      simp [exTool, codeAxes, Axis.rot, Quat.Rz, Quat.Ry, Quat.rotate, Quat.prod, Quat.conjugate, Quat.vec, V3.dot, V3.cross, e] <;> ring

end Verif
