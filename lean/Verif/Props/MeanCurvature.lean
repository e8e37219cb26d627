import Verif.Model.MeanCurvature
import Verif.Props.Grid3
import Verif.Lemmas.Vec
import Mathlib.Analysis.SpecialFunctions.Sqrt
import Mathlib.Analysis.Calculus.LHopital
import Mathlib.Analysis.Calculus.Deriv.Pow
import Mathlib.Analysis.Calculus.Deriv.Inv

/-! C101: the curvature field of `mean_curvature.py`. -/

namespace Verif

open Curvature Grid

/-! ### Specification -/

/-- G is the gradient of φ at q. -/
def IsGradAt (φ : V3 → ℝ) (q g : V3) : Prop := ∀ v : V3, HasDerivAt (fun s : ℝ => φ (q + s • v)) (V3.dot g v) 0

/-- κ is the divergence at p of the unit normals of the level sets of a field with gradients G: of the vector field G / |G|. -/
def IsNormalDivergence (G : V3 → V3) (p : V3) (κ : ℝ) : Prop :=
  ∃ a b c : ℝ, HasDerivAt (fun s : ℝ => (G (p + s • ⟨1, 0, 0⟩)).x / V3.norm (G (p + s • ⟨1, 0, 0⟩))) a 0 ∧
    HasDerivAt (fun s : ℝ => (G (p + s • ⟨0, 1, 0⟩)).y / V3.norm (G (p + s • ⟨0, 1, 0⟩))) b 0 ∧
    HasDerivAt (fun s : ℝ => (G (p + s • ⟨0, 0, 1⟩)).z / V3.norm (G (p + s • ⟨0, 0, 1⟩))) c 0 ∧ κ = a + b + c

/-- A node that is not on the boundary of the grid. -/
def IsInner (g : Grid) (i j k : ℕ) : Prop := 1 ≤ i ∧ i + 1 < g.I ∧ 1 ≤ j ∧ j + 1 < g.J ∧ 1 ≤ k ∧ k + 1 < g.K

/-! ### The loop -/

theorem mem_innerLoop (g : Grid) (n : ℕ × ℕ × ℕ) : n ∈ innerLoop g ↔ IsInner g n.1 n.2.1 n.2.2 := by
  obtain ⟨i, j, k⟩ := n
  simp only [innerLoop, List.mem_flatMap, List.mem_map, List.mem_range'_1, Prod.mk.injEq, IsInner]
  constructor
  · rintro ⟨k', hk, j', hj, i', hi, rfl, rfl, rfl⟩
    omega
  · intro h
    exact ⟨k, by omega, j, by omega, i, by omega, rfl, rfl, rfl⟩

/-- The stencil of the nodal values φ at (i, j, k). -/
def stencilOf (φ : ℕ → ℕ → ℕ → ℝ) (i j k : ℕ) : Stencil :=
  ⟨φ i j k, φ (i + 1) j k, φ (i - 1) j k, φ i (j + 1) k, φ i (j - 1) k, φ i j (k + 1), φ i j (k - 1),
    φ (i + 1) (j + 1) k, φ (i - 1) (j + 1) k, φ (i + 1) (j - 1) k, φ (i - 1) (j - 1) k,
    φ (i + 1) j (k + 1), φ (i - 1) j (k + 1), φ (i + 1) j (k - 1), φ (i - 1) j (k - 1),
    φ i (j + 1) (k + 1), φ i (j + 1) (k - 1), φ i (j - 1) (k + 1), φ i (j - 1) (k - 1)⟩

theorem stencil_ok {g : Grid} {φ : ℕ → ℕ → ℕ → ℝ} (hs : Sampled g φ) {i j k : ℕ} (h : IsInner g i j k) :
    stencil g i j k = .ok (stencilOf φ i j k) := by
  obtain ⟨h1, h2, h3, h4, h5, h6⟩ := h
  have v : ∀ a b c, a < g.I → b < g.J → c < g.K → g.get_node_value a b c = .ok (φ a b c) := hs.val
  unfold stencil
  rw [v i j k (by omega) (by omega) (by omega), v (i + 1) j k (by omega) (by omega) (by omega), v (i - 1) j k (by omega) (by omega) (by omega),
    v i (j + 1) k (by omega) (by omega) (by omega), v i (j - 1) k (by omega) (by omega) (by omega), v i j (k + 1) (by omega) (by omega) (by omega),
    v i j (k - 1) (by omega) (by omega) (by omega), v (i + 1) (j + 1) k (by omega) (by omega) (by omega),
    v (i - 1) (j + 1) k (by omega) (by omega) (by omega), v (i + 1) (j - 1) k (by omega) (by omega) (by omega),
    v (i - 1) (j - 1) k (by omega) (by omega) (by omega), v (i + 1) j (k + 1) (by omega) (by omega) (by omega),
    v (i - 1) j (k + 1) (by omega) (by omega) (by omega), v (i + 1) j (k - 1) (by omega) (by omega) (by omega),
    v (i - 1) j (k - 1) (by omega) (by omega) (by omega), v i (j + 1) (k + 1) (by omega) (by omega) (by omega),
    v i (j + 1) (k - 1) (by omega) (by omega) (by omega), v i (j - 1) (k + 1) (by omega) (by omega) (by omega),
    v i (j - 1) (k - 1) (by omega) (by omega) (by omega)]
  rfl

theorem foldlM_except_congr {α β : Type} {f g : β → α → Except PyErr β} (L : List α) (h : ∀ v, ∀ n ∈ L, f v n = g v n) (v0 : β) :
    L.foldlM f v0 = L.foldlM g v0 := by
  induction L generalizing v0 with
  | nil => rfl
  | cons a L ih =>
    rw [List.foldlM_cons, List.foldlM_cons, h v0 a List.mem_cons_self]
    congr 1
    funext v
    exact ih (fun v n hn => h v n (List.mem_cons_of_mem _ hn)) v

theorem create_ok {g : Grid} {φ : ℕ → ℕ → ℕ → ℝ} (hs : Sampled g φ) :
    ∃ κ, create_from_sdf g = .ok κ ∧ κ.I = g.I ∧ κ.J = g.J ∧ κ.K = g.K ∧ κ.min_coord = g.min_coord ∧ κ.max_coord = g.max_coord ∧
      κ.spacing = g.spacing ∧ (∀ i j k, IsInner g i j k → κ.get_node_value i j k = .ok (kappa (stencilOf φ i j k) g.spacing)) ∧
      ∀ i j k, i < g.I → j < g.J → k < g.K → ¬ IsInner g i j k → κ.get_node_value i j k = .ok 0 := by
  have hI := hs.hI
  have hJ := hs.hJ
  have hK := hs.hK
  have cI : (2:ℝ) ≤ g.I := by exact_mod_cast hI
  have cJ : (2:ℝ) ≤ g.J := by exact_mod_cast hJ
  have cK : (2:ℝ) ≤ g.K := by exact_mod_cast hK
  have hle : ¬ (g.max_coord.x < g.min_coord.x ∨ g.max_coord.y < g.min_coord.y ∨ g.max_coord.z < g.min_coord.z) := by
    rw [← hs.ex, ← hs.ey, ← hs.ez]
    have h1 := mul_nonneg hs.hx.le (by linarith : (0:ℝ) ≤ g.I - 1)
    have h2 := mul_nonneg hs.hy.le (by linarith : (0:ℝ) ≤ g.J - 1)
    have h3 := mul_nonneg hs.hz.le (by linarith : (0:ℝ) ≤ g.K - 1)
    rintro (h | h | h) <;> linarith
  have hinit : Grid.init g.min_coord g.max_coord g.I g.J g.K = .ok { g with values := none } := by
    unfold Grid.init
    rw [if_neg hle, if_neg (by exact_mod_cast not_lt.2 hI), if_neg (by exact_mod_cast not_lt.2 hJ), if_neg (by exact_mod_cast not_lt.2 hK)]
    simp only [Int.toNat_natCast]
    congr 2
    · refine V3.ext ?_ ?_ ?_
      · simp only [V3.sub_x, Int.cast_natCast]
        rw [← hs.ex]
        field_simp [show (g.I : ℝ) - 1 ≠ 0 by linarith]
        ring
      · simp only [V3.sub_y, Int.cast_natCast]
        rw [← hs.ey]
        field_simp [show (g.J : ℝ) - 1 ≠ 0 by linarith]
        ring
      · simp only [V3.sub_z, Int.cast_natCast]
        rw [← hs.ez]
        field_simp [show (g.K : ℝ) - 1 ≠ 0 by linarith]
        ring
  cases hv : g.values with
  | none =>
    have := hs.val 0 0 0 (by omega) (by omega) (by omega)
    unfold get_node_value at this
    rw [hv] at this
    cases this
  | some vals =>
    have hlen : ∀ i j k, i < g.I → j < g.J → k < g.K → g.get_linear_index i j k < vals.length := by
      intro i j k hi hj hk
      have := hs.val i j k hi hj hk
      unfold get_node_value at this
      rw [hv] at this
      simp only at this
      split at this
      · cases this
      · rename_i x hx
        exact (List.getElem?_eq_some_iff.1 hx).1
    have hin : ∀ n ∈ innerLoop g, n.1 < g.I ∧ n.2.1 < g.J ∧ n.2.2 < g.K := by
      intro n hn
      rw [mem_innerLoop] at hn
      unfold IsInner at hn
      omega
    obtain ⟨v, h1, h2, h3, h4⟩ := fold_set (fun n : ℕ × ℕ × ℕ => g.get_linear_index n.1 n.2.1 n.2.2)
      (fun n => kappa (stencilOf φ n.1 n.2.1 n.2.2) g.spacing) (innerLoop g) (List.replicate vals.length 0)
      (fun n hn => by
        rw [List.length_replicate]
        obtain ⟨a, b, c⟩ := hin n hn
        exact hlen _ _ _ a b c)
      (fun m hm n hn h => by
        rw [(C23_linear_index_bijective g).2.1 (hin m hm) (hin n hn) h])
    refine ⟨{ g with values := some v }, ?_, rfl, rfl, rfl, rfl, rfl, rfl, ?_, ?_⟩
    · unfold create_from_sdf
      rw [hinit]
      simp only [bind, Except.bind, hv]
      rw [foldlM_except_congr (g := fun (v : List ℝ) n => if g.get_linear_index n.1 n.2.1 n.2.2 < v.length then
          .ok (v.set (g.get_linear_index n.1 n.2.1 n.2.2) (kappa (stencilOf φ n.1 n.2.1 n.2.2) g.spacing))
        else .error .indexError), h1]
      intro w n hn
      rw [mem_innerLoop] at hn
      rw [stencil_ok hs hn]
      rfl
    · intro i j k hin'
      have := h3 (i, j, k) ((mem_innerLoop g _).2 hin')
      show ({ g with values := some v } : Grid).get_node_value i j k = _
      unfold get_node_value
      simp only
      rw [show ({ g with values := some v } : Grid).get_linear_index i j k = g.get_linear_index i j k from rfl, this]
    · intro i j k hi hj hk hno
      have := h4 (g.get_linear_index i j k) (by
        intro n hn he
        have h5 := (C23_linear_index_bijective g).2.1 (hin n hn) (show (i, j, k) ∈ _ from ⟨hi, hj, hk⟩) he
        rw [mem_innerLoop, h5] at hn
        exact hno hn)
      unfold get_node_value
      simp only
      rw [show ({ g with values := some v } : Grid).get_linear_index i j k = g.get_linear_index i j k from rfl, this,
        List.getElem?_replicate, if_pos (hlen i j k hi hj hk)]

/-- **C101** (the field). For a field with positive spacing, `create_from_sdf` returns a field over the same grid; its values lie between
minus and plus the inverse of the smallest spacing, and they are 0 on the boundary of the grid. -/
theorem C101_field {g : Grid} {φ : ℕ → ℕ → ℕ → ℝ} (hs : Sampled g φ) :
    ∃ κ, create_from_sdf g = .ok κ ∧ ∃ ψ, Sampled κ ψ ∧ κ.I = g.I ∧ κ.J = g.J ∧ κ.K = g.K ∧ κ.min_coord = g.min_coord ∧
      κ.max_coord = g.max_coord ∧ (∀ i j k, i < g.I → j < g.J → k < g.K → |ψ i j k| ≤ 1 / min (min g.spacing.x g.spacing.y) g.spacing.z) ∧
      ∀ i j k, i < g.I → j < g.J → k < g.K → (i = 0 ∨ i + 1 = g.I ∨ j = 0 ∨ j + 1 = g.J ∨ k = 0 ∨ k + 1 = g.K) → ψ i j k = 0 := by
  obtain ⟨κ, h0, eI, eJ, eK, e1, e2, e3, h1, h2⟩ := create_ok hs
  have hpos : 0 < 1 / min (min g.spacing.x g.spacing.y) g.spacing.z := by
    have := hs.hx; have := hs.hy; have := hs.hz
    positivity
  classical
  refine ⟨κ, h0, fun i j k => if IsInner g i j k then kappa (stencilOf φ i j k) g.spacing else 0, ⟨?_, ?_, ?_, ?_, ?_, ?_, ?_, ?_, ?_, ?_⟩,
    eI, eJ, eK, e1, e2, ?_, ?_⟩
  · rw [eI]; exact hs.hI
  · rw [eJ]; exact hs.hJ
  · rw [eK]; exact hs.hK
  · rw [e3]; exact hs.hx
  · rw [e3]; exact hs.hy
  · rw [e3]; exact hs.hz
  · rw [e1, e2, e3, eI]; exact hs.ex
  · rw [e1, e2, e3, eJ]; exact hs.ey
  · rw [e1, e2, e3, eK]; exact hs.ez
  · intro i j k hi hj hk
    rw [eI] at hi
    rw [eJ] at hj
    rw [eK] at hk
    split_ifs with h
    · exact h1 i j k h
    · exact h2 i j k hi hj hk h
  · intro i j k hi hj hk
    simp only
    split_ifs with h
    · unfold kappa clip kappaMax
      rw [abs_le]
      exact ⟨le_min (le_max_right _ _) (by linarith), min_le_right _ _⟩
    · rw [abs_zero]
      exact hpos.le
  · intro i j k hi hj hk hb
    simp only
    rw [if_neg]
    unfold IsInner
    omega

theorem clip_neg {x m : ℝ} (hm : 0 ≤ m) : clip (-x) (-m) m = -clip x (-m) m := by
  unfold clip
  rcases le_total x (-m) with h | h
  · rw [max_eq_right h, max_eq_left (by linarith), min_eq_right (by linarith), min_eq_left (by linarith), neg_neg]
  · rcases le_total x m with h' | h'
    · rw [max_eq_left h, min_eq_left h', max_eq_left (by linarith), min_eq_left (by linarith)]
    · rw [max_eq_left h, min_eq_right h', max_eq_right (by linarith), min_eq_left (by linarith)]

/-- **C101** (inside and outside). Exchanging inside and outside (negating the distances) negates the curvatures, and moving the surface to
another level set (adding a constant to the distances) does not change them. -/
theorem C101_sign_level {g g' : Grid} {φ : ℕ → ℕ → ℕ → ℝ} (c : ℝ) (hs : Sampled g φ) (hgrid : g'.spacing = g.spacing ∧ g'.I = g.I ∧ g'.J = g.J ∧ g'.K = g.K)
    {κ κ' : Grid} (hκ : create_from_sdf g = .ok κ) (hκ' : create_from_sdf g' = .ok κ') {i j k : ℕ} (hi : i < g.I) (hj : j < g.J) (hk : k < g.K)
    {x x' : ℝ} (hx : κ.get_node_value i j k = .ok x) (hx' : κ'.get_node_value i j k = .ok x') :
    (Sampled g' (fun i j k => -φ i j k) → x' = -x) ∧ (Sampled g' (fun i j k => φ i j k + c) → x' = x) := by
  have hpos : 0 ≤ 1 / min (min g.spacing.x g.spacing.y) g.spacing.z := by
    have := hs.hx; have := hs.hy; have := hs.hz
    positivity
  obtain ⟨κ1, h0, -, -, -, -, -, -, h1, h2⟩ := create_ok hs
  rw [hκ, Except.ok.injEq] at h0
  subst h0
  constructor
  · intro hs'
    obtain ⟨κ2, h0', -, -, -, -, -, -, h1', h2'⟩ := create_ok hs'
    rw [hκ', Except.ok.injEq] at h0'
    subst h0'
    by_cases hin : IsInner g i j k
    · have hin' : IsInner g' i j k := by unfold IsInner; rw [hgrid.2.1, hgrid.2.2.1, hgrid.2.2.2]; exact hin
      rw [h1 i j k hin, Except.ok.injEq] at hx
      rw [h1' i j k hin', Except.ok.injEq, hgrid.1] at hx'
      rw [← hx, ← hx']
      have hg : grad (stencilOf (fun i j k => -φ i j k) i j k) g.spacing = -grad (stencilOf φ i j k) g.spacing := by
        refine V3.ext ?_ ?_ ?_ <;> simp only [grad, stencilOf, V3.neg_x, V3.neg_y, V3.neg_z] <;> ring
      have hq : quotient (grad (stencilOf (fun i j k => -φ i j k) i j k) g.spacing) (second (stencilOf (fun i j k => -φ i j k) i j k) g.spacing) =
          -quotient (grad (stencilOf φ i j k) g.spacing) (second (stencilOf φ i j k) g.spacing) := by
        rw [hg]
        unfold quotient
        rw [show gradLength (-grad (stencilOf φ i j k) g.spacing) = gradLength (grad (stencilOf φ i j k) g.spacing) by
          unfold gradLength; rw [show V3.norm (-grad (stencilOf φ i j k) g.spacing) = V3.norm (grad (stencilOf φ i j k) g.spacing) by
            simp [V3.norm, V3.dot]]]
        rw [← neg_div]
        congr 1
        simp only [second, stencilOf, V3.neg_x, V3.neg_y, V3.neg_z]
        ring
      unfold kappa
      rw [hq]
      exact clip_neg hpos
    · have hin' : ¬ IsInner g' i j k := by unfold IsInner; rw [hgrid.2.1, hgrid.2.2.1, hgrid.2.2.2]; exact hin
      rw [h2 i j k hi hj hk hin, Except.ok.injEq] at hx
      rw [h2' i j k (hgrid.2.1 ▸ hi) (hgrid.2.2.1 ▸ hj) (hgrid.2.2.2 ▸ hk) hin', Except.ok.injEq] at hx'
      rw [← hx, ← hx', neg_zero]
  · intro hs'
    obtain ⟨κ2, h0', -, -, -, -, -, -, h1', h2'⟩ := create_ok hs'
    rw [hκ', Except.ok.injEq] at h0'
    subst h0'
    by_cases hin : IsInner g i j k
    · have hin' : IsInner g' i j k := by unfold IsInner; rw [hgrid.2.1, hgrid.2.2.1, hgrid.2.2.2]; exact hin
      rw [h1 i j k hin, Except.ok.injEq] at hx
      rw [h1' i j k hin', Except.ok.injEq, hgrid.1] at hx'
      rw [← hx, ← hx']
      have hg : grad (stencilOf (fun i j k => φ i j k + c) i j k) g.spacing = grad (stencilOf φ i j k) g.spacing := by
        refine V3.ext ?_ ?_ ?_ <;> simp only [grad, stencilOf] <;> ring
      have hd : second (stencilOf (fun i j k => φ i j k + c) i j k) g.spacing = second (stencilOf φ i j k) g.spacing := by
        simp only [second, stencilOf, Second.mk.injEq]
        refine ⟨?_, ?_, ?_, ?_, ?_, ?_⟩ <;> ring
      unfold kappa
      rw [hg, hd]
    · have hin' : ¬ IsInner g' i j k := by unfold IsInner; rw [hgrid.2.1, hgrid.2.2.1, hgrid.2.2.2]; exact hin
      rw [h2 i j k hi hj hk hin, Except.ok.injEq] at hx
      rw [h2' i j k (hgrid.2.1 ▸ hi) (hgrid.2.2.1 ▸ hj) (hgrid.2.2.2 ▸ hk) hin', Except.ok.injEq] at hx'
      rw [← hx, ← hx']

/-! ### The divergence of the unit normals -/

/-- The exact expression for gradient g and second derivatives D. -/
noncomputable def exactQuotient (g : V3) (D : Second) : ℝ :=
  (D.xx * (g.y ^ 2 + g.z ^ 2) + D.yy * (g.x ^ 2 + g.z ^ 2) + D.zz * (g.x ^ 2 + g.y ^ 2)
    - 2 * (D.xy * g.x * g.y + D.xz * g.x * g.z + D.yz * g.y * g.z)) / V3.norm g ^ 3

/-- The gradients G have the derivatives D along the three axes at p. -/
def HasSecondAt (G : V3 → V3) (p : V3) (D : Second) : Prop := ∀ v : V3,
  HasDerivAt (fun s : ℝ => (G (p + s • v)).x) (D.xx * v.x + D.xy * v.y + D.xz * v.z) 0 ∧
  HasDerivAt (fun s : ℝ => (G (p + s • v)).y) (D.xy * v.x + D.yy * v.y + D.yz * v.z) 0 ∧
  HasDerivAt (fun s : ℝ => (G (p + s • v)).z) (D.xz * v.x + D.yz * v.y + D.zz * v.z) 0

theorem norm_deriv {f : ℝ → V3} {a b c : ℝ} (hx : HasDerivAt (fun s => (f s).x) a 0) (hy : HasDerivAt (fun s => (f s).y) b 0)
    (hz : HasDerivAt (fun s => (f s).z) c 0) (h0 : f 0 ≠ 0) :
    HasDerivAt (fun s => V3.norm (f s)) (((f 0).x * a + (f 0).y * b + (f 0).z * c) / V3.norm (f 0)) 0 := by
  have h1 := ((hx.fun_mul hx).fun_add (hy.fun_mul hy)).fun_add (hz.fun_mul hz)
  have h2 : (f 0).x * (f 0).x + (f 0).y * (f 0).y + (f 0).z * (f 0).z ≠ 0 := by
    intro h
    exact h0 (V3.dot_self_eq_zero.1 (by unfold V3.dot; exact h))
  have h3 := h1.sqrt h2
  refine h3.congr_deriv ?_
  rw [show V3.norm (f 0) = Real.sqrt ((f 0).x * (f 0).x + (f 0).y * (f 0).y + (f 0).z * (f 0).z) from rfl]
  have : Real.sqrt ((f 0).x * (f 0).x + (f 0).y * (f 0).y + (f 0).z * (f 0).z) ≠ 0 := by
    rw [Real.sqrt_ne_zero (add_nonneg (add_nonneg (mul_self_nonneg _) (mul_self_nonneg _)) (mul_self_nonneg _))]
    exact h2
  field_simp
  ring

theorem normalDivergence {G : V3 → V3} {p : V3} {D : Second} (h : HasSecondAt G p D) (h0 : G p ≠ 0) :
    IsNormalDivergence G p (exactQuotient (G p) D) := by
  have hn : V3.norm (G p) ≠ 0 := fun h => h0 (V3.norm_eq_zero.1 h)
  have e0 : ∀ v : V3, p + (0:ℝ) • v = p := by
    intro v
    refine V3.ext ?_ ?_ ?_ <;> simp
  have hsq : V3.norm (G p) ^ 2 = (G p).x ^ 2 + (G p).y ^ 2 + (G p).z ^ 2 := by
    rw [V3.norm_sq]
    unfold V3.dot
    ring
  have key : ∀ v : V3, HasDerivAt (fun s : ℝ => V3.norm (G (p + s • v))) (((G p).x * (D.xx * v.x + D.xy * v.y + D.xz * v.z) +
      (G p).y * (D.xy * v.x + D.yy * v.y + D.yz * v.z) + (G p).z * (D.xz * v.x + D.yz * v.y + D.zz * v.z)) / V3.norm (G p)) 0 := by
    intro v
    obtain ⟨a, b, c⟩ := h v
    have := norm_deriv (f := fun s : ℝ => G (p + s • v)) a b c (by simp only [e0]; exact h0)
    simp only [e0] at this
    exact this
  refine ⟨_, _, _, (h ⟨1, 0, 0⟩).1.fun_div (key ⟨1, 0, 0⟩) (by simp only [e0]; exact hn),
    (h ⟨0, 1, 0⟩).2.1.fun_div (key ⟨0, 1, 0⟩) (by simp only [e0]; exact hn),
    (h ⟨0, 0, 1⟩).2.2.fun_div (key ⟨0, 0, 1⟩) (by simp only [e0]; exact hn), ?_⟩
  simp only [e0, mul_one, mul_zero, add_zero, zero_add]
  unfold exactQuotient
  obtain ⟨n, hN⟩ : ∃ n, n = V3.norm (G p) := ⟨_, rfl⟩
  obtain ⟨gx, hgx⟩ : ∃ n, n = (G p).x := ⟨_, rfl⟩
  obtain ⟨gy, hgy⟩ : ∃ n, n = (G p).y := ⟨_, rfl⟩
  obtain ⟨gz, hgz⟩ : ∃ n, n = (G p).z := ⟨_, rfl⟩
  rw [← hN, ← hgx, ← hgy, ← hgz] at hsq
  rw [← hN] at hn
  rw [← hN, ← hgx, ← hgy, ← hgz]
  field_simp
  rw [hsq]
  ring

/-! ### Fields given by a function -/

/-- The stencil of a function at p with spacing h. -/
def stencilAt (φ : V3 → ℝ) (p h : V3) : Stencil :=
  ⟨φ p, φ (p + ⟨h.x, 0, 0⟩), φ (p + ⟨-h.x, 0, 0⟩), φ (p + ⟨0, h.y, 0⟩), φ (p + ⟨0, -h.y, 0⟩), φ (p + ⟨0, 0, h.z⟩), φ (p + ⟨0, 0, -h.z⟩),
    φ (p + ⟨h.x, h.y, 0⟩), φ (p + ⟨-h.x, h.y, 0⟩), φ (p + ⟨h.x, -h.y, 0⟩), φ (p + ⟨-h.x, -h.y, 0⟩),
    φ (p + ⟨h.x, 0, h.z⟩), φ (p + ⟨-h.x, 0, h.z⟩), φ (p + ⟨h.x, 0, -h.z⟩), φ (p + ⟨-h.x, 0, -h.z⟩),
    φ (p + ⟨0, h.y, h.z⟩), φ (p + ⟨0, h.y, -h.z⟩), φ (p + ⟨0, -h.y, h.z⟩), φ (p + ⟨0, -h.y, -h.z⟩)⟩

theorem stencilOf_eq {g : Grid} {i j k : ℕ} (h : IsInner g i j k) (φ : V3 → ℝ) :
    stencilOf (fun i j k => φ (g.get_node_coord i j k)) i j k = stencilAt φ (g.get_node_coord i j k) g.spacing := by
  obtain ⟨h1, -, h3, -, h5, -⟩ := h
  have c1 : ((i - 1 : ℕ) : ℝ) = i - 1 := by push_cast [h1]; ring
  have c2 : ((j - 1 : ℕ) : ℝ) = j - 1 := by push_cast [h3]; ring
  have c3 : ((k - 1 : ℕ) : ℝ) = k - 1 := by push_cast [h5]; ring
  unfold stencilOf stencilAt
  congr 1 <;> refine congrArg φ (V3.ext ?_ ?_ ?_) <;>
    simp only [get_node_coord, V3.add_x, V3.add_y, V3.add_z, c1, c2, c3, Nat.cast_add, Nat.cast_one] <;> ring

theorem value_at {g : Grid} {φ : V3 → ℝ} (hs : Sampled g (fun i j k => φ (g.get_node_coord i j k))) {κ : Grid} (hκ : create_from_sdf g = .ok κ)
    {i j k : ℕ} (hin : IsInner g i j k) {x : ℝ} (hx : κ.get_node_value i j k = .ok x) :
    x = kappa (stencilAt φ (g.get_node_coord i j k) g.spacing) g.spacing := by
  obtain ⟨κ1, h0, -, -, -, -, -, -, h1, -⟩ := create_ok hs
  rw [hκ, Except.ok.injEq] at h0
  subst h0
  rw [h1 i j k hin, Except.ok.injEq, stencilOf_eq hin] at hx
  exact hx.symm

/-- The quadratic function with value a and gradient b at the origin and second derivatives D. -/
noncomputable def quad (a : ℝ) (b : V3) (D : Second) (q : V3) : ℝ :=
  a + V3.dot b q + (D.xx * q.x * q.x + D.yy * q.y * q.y + D.zz * q.z * q.z) / 2 + D.xy * q.x * q.y + D.xz * q.x * q.z + D.yz * q.y * q.z

/-- Its gradient. -/
noncomputable def quadGrad (b : V3) (D : Second) (q : V3) : V3 :=
  ⟨b.x + D.xx * q.x + D.xy * q.y + D.xz * q.z, b.y + D.xy * q.x + D.yy * q.y + D.yz * q.z, b.z + D.xz * q.x + D.yz * q.y + D.zz * q.z⟩

theorem quad_isGrad (a : ℝ) (b : V3) (D : Second) (q : V3) : IsGradAt (quad a b D) q (quadGrad b D q) := by
  intro v
  have hl : ∀ c d : ℝ, HasDerivAt (fun s : ℝ => c + s * d) d 0 := by
    intro c d
    simpa using ((hasDerivAt_id (0:ℝ)).mul_const d).const_add c
  have e : (fun s : ℝ => quad a b D (q + s • v)) = fun s : ℝ => (quad a b D q) + s * V3.dot (quadGrad b D q) v +
      s * s * ((D.xx * v.x * v.x + D.yy * v.y * v.y + D.zz * v.z * v.z) / 2 + D.xy * v.x * v.y + D.xz * v.x * v.z + D.yz * v.y * v.z) := by
    funext s
    simp only [quad, quadGrad, V3.dot, V3.add_x, V3.add_y, V3.add_z, V3.smul_x, V3.smul_y, V3.smul_z]
    ring
  rw [e]
  have h2 := (((hasDerivAt_id (0:ℝ)).fun_mul (hasDerivAt_id (0:ℝ))).mul_const
    ((D.xx * v.x * v.x + D.yy * v.y * v.y + D.zz * v.z * v.z) / 2 + D.xy * v.x * v.y + D.xz * v.x * v.z + D.yz * v.y * v.z))
  exact ((hl _ _).fun_add h2).congr_deriv (by simp)

theorem isGrad_unique {φ : V3 → ℝ} {q g g' : V3} (h : IsGradAt φ q g) (h' : IsGradAt φ q g') : g = g' := by
  refine V3.ext ?_ ?_ ?_
  · have := (h ⟨1, 0, 0⟩).unique (h' ⟨1, 0, 0⟩)
    simpa [V3.dot] using this
  · have := (h ⟨0, 1, 0⟩).unique (h' ⟨0, 1, 0⟩)
    simpa [V3.dot] using this
  · have := (h ⟨0, 0, 1⟩).unique (h' ⟨0, 0, 1⟩)
    simpa [V3.dot] using this

theorem quad_hasSecond (b : V3) (D : Second) (q : V3) : HasSecondAt (quadGrad b D) q D := by
  intro v
  have hl : ∀ c d : ℝ, HasDerivAt (fun s : ℝ => c + s * d) d 0 := by
    intro c d
    simpa using ((hasDerivAt_id (0:ℝ)).mul_const d).const_add c
  refine ⟨?_, ?_, ?_⟩
  · have := hl (quadGrad b D q).x (D.xx * v.x + D.xy * v.y + D.xz * v.z)
    convert this using 2
    simp only [quadGrad, V3.add_x, V3.add_y, V3.add_z, V3.smul_x, V3.smul_y, V3.smul_z]
    ring
  · have := hl (quadGrad b D q).y (D.xy * v.x + D.yy * v.y + D.yz * v.z)
    convert this using 2
    simp only [quadGrad, V3.add_x, V3.add_y, V3.add_z, V3.smul_x, V3.smul_y, V3.smul_z]
    ring
  · have := hl (quadGrad b D q).z (D.xz * v.x + D.yz * v.y + D.zz * v.z)
    convert this using 2
    simp only [quadGrad, V3.add_x, V3.add_y, V3.add_z, V3.smul_x, V3.smul_y, V3.smul_z]
    ring

theorem quad_stencil (a : ℝ) (b : V3) (D : Second) (p : V3) {h : V3} (hx : 0 < h.x) (hy : 0 < h.y) (hz : 0 < h.z) :
    grad (stencilAt (quad a b D) p h) h = quadGrad b D p ∧ second (stencilAt (quad a b D) p h) h = D := by
  have := hx.ne'
  have := hy.ne'
  have := hz.ne'
  constructor
  · refine V3.ext ?_ ?_ ?_ <;> simp only [grad, stencilAt, quad, quadGrad, V3.dot, V3.add_x, V3.add_y, V3.add_z] <;> field_simp <;> ring
  · obtain ⟨dxx, dyy, dzz, dxy, dxz, dyz⟩ := D
    simp only [second, stencilAt, quad, V3.dot, V3.add_x, V3.add_y, V3.add_z, Second.mk.injEq]
    refine ⟨?_, ?_, ?_, ?_, ?_, ?_⟩ <;> field_simp <;> ring

/-- **C101** (quadratic fields). If the field holds the values of a quadratic function, whose gradients are G, then at every inner node where the
gradient is at least 1/2 long the result is exactly the divergence of the unit normals of the level sets (the sum of the principal curvatures),
cut off at the inverse of the smallest spacing. -/
theorem C101_quadratic {g : Grid} (a : ℝ) (b : V3) (D : Second) (hs : Sampled g (fun i j k => quad a b D (g.get_node_coord i j k)))
    {G : V3 → V3} (hG : ∀ q, IsGradAt (quad a b D) q (G q)) {κ : Grid} (hκ : create_from_sdf g = .ok κ)
    {i j k : ℕ} (hin : IsInner g i j k) (hbig : 1 / 2 ≤ V3.norm (G (g.get_node_coord i j k))) {x : ℝ} (hx : κ.get_node_value i j k = .ok x) :
    ∃ c, IsNormalDivergence G (g.get_node_coord i j k) c ∧
      x = max (-(1 / min (min g.spacing.x g.spacing.y) g.spacing.z)) (min c (1 / min (min g.spacing.x g.spacing.y) g.spacing.z)) := by
  have hpos : 0 < 1 / min (min g.spacing.x g.spacing.y) g.spacing.z := by
    have := hs.hx; have := hs.hy; have := hs.hz
    positivity
  have eG : G = quadGrad b D := funext fun q => isGrad_unique (hG q) (quad_isGrad a b D q)
  subst eG
  have hne : quadGrad b D (g.get_node_coord i j k) ≠ 0 := by
    intro h0
    rw [h0, V3.norm_eq_zero.2 rfl] at hbig
    linarith
  refine ⟨_, normalDivergence (quad_hasSecond b D _) hne, ?_⟩
  rw [value_at hs hκ hin hx]
  obtain ⟨e1, e2⟩ := quad_stencil a b D (g.get_node_coord i j k) hs.hx hs.hy hs.hz
  unfold kappa
  rw [e1, e2]
  have e3 : quotient (quadGrad b D (g.get_node_coord i j k)) D = exactQuotient (quadGrad b D (g.get_node_coord i j k)) D := by
    unfold quotient exactQuotient gradLength
    rw [if_neg (by rw [show (0.5:ℝ) = 1 / 2 by norm_num]; exact not_lt.2 hbig)]
  rw [e3]
  unfold clip kappaMax
  rw [max_min_distrib_left, max_eq_right (show -(1 / min (min g.spacing.x g.spacing.y) g.spacing.z) ≤ 1 / min (min g.spacing.x g.spacing.y) g.spacing.z by linarith),
    max_comm]

/-- **C101** (small gradients). Where the gradient of a quadratic function is shorter than 1/2 the code does not divide by its length: the value is the divergence
times the third power of the length, cut off at the bound, and 0 at a critical point (there is no division by zero). -/
theorem C101_small_gradient {g : Grid} (a : ℝ) (b : V3) (D : Second) (hs : Sampled g (fun i j k => quad a b D (g.get_node_coord i j k)))
    {G : V3 → V3} (hG : ∀ q, IsGradAt (quad a b D) q (G q)) {κ : Grid} (hκ : create_from_sdf g = .ok κ)
    {i j k : ℕ} (hin : IsInner g i j k) (hsmall : V3.norm (G (g.get_node_coord i j k)) < 1 / 2) {x : ℝ} (hx : κ.get_node_value i j k = .ok x) :
    (G (g.get_node_coord i j k) = 0 → x = 0) ∧
    (G (g.get_node_coord i j k) ≠ 0 → ∃ c, IsNormalDivergence G (g.get_node_coord i j k) c ∧
      x = max (-(1 / min (min g.spacing.x g.spacing.y) g.spacing.z))
        (min (c * V3.norm (G (g.get_node_coord i j k)) ^ 3) (1 / min (min g.spacing.x g.spacing.y) g.spacing.z))) := by
  have hpos : 0 < 1 / min (min g.spacing.x g.spacing.y) g.spacing.z := by
    have := hs.hx; have := hs.hy; have := hs.hz
    positivity
  have eG : G = quadGrad b D := funext fun q => isGrad_unique (hG q) (quad_isGrad a b D q)
  subst eG
  rw [value_at hs hκ hin hx]
  obtain ⟨e1, e2⟩ := quad_stencil a b D (g.get_node_coord i j k) hs.hx hs.hy hs.hz
  unfold kappa
  rw [e1, e2]
  have hq : quotient (quadGrad b D (g.get_node_coord i j k)) D * 1 ^ 3 = (D.xx * ((quadGrad b D (g.get_node_coord i j k)).y ^ 2 + (quadGrad b D (g.get_node_coord i j k)).z ^ 2)
      + D.yy * ((quadGrad b D (g.get_node_coord i j k)).x ^ 2 + (quadGrad b D (g.get_node_coord i j k)).z ^ 2)
      + D.zz * ((quadGrad b D (g.get_node_coord i j k)).x ^ 2 + (quadGrad b D (g.get_node_coord i j k)).y ^ 2)
      - 2 * (D.xy * (quadGrad b D (g.get_node_coord i j k)).x * (quadGrad b D (g.get_node_coord i j k)).y
        + D.xz * (quadGrad b D (g.get_node_coord i j k)).x * (quadGrad b D (g.get_node_coord i j k)).z
        + D.yz * (quadGrad b D (g.get_node_coord i j k)).y * (quadGrad b D (g.get_node_coord i j k)).z)) := by
    unfold quotient gradLength
    rw [if_pos (by rw [show (0.5:ℝ) = 1 / 2 by norm_num]; exact hsmall)]
    ring
  rw [one_pow, mul_one] at hq
  rw [hq]
  refine ⟨fun h0 => ?_, fun hne => ?_⟩
  · rw [h0]
    have hz : (D.xx * ((0 : V3).y ^ 2 + (0 : V3).z ^ 2) + D.yy * ((0 : V3).x ^ 2 + (0 : V3).z ^ 2) + D.zz * ((0 : V3).x ^ 2 + (0 : V3).y ^ 2)
      - 2 * (D.xy * (0 : V3).x * (0 : V3).y + D.xz * (0 : V3).x * (0 : V3).z + D.yz * (0 : V3).y * (0 : V3).z)) = 0 := by simp
    rw [hz]
    unfold clip kappaMax
    rw [max_eq_left (by linarith), min_eq_left hpos.le]
  · refine ⟨_, normalDivergence (quad_hasSecond b D _) hne, ?_⟩
    have hn : V3.norm (quadGrad b D (g.get_node_coord i j k)) ≠ 0 := fun h => hne (V3.norm_eq_zero.1 h)
    unfold exactQuotient
    rw [div_mul_cancel₀ _ (pow_ne_zero 3 hn)]
    unfold clip kappaMax
    rw [max_min_distrib_left, max_eq_right (show -(1 / min (min g.spacing.x g.spacing.y) g.spacing.z) ≤ 1 / min (min g.spacing.x g.spacing.y) g.spacing.z by linarith),
      max_comm]

/-- **C101** (flat fields). A field with the values of an affine function has curvature 0 at every node. -/
theorem C101_flat {g : Grid} (a : ℝ) (b : V3) (hs : Sampled g (fun i j k => a + V3.dot b (g.get_node_coord i j k)))
    {κ : Grid} (hκ : create_from_sdf g = .ok κ) {i j k : ℕ} (hi : i < g.I) (hj : j < g.J) (hk : k < g.K) : κ.get_node_value i j k = .ok 0 := by
  have hpos : 0 < 1 / min (min g.spacing.x g.spacing.y) g.spacing.z := by
    have := hs.hx; have := hs.hy; have := hs.hz
    positivity
  obtain ⟨κ1, h0, -, -, -, -, -, -, h1, h2⟩ := create_ok hs
  rw [hκ, Except.ok.injEq] at h0
  subst h0
  by_cases hin : IsInner g i j k
  · rw [h1 i j k hin, stencilOf_eq (φ := fun q => a + V3.dot b q) hin]
    have e : (fun q => a + V3.dot b q) = quad a b ⟨0, 0, 0, 0, 0, 0⟩ := by
      funext q
      simp [quad]
    rw [e]
    obtain ⟨e1, e2⟩ := quad_stencil a b ⟨0, 0, 0, 0, 0, 0⟩ (g.get_node_coord i j k) hs.hx hs.hy hs.hz
    unfold kappa
    rw [e1, e2]
    unfold quotient clip kappaMax
    simp only [zero_mul, add_zero, mul_zero, sub_zero, zero_div]
    rw [max_eq_left (by linarith), min_eq_left hpos.le]
  · exact h2 i j k hi hj hk hin

/-- **C101** (finding: twice the mean curvature). For the sphere of centre m and radius R, given by (|q - m|² - R²) / (2R), the value at an inner
node on the sphere is 2/R, twice its mean curvature 1/R, if R is at least twice the smallest spacing. -/
theorem C101_sphere {g : Grid} {m : V3} {R : ℝ} (hR : 0 < R)
    (hs : Sampled g (fun i j k => (V3.dot (g.get_node_coord i j k - m) (g.get_node_coord i j k - m) - R ^ 2) / (2 * R)))
    (hres : 2 * min (min g.spacing.x g.spacing.y) g.spacing.z ≤ R) {κ : Grid} (hκ : create_from_sdf g = .ok κ)
    {i j k : ℕ} (hin : IsInner g i j k) (hon : V3.norm (g.get_node_coord i j k - m) = R) : κ.get_node_value i j k = .ok (2 / R) := by
  have hmin : 0 < min (min g.spacing.x g.spacing.y) g.spacing.z := by
    have := hs.hx; have := hs.hy; have := hs.hz
    positivity
  have hR' := hR.ne'
  obtain ⟨κ1, h0, -, -, -, -, -, -, h1, -⟩ := create_ok hs
  rw [hκ, Except.ok.injEq] at h0
  subst h0
  rw [h1 i j k hin, stencilOf_eq (φ := fun q => (V3.dot (q - m) (q - m) - R ^ 2) / (2 * R)) hin]
  have e : (fun q => (V3.dot (q - m) (q - m) - R ^ 2) / (2 * R)) = quad ((V3.dot m m - R ^ 2) / (2 * R)) ((-1 / R) • m) ⟨1 / R, 1 / R, 1 / R, 0, 0, 0⟩ := by
    funext q
    simp only [quad, V3.dot, V3.sub_x, V3.sub_y, V3.sub_z, V3.smul_x, V3.smul_y, V3.smul_z]
    field_simp
    ring
  rw [e]
  generalize g.get_node_coord i j k = p at *
  obtain ⟨e1, e2⟩ := quad_stencil ((V3.dot m m - R ^ 2) / (2 * R)) ((-1 / R) • m) ⟨1 / R, 1 / R, 1 / R, 0, 0, 0⟩ p hs.hx hs.hy hs.hz
  unfold kappa
  rw [e1, e2]
  have e3 : quadGrad ((-1 / R) • m) ⟨1 / R, 1 / R, 1 / R, 0, 0, 0⟩ p = (1 / R) • (p - m) := by
    refine V3.ext ?_ ?_ ?_ <;> simp only [quadGrad, V3.sub_x, V3.sub_y, V3.sub_z, V3.smul_x, V3.smul_y, V3.smul_z] <;> ring
  have hsq : V3.dot (p - m) (p - m) = R ^ 2 := by rw [← V3.norm_sq, hon]
  have hn1 : V3.norm ((1 / R) • (p - m)) = 1 := by
    have : V3.dot ((1 / R) • (p - m)) ((1 / R) • (p - m)) = 1 := by
      rw [show V3.dot ((1 / R) • (p - m)) ((1 / R) • (p - m)) = (1 / R) ^ 2 * V3.dot (p - m) (p - m) by
        simp only [V3.dot, V3.smul_x, V3.smul_y, V3.smul_z]; ring, hsq]
      field_simp
    unfold V3.norm
    rw [this, Real.sqrt_one]
  rw [e3]
  have hq : quotient ((1 / R) • (p - m)) ⟨1 / R, 1 / R, 1 / R, 0, 0, 0⟩ = 2 / R := by
    unfold quotient gradLength
    rw [hn1, if_neg (by norm_num)]
    have : (p - m).x * (p - m).x + (p - m).y * (p - m).y + (p - m).z * (p - m).z = R ^ 2 := hsq
    simp only [V3.smul_x, V3.smul_y, V3.smul_z]
    field_simp
    linear_combination 2 * this
  rw [hq]
  unfold clip kappaMax
  have h2 : 2 / R ≤ 1 / min (min g.spacing.x g.spacing.y) g.spacing.z := by
    rw [div_le_div_iff₀ hR hmin]
    linarith
  have h3 : 0 < 2 / R := by positivity
  rw [max_eq_left (by linarith), min_eq_left h2]

/-! ### Refinement of the grid -/

open Filter Topology

theorem line_deriv {φ : V3 → ℝ} {p v g : V3} {t : ℝ} (h : IsGradAt φ (p + t • v) g) : HasDerivAt (fun s : ℝ => φ (p + s • v)) (V3.dot g v) t := by
  have h1 := h v
  have h2 : HasDerivAt (fun s : ℝ => s - t) 1 t := by simpa using (hasDerivAt_id t).sub_const t
  have h3 := HasDerivAt.comp (h₂ := fun s : ℝ => φ (p + t • v + s • v)) (h := fun s : ℝ => s - t) t (by simpa using h1) h2
  have e : (fun s : ℝ => φ (p + s • v)) = (fun s : ℝ => φ (p + t • v + s • v)) ∘ fun s : ℝ => s - t := by
    funext s
    simp only [Function.comp]
    congr 1
    refine V3.ext ?_ ?_ ?_ <;> simp only [V3.add_x, V3.add_y, V3.add_z, V3.smul_x, V3.smul_y, V3.smul_z] <;> ring
  rw [e]
  exact h3.congr_deriv (by ring)

theorem first_difference {φ : V3 → ℝ} {p g : V3} (h : IsGradAt φ p g) (v : V3) :
    Tendsto (fun t : ℝ => (φ (p + t • v) - φ (p + t • -v)) / (2 * t)) (𝓝[≠] 0) (𝓝 (V3.dot g v)) := by
  have e0 : ∀ v : V3, p + (0:ℝ) • v = p := by
    intro v
    refine V3.ext ?_ ?_ ?_ <;> simp
  have h1 := hasDerivAt_iff_tendsto_slope_zero.1 (h v)
  have h2 := hasDerivAt_iff_tendsto_slope_zero.1 (h (-v))
  have h3 := (h1.sub h2).div_const 2
  have e : V3.dot g v = (V3.dot g v - V3.dot g (-v)) / 2 := by
    simp only [V3.dot, V3.neg_x, V3.neg_y, V3.neg_z]
    ring
  rw [e]
  refine h3.congr' ?_
  filter_upwards [self_mem_nhdsWithin] with t ht
  have : t ≠ 0 := ht
  simp only [zero_add, e0, smul_eq_mul]
  field_simp
  ring

/-- The quadratic form of the second derivatives. -/
def Curvature.Second.form (D : Second) (v w : V3) : ℝ :=
  (D.xx * v.x + D.xy * v.y + D.xz * v.z) * w.x + (D.xy * v.x + D.yy * v.y + D.yz * v.z) * w.y + (D.xz * v.x + D.yz * v.y + D.zz * v.z) * w.z

theorem second_difference {φ : V3 → ℝ} {G : V3 → V3} {p : V3} {D : Second} {r : ℝ} (hr : 0 < r)
    (hG : ∀ q, V3.norm (q - p) < r → IsGradAt φ q (G q)) (hD : HasSecondAt G p D) (v : V3) :
    Tendsto (fun t : ℝ => (φ (p + t • v) + φ (p + t • -v) - 2 * φ p) / (t * t)) (𝓝[≠] 0) (𝓝 (D.form v v)) := by
  have e0 : ∀ v : V3, p + (0:ℝ) • v = p := by
    intro v
    refine V3.ext ?_ ?_ ?_ <;> simp
  have near : ∀ v : V3, ∀ᶠ t : ℝ in 𝓝[≠] 0, IsGradAt φ (p + t • v) (G (p + t • v)) := by
    intro v
    have hc : Tendsto (fun t : ℝ => |t| * V3.norm v) (𝓝 0) (𝓝 0) := by
      have : Continuous fun t : ℝ => |t| * V3.norm v := by fun_prop
      simpa using this.tendsto 0
    have := hc.eventually (gt_mem_nhds hr)
    refine (this.filter_mono nhdsWithin_le_nhds).mono fun t ht => hG _ ?_
    have e : p + t • v - p = t • v := by refine V3.ext ?_ ?_ ?_ <;> simp
    rw [e]
    have e2 : V3.norm (t • v) = |t| * V3.norm v := by
      unfold V3.norm
      rw [show V3.dot (t • v) (t • v) = t ^ 2 * V3.dot v v by simp only [V3.dot, V3.smul_x, V3.smul_y, V3.smul_z]; ring,
        Real.sqrt_mul (sq_nonneg t), Real.sqrt_sq_eq_abs]
    rw [e2]
    exact ht
  have cont : ∀ v : V3, Tendsto (fun t : ℝ => φ (p + t • v)) (𝓝[≠] 0) (𝓝 (φ p)) := by
    intro v
    have h1 := (hG p (by rw [show p - p = 0 by refine V3.ext ?_ ?_ ?_ <;> simp, V3.norm_eq_zero.2 rfl]; exact hr)) v
    have h2 := h1.continuousAt.tendsto
    rw [e0] at h2
    exact h2.mono_left nhdsWithin_le_nhds
  refine HasDerivAt.lhopital_zero_nhdsNE (f' := fun t => V3.dot (G (p + t • v)) v + V3.dot (G (p + t • -v)) (-v)) (g' := fun t => 2 * t) ?_ ?_ ?_ ?_ ?_ ?_
  · filter_upwards [near v, near (-v)] with t h1 h2
    exact ((line_deriv h1).fun_add (line_deriv h2)).sub_const _
  · exact Eventually.of_forall fun t => ((hasDerivAt_id t).fun_mul (hasDerivAt_id t)).congr_deriv (by simp; ring)
  · filter_upwards [self_mem_nhdsWithin] with t ht
    have : t ≠ 0 := ht
    positivity
  · have := ((cont v).add (cont (-v))).sub_const (2 * φ p)
    rw [show φ p + φ p - 2 * φ p = 0 by ring] at this
    exact this
  · have : Continuous fun t : ℝ => t * t := by fun_prop
    have := (this.tendsto 0).mono_left (nhdsWithin_le_nhds (s := {0}ᶜ))
    simpa using this
  · obtain ⟨a1, a2, a3⟩ := hD v
    obtain ⟨b1, b2, b3⟩ := hD (-v)
    have s1 := hasDerivAt_iff_tendsto_slope_zero.1 a1
    have s2 := hasDerivAt_iff_tendsto_slope_zero.1 a2
    have s3 := hasDerivAt_iff_tendsto_slope_zero.1 a3
    have t1 := hasDerivAt_iff_tendsto_slope_zero.1 b1
    have t2 := hasDerivAt_iff_tendsto_slope_zero.1 b2
    have t3 := hasDerivAt_iff_tendsto_slope_zero.1 b3
    have h := (((s1.mul_const v.x).add (s2.mul_const v.y)).add (s3.mul_const v.z)).sub
      (((t1.mul_const v.x).add (t2.mul_const v.y)).add (t3.mul_const v.z)) |>.div_const 2
    have e : D.form v v = ((D.xx * v.x + D.xy * v.y + D.xz * v.z) * v.x + (D.xy * v.x + D.yy * v.y + D.yz * v.z) * v.y +
        (D.xz * v.x + D.yz * v.y + D.zz * v.z) * v.z - ((D.xx * (-v).x + D.xy * (-v).y + D.xz * (-v).z) * v.x +
        (D.xy * (-v).x + D.yy * (-v).y + D.yz * (-v).z) * v.y + (D.xz * (-v).x + D.yz * (-v).y + D.zz * (-v).z) * v.z)) / 2 := by
      simp only [Curvature.Second.form, V3.neg_x, V3.neg_y, V3.neg_z]
      ring
    rw [e]
    refine h.congr' ?_
    filter_upwards [self_mem_nhdsWithin] with t ht
    have : t ≠ 0 := ht
    simp only [zero_add, e0, smul_eq_mul, V3.dot, V3.neg_x, V3.neg_y, V3.neg_z]
    field_simp
    ring

theorem kappa_limit {φ : V3 → ℝ} {G : V3 → V3} {p : V3} {D : Second} {r : ℝ} (hr : 0 < r)
    (hG : ∀ q, V3.norm (q - p) < r → IsGradAt φ q (G q)) (hD : HasSecondAt G p D) (hbig : 1 / 2 < V3.norm (G p)) {h : V3}
    (hx : 0 < h.x) (hy : 0 < h.y) (hz : 0 < h.z) :
    Tendsto (fun t : ℝ => kappa (stencilAt φ p (t • h)) (t • h)) (𝓝[>] 0) (𝓝 (exactQuotient (G p) D)) := by
  have hle : 𝓝[>] (0:ℝ) ≤ 𝓝[≠] 0 := nhdsWithin_mono _ fun t ht => (ne_of_gt ht : t ≠ 0)
  have hp := hG p (by rw [show p - p = 0 by refine V3.ext ?_ ?_ ?_ <;> simp, V3.norm_eq_zero.2 rfl]; exact hr)
  have fd := fun v => (first_difference hp v).mono_left hle
  have sd := fun v => (second_difference hr hG hD v).mono_left hle
  have nx := hx.ne'
  have ny := hy.ne'
  have nz := hz.ne'
  have gx : Tendsto (fun t : ℝ => (grad (stencilAt φ p (t • h)) (t • h)).x) (𝓝[>] 0) (𝓝 (G p).x) := by
    have := (fd ⟨h.x, 0, 0⟩).div_const h.x
    rw [show V3.dot (G p) ⟨h.x, 0, 0⟩ / h.x = (G p).x by simp only [V3.dot]; field_simp; ring] at this
    refine this.congr' ?_
    filter_upwards [self_mem_nhdsWithin] with t ht
    have : t ≠ 0 := (ne_of_gt ht : t ≠ 0)
    simp only [grad, stencilAt]
    rw [show t • (⟨h.x, 0, 0⟩ : V3) = ⟨(t • h).x, 0, 0⟩ by refine V3.ext ?_ ?_ ?_ <;> simp,
      show t • -(⟨h.x, 0, 0⟩ : V3) = ⟨-(t • h).x, 0, 0⟩ by refine V3.ext ?_ ?_ ?_ <;> simp]
    generalize φ _ - φ _ = y
    simp only [V3.smul_x]
    field_simp
  have gy : Tendsto (fun t : ℝ => (grad (stencilAt φ p (t • h)) (t • h)).y) (𝓝[>] 0) (𝓝 (G p).y) := by
    have := (fd ⟨0, h.y, 0⟩).div_const h.y
    rw [show V3.dot (G p) ⟨0, h.y, 0⟩ / h.y = (G p).y by simp only [V3.dot]; field_simp; ring] at this
    refine this.congr' ?_
    filter_upwards [self_mem_nhdsWithin] with t ht
    have : t ≠ 0 := (ne_of_gt ht : t ≠ 0)
    simp only [grad, stencilAt]
    rw [show t • (⟨0, h.y, 0⟩ : V3) = ⟨0, (t • h).y, 0⟩ by refine V3.ext ?_ ?_ ?_ <;> simp,
      show t • -(⟨0, h.y, 0⟩ : V3) = ⟨0, -(t • h).y, 0⟩ by refine V3.ext ?_ ?_ ?_ <;> simp]
    generalize φ _ - φ _ = y
    simp only [V3.smul_y]
    field_simp
  have gz : Tendsto (fun t : ℝ => (grad (stencilAt φ p (t • h)) (t • h)).z) (𝓝[>] 0) (𝓝 (G p).z) := by
    have := (fd ⟨0, 0, h.z⟩).div_const h.z
    rw [show V3.dot (G p) ⟨0, 0, h.z⟩ / h.z = (G p).z by simp only [V3.dot]; field_simp; ring] at this
    refine this.congr' ?_
    filter_upwards [self_mem_nhdsWithin] with t ht
    have : t ≠ 0 := (ne_of_gt ht : t ≠ 0)
    simp only [grad, stencilAt]
    rw [show t • (⟨0, 0, h.z⟩ : V3) = ⟨0, 0, (t • h).z⟩ by refine V3.ext ?_ ?_ ?_ <;> simp,
      show t • -(⟨0, 0, h.z⟩ : V3) = ⟨0, 0, -(t • h).z⟩ by refine V3.ext ?_ ?_ ?_ <;> simp]
    generalize φ _ - φ _ = y
    simp only [V3.smul_z]
    field_simp
  have xx : Tendsto (fun t : ℝ => (second (stencilAt φ p (t • h)) (t • h)).xx) (𝓝[>] 0) (𝓝 D.xx) := by
    have := (sd ⟨h.x, 0, 0⟩).div_const (h.x * h.x)
    rw [show D.form ⟨h.x, 0, 0⟩ ⟨h.x, 0, 0⟩ / (h.x * h.x) = D.xx by simp only [Curvature.Second.form]; field_simp; ring] at this
    refine this.congr' ?_
    filter_upwards [self_mem_nhdsWithin] with t ht
    have : t ≠ 0 := (ne_of_gt ht : t ≠ 0)
    simp only [second, stencilAt]
    rw [show t • (⟨h.x, 0, 0⟩ : V3) = ⟨(t • h).x, 0, 0⟩ by refine V3.ext ?_ ?_ ?_ <;> simp,
      show t • -(⟨h.x, 0, 0⟩ : V3) = ⟨-(t • h).x, 0, 0⟩ by refine V3.ext ?_ ?_ ?_ <;> simp]
    generalize φ _ + φ _ - _ = y
    simp only [V3.smul_x]
    field_simp
  have yy : Tendsto (fun t : ℝ => (second (stencilAt φ p (t • h)) (t • h)).yy) (𝓝[>] 0) (𝓝 D.yy) := by
    have := (sd ⟨0, h.y, 0⟩).div_const (h.y * h.y)
    rw [show D.form ⟨0, h.y, 0⟩ ⟨0, h.y, 0⟩ / (h.y * h.y) = D.yy by simp only [Curvature.Second.form]; field_simp; ring] at this
    refine this.congr' ?_
    filter_upwards [self_mem_nhdsWithin] with t ht
    have : t ≠ 0 := (ne_of_gt ht : t ≠ 0)
    simp only [second, stencilAt]
    rw [show t • (⟨0, h.y, 0⟩ : V3) = ⟨0, (t • h).y, 0⟩ by refine V3.ext ?_ ?_ ?_ <;> simp,
      show t • -(⟨0, h.y, 0⟩ : V3) = ⟨0, -(t • h).y, 0⟩ by refine V3.ext ?_ ?_ ?_ <;> simp]
    generalize φ _ + φ _ - _ = y
    simp only [V3.smul_y]
    field_simp
  have zz : Tendsto (fun t : ℝ => (second (stencilAt φ p (t • h)) (t • h)).zz) (𝓝[>] 0) (𝓝 D.zz) := by
    have := (sd ⟨0, 0, h.z⟩).div_const (h.z * h.z)
    rw [show D.form ⟨0, 0, h.z⟩ ⟨0, 0, h.z⟩ / (h.z * h.z) = D.zz by simp only [Curvature.Second.form]; field_simp; ring] at this
    refine this.congr' ?_
    filter_upwards [self_mem_nhdsWithin] with t ht
    have : t ≠ 0 := (ne_of_gt ht : t ≠ 0)
    simp only [second, stencilAt]
    rw [show t • (⟨0, 0, h.z⟩ : V3) = ⟨0, 0, (t • h).z⟩ by refine V3.ext ?_ ?_ ?_ <;> simp,
      show t • -(⟨0, 0, h.z⟩ : V3) = ⟨0, 0, -(t • h).z⟩ by refine V3.ext ?_ ?_ ?_ <;> simp]
    generalize φ _ + φ _ - _ = y
    simp only [V3.smul_z]
    field_simp
  have xy : Tendsto (fun t : ℝ => (second (stencilAt φ p (t • h)) (t • h)).xy) (𝓝[>] 0) (𝓝 D.xy) := by
    have := ((sd ⟨h.x, h.y, 0⟩).sub (sd ⟨h.x, -h.y, 0⟩)).div_const (4 * h.x * h.y)
    rw [show (D.form ⟨h.x, h.y, 0⟩ ⟨h.x, h.y, 0⟩ - D.form ⟨h.x, -h.y, 0⟩ ⟨h.x, -h.y, 0⟩) / (4 * h.x * h.y) = D.xy by
      simp only [Curvature.Second.form]; field_simp; ring] at this
    refine this.congr' ?_
    filter_upwards [self_mem_nhdsWithin] with t ht
    have : t ≠ 0 := (ne_of_gt ht : t ≠ 0)
    simp only [second, stencilAt]
    rw [show t • (⟨h.x, h.y, 0⟩ : V3) = ⟨(t • h).x, (t • h).y, 0⟩ by refine V3.ext ?_ ?_ ?_ <;> simp,
      show t • -(⟨h.x, h.y, 0⟩ : V3) = ⟨-(t • h).x, -(t • h).y, 0⟩ by refine V3.ext ?_ ?_ ?_ <;> simp,
      show t • (⟨h.x, -h.y, 0⟩ : V3) = ⟨(t • h).x, -(t • h).y, 0⟩ by refine V3.ext ?_ ?_ ?_ <;> simp,
      show t • -(⟨h.x, -h.y, 0⟩ : V3) = ⟨-(t • h).x, (t • h).y, 0⟩ by refine V3.ext ?_ ?_ ?_ <;> simp]
    generalize φ (p + ⟨(t • h).x, (t • h).y, 0⟩) = y1
    generalize φ (p + ⟨-(t • h).x, -(t • h).y, 0⟩) = y2
    generalize φ (p + ⟨(t • h).x, -(t • h).y, 0⟩) = y3
    generalize φ (p + ⟨-(t • h).x, (t • h).y, 0⟩) = y4
    simp only [V3.smul_x, V3.smul_y]
    field_simp
    ring
  have xz : Tendsto (fun t : ℝ => (second (stencilAt φ p (t • h)) (t • h)).xz) (𝓝[>] 0) (𝓝 D.xz) := by
    have := ((sd ⟨h.x, 0, h.z⟩).sub (sd ⟨h.x, 0, -h.z⟩)).div_const (4 * h.x * h.z)
    rw [show (D.form ⟨h.x, 0, h.z⟩ ⟨h.x, 0, h.z⟩ - D.form ⟨h.x, 0, -h.z⟩ ⟨h.x, 0, -h.z⟩) / (4 * h.x * h.z) = D.xz by
      simp only [Curvature.Second.form]; field_simp; ring] at this
    refine this.congr' ?_
    filter_upwards [self_mem_nhdsWithin] with t ht
    have : t ≠ 0 := (ne_of_gt ht : t ≠ 0)
    simp only [second, stencilAt]
    rw [show t • (⟨h.x, 0, h.z⟩ : V3) = ⟨(t • h).x, 0, (t • h).z⟩ by refine V3.ext ?_ ?_ ?_ <;> simp,
      show t • -(⟨h.x, 0, h.z⟩ : V3) = ⟨-(t • h).x, 0, -(t • h).z⟩ by refine V3.ext ?_ ?_ ?_ <;> simp,
      show t • (⟨h.x, 0, -h.z⟩ : V3) = ⟨(t • h).x, 0, -(t • h).z⟩ by refine V3.ext ?_ ?_ ?_ <;> simp,
      show t • -(⟨h.x, 0, -h.z⟩ : V3) = ⟨-(t • h).x, 0, (t • h).z⟩ by refine V3.ext ?_ ?_ ?_ <;> simp]
    generalize φ (p + ⟨(t • h).x, 0, (t • h).z⟩) = y1
    generalize φ (p + ⟨-(t • h).x, 0, -(t • h).z⟩) = y2
    generalize φ (p + ⟨(t • h).x, 0, -(t • h).z⟩) = y3
    generalize φ (p + ⟨-(t • h).x, 0, (t • h).z⟩) = y4
    simp only [V3.smul_x, V3.smul_z]
    field_simp
    ring
  have yz : Tendsto (fun t : ℝ => (second (stencilAt φ p (t • h)) (t • h)).yz) (𝓝[>] 0) (𝓝 D.yz) := by
    have := ((sd ⟨0, h.y, h.z⟩).sub (sd ⟨0, h.y, -h.z⟩)).div_const (4 * h.y * h.z)
    rw [show (D.form ⟨0, h.y, h.z⟩ ⟨0, h.y, h.z⟩ - D.form ⟨0, h.y, -h.z⟩ ⟨0, h.y, -h.z⟩) / (4 * h.y * h.z) = D.yz by
      simp only [Curvature.Second.form]; field_simp; ring] at this
    refine this.congr' ?_
    filter_upwards [self_mem_nhdsWithin] with t ht
    have : t ≠ 0 := (ne_of_gt ht : t ≠ 0)
    simp only [second, stencilAt]
    rw [show t • (⟨0, h.y, h.z⟩ : V3) = ⟨0, (t • h).y, (t • h).z⟩ by refine V3.ext ?_ ?_ ?_ <;> simp,
      show t • -(⟨0, h.y, h.z⟩ : V3) = ⟨0, -(t • h).y, -(t • h).z⟩ by refine V3.ext ?_ ?_ ?_ <;> simp,
      show t • (⟨0, h.y, -h.z⟩ : V3) = ⟨0, (t • h).y, -(t • h).z⟩ by refine V3.ext ?_ ?_ ?_ <;> simp,
      show t • -(⟨0, h.y, -h.z⟩ : V3) = ⟨0, -(t • h).y, (t • h).z⟩ by refine V3.ext ?_ ?_ ?_ <;> simp]
    generalize φ (p + ⟨0, (t • h).y, (t • h).z⟩) = y1
    generalize φ (p + ⟨0, -(t • h).y, -(t • h).z⟩) = y2
    generalize φ (p + ⟨0, (t • h).y, -(t • h).z⟩) = y3
    generalize φ (p + ⟨0, -(t • h).y, (t • h).z⟩) = y4
    simp only [V3.smul_y, V3.smul_z]
    field_simp
    ring
  have hnorm : Tendsto (fun t : ℝ => V3.norm (grad (stencilAt φ p (t • h)) (t • h))) (𝓝[>] 0) (𝓝 (V3.norm (G p))) :=
    (((gx.mul gx).add (gy.mul gy)).add (gz.mul gz)).sqrt
  have hq : Tendsto (fun t : ℝ => exactQuotient (grad (stencilAt φ p (t • h)) (t • h)) (second (stencilAt φ p (t • h)) (t • h))) (𝓝[>] 0)
      (𝓝 (exactQuotient (G p) D)) := by
    unfold exactQuotient
    refine Tendsto.div ?_ (hnorm.pow 3) (pow_ne_zero 3 (by linarith))
    exact (((xx.mul ((gy.pow 2).add (gz.pow 2))).add (yy.mul ((gx.pow 2).add (gz.pow 2)))).add (zz.mul ((gx.pow 2).add (gy.pow 2)))).sub
      (((((xy.mul gx).mul gy).add ((xz.mul gx).mul gz)).add ((yz.mul gy).mul gz)).const_mul 2)
  have hm : 0 < min (min h.x h.y) h.z := by positivity
  have hmax : ∀ᶠ t : ℝ in 𝓝[>] 0, |exactQuotient (G p) D| + 1 ≤ kappaMax (t • h) := by
    have hpos : 0 < 1 / ((|exactQuotient (G p) D| + 1) * min (min h.x h.y) h.z) := by positivity
    filter_upwards [self_mem_nhdsWithin, nhdsWithin_le_nhds (gt_mem_nhds hpos)] with t ht ht'
    have ht : 0 < t := ht
    unfold kappaMax
    rw [show min (min (t • h).x (t • h).y) (t • h).z = t * min (min h.x h.y) h.z by
      simp only [V3.smul_x, V3.smul_y, V3.smul_z]
      rw [mul_min_of_nonneg _ _ ht.le, mul_min_of_nonneg _ _ ht.le]]
    rw [le_div_iff₀ (by positivity)]
    rw [lt_div_iff₀ (by positivity)] at ht'
    nlinarith
  refine hq.congr' ?_
  have hnear := hq.abs.eventually (gt_mem_nhds (lt_add_one |exactQuotient (G p) D|))
  filter_upwards [hnear, hmax, hnorm.eventually (lt_mem_nhds hbig)] with t h1 h2 h3
  unfold kappa
  rw [show quotient (grad (stencilAt φ p (t • h)) (t • h)) (second (stencilAt φ p (t • h)) (t • h)) =
    exactQuotient (grad (stencilAt φ p (t • h)) (t • h)) (second (stencilAt φ p (t • h)) (t • h)) by
      unfold quotient exactQuotient gradLength
      rw [if_neg (by rw [show (0.5:ℝ) = 1 / 2 by norm_num]; exact not_lt.2 h3.le)]]
  have h4 := abs_lt.1 h1
  unfold clip
  rw [max_eq_left (by linarith), min_eq_left (by linarith)]

/-- **C101** (refinement). Let φ be a function whose gradients near p are G, differentiable at p with second derivatives D, and whose gradient at p
is longer than 1/2 (for a distance function it is 1). Sample φ on any sequence of grids that have a node at p inside and whose spacings are t 0, t 1, …
times a fixed positive vector, with t n going to 0. Then the values computed at p converge to the divergence of the unit normals of the level sets
of φ at p. -/
theorem C101_limit {φ : V3 → ℝ} {G : V3 → V3} {p : V3} {D : Second} {r : ℝ} (hr : 0 < r)
    (hG : ∀ q, V3.norm (q - p) < r → IsGradAt φ q (G q)) (hD : HasSecondAt G p D) (hbig : 1 / 2 < V3.norm (G p)) {h : V3}
    (hx : 0 < h.x) (hy : 0 < h.y) (hz : 0 < h.z) {t : ℕ → ℝ} (ht : ∀ n, 0 < t n) (ht0 : Tendsto t atTop (𝓝 0))
    {g κ : ℕ → Grid} {i j k : ℕ → ℕ} (hs : ∀ n, Sampled (g n) (fun i j k => φ ((g n).get_node_coord i j k)))
    (hspacing : ∀ n, (g n).spacing = t n • h) (hin : ∀ n, IsInner (g n) (i n) (j n) (k n)) (hp : ∀ n, (g n).get_node_coord (i n) (j n) (k n) = p)
    (hκ : ∀ n, create_from_sdf (g n) = .ok (κ n)) {x : ℕ → ℝ} (hval : ∀ n, (κ n).get_node_value (i n) (j n) (k n) = .ok (x n)) :
    ∃ c, IsNormalDivergence G p c ∧ Tendsto x atTop (𝓝 c) := by
  have hne : G p ≠ 0 := by
    intro h0
    rw [h0, V3.norm_eq_zero.2 rfl] at hbig
    linarith
  refine ⟨_, normalDivergence hD hne, ?_⟩
  have hlim := kappa_limit hr hG hD hbig hx hy hz
  have h1 : Tendsto t atTop (𝓝[>] 0) := tendsto_nhdsWithin_iff.2 ⟨ht0, Eventually.of_forall ht⟩
  refine (hlim.comp h1).congr fun n => ?_
  rw [value_at (hs n) (hκ n) (hin n) (hval n), hp n, hspacing n]
  rfl

/-- A case: the unit sphere around the origin on a grid of spacing 1/4; the value at the node (1, 0, 0) is 2. -/
example : ∃ g0 g κ, Grid.init ⟨-2, -2, -2⟩ ⟨2, 2, 2⟩ 17 17 17 = .ok g0 ∧ g0.eval_on_grid (fun q => (V3.dot (q - 0) (q - 0) - 1 ^ 2) / (2 * 1)) = .ok g ∧
    create_from_sdf g = .ok κ ∧ g.get_node_coord 12 8 8 = ⟨1, 0, 0⟩ ∧ κ.get_node_value 12 8 8 = .ok (2 / 1) := by
  obtain ⟨g0, e0, e1, e2, eI, eJ, eK, -, ex, ey, ez⟩ := (C23_constructor ⟨-2, -2, -2⟩ ⟨2, 2, 2⟩ 17 17 17).1 (by norm_num)
  obtain ⟨⟨g, e3, ⟨v, rfl, -⟩, -⟩, -⟩ := C23_eval_on_grid g0 (fun q => (V3.dot (q - 0) (q - 0) - 1 ^ 2) / (2 * 1))
  have hs := sampled_of_eval (by norm_num) e0 e3
  obtain ⟨κ, e4, -⟩ := C101_field hs
  have sx : g0.spacing.x = 1 / 4 := by simp only [e1, e2] at ex; norm_num [ex, eI] at *; linarith
  have sy : g0.spacing.y = 1 / 4 := by simp only [e1, e2] at ey; norm_num [ey, eJ] at *; linarith
  have sz : g0.spacing.z = 1 / 4 := by simp only [e1, e2] at ez; norm_num [ez, eK] at *; linarith
  have hn : ({ g0 with values := some v } : Grid).get_node_coord 12 8 8 = ⟨1, 0, 0⟩ := by
    refine V3.ext ?_ ?_ ?_ <;> simp only [get_node_coord, sx, sy, sz, e1] <;> norm_num
  refine ⟨g0, _, κ, e0, e3, e4, hn, ?_⟩
  refine C101_sphere (m := 0) (R := 1) one_pos hs ?_ e4 ?_ ?_
  · show 2 * min (min g0.spacing.x g0.spacing.y) g0.spacing.z ≤ 1
    rw [sx, sy, sz]
    norm_num
  · unfold IsInner
    simp only
    have h1 : g0.I = 17 := by exact_mod_cast eI
    have h2 : g0.J = 17 := by exact_mod_cast eJ
    have h3 : g0.K = 17 := by exact_mod_cast eK
    omega
  · rw [hn]
    simp [V3.norm, V3.dot]

end Verif
