import Verif.Props.Prox
import Mathlib.Tactic.Continuity
import Mathlib.Topology.Instances.Real.Lemmas

/-! C35: the ellipsoid proximal operator. -/

namespace Verif

open Prox

/-- the left hand side of the ellipsoid equation with half axes (a, b, c) -/
noncomputable def level (a b c : ℝ) (q : V3) : ℝ := (q.x / a) ^ 2 + (q.y / b) ^ 2 + (q.z / c) ^ 2

/-- the solid ellipsoid with half axes (a, b, c) -/
def InEllipsoid (a b c : ℝ) (q : V3) : Prop := level a b c q ≤ 1

/-- the points the operator chooses from -/
noncomputable def ellPoint (a b c : ℝ) (z : V3) (t : ℝ) : V3 :=
  ⟨(a * a * z.x) / (a * a + t), (b * b * z.y) / (b * b + t), (c * c * z.z) / (c * c + t)⟩

theorem ellPoint_closest {a b c : ℝ} (ha : 0 < a) (hb : 0 < b) (hc : 0 < c) (z : V3) {t : ℝ} (ht : 0 ≤ t)
    (h : level a b c (ellPoint a b c z t) = 1) : IsNearest (InEllipsoid a b c) z (ellPoint a b c z t) := by
  apply isNearest_of_obtuse
  · exact h.le
  · intro q hq
    unfold InEllipsoid level at hq
    unfold level at h
    set p := ellPoint a b c z t with hp
    have ex : z.x - p.x = t * (p.x / a ^ 2) := by simp only [hp, ellPoint]; field_simp; ring
    have ey : z.y - p.y = t * (p.y / b ^ 2) := by simp only [hp, ellPoint]; field_simp; ring
    have ez : z.z - p.z = t * (p.z / c ^ 2) := by simp only [hp, ellPoint]; field_simp; ring
    have e : V3.dot (z - p) (q - p) = t * ((p.x / a) * (q.x / a) + (p.y / b) * (q.y / b) + (p.z / c) * (q.z / c) -
        ((p.x / a) ^ 2 + (p.y / b) ^ 2 + (p.z / c) ^ 2)) := by
      simp only [V3.dot, V3.sub_x, V3.sub_y, V3.sub_z, ex, ey, ez]
      field_simp
      ring
    rw [e, h]
    generalize p.x / a = p1 at *
    generalize p.y / b = p2 at *
    generalize p.z / c = p3 at *
    generalize q.x / a = q1 at *
    generalize q.y / b = q2 at *
    generalize q.z / c = q3 at *
    have : p1 * q1 + p2 * q2 + p3 * q3 ≤ 1 := by
      nlinarith [sq_nonneg (p1 - q1), sq_nonneg (p2 - q2), sq_nonneg (p3 - q3)]
    nlinarith

theorem bisect_spec (tol : ℝ) (g : ℝ → ℝ) : ∀ (n : ℕ) (t0 t1 : ℝ), t0 ≤ t1 → 0 ≤ g t0 → g t1 ≤ 0 →
    ∃ u0 u1, bisect tol g n (t0, t1, (t0 + t1) * 0.5) = (u0, u1, (u0 + u1) * 0.5) ∧ t0 ≤ u0 ∧ u0 ≤ u1 ∧
      0 ≤ g u0 ∧ g u1 ≤ 0 ∧ (u1 - u0 < tol ∨ |g ((u0 + u1) * 0.5)| < tol ∨ u1 - u0 ≤ (t1 - t0) / 2 ^ n) := by
  intro n
  induction n with
  | zero =>
    intro t0 t1 h h0 h1
    exact ⟨t0, t1, rfl, le_refl _, h, h0, h1, Or.inr (Or.inr (by simp))⟩
  | succ n ih =>
    intro t0 t1 h h0 h1
    unfold bisect
    by_cases hs : |t1 - t0| < tol
    · rw [if_pos hs]
      exact ⟨t0, t1, rfl, le_refl _, h, h0, h1, Or.inl (lt_of_le_of_lt (le_abs_self _) hs)⟩
    rw [if_neg hs]
    by_cases hg : |g ((t0 + t1) * 0.5)| < tol
    · rw [if_pos hg]
      exact ⟨t0, t1, rfl, le_refl _, h, h0, h1, Or.inr (Or.inl hg)⟩
    rw [if_neg hg]
    have hm : t0 ≤ (t0 + t1) * 0.5 ∧ (t0 + t1) * 0.5 ≤ t1 := by constructor <;> linarith
    by_cases hp : g ((t0 + t1) * 0.5) > 0
    · simp only [if_pos hp]
      obtain ⟨u0, u1, e, b1, b2, b3, b4, b5⟩ := ih ((t0 + t1) * 0.5) t1 hm.2 hp.le h1
      refine ⟨u0, u1, e, hm.1.trans b1, b2, b3, b4, ?_⟩
      rcases b5 with b5 | b5 | b5
      · exact Or.inl b5
      · exact Or.inr (Or.inl b5)
      · right; right
        rw [pow_succ, ← div_div, div_right_comm]
        convert b5 using 2
        ring
    · simp only [if_neg hp]
      obtain ⟨u0, u1, e, b1, b2, b3, b4, b5⟩ := ih t0 ((t0 + t1) * 0.5) hm.1 h0 (not_lt.1 hp)
      refine ⟨u0, u1, e, b1, b2, b3, b4, ?_⟩
      rcases b5 with b5 | b5 | b5
      · exact Or.inl b5
      · exact Or.inr (Or.inl b5)
      · right; right
        rw [pow_succ, ← div_div, div_right_comm]
        convert b5 using 2
        ring

theorem ellG_continuousOn {A B C X Y Z : ℝ} (hA : 0 < A) (hB : 0 < B) (hC : 0 < C) :
    ContinuousOn (ellG A B C X Y Z) (Set.Ici 0) := by
  unfold ellG
  have h : ∀ (D E : ℝ), 0 < D → ContinuousOn (fun t : ℝ => D * E / (D + t) ^ 2) (Set.Ici 0) := by
    intro D E hD
    apply ContinuousOn.div continuousOn_const (by fun_prop)
    intro t ht
    have : 0 ≤ t := ht
    positivity
  exact (((h A X hA).add (h B Y hB)).add (h C Z hC)).sub continuousOn_const

/-- the initial upper end of the bracket is one: the expansion loop of the code never runs -/
theorem ellG_upper {sa sb sc X Y Z : ℝ} (ha : 0 < sa) (hb : 0 < sb) (hc : 0 < sc) (hX : 0 ≤ X) (hY : 0 ≤ Y)
    (hZ : 0 ≤ Z) (hpos : 0 < X + Y + Z) :
    ellG (sa * sa) (sb * sb) (sc * sc) X Y Z (max sa (max sb sc) * Real.sqrt (X + Y + Z)) ≤ 0 := by
  set m := max sa (max sb sc) with hm
  set n := Real.sqrt (X + Y + Z) with hn
  have hm0 : 0 < m := lt_of_lt_of_le ha (le_max_left _ _)
  have hn0 : 0 < n := Real.sqrt_pos.2 hpos
  have hn2 : n ^ 2 = X + Y + Z := Real.sq_sqrt hpos.le
  have key : ∀ s W : ℝ, 0 < s → s ≤ m → 0 ≤ W → s * s * W / (s * s + m * n) ^ 2 ≤ W / n ^ 2 := by
    intro s W hs hsm hW
    rw [div_le_div_iff₀ (by positivity) (by positivity)]
    have h1 : s * s * n ^ 2 ≤ (s * s + m * n) ^ 2 := by
      have h2 : s * n ≤ s * s + m * n := by nlinarith
      have h3 : (s * n) ^ 2 ≤ (s * s + m * n) ^ 2 := pow_le_pow_left₀ (by positivity) h2 2
      linarith [h3, show (s * n) ^ 2 = s * s * n ^ 2 by ring]
    calc s * s * W * n ^ 2 = W * (s * s * n ^ 2) := by ring
      _ ≤ W * (s * s + m * n) ^ 2 := mul_le_mul_of_nonneg_left h1 hW
  have h1 := key sa X ha (le_max_left _ _) hX
  have h2 := key sb Y hb ((le_max_left _ _).trans (le_max_right _ _)) hY
  have h3 := key sc Z hc ((le_max_right _ _).trans (le_max_right _ _)) hZ
  have h4 : X / n ^ 2 + Y / n ^ 2 + Z / n ^ 2 = 1 := by
    rw [← add_div, ← add_div, hn2, div_self hpos.ne']
  unfold ellG
  linarith

theorem ellPoint_diff {a z t s : ℝ} (ha : 0 < a) (ht : 0 ≤ t) (hs : 0 ≤ s) :
    |a * a * z / (a * a + t) - a * a * z / (a * a + s)| ≤ |z| * |t - s| / a ^ 2 := by
  have h1 : 0 < a * a + t := by positivity
  have h2 : 0 < a * a + s := by positivity
  have e : a * a * z / (a * a + t) - a * a * z / (a * a + s) =
      a ^ 2 * (z * (s - t)) / ((a * a + t) * (a * a + s)) := by
    field_simp
    ring
  rw [e, abs_div, abs_mul, abs_mul, abs_of_pos (by positivity : (0 : ℝ) < (a * a + t) * (a * a + s)),
    abs_of_pos (by positivity : (0 : ℝ) < a ^ 2), abs_sub_comm s t, div_le_div_iff₀ (by positivity) (by positivity)]
  have h3 : a ^ 2 * a ^ 2 ≤ (a * a + t) * (a * a + s) := by nlinarith [mul_nonneg ht hs, mul_self_nonneg a]
  have h4 : 0 ≤ |z| * |t - s| := by positivity
  calc a ^ 2 * (|z| * |t - s|) * a ^ 2 = (|z| * |t - s|) * (a ^ 2 * a ^ 2) := by ring
    _ ≤ (|z| * |t - s|) * ((a * a + t) * (a * a + s)) := mul_le_mul_of_nonneg_left h3 h4

/-- degenerate calls: no normal force or no friction at all gives the origin; equal coefficients give prox_sphere -/
theorem C35_special_cases (p : EllipsoidParams) (z mu : V3) (x_n : ℝ) :
    (x_n ≤ 0 → prox_ellipsoid p z mu x_n = .ok ⟨0, 0, 0⟩) ∧
    (mu = ⟨0, 0, 0⟩ → prox_ellipsoid p z mu x_n = .ok ⟨0, 0, 0⟩) ∧
    (mu.x = mu.y → mu.x = mu.z → prox_ellipsoid p z mu x_n = .ok (prox_sphere z mu.x x_n)) := by
  refine ⟨?_, ?_, ?_⟩
  · intro h; unfold prox_ellipsoid; rw [if_pos h]
  · rintro rfl
    unfold prox_ellipsoid
    by_cases h : x_n ≤ 0
    · rw [if_pos h]
    · rw [if_neg h, if_pos ⟨rfl, rfl, rfl⟩]; rfl
  · intro h1 h2
    unfold prox_ellipsoid
    by_cases h : x_n ≤ 0
    · rw [if_pos h]; unfold prox_sphere; rw [if_pos h]
    rw [if_neg h]
    by_cases h0 : mu.x = 0 ∧ mu.y = 0 ∧ mu.z = 0
    · rw [if_pos h0, C34_prox_origin, h0.1]
    · rw [if_neg h0, if_pos ⟨h1, h2⟩]

/-- some but not all coefficients zero: the division by a zero half axis raises -/
theorem C35_zero_coefficient (p : EllipsoidParams) (z mu : V3) (x_n : ℝ) (hx : 0 < x_n)
    (h : mu.x = 0 ∨ mu.y = 0 ∨ mu.z = 0) (hn : ¬(mu.x = mu.y ∧ mu.x = mu.z)) :
    prox_ellipsoid p z mu x_n = .error .zeroDivision := by
  unfold prox_ellipsoid
  rw [if_neg (not_le.2 hx), if_neg (by rintro ⟨a, b, c⟩; exact hn ⟨a.trans b.symm, a.trans c.symm⟩), if_neg hn]
  simp only []
  rw [if_pos]
  rcases h with h | h | h
  · left; rw [h]; ring
  · right; left; rw [h]; ring
  · right; right; rw [h]; ring

/-- Positive coefficients, exact arithmetic, positive tolerance: the operator always returns; points of the ellipsoid
are returned unchanged; otherwise the result r approximates the unique closest point q of the ellipsoid with half axes
(mu_s, mu_t, mu_tau)·x_n: r = q, or r satisfies the ellipsoid equation up to the tolerance, or each component is
off by at most |z_i|·E/h_i², where E shrinks by half with each allowed iteration until the tolerance is reached. -/
theorem C35_prox_ellipsoid (p : EllipsoidParams) (z mu : V3) (x_n : ℝ) (hx : 0 < x_n)
    (h1 : 0 < mu.x) (h2 : 0 < mu.y) (h3 : 0 < mu.z) (htol : 0 < p.tolerance) :
    ∃ r q, prox_ellipsoid p z mu x_n = .ok r ∧
      IsNearest (InEllipsoid (mu.x * x_n) (mu.y * x_n) (mu.z * x_n)) z q ∧
      (InEllipsoid (mu.x * x_n) (mu.y * x_n) (mu.z * x_n) z → r = z ∧ q = z) ∧
      (¬ InEllipsoid (mu.x * x_n) (mu.y * x_n) (mu.z * x_n) z →
        level (mu.x * x_n) (mu.y * x_n) (mu.z * x_n) q = 1 ∧
        (r = q ∨
        |level (mu.x * x_n) (mu.y * x_n) (mu.z * x_n) r - 1| < p.tolerance ∨
        ∃ E, E ≤ max (p.tolerance *
                (max 1 (max (mu.x * x_n) (max (mu.y * x_n) (max (mu.z * x_n) (max |z.x| (max |z.y| |z.z|)))))) ^ 2)
              (max (mu.x * x_n) (max (mu.y * x_n) (mu.z * x_n)) * Real.sqrt (sqN z) / 2 ^ p.max_iterations) ∧
          |r.x - q.x| ≤ |z.x| * E / (mu.x * x_n) ^ 2 ∧ |r.y - q.y| ≤ |z.y| * E / (mu.y * x_n) ^ 2 ∧
          |r.z - q.z| ≤ |z.z| * E / (mu.z * x_n) ^ 2)) := by
  have ha : 0 < mu.x * x_n := mul_pos h1 hx
  have hb : 0 < mu.y * x_n := mul_pos h2 hx
  have hc : 0 < mu.z * x_n := mul_pos h3 hx
  have hid : ∀ q, InEllipsoid (mu.x * x_n) (mu.y * x_n) (mu.z * x_n) q →
      IsNearest (InEllipsoid (mu.x * x_n) (mu.y * x_n) (mu.z * x_n)) q q := by
    intro q hq
    exact isNearest_of_obtuse hq (by intro w _; simp [V3.dot])
  by_cases heq : mu.x = mu.y ∧ mu.x = mu.z
  · -- equal coefficients: the ball
    obtain ⟨e1, e2⟩ := heq
    have hset : InEllipsoid (mu.x * x_n) (mu.y * x_n) (mu.z * x_n) = InDisk mu.x x_n := by
      funext q
      rw [← e1, ← e2]
      apply propext
      rw [inDisk_iff h1.le, max_eq_left hx.le]
      unfold InEllipsoid level sqN
      rw [div_pow, div_pow, div_pow, ← add_div, ← add_div, div_le_one (by positivity)]
    rw [hset] at hid ⊢
    have hproj := C34_prox_sphere_projects z mu.x x_n h1.le
    refine ⟨_, _, (C35_special_cases p z mu x_n).2.2 e1 e2, hproj, ?_, ?_⟩
    · intro hin
      have := (C34_prox_sphere_basic z mu.x x_n h1.le).2.2.1 hin
      exact ⟨this, this⟩
    · intro hout
      refine ⟨?_, Or.inl rfl⟩
      have hnd : ¬ z.x * z.x + z.y * z.y + z.z * z.z ≤ mu.x * x_n * (mu.x * x_n) := by
        intro hle
        apply hout
        rw [inDisk_iff h1.le, max_eq_left hx.le]
        unfold sqN
        linarith
      unfold prox_sphere
      rw [if_neg (not_le.2 hx)]
      simp only []
      rw [if_neg hnd, ← e1, ← e2]
      have hpos : 0 < z.x * z.x + z.y * z.y + z.z * z.z := by
        have : 0 < mu.x * x_n * (mu.x * x_n) := by positivity
        linarith
      set n := Real.sqrt (z.x * z.x + z.y * z.y + z.z * z.z) with hn
      have hn0 : 0 < n := Real.sqrt_pos.2 hpos
      have hn2 : n * n = z.x * z.x + z.y * z.y + z.z * z.z := Real.mul_self_sqrt hpos.le
      unfold level
      simp only
      have e : (z.x * (mu.x * x_n / n) / (mu.x * x_n)) ^ 2 + (z.y * (mu.x * x_n / n) / (mu.x * x_n)) ^ 2 +
          (z.z * (mu.x * x_n / n) / (mu.x * x_n)) ^ 2 = (z.x * z.x + z.y * z.y + z.z * z.z) / (n * n) := by
        field_simp
      rw [e, hn2, div_self hpos.ne']
  · -- the general case
    have hnz : ¬(mu.x = 0 ∧ mu.y = 0 ∧ mu.z = 0) := fun h => h1.ne' h.1
    generalize hA : mu.x * x_n = a at *
    generalize hB : mu.y * x_n = b at *
    generalize hC : mu.z * x_n = c at *
    set M := max 1 (max a (max b (max c (max |z.x| (max |z.y| |z.z|))))) with hM
    have hM1 : 1 ≤ M := le_max_left _ _
    have hM0 : 0 < M := by linarith
    set s := 1 / M with hs
    have hs0 : 0 < s := by positivity
    have hsM : s * M = 1 := by rw [hs]; field_simp
    have hsM2 : 1 / (s * s) = M ^ 2 := by
      have : s * s * M ^ 2 = 1 := by
        calc s * s * M ^ 2 = (s * M) * (s * M) := by ring
          _ = 1 := by rw [hsM]; ring
      rw [div_eq_iff (by positivity)]
      linarith
    have hsa : 0 < s * a := by positivity
    have hsb : 0 < s * b := by positivity
    have hsc : 0 < s * c := by positivity
    set X := s * z.x * (s * z.x) with hX
    set Y := s * z.y * (s * z.y) with hY
    set Z := s * z.z * (s * z.z) with hZ
    have hX0 : 0 ≤ X := mul_self_nonneg _
    have hY0 : 0 ≤ Y := mul_self_nonneg _
    have hZ0 : 0 ≤ Z := mul_self_nonneg _
    have hf0 : X / (s * a * (s * a)) + Y / (s * b * (s * b)) + Z / (s * c * (s * c)) = level a b c z := by
      unfold level
      rw [hX, hY, hZ]
      field_simp
    have hlevel : ∀ t, 0 ≤ t → ellG (s * a * (s * a)) (s * b * (s * b)) (s * c * (s * c)) X Y Z t =
        level a b c (ellPoint a b c z (t / (s * s))) - 1 := by
      intro t ht
      unfold ellG level ellPoint
      simp only
      have : 0 ≤ t / (s * s) := by positivity
      have e1 : s * a * (s * a) + t = (s * s) * (a * a + t / (s * s)) := by field_simp
      have e2 : s * b * (s * b) + t = (s * s) * (b * b + t / (s * s)) := by field_simp
      have e3 : s * c * (s * c) + t = (s * s) * (c * c + t / (s * s)) := by field_simp
      rw [e1, e2, e3, hX, hY, hZ]
      have k1 : 0 < a * a + t / (s * s) := by positivity
      have k2 : 0 < b * b + t / (s * s) := by positivity
      have k3 : 0 < c * c + t / (s * s) := by positivity
      generalize a * a + t / (s * s) = u1 at *
      generalize b * b + t / (s * s) = u2 at *
      generalize c * c + t / (s * s) = u3 at *
      field_simp
    by_cases hin : level a b c z - 1 < p.tolerance
    · -- returned unchanged
      have hret : prox_ellipsoid p z mu x_n = .ok z := by
        unfold prox_ellipsoid
        rw [if_neg (not_le.2 hx), if_neg hnz, if_neg heq]
        simp only []
        rw [hA, hB, hC, if_neg (by
          rintro (h | h | h)
          · exact (mul_pos hsa hsa).ne' h
          · exact (mul_pos hsb hsb).ne' h
          · exact (mul_pos hsc hsc).ne' h)]
        rw [if_pos]
        rw [← hf0] at hin
        exact hin
      by_cases hin' : InEllipsoid a b c z
      · exact ⟨z, z, hret, hid z hin', fun _ => ⟨rfl, rfl⟩, fun h => absurd hin' h⟩
      · -- slightly outside: the closest point still exists (intermediate value)
        have hg0 : 0 ≤ ellG (s * a * (s * a)) (s * b * (s * b)) (s * c * (s * c)) X Y Z 0 := by
          rw [hlevel 0 le_rfl]
          have : ellPoint a b c z (0 / (s * s)) = z := by
            unfold ellPoint
            ext <;> simp <;> field_simp
          rw [this]
          unfold InEllipsoid at hin'
          linarith [not_le.1 hin']
        have hsum : 0 < X + Y + Z := by
          by_contra hn
          have x0 : X = 0 := by linarith
          have y0 : Y = 0 := by linarith
          have z0 : Z = 0 := by linarith
          unfold ellG at hg0
          rw [x0, y0, z0] at hg0
          norm_num at hg0
        have hg1 := ellG_upper hsa hsb hsc hX0 hY0 hZ0 hsum
        set T := max (s * a) (max (s * b) (s * c)) * Real.sqrt (X + Y + Z) with hT
        have hT0 : 0 ≤ T := mul_nonneg (hsa.le.trans (le_max_left _ _)) (Real.sqrt_nonneg _)
        obtain ⟨t, ⟨ht0, ht1⟩, htz⟩ := intermediate_value_Icc' hT0
          ((ellG_continuousOn (mul_pos hsa hsa) (mul_pos hsb hsb) (mul_pos hsc hsc)).mono
            (Set.Icc_subset_Ici_self)) ⟨hg1, hg0⟩
        have hlv : level a b c (ellPoint a b c z (t / (s * s))) = 1 := by
          have := hlevel t ht0
          linarith
        refine ⟨z, _, hret, ellPoint_closest ha hb hc z (by positivity) hlv, fun h => absurd h hin', fun _ => ?_⟩
        refine ⟨hlv, Or.inr (Or.inl ?_)⟩
        unfold InEllipsoid at hin'
        rw [abs_of_pos (by linarith [not_le.1 hin'])]
        exact hin
    · -- bisection
      have hout : ¬ InEllipsoid a b c z := by
        unfold InEllipsoid
        intro h
        apply hin
        linarith
      have hg0 : 0 ≤ ellG (s * a * (s * a)) (s * b * (s * b)) (s * c * (s * c)) X Y Z 0 := by
        rw [hlevel 0 le_rfl]
        have : ellPoint a b c z (0 / (s * s)) = z := by
          unfold ellPoint
          ext <;> simp <;> field_simp
        rw [this]
        linarith [not_lt.1 hin]
      have hsum : 0 < X + Y + Z := by
        by_contra hn
        have x0 : X = 0 := by linarith
        have y0 : Y = 0 := by linarith
        have z0 : Z = 0 := by linarith
        unfold ellG at hg0
        rw [x0, y0, z0] at hg0
        norm_num at hg0
      have hg1 := ellG_upper hsa hsb hsc hX0 hY0 hZ0 hsum
      set T := max (s * a) (max (s * b) (s * c)) * Real.sqrt (X + Y + Z) with hT
      have hT0 : 0 ≤ T := mul_nonneg (hsa.le.trans (le_max_left _ _)) (Real.sqrt_nonneg _)
      set g := ellG (s * a * (s * a)) (s * b * (s * b)) (s * c * (s * c)) X Y Z with hg
      obtain ⟨u0, u1, hbis, b1, b2, b3, b4, b5⟩ := bisect_spec p.tolerance g p.max_iterations 0 T hT0 hg0 hg1
      obtain ⟨t, ⟨ht0, ht1⟩, htz⟩ := intermediate_value_Icc' b2
        ((ellG_continuousOn (X := X) (Y := Y) (Z := Z) (mul_pos hsa hsa) (mul_pos hsb hsb) (mul_pos hsc hsc)).mono
          (fun x hx => b1.trans hx.1)) ⟨b4, b3⟩
      have ht00 : 0 ≤ t := b1.trans ht0
      have hlv : level a b c (ellPoint a b c z (t / (s * s))) = 1 := by
        have := hlevel t ht00
        have h0 : g t = 0 := htz
        linarith
      have htk0 : 0 ≤ (u0 + u1) * 0.5 := by linarith
      refine ⟨ellPoint a b c z ((u0 + u1) * 0.5 / (s * s)), ellPoint a b c z (t / (s * s)), ?_,
        ellPoint_closest ha hb hc z (by positivity) hlv, fun h => absurd h hout, fun _ => ⟨hlv, Or.inr ?_⟩⟩
      · unfold prox_ellipsoid
        rw [if_neg (not_le.2 hx), if_neg hnz, if_neg heq]
        simp only []
        rw [hA, hB, hC, if_neg (by
          rintro (h | h | h)
          · exact (mul_pos hsa hsa).ne' h
          · exact (mul_pos hsb hsb).ne' h
          · exact (mul_pos hsc hsc).ne' h)]
        rw [if_neg (by rw [← hf0] at hin; exact hin)]
        have hw : whileLoop (expandStep p g) T = .ok T := by
          apply whileLoop_eq
          apply LoopEnds.done
          unfold expandStep
          rw [if_neg (not_lt.2 hg1)]
        rw [show whileLoop (expandStep p (ellG (1 / max 1 (max a (max b (max c (max |z.x| (max |z.y| |z.z|))))) * a *
            (1 / max 1 (max a (max b (max c (max |z.x| (max |z.y| |z.z|))))) * a)) _ _ _ _ _)) _ = .ok T from hw]
        simp only
        rw [show bisect p.tolerance _ p.max_iterations (0, T, (0 + T) * 0.5) = _ from hbis]
        rfl
      · have hE : ∀ w : ℝ, u1 - u0 ≤ w → |(u0 + u1) * 0.5 / (s * s) - t / (s * s)| ≤ w * M ^ 2 := by
          intro w hw
          rw [← sub_div, abs_div, abs_of_pos (by positivity : 0 < s * s), div_eq_mul_one_div, hsM2]
          apply mul_le_mul_of_nonneg_right _ (by positivity)
          rw [abs_le]
          constructor <;> linarith
        have hfin : ∀ E, |(u0 + u1) * 0.5 / (s * s) - t / (s * s)| ≤ E →
            |(ellPoint a b c z ((u0 + u1) * 0.5 / (s * s))).x - (ellPoint a b c z (t / (s * s))).x| ≤ |z.x| * E / a ^ 2 ∧
            |(ellPoint a b c z ((u0 + u1) * 0.5 / (s * s))).y - (ellPoint a b c z (t / (s * s))).y| ≤ |z.y| * E / b ^ 2 ∧
            |(ellPoint a b c z ((u0 + u1) * 0.5 / (s * s))).z - (ellPoint a b c z (t / (s * s))).z| ≤ |z.z| * E / c ^ 2 := by
          intro E hle
          have k1 : 0 ≤ (u0 + u1) * 0.5 / (s * s) := by positivity
          have k2 : 0 ≤ t / (s * s) := by positivity
          refine ⟨(ellPoint_diff ha k1 k2).trans ?_, (ellPoint_diff hb k1 k2).trans ?_,
            (ellPoint_diff hc k1 k2).trans ?_⟩
          · exact div_le_div_of_nonneg_right (mul_le_mul_of_nonneg_left hle (abs_nonneg _)) (by positivity)
          · exact div_le_div_of_nonneg_right (mul_le_mul_of_nonneg_left hle (abs_nonneg _)) (by positivity)
          · exact div_le_div_of_nonneg_right (mul_le_mul_of_nonneg_left hle (abs_nonneg _)) (by positivity)
        rcases b5 with b5 | b5 | b5
        · right
          exact ⟨p.tolerance * M ^ 2, le_max_left _ _, hfin _ (hE _ b5.le)⟩
        · left
          rw [hlevel _ htk0] at b5
          exact b5
        · right
          refine ⟨_, le_max_right _ _, hfin _ ?_⟩
          have := hE _ b5
          refine this.trans (le_of_eq ?_)
          have hTM : T * M ^ 2 = max a (max b c) * Real.sqrt (sqN z) := by
            have e1 : max (s * a) (max (s * b) (s * c)) = s * max a (max b c) := by
              rw [← mul_max_of_nonneg _ _ hs0.le, ← mul_max_of_nonneg _ _ hs0.le]
            have e2 : Real.sqrt (X + Y + Z) = s * Real.sqrt (sqN z) := by
              rw [show X + Y + Z = s ^ 2 * sqN z by rw [hX, hY, hZ]; unfold sqN; ring,
                Real.sqrt_mul (by positivity), Real.sqrt_sq hs0.le]
            rw [hT, e1, e2]
            calc s * max a (max b c) * (s * Real.sqrt (sqN z)) * M ^ 2 =
                (s * M) * (s * M) * (max a (max b c) * Real.sqrt (sqN z)) := by ring
              _ = _ := by rw [hsM]; ring
          rw [sub_zero, ← hTM]
          ring

/-- The result need not be in the ellipsoid: a point outside, but by less than the tolerance, comes back unchanged. -/
theorem C35_may_stay_outside :
    ∃ (p : EllipsoidParams) (z mu : V3) (x_n : ℝ), 0 < p.tolerance ∧ 0 < x_n ∧
      prox_ellipsoid p z mu x_n = .ok z ∧ ¬ InEllipsoid (mu.x * x_n) (mu.y * x_n) (mu.z * x_n) z := by
  refine ⟨⟨1, 2, 10⟩, ⟨5 / 4, 0, 0⟩, ⟨1, 2, 3⟩, 1, by norm_num, by norm_num, ?_, ?_⟩
  · unfold prox_ellipsoid
    norm_num
  · unfold InEllipsoid level
    norm_num

/-- The hypotheses of `C35_prox_ellipsoid` are met by a genuinely elliptic set and an outside point. -/
example : ∃ r q, prox_ellipsoid ⟨1 / 1000, 10, 10⟩ ⟨5, 1, 0⟩ ⟨1, 2, 3⟩ 1 = .ok r ∧
    IsNearest (InEllipsoid (1 * 1) (2 * 1) (3 * 1)) ⟨5, 1, 0⟩ q ∧ level (1 * 1) (2 * 1) (3 * 1) q = 1 := by
  obtain ⟨r, q, h1, h2, _, h4⟩ := C35_prox_ellipsoid ⟨1 / 1000, 10, 10⟩ ⟨5, 1, 0⟩ ⟨1, 2, 3⟩ 1
    (by norm_num) (by norm_num) (by norm_num) (by norm_num) (by norm_num)
  refine ⟨r, q, h1, h2, (h4 ?_).1⟩
  unfold InEllipsoid level
  norm_num

end Verif
