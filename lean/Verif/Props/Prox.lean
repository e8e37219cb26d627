import Verif.Model.Prox
import Verif.Lemmas.Vec
import Mathlib.Tactic.LinearCombination
import Mathlib.Topology.Order.IntermediateValue
import Mathlib.Topology.Algebra.Order.Field
import Mathlib.Analysis.Real.Sqrt

/-! C34, C35: friction proximal operators. -/

namespace Verif

open Prox

/-- squared Euclidean length -/
def sqN (v : V3) : ℝ := v.x ^ 2 + v.y ^ 2 + v.z ^ 2

/-- The friction disk (ball in (s, t, τ)): length at most mu·x_n, and only the origin without normal force. -/
def InDisk (mu x_n : ℝ) (v : V3) : Prop := Real.sqrt (sqN v) ≤ mu * max x_n 0

/-- p is the closest point of the set C to z, and the only one. -/
def IsNearest (C : V3 → Prop) (z p : V3) : Prop :=
  C p ∧ ∀ q, C q → sqN (z - p) ≤ sqN (z - q) ∧ (sqN (z - q) = sqN (z - p) → q = p)

theorem sqN_nonneg (v : V3) : 0 ≤ sqN v := by unfold sqN; positivity

theorem sqN_eq_zero {v : V3} (h : sqN v = 0) : v = ⟨0, 0, 0⟩ := by
  unfold sqN at h
  have h1 := sq_nonneg v.x
  have h2 := sq_nonneg v.y
  have h3 := sq_nonneg v.z
  ext
  · exact pow_eq_zero_iff (two_ne_zero) |>.1 (by linarith)
  · exact pow_eq_zero_iff (two_ne_zero) |>.1 (by linarith)
  · exact pow_eq_zero_iff (two_ne_zero) |>.1 (by linarith)

/-- obtuse angle criterion -/
theorem isNearest_of_obtuse {C : V3 → Prop} {z p : V3} (hp : C p)
    (h : ∀ q, C q → V3.dot (z - p) (q - p) ≤ 0) : IsNearest C z p := by
  refine ⟨hp, fun q hq => ?_⟩
  have e : sqN (z - q) = sqN (z - p) + sqN (q - p) - 2 * V3.dot (z - p) (q - p) := by
    simp [sqN, V3.dot]; ring
  have h1 := h q hq
  have h2 := sqN_nonneg (q - p)
  refine ⟨by linarith, fun h3 => ?_⟩
  have h0 : sqN (q - p) = 0 := by linarith
  have := sqN_eq_zero h0
  have e1 := congrArg V3.x this
  have e2 := congrArg V3.y this
  have e3 := congrArg V3.z this
  simp only [V3.sub_x, V3.sub_y, V3.sub_z] at e1 e2 e3
  ext <;> linarith

theorem isNearest_unique {C : V3 → Prop} {z p q : V3} (hp : IsNearest C z p) (hq : IsNearest C z q) : p = q := by
  obtain ⟨h1, h2⟩ := hp
  obtain ⟨h3, h4⟩ := hq
  exact (h4 p h1).2 (le_antisymm (h2 q h3).1 (h4 p h1).1)

theorem inDisk_iff {mu x_n : ℝ} {v : V3} (hmu : 0 ≤ mu) : InDisk mu x_n v ↔ sqN v ≤ (mu * max x_n 0) ^ 2 := by
  unfold InDisk
  rw [Real.sqrt_le_left (mul_nonneg hmu (le_max_right _ _))]

theorem cs3 (a b : V3) {r s : ℝ} (ha : sqN a ≤ r ^ 2) (hb : sqN b ≤ s ^ 2) (hr : 0 ≤ r) (hs : 0 ≤ s) :
    V3.dot a b ≤ r * s := by
  have h := V3.dot_sq_le a b
  have e1 : V3.dot a a = sqN a := by simp [V3.dot, sqN]; ring
  have e2 : V3.dot b b = sqN b := by simp [V3.dot, sqN]; ring
  rw [e1, e2] at h
  have h2 : V3.dot a b ^ 2 ≤ (r * s) ^ 2 := by
    calc V3.dot a b ^ 2 ≤ sqN a * sqN b := h
      _ ≤ r ^ 2 * s ^ 2 := mul_le_mul ha hb (sqN_nonneg b) (by positivity)
      _ = (r * s) ^ 2 := by ring
  exact le_of_sq_le_sq h2 (by positivity) |> fun h => h
where le_of_sq_le_sq {x y : ℝ} (h : x ^ 2 ≤ y ^ 2) (hy : 0 ≤ y) : x ≤ y := abs_le_of_sq_le_sq' h hy |>.2

/-- prox_sphere returns the unique closest point of the friction disk to its argument. -/
theorem C34_prox_sphere_projects (z : V3) (mu x_n : ℝ) (hmu : 0 ≤ mu) :
    IsNearest (InDisk mu x_n) z (prox_sphere z mu x_n) := by
  unfold prox_sphere
  by_cases h : x_n ≤ 0
  · rw [if_pos h]
    have hm : max x_n 0 = 0 := max_eq_right h
    apply isNearest_of_obtuse
    · rw [inDisk_iff hmu, hm]; simp [sqN]
    · intro q hq
      rw [inDisk_iff hmu, hm] at hq
      have : q = ⟨0, 0, 0⟩ := sqN_eq_zero (le_antisymm (by simpa using hq) (sqN_nonneg q))
      rw [this]
      simp [V3.dot]
  · rw [if_neg h]
    have hx : 0 < x_n := not_le.1 h
    have hm : max x_n 0 = x_n := max_eq_left hx.le
    simp only []
    by_cases h2 : z.x * z.x + z.y * z.y + z.z * z.z ≤ mu * x_n * (mu * x_n)
    · rw [if_pos h2]
      apply isNearest_of_obtuse
      · rw [inDisk_iff hmu, hm]; unfold sqN; linarith
      · intro q _
        simp [V3.dot]
    · rw [if_neg h2]
      set r := mu * x_n with hr
      have hr0 : 0 ≤ r := mul_nonneg hmu hx.le
      set n := Real.sqrt (z.x * z.x + z.y * z.y + z.z * z.z) with hn
      have hn2 : n * n = z.x * z.x + z.y * z.y + z.z * z.z :=
        Real.mul_self_sqrt (by have := mul_self_nonneg z.x; have := mul_self_nonneg z.y; have := mul_self_nonneg z.z; linarith)
      have hnr : r < n := by
        have : r * r < n * n := by rw [hn2]; exact not_le.1 h2
        nlinarith [Real.sqrt_nonneg (z.x * z.x + z.y * z.y + z.z * z.z)]
      have hn0 : 0 < n := lt_of_le_of_lt hr0 hnr
      set s := r / n with hs
      have hsn : s * n = r := by rw [hs]; field_simp
      have hs0 : 0 ≤ s := by positivity
      have hs1 : s < 1 := by rw [hs, div_lt_one hn0]; exact hnr
      apply isNearest_of_obtuse
      · rw [inDisk_iff hmu, hm]
        have e : sqN ⟨z.x * s, z.y * s, z.z * s⟩ = (s * n) ^ 2 := by
          unfold sqN
          simp only
          linear_combination -s ^ 2 * hn2
        rw [e, hsn]
      · intro q hq
        rw [inDisk_iff hmu, hm] at hq
        have hz : sqN z ≤ n ^ 2 := by unfold sqN; nlinarith
        have hd := cs3 z q hz hq hn0.le hr0
        have e : V3.dot (z - ⟨z.x * s, z.y * s, z.z * s⟩) (q - ⟨z.x * s, z.y * s, z.z * s⟩) =
            (1 - s) * (V3.dot z q - s * (n * n)) := by
          rw [hn2]; simp [V3.dot]; ring
        rw [e]
        have : V3.dot z q - s * (n * n) ≤ 0 := by nlinarith
        nlinarith

/-- the result is inside the disk, zero without normal force; points of the disk do not move; idempotent -/
theorem C34_prox_sphere_basic (z : V3) (mu x_n : ℝ) (hmu : 0 ≤ mu) :
    InDisk mu x_n (prox_sphere z mu x_n) ∧ (x_n ≤ 0 → prox_sphere z mu x_n = ⟨0, 0, 0⟩) ∧
    (InDisk mu x_n z → prox_sphere z mu x_n = z) ∧
    prox_sphere (prox_sphere z mu x_n) mu x_n = prox_sphere z mu x_n := by
  have hfix : ∀ w, InDisk mu x_n w → prox_sphere w mu x_n = w := by
    intro w hw
    refine isNearest_unique (C34_prox_sphere_projects w mu x_n hmu) (isNearest_of_obtuse hw ?_)
    intro q _
    simp [V3.dot]
  have h := (C34_prox_sphere_projects z mu x_n hmu).1
  refine ⟨h, ?_, hfix z, hfix _ h⟩
  intro hx
  unfold prox_sphere
  rw [if_pos hx]

/-- any projection onto a convex set is non-expansive; here from the two obtuse angles -/
theorem C34_prox_sphere_nonexpansive (z w : V3) (mu x_n : ℝ) (hmu : 0 ≤ mu) :
    Real.sqrt (sqN (prox_sphere z mu x_n - prox_sphere w mu x_n)) ≤ Real.sqrt (sqN (z - w)) := by
  apply Real.sqrt_le_sqrt
  set p := prox_sphere z mu x_n with hp
  set q := prox_sphere w mu x_n with hq
  have hconv : ∀ a b : V3, InDisk mu x_n a → InDisk mu x_n b → ∀ t : ℝ, 0 ≤ t → t ≤ 1 →
      InDisk mu x_n (a + t • (b - a)) := by
    intro a b ha hb t h0 h1
    rw [inDisk_iff hmu] at *
    set R := mu * max x_n 0
    have hR : 0 ≤ R := mul_nonneg hmu (le_max_right _ _)
    have hd := cs3 a b ha hb hR hR
    have e : sqN (a + t • (b - a)) = (1 - t) ^ 2 * sqN a + t ^ 2 * sqN b + 2 * t * (1 - t) * V3.dot a b := by
      simp [sqN, V3.dot]; ring
    rw [e]
    nlinarith [mul_nonneg h0 (sub_nonneg.2 h1), sq_nonneg t, sq_nonneg (1 - t),
      mul_le_mul_of_nonneg_left ha (sq_nonneg (1 - t)), mul_le_mul_of_nonneg_left hb (sq_nonneg t),
      mul_le_mul_of_nonneg_left hd (mul_nonneg h0 (sub_nonneg.2 h1))]
  have hobt : ∀ z p : V3, IsNearest (InDisk mu x_n) z p → ∀ q, InDisk mu x_n q → V3.dot (z - p) (q - p) ≤ 0 := by
    intro z p hc q hq
    by_contra hpos
    push Not at hpos
    set D := V3.dot (z - p) (q - p)
    set S := sqN (q - p)
    have hS : 0 ≤ S := sqN_nonneg _
    set t := min 1 (D / (S + 1)) with ht
    have ht0 : 0 < t := lt_min one_pos (by positivity)
    have ht1 : t ≤ 1 := min_le_left _ _
    have hts : t * (S + 1) ≤ D := by
      have : t ≤ D / (S + 1) := min_le_right _ _
      rwa [le_div_iff₀ (by positivity)] at this
    have := (hc.2 _ (hconv p q hc.1 hq t ht0.le ht1)).1
    have e : sqN (z - (p + t • (q - p))) = sqN (z - p) - 2 * t * D + t ^ 2 * S := by
      simp [D, S, sqN, V3.dot]; ring
    rw [e] at this
    nlinarith
  have h1 := hobt z p (C34_prox_sphere_projects z mu x_n hmu) q (C34_prox_sphere_projects w mu x_n hmu).1
  have h2 := hobt w q (C34_prox_sphere_projects w mu x_n hmu) p (C34_prox_sphere_projects z mu x_n hmu).1
  have e : sqN (z - w) = sqN (p - q) + sqN ((z - p) - (w - q)) - 2 * V3.dot (z - p) (q - p) -
      2 * V3.dot (w - q) (p - q) := by
    simp [sqN, V3.dot]; ring
  have := sqN_nonneg ((z - p) - (w - q))
  linarith

/-- prox_origin is the same for a vanishing coefficient -/
theorem C34_prox_origin (z : V3) (mu x_n : ℝ) : prox_origin z mu x_n = prox_sphere z 0 x_n := by
  refine isNearest_unique (C := InDisk 0 x_n) (z := z) ?_ (C34_prox_sphere_projects z 0 x_n le_rfl)
  apply isNearest_of_obtuse
  · rw [inDisk_iff le_rfl]; simp [prox_origin, sqN]
  · intro q hq
    rw [inDisk_iff le_rfl] at hq
    have : q = ⟨0, 0, 0⟩ := sqN_eq_zero (le_antisymm (by simpa using hq) (sqN_nonneg q))
    rw [this]
    simp [V3.dot, prox_origin]

/-- a point outside is really moved, one inside is not -/
example : prox_sphere ⟨3, 4, 0⟩ (1 / 2) 2 = ⟨3 / 5, 4 / 5, 0⟩ ∧ ¬ InDisk (1 / 2) 2 ⟨3, 4, 0⟩ := by
  have h5 : Real.sqrt 25 = 5 := by rw [show (25 : ℝ) = 5 ^ 2 by norm_num]; exact Real.sqrt_sq (by norm_num)
  constructor
  · unfold prox_sphere
    norm_num [h5]
  · rw [inDisk_iff (by norm_num)]
    norm_num [sqN]

end Verif
