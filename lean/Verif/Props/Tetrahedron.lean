import Verif.Model.Tetrahedron
import Verif.Model.LinSolve
import Verif.Props.Barycentric
import Mathlib.Data.Nat.Choose.Basic
import Mathlib.Algebra.BigOperators.Group.Finset.Basic
import Mathlib.Algebra.BigOperators.Intervals

/-! C27, C28: tetrahedra. -/

namespace Verif
open V3 Tetra

/-! ## C27 -/

/-- Specification: the barycentric lattice point (i, j, k, m) / (N-1). -/
noncomputable def latticePoint (N i j k m : ℕ) : Sample :=
  ⟨(i : ℝ) / ((N : ℝ) - 1), (j : ℝ) / ((N : ℝ) - 1), (k : ℝ) / ((N : ℝ) - 1), (m : ℝ) / ((N : ℝ) - 1)⟩

theorem latticePoint_inj {N : ℕ} (hN : 2 ≤ N) {i j k m i' j' k' m' : ℕ}
    (h : latticePoint N i j k m = latticePoint N i' j' k' m') : i = i' ∧ j = j' ∧ k = k' ∧ m = m' := by
  have hN' : (N : ℝ) - 1 ≠ 0 := by
    have : (2:ℝ) ≤ N := by exact_mod_cast hN
    linarith
  simp only [latticePoint, Sample.mk.injEq] at h
  obtain ⟨h1, h2, h3, h4⟩ := h
  refine ⟨?_, ?_, ?_, ?_⟩
  · exact_mod_cast (div_left_inj' hN').mp h1
  · exact_mod_cast (div_left_inj' hN').mp h2
  · exact_mod_cast (div_left_inj' hN').mp h3
  · exact_mod_cast (div_left_inj' hN').mp h4

theorem mem_sampleLoop (N : ℕ) (s : Sample) : s ∈ sampleLoop N ↔
    ∃ i j k m : ℕ, i + j + k + m + 1 = N ∧ s = latticePoint N i j k m := by
  simp only [sampleLoop, List.mem_flatMap, List.mem_map, List.mem_range]
  constructor
  · rintro ⟨m, hm, k, hk, j, hj, rfl⟩
    exact ⟨N - j - k - m - 1, j, k, m, by omega, rfl⟩
  · rintro ⟨i, j, k, m, h, rfl⟩
    refine ⟨m, by omega, k, by omega, j, by omega, ?_⟩
    have : N - j - k - m - 1 = i := by omega
    rw [this]; rfl

theorem nodup_sampleLoop {N : ℕ} (hN : 2 ≤ N) : (sampleLoop N).Nodup := by
  unfold sampleLoop
  rw [List.nodup_flatMap]
  constructor
  · intro m hm
    rw [List.nodup_flatMap]
    constructor
    · intro k hk
      refine List.Nodup.map_on ?_ List.nodup_range
      intro j _ j' _ h
      exact (latticePoint_inj hN h).2.1
    · refine List.nodup_range.pairwise_of_forall_ne ?_
      intro k _ k' _ hne s hs hs'
      simp only [List.mem_map] at hs hs'
      obtain ⟨j, _, rfl⟩ := hs
      obtain ⟨j', _, h⟩ := hs'
      exact hne (latticePoint_inj hN h).2.2.1.symm
  · refine List.nodup_range.pairwise_of_forall_ne ?_
    intro m _ m' _ hne s hs hs'
    simp only [List.mem_map, List.mem_flatMap] at hs hs'
    obtain ⟨k, _, j, _, rfl⟩ := hs
    obtain ⟨k', _, j', _, h⟩ := hs'
    exact hne (latticePoint_inj hN h).2.2.2.symm

theorem sum_tri (n : ℕ) : ((List.range n).map fun k => n - k).sum = (n + 1).choose 2 := by
  induction n with
  | zero => rfl
  | succ n ih =>
    rw [List.range_succ_eq_map, List.map_cons, List.map_map, List.sum_cons]
    have : ((fun k => n + 1 - k) ∘ Nat.succ) = fun k => n - k := by funext k; simp
    rw [this, ih, Nat.choose_succ_succ' (n + 1) 1, Nat.choose_one_right]; rfl

theorem sum_tet (n : ℕ) : ((List.range n).map fun m => (n - m + 1).choose 2).sum = (n + 2).choose 3 := by
  induction n with
  | zero => rfl
  | succ n ih =>
    rw [List.range_succ_eq_map, List.map_cons, List.map_map, List.sum_cons]
    have : ((fun m => (n + 1 - m + 1).choose 2) ∘ Nat.succ) = fun m => (n - m + 1).choose 2 := by
      funext k; simp
    rw [this, ih, Nat.choose_succ_succ' (n + 2) 2]; rfl

theorem length_sampleLoop (N : ℕ) : (sampleLoop N).length = (N + 2).choose 3 := by
  unfold sampleLoop
  rw [List.length_flatMap, ← sum_tet]
  congr 1
  apply List.map_congr_left
  intro m hm
  rw [List.length_flatMap, ← sum_tri]
  congr 1
  apply List.map_congr_left
  intro k hk
  rw [List.length_map, List.length_range]; omega

/-- C27: for N ≥ 2 the samples are exactly the lattice points with N-1 subdivisions, each once; there
are binomial(N+2, 3) of them; every row consists of non-negative weights summing to one. N < 2 raises. -/
theorem C27_samples (N : ℤ) :
    (N < 2 → generate_sample_points N = .error .valueError) ∧
    (2 ≤ N → ∃ L, generate_sample_points N = .ok L ∧ L.Nodup ∧ L.length = (N.toNat + 2).choose 3 ∧
      (∀ s, s ∈ L ↔ ∃ i j k m : ℕ, (i : ℤ) + j + k + m = N - 1 ∧ s = latticePoint N.toNat i j k m) ∧
      ∀ s ∈ L, 0 ≤ s.wi ∧ 0 ≤ s.wj ∧ 0 ≤ s.wk ∧ 0 ≤ s.wm ∧ s.wi + s.wj + s.wk + s.wm = 1) := by
  constructor
  · intro h; unfold generate_sample_points; rw [if_pos h]
  · intro h
    have hN : 2 ≤ N.toNat := by omega
    have hN' : (2:ℝ) ≤ (N.toNat : ℝ) := by exact_mod_cast hN
    have hN1 : (N.toNat : ℝ) - 1 > 0 := by linarith
    refine ⟨sampleLoop N.toNat, ?_, nodup_sampleLoop hN, length_sampleLoop _, ?_, ?_⟩
    · unfold generate_sample_points; rw [if_neg (by omega)]
    · intro s; rw [mem_sampleLoop]
      constructor
      · rintro ⟨i, j, k, m, e, rfl⟩; exact ⟨i, j, k, m, by omega, rfl⟩
      · rintro ⟨i, j, k, m, e, rfl⟩; exact ⟨i, j, k, m, by omega, rfl⟩
    · intro s hs
      obtain ⟨i, j, k, m, e, rfl⟩ := (mem_sampleLoop _ _).mp hs
      have e' : (i : ℝ) + j + k + m = (N.toNat : ℝ) - 1 := by
        have : ((i + j + k + m + 1 : ℕ) : ℝ) = (N.toNat : ℝ) := by exact_mod_cast e
        push_cast at this; linarith
      refine ⟨?_, ?_, ?_, ?_, ?_⟩ <;> simp only [latticePoint]
      · positivity
      · positivity
      · positivity
      · positivity
      · rw [← add_div, ← add_div, ← add_div, e', div_self hN1.ne']

theorem latticeWeight_ne {N : ℕ} (hN : 2 ≤ N) (i : ℕ) : (i : ℝ) / ((N : ℝ) - 1) ≠ 0 ↔ i ≠ 0 := by
  have hN' : (N : ℝ) - 1 ≠ 0 := by
    have : (2:ℝ) ≤ N := by exact_mod_cast hN
    linarith
  rw [Ne, div_eq_zero_iff, not_or]
  constructor
  · rintro ⟨h, -⟩; exact_mod_cast h
  · intro h; exact ⟨by exact_mod_cast h, hN'⟩

/-- What `generate_interior_sample_points` returns for every N ≥ 2: exactly the samples with exactly one
zero weight, that is points on the relative interior of a face. -/
theorem C27_interior_returns_faces (N : ℤ) (h : 2 ≤ N) : ∃ L, generate_interior_sample_points N = .ok L ∧
    ∀ s, s ∈ L ↔ ∃ i j k m : ℕ, (i : ℤ) + j + k + m = N - 1 ∧ s = latticePoint N.toNat i j k m ∧
      [i, j, k, m].count 0 = 1 := by
  have hN : 2 ≤ N.toNat := by omega
  obtain ⟨L, hL, -, -, hmem, -⟩ := (C27_samples N).2 h
  refine ⟨L.filter fun s => decide (count_nonzero s = 3), ?_, ?_⟩
  · unfold generate_interior_sample_points; rw [hL]; rfl
  · intro s
    rw [List.mem_filter, hmem]
    constructor
    · rintro ⟨⟨i, j, k, m, e, rfl⟩, hc⟩
      refine ⟨i, j, k, m, e, rfl, ?_⟩
      simp only [decide_eq_true_eq, count_nonzero, latticePoint, latticeWeight_ne hN] at hc
      by_cases hi : i = 0 <;> by_cases hj : j = 0 <;> by_cases hk : k = 0 <;> by_cases hm : m = 0 <;>
        simp [hi, hj, hk, hm] at hc ⊢
    · rintro ⟨i, j, k, m, e, rfl, hc⟩
      refine ⟨⟨i, j, k, m, e, rfl⟩, ?_⟩
      simp only [decide_eq_true_eq, count_nonzero, latticePoint, latticeWeight_ne hN]
      by_cases hi : i = 0 <;> by_cases hj : j = 0 <;> by_cases hk : k = 0 <;> by_cases hm : m = 0 <;>
        simp [hi, hj, hk, hm] at hc ⊢

/-- The documented claim "only strictly interior sample points are kept" fails for every N: no interior
point is ever returned, for N ≥ 5 interior samples exist and are dropped, and for N ≥ 4 surface points
are returned. -/
theorem C27_interior_wrong (N : ℤ) (h : 2 ≤ N) :
    ∃ L S, generate_interior_sample_points N = .ok L ∧ generate_sample_points N = .ok S ∧
      (∀ s ∈ L, ¬ (0 < s.wi ∧ 0 < s.wj ∧ 0 < s.wk ∧ 0 < s.wm)) ∧
      (5 ≤ N → ∃ s ∈ S, 0 < s.wi ∧ 0 < s.wj ∧ 0 < s.wk ∧ 0 < s.wm ∧ s ∉ L) ∧
      (4 ≤ N → ∃ s ∈ L, s.wm = 0) := by
  have hN : 2 ≤ N.toNat := by omega
  have hN' : (2:ℝ) ≤ (N.toNat : ℝ) := by exact_mod_cast hN
  have hN1 : (N.toNat : ℝ) - 1 > 0 := by linarith
  obtain ⟨S, hS, -, -, hmemS, -⟩ := (C27_samples N).2 h
  obtain ⟨L, hL, hmem⟩ := C27_interior_returns_faces N h
  have key : ∀ s ∈ L, ¬ (0 < s.wi ∧ 0 < s.wj ∧ 0 < s.wk ∧ 0 < s.wm) := by
    intro s hs
    obtain ⟨i, j, k, m, e, rfl, hc⟩ := (hmem s).mp hs
    rintro ⟨h1, h2, h3, h4⟩
    simp only [latticePoint] at h1 h2 h3 h4
    have := (latticeWeight_ne hN i).mp h1.ne'
    have := (latticeWeight_ne hN j).mp h2.ne'
    have := (latticeWeight_ne hN k).mp h3.ne'
    have := (latticeWeight_ne hN m).mp h4.ne'
    simp [*] at hc
  refine ⟨L, S, hL, hS, key, ?_, ?_⟩
  · intro h5
    have hp : 0 < ((N.toNat - 4 : ℕ) : ℝ) := by exact_mod_cast (by omega : 0 < N.toNat - 4)
    have hpos : 0 < (latticePoint N.toNat (N.toNat - 4) 1 1 1).wi ∧
        0 < (latticePoint N.toNat (N.toNat - 4) 1 1 1).wj ∧
        0 < (latticePoint N.toNat (N.toNat - 4) 1 1 1).wk ∧
        0 < (latticePoint N.toNat (N.toNat - 4) 1 1 1).wm := by
      simp only [latticePoint]
      push_cast
      exact ⟨by positivity, by positivity, by positivity, by positivity⟩
    refine ⟨latticePoint N.toNat (N.toNat - 4) 1 1 1, (hmemS _).mpr ⟨N.toNat - 4, 1, 1, 1, by omega, rfl⟩,
      hpos.1, hpos.2.1, hpos.2.2.1, hpos.2.2.2, fun hc => key _ hc hpos⟩
  · intro h4
    refine ⟨latticePoint N.toNat (N.toNat - 3) 1 1 0, (hmem _).mpr ⟨N.toNat - 3, 1, 1, 0, by omega, rfl, ?_⟩, ?_⟩
    · have : N.toNat - 3 ≠ 0 := by omega
      simp [this]
    · simp [latticePoint]

/-! ## C28 -/

/-- C28: the signed volume changes sign under every swap of two corners, is invariant under translation,
and its sign is what `is_left_orientation` reports. -/
theorem C28_volume_alternating (a b c d t : V3) :
    compute_signed_volume b a c d = -compute_signed_volume a b c d ∧
    compute_signed_volume a c b d = -compute_signed_volume a b c d ∧
    compute_signed_volume a b d c = -compute_signed_volume a b c d ∧
    compute_signed_volume (a + t) (b + t) (c + t) (d + t) = compute_signed_volume a b c d ∧
    (is_left_orientation a b c d = true ↔ compute_signed_volume a b c d < 0) := by
  refine ⟨?_, ?_, ?_, ?_, by simp [is_left_orientation]⟩ <;>
    simp only [compute_signed_volume, dot, cross, sub_x, sub_y, sub_z, add_x, add_y, add_z] <;> ring

theorem par_dot {u v : V3} (hu : u ≠ 0) (h : cross u v = 0) (n : V3) (ho : dot n u = 0) : dot n v = 0 := by
  have key : dot u u * dot n v = dot u v * dot n u := by
    have h1 : u.y * v.z - u.z * v.y = 0 := congrArg V3.x h
    have h2 : u.z * v.x - u.x * v.z = 0 := congrArg V3.y h
    have h3 : u.x * v.y - u.y * v.x = 0 := congrArg V3.z h
    simp only [dot]
    linear_combination -(n.y * u.z - n.z * u.y) * h1 - (n.z * u.x - n.x * u.z) * h2 - (n.x * u.y - n.y * u.x) * h3
  rw [ho, mul_zero] at key
  rcases mul_eq_zero.mp key with h0 | h0
  · exact absurd (dot_self_eq_zero.mp h0) hu
  · exact h0

/-- C28: the signed volume is zero exactly when the four points lie in a common plane. -/
theorem C28_volume_zero_iff (a b c d : V3) : compute_signed_volume a b c d = 0 ↔
    ∃ n : V3, ∃ w : ℝ, n ≠ 0 ∧ dot n a = w ∧ dot n b = w ∧ dot n c = w ∧ dot n d = w := by
  unfold compute_signed_volume
  rw [div_eq_zero_iff, or_iff_left (by norm_num)]
  constructor
  · intro h
    by_cases hc : cross (b - a) (c - a) = 0
    · by_cases hd : cross (b - a) (d - a) = 0
      · -- all on one line (or b = a)
        by_cases hb : b - a = 0
        · -- choose normal of c, d directions
          by_cases he : cross (c - a) (d - a) = 0
          · -- c - a, d - a parallel: any vector orthogonal to both
            by_cases hca : c - a = 0
            · -- a = b = c : vector orthogonal to d - a
              obtain ⟨n, hn, ho⟩ : ∃ n : V3, n ≠ 0 ∧ dot n (d - a) = 0 := by
                by_cases hx : (d - a).x = 0 ∧ (d - a).y = 0
                · exact ⟨⟨1, 0, 0⟩, fun e => by simpa using congrArg V3.x e, by simp [dot, -sub_x, hx]⟩
                · refine ⟨⟨-(d - a).y, (d - a).x, 0⟩, fun e => hx ?_, by simp [dot]; ring⟩
                  exact ⟨congrArg V3.y e, by simpa [-sub_y] using congrArg V3.x e⟩
              refine ⟨n, dot n a, hn, rfl, ?_, ?_, ?_⟩
              · rw [sub_eq_zero.mp hb]
              · rw [sub_eq_zero.mp hca]
              · rw [dot_sub_right] at ho; linarith
            · obtain ⟨n, hn, ho⟩ : ∃ n : V3, n ≠ 0 ∧ dot n (c - a) = 0 := by
                by_cases hx : (c - a).x = 0 ∧ (c - a).y = 0
                · exact ⟨⟨1, 0, 0⟩, fun e => by simpa using congrArg V3.x e, by simp [dot, -sub_x, hx]⟩
                · refine ⟨⟨-(c - a).y, (c - a).x, 0⟩, fun e => hx ?_, by simp [dot]; ring⟩
                  exact ⟨congrArg V3.y e, by simpa [-sub_y] using congrArg V3.x e⟩
              have hpar := par_dot hca he n ho
              refine ⟨n, dot n a, hn, rfl, ?_, ?_, ?_⟩
              · rw [sub_eq_zero.mp hb]
              · rw [dot_sub_right] at ho; linarith
              · rw [dot_sub_right] at hpar; linarith
          · refine ⟨cross (c - a) (d - a), dot (cross (c - a) (d - a)) a, he, rfl, ?_, ?_, ?_⟩
            · rw [sub_eq_zero.mp hb]
            · simp only [dot, cross, sub_x, sub_y, sub_z]; ring
            · simp only [dot, cross, sub_x, sub_y, sub_z]; ring
        · obtain ⟨n, hn, ho⟩ : ∃ n : V3, n ≠ 0 ∧ dot n (b - a) = 0 := by
            by_cases hx : (b - a).x = 0 ∧ (b - a).y = 0
            · exact ⟨⟨1, 0, 0⟩, fun e => by simpa using congrArg V3.x e, by simp [dot, -sub_x, hx]⟩
            · refine ⟨⟨-(b - a).y, (b - a).x, 0⟩, fun e => hx ?_, by simp [dot]; ring⟩
              exact ⟨congrArg V3.y e, by simpa [-sub_y] using congrArg V3.x e⟩
          have h1 := par_dot hb hc n ho
          have h2 := par_dot hb hd n ho
          rw [dot_sub_right] at ho h1 h2
          exact ⟨n, dot n a, hn, rfl, by linarith, by linarith, by linarith⟩
      · refine ⟨cross (b - a) (d - a), dot (cross (b - a) (d - a)) a, hd, rfl, ?_, ?_, ?_⟩
        · simp only [dot, cross, sub_x, sub_y, sub_z]; ring
        · have e : dot (cross (b - a) (d - a)) (c - a) = 0 := by
            have : dot (cross (b - a) (d - a)) (c - a) = - dot (d - a) (cross (b - a) (c - a)) := by
              simp only [dot, cross, sub_x, sub_y, sub_z]; ring
            rw [this, h]; ring
          rw [dot_sub_right] at e; linarith
        · simp only [dot, cross, sub_x, sub_y, sub_z]; ring
    · refine ⟨cross (b - a) (c - a), dot (cross (b - a) (c - a)) a, hc, rfl, ?_, ?_, ?_⟩
      · simp only [dot, cross, sub_x, sub_y, sub_z]; ring
      · simp only [dot, cross, sub_x, sub_y, sub_z]; ring
      · rw [dot_comm, dot_sub_right] at h; linarith
  · rintro ⟨n, w, hn, ha, hb, hc, hd⟩
    by_contra hV
    apply hn
    have hdet : (M3.make_from_rows (b - a) (c - a) (d - a)).det ≠ 0 := by
      intro e; apply hV; rw [← e]; simp [M3.det, M3.make_from_rows, dot, cross]; ring
    apply M3.mulVec_inj hdet
    have e1 : dot (b - a) n = 0 := by rw [dot_sub_left, dot_comm b, dot_comm a]; linarith
    have e2 : dot (c - a) n = 0 := by rw [dot_sub_left, dot_comm c, dot_comm a]; linarith
    have e3 : dot (d - a) n = 0 := by rw [dot_sub_left, dot_comm d, dot_comm a]; linarith
    simp only [dot] at e1 e2 e3
    ext <;> simp only [M3.mulVec, M3.make_from_rows, zero_x, zero_y, zero_z] <;> linarith
/-! ### spheres -/

theorem lstsq_exact {M : M3} (h : M.det ≠ 0) {q u : V3} (hl : Lstsq3 M q u) : M.mulVec u = q := by
  have h1 := hl (M3.cramer M q)
  rw [M3.mulVec_cramer h] at h1
  have h2 : dot (q - q) (q - q) = 0 := by simp [dot]
  rw [h2] at h1
  have := dot_self_eq_zero.mp (le_antisymm h1 (dot_self_nonneg _))
  exact sub_eq_zero.mp this

theorem circum_det (p0 p1 p2 p3 : V3) : (circumSystem p0 p1 p2 p3).1.det =
    (6 * compute_signed_volume p0 p1 p2 p3) ^ 2 := by
  simp only [circumSystem, M3.det, compute_signed_volume, dot, cross, sub_x, sub_y, sub_z]
  ring

/-- C28: for every non-degenerate tetrahedron a result exists, it is unique, and the returned sphere
passes through all four corners. -/
theorem C28_circumscribed (p0 p1 p2 p3 : V3) (h : compute_signed_volume p0 p1 p2 p3 ≠ 0) :
    (∃! s : V3 × ℝ, circumscribed_sphere p0 p1 p2 p3 s.1 s.2) ∧
    ∀ c r, circumscribed_sphere p0 p1 p2 p3 c r →
      0 ≤ r ∧ euclid c p0 = r ∧ euclid c p1 = r ∧ euclid c p2 = r ∧ euclid c p3 = r := by
  have hd : (circumSystem p0 p1 p2 p3).1.det ≠ 0 := by
    rw [circum_det]; exact pow_ne_zero _ (mul_ne_zero (by norm_num) h)
  constructor
  · set u := M3.cramer (circumSystem p0 p1 p2 p3).1 (circumSystem p0 p1 p2 p3).2 with hu
    refine ⟨(u.x • p0 + u.y • p1 + u.z • p2 + (1 - u.x - u.y - u.z) • p3,
      norm (u.x • (p0 - p3) + u.y • (p1 - p3) + u.z • (p2 - p3))), ⟨u, ?_, rfl, rfl⟩, ?_⟩
    · intro v
      rw [hu, M3.mulVec_cramer hd]
      have : ∀ q : V3, dot (q - q) (q - q) = 0 := by intro q; simp [dot]
      rw [this]; exact dot_self_nonneg _
    · rintro ⟨c, r⟩ ⟨v, hv, hr, hc⟩
      have : v = u := M3.mulVec_inj hd (by rw [lstsq_exact hd hv, hu, M3.mulVec_cramer hd])
      subst this
      exact Prod.ext hc hr
  · rintro c r ⟨u, hu, hr, hc⟩
    have hs := lstsq_exact hd hu
    have hr0 : 0 ≤ r := by rw [hr]; exact norm_nonneg _
    have e3 : c - p3 = u.x • (p0 - p3) + u.y • (p1 - p3) + u.z • (p2 - p3) := by
      rw [hc]; ext <;> simp <;> ring
    have hr2 : r ^ 2 = dot (c - p3) (c - p3) := by rw [hr, norm_sq, e3]
    have s0 := congrArg V3.x hs
    have s1 := congrArg V3.y hs
    have s2 := congrArg V3.z hs
    simp only [circumSystem, M3.mulVec, smul_x, smul_y, smul_z] at s0 s1 s2
    have d0 : dot (p0 - p3) (c - p3) = 1 / 2 * dot (p0 - p3) (p0 - p3) := by
      rw [e3, dot_add_right, dot_add_right, dot_smul_right, dot_smul_right, dot_smul_right]; linarith
    have d1 : dot (p1 - p3) (c - p3) = 1 / 2 * dot (p1 - p3) (p1 - p3) := by
      rw [e3, dot_add_right, dot_add_right, dot_smul_right, dot_smul_right, dot_smul_right]; linarith
    have d2 : dot (p2 - p3) (c - p3) = 1 / 2 * dot (p2 - p3) (p2 - p3) := by
      rw [e3, dot_add_right, dot_add_right, dot_smul_right, dot_smul_right, dot_smul_right]; linarith
    clear hs s0 s1 s2 hu e3 hr hc
    have fin : ∀ p : V3, dot (p - p3) (c - p3) = 1 / 2 * dot (p - p3) (p - p3) → euclid c p = r := by
      intro p hp
      unfold euclid
      rw [Real.sqrt_eq_iff_eq_sq (by positivity) hr0, hr2]
      simp only [dot, sub_x, sub_y, sub_z] at hp ⊢
      linarith
    refine ⟨hr0, fin _ d0, fin _ d1, fin _ d2, fin _ (by simp [dot])⟩

/-- Specification: the sphere (c, r) is tangent to the plane through the three points: the point of the
plane closest to c is at distance |r|. -/
def TangentPlane (a b d c : V3) (r : ℝ) : Prop :=
  ∃ q, IsClosest (OnPlane a b d) c q ∧ dist2 c q = r ^ 2

theorem tangent_of_eq {a b d c n : V3} {r : ℝ} (hn : dot n n = 1) (hb : dot n (b - a) = 0)
    (hd : dot n (d - a) = 0) (hx : cross (b - a) (d - a) ≠ 0) (h : dot n (c - a) = r) :
    TangentPlane a b d c r := by
  obtain ⟨w1, w2, w3, -, hs, hcl, -⟩ := C26_triangle a b d c hx
  refine ⟨_, hcl, ?_⟩
  -- c - r n is on the plane and at distance |r|; the closest point is unique
  have hin : OnPlane a b d (c - r • n) := by
    -- solve in the basis b-a, d-a, n
    have hdet : (M3.make_from_cols (b - a) (d - a) n).det ≠ 0 := by
      rw [det_cols]
      intro e
      -- n ⟂ both edges, so n is parallel to the cross product
      have h1 : dot (cross (b - a) (d - a)) (cross (b - a) (d - a)) * dot n n =
          dot n (cross (b - a) (d - a)) ^ 2 := by
        have hb' := hb; have hd' := hd
        generalize b - a = u at *
        generalize d - a = v at *
        have e1 : cross n (cross u v) = dot n v • u - dot n u • v := by
          ext <;> simp [cross, dot] <;> ring
        have e2 := cross_dot_cross n (cross u v)
        rw [e1, hb', hd'] at e2
        simp only [zero_smul, sub_self] at e2
        have : dot (0:V3) 0 = 0 := by simp [dot]
        rw [this] at e2
        linarith
      rw [e, hn] at h1
      exact hx (dot_self_eq_zero.mp (by linarith))
    have hq := M3.mulVec_cramer hdet (c - r • n - a)
    set q := M3.cramer (M3.make_from_cols (b - a) (d - a) n) (c - r • n - a)
    rw [mulVec_cols] at hq
    have hz : q.z = 0 := by
      have h3 := congrArg (dot n) hq
      rw [dot_add_right, dot_add_right, dot_smul_right, dot_smul_right, dot_smul_right, hb, hd, hn] at h3
      have : c - r • n - a = (c - a) - r • n := by abel
      rw [this, dot_sub_right, dot_smul_right, h, hn] at h3
      linarith
    refine ⟨1 - q.x - q.y, q.x, q.y, by ring, ?_⟩
    have : c - r • n = (c - r • n - a) + a := by abel
    rw [this, ← hq, hz]
    ext <;> simp <;> ring
  have hdist : dist2 c (c - r • n) = r ^ 2 := by
    have : dist2 c (c - r • n) = r ^ 2 * dot n n := by
      simp only [dist2, dot, sub_x, sub_y, sub_z, smul_x, smul_y, smul_z]; ring
    rw [this, hn, mul_one]
  by_contra hne
  set Q := w1 • a + w2 • b + w3 • d with hQ
  have hne' : c - r • n ≠ Q := by intro e; apply hne; rw [← e]; exact hdist
  have hlt := hcl.2 _ hin hne'
  -- but n-component: the plane is at distance ≥ |r|
  have hnQ : dot n (c - Q) = r := by
    have : c - Q = (c - a) - (w2 • (b - a) + w3 • (d - a)) := by
      obtain rfl : w1 = 1 - w2 - w3 := by linarith
      rw [hQ]; ext <;> simp <;> ring
    rw [this, dot_sub_right, dot_add_right, dot_smul_right, dot_smul_right, hb, hd, h]; ring
  have hcs := dot_sq_le n (c - Q)
  rw [hnQ, hn] at hcs
  have : dot (c - Q) (c - Q) = dist2 c Q := by
    simp only [dist2, dot, sub_x, sub_y, sub_z]; ring
  rw [this] at hcs
  linarith

/-- Specification: total surface area times two. -/
noncomputable def twiceArea (a b c d : V3) : ℝ :=
  norm (cross (b - a) (c - a)) + norm (cross (d - b) (c - b)) + norm (cross (d - c) (a - c)) +
    norm (cross (d - a) (b - a))

theorem det_areas (u v w : V3) : (M3.make_from_rows (cross u v) (cross (w - u) (v - u))
    (cross (w - v) (-v))).det = dot w (cross u v) ^ 2 := by
  simp only [M3.make_from_rows, M3.det, dot, cross, sub_x, sub_y, sub_z, neg_x, neg_y, neg_z]; ring

/-- The linear algebra behind the inscribed sphere. -/
theorem inscribed_core {a b c d : V3} (h : compute_signed_volume a b c d ≠ 0) :
    0 < twiceArea a b c d ∧
    ∀ ctr r, (twiceArea a b c d • ctr = norm (cross (d - b) (c - b)) • a + norm (cross (d - c) (a - c)) • b +
        norm (cross (d - a) (b - a)) • c + norm (cross (b - a) (c - a)) • d ∧
       r = 6 * compute_signed_volume a b c d / twiceArea a b c d → inscribed_sphere a b c d ctr r) ∧
      (inscribed_sphere a b c d ctr r →
      (twiceArea a b c d • ctr = norm (cross (d - b) (c - b)) • a + norm (cross (d - c) (a - c)) • b +
        norm (cross (d - a) (b - a)) • c + norm (cross (b - a) (c - a)) • d ∧
       r = 6 * compute_signed_volume a b c d / twiceArea a b c d) ∧
      (dot (unit (cross (b - a) (c - a))) (ctr - a) = r ∧
       dot (unit (cross (d - b) (c - b))) (ctr - b) = r ∧
       dot (unit (cross (d - c) (a - c))) (ctr - c) = r ∧
       dot (unit (cross (d - a) (b - a))) (ctr - a) = r)) := by
  set V := dot (d - a) (cross (b - a) (c - a)) with hV
  have hV0 : V ≠ 0 := by
    intro e; apply h; unfold compute_signed_volume; rw [← hV, e]; simp
  have h6 : 6 * compute_signed_volume a b c d = V := by unfold compute_signed_volume; rw [hV]; ring
  -- the four area vectors and what they do to the corners
  have m_d : dot (cross (b - a) (c - a)) (d - a) = V := by rw [dot_comm]
  have i_a : dot (cross (d - b) (c - b)) (a - b) = V := by
    rw [hV]; simp only [dot, cross, sub_x, sub_y, sub_z]; ring
  have j_b : dot (cross (d - c) (a - c)) (b - c) = V := by
    rw [hV]; simp only [dot, cross, sub_x, sub_y, sub_z]; ring
  have k_c : dot (cross (d - a) (b - a)) (c - a) = V := by
    rw [hV]; simp only [dot, cross, sub_x, sub_y, sub_z]; ring
  have hclosed : cross (b - a) (c - a) + cross (d - b) (c - b) + cross (d - c) (a - c) +
      cross (d - a) (b - a) = 0 := by
    ext <;> simp [cross] <;> ring
  have m_b : dot (cross (b - a) (c - a)) (b - a) = 0 := by rw [dot_comm, dot_cross_left]
  have m_c : dot (cross (b - a) (c - a)) (c - a) = 0 := by rw [dot_comm, dot_cross_right]
  have i_d : dot (cross (d - b) (c - b)) (d - b) = 0 := by rw [dot_comm, dot_cross_left]
  have i_c : dot (cross (d - b) (c - b)) (c - b) = 0 := by rw [dot_comm, dot_cross_right]
  have j_d : dot (cross (d - c) (a - c)) (d - c) = 0 := by rw [dot_comm, dot_cross_left]
  have j_a : dot (cross (d - c) (a - c)) (a - c) = 0 := by rw [dot_comm, dot_cross_right]
  have k_d : dot (cross (d - a) (b - a)) (d - a) = 0 := by rw [dot_comm, dot_cross_left]
  have k_b : dot (cross (d - a) (b - a)) (b - a) = 0 := by rw [dot_comm, dot_cross_right]
  have hdet3 : (M3.make_from_rows (cross (b - a) (c - a)) (cross (d - b) (c - b))
      (cross (d - c) (a - c))).det ≠ 0 := by
    have e1 : d - b = (d - a) - (b - a) := by abel
    have e2 : c - b = (c - a) - (b - a) := by abel
    have e3 : d - c = (d - a) - (c - a) := by abel
    have e4 : a - c = -(c - a) := by abel
    rw [e1, e2, e3, e4, det_areas, ← hV]
    exact pow_ne_zero _ hV0
  unfold twiceArea inscribed_sphere inscribedResidual faceNormals planeResidual
  rw [h6]
  simp only
  have nz : ∀ {n v : V3}, dot n v = V → n ≠ 0 := by
    rintro n v e rfl; apply hV0; rw [← e]; simp [dot]
  have nm := norm_pos (nz m_d)
  have ni := norm_pos (nz i_a)
  have nj := norm_pos (nz j_b)
  have nk := norm_pos (nz k_c)
  clear_value V
  generalize cross (b - a) (c - a) = M at *
  generalize cross (d - b) (c - b) = I at *
  generalize cross (d - c) (a - c) = J at *
  generalize cross (d - a) (b - a) = K at *
  generalize hM : norm M = m at *
  generalize hI : norm I = i at *
  generalize hJ : norm J = j at *
  generalize hK : norm K = k at *
  have hS : 0 < m + i + j + k := by linarith
  -- the exact solution
  have heq : ∀ (n : V3) (s : ℝ) (x : V3), dot (divs n s) x = dot n x / s := by
    intro n s x; simp only [dot, divs]; ring
  unfold unit
  rw [hM, hI, hJ, hK]
  simp only [heq]
  have exact_sol : ∀ ctr r, (m + i + j + k) • ctr = i • a + j • b + k • c + m • d →
      r = V / (m + i + j + k) →
      dot M (ctr - a) / m = r ∧ dot I (ctr - b) / i = r ∧ dot J (ctr - c) / j = r ∧
        dot K (ctr - a) / k = r := by
    intro ctr r hc hr
    have go : ∀ (n o : V3) (s : ℝ), 0 < s → dot n ((m + i + j + k) • ctr - (m + i + j + k) • o) = s * V →
        dot n (ctr - o) / s = r := by
      intro n o s hs e
      rw [div_eq_iff hs.ne', hr]
      rw [← smul_sub, dot_smul_right] at e
      field_simp
      linarith
    refine ⟨go M a m nm ?_, go I b i ni ?_, go J c j nj ?_, go K a k nk ?_⟩
    · rw [hc]
      have : i • a + j • b + k • c + m • d - (m + i + j + k) • a =
        j • (b - a) + k • (c - a) + m • (d - a) := by ext <;> simp <;> ring
      rw [this]; simp only [dot_add_right, dot_smul_right, m_b, m_c, m_d]; ring
    · rw [hc]
      have : i • a + j • b + k • c + m • d - (m + i + j + k) • b =
        i • (a - b) + k • (c - b) + m • (d - b) := by ext <;> simp <;> ring
      rw [this]; simp only [dot_add_right, dot_smul_right, i_a, i_c, i_d]; ring
    · rw [hc]
      have : i • a + j • b + k • c + m • d - (m + i + j + k) • c =
        i • (a - c) + j • (b - c) + m • (d - c) := by ext <;> simp <;> ring
      rw [this]; simp only [dot_add_right, dot_smul_right, j_a, j_b, j_d]; ring
    · rw [hc]
      have : i • a + j • b + k • c + m • d - (m + i + j + k) • a =
        j • (b - a) + k • (c - a) + m • (d - a) := by ext <;> simp <;> ring
      rw [this]; simp only [dot_add_right, dot_smul_right, k_b, k_c, k_d]; ring
  have uniq : ∀ c1 r1 c2 r2, (dot M (c1 - a) / m = r1 ∧ dot I (c1 - b) / i = r1 ∧ dot J (c1 - c) / j = r1 ∧
        dot K (c1 - a) / k = r1) → (dot M (c2 - a) / m = r2 ∧ dot I (c2 - b) / i = r2 ∧
        dot J (c2 - c) / j = r2 ∧ dot K (c2 - a) / k = r2) → c1 = c2 ∧ r1 = r2 := by
    rintro c1 r1 c2 r2 ⟨a1, a2, a3, a4⟩ ⟨b1, b2, b3, b4⟩
    rw [div_eq_iff (by linarith)] at a1 a2 a3 a4 b1 b2 b3 b4
    simp only [dot_sub_right] at a1 a2 a3 a4 b1 b2 b3 b4
    have t1 : dot M (c1 - c2) = (r1 - r2) * m := by rw [dot_sub_right]; linarith
    have t2 : dot I (c1 - c2) = (r1 - r2) * i := by rw [dot_sub_right]; linarith
    have t3 : dot J (c1 - c2) = (r1 - r2) * j := by rw [dot_sub_right]; linarith
    have t4 : dot K (c1 - c2) = (r1 - r2) * k := by rw [dot_sub_right]; linarith
    have hr : r1 = r2 := by
      have : dot (M + I + J + K) (c1 - c2) = (r1 - r2) * (m + i + j + k) := by
        simp only [dot_add_left, t1, t2, t3, t4]; ring
      rw [hclosed] at this
      have z : dot 0 (c1 - c2) = 0 := by simp [dot]
      rw [z] at this
      rcases mul_eq_zero.mp this.symm with h0 | h0 <;> linarith
    rw [hr, sub_self, zero_mul] at t1 t2 t3
    refine ⟨?_, hr⟩
    have : c1 - c2 = 0 := by
      apply M3.mulVec_inj hdet3
      simp only [dot] at t1 t2 t3
      ext <;> simp only [M3.mulVec, M3.make_from_rows, zero_x, zero_y, zero_z] <;> linarith
    exact sub_eq_zero.mp this
  have res : ∀ (n o x : V3) (s r : ℝ), dot n x / s + -1 * r - dot n o / s = dot n (x - o) / s - r := by
    intro n o x s r; rw [dot_sub_right]; ring
  simp only [res]
  refine ⟨hS, ?_⟩
  intro ctr r
  set c0 := (1 / (m + i + j + k)) • (i • a + j • b + k • c + m • d) with hc0
  have hc0' : (m + i + j + k) • c0 = i • a + j • b + k • c + m • d := by
    rw [hc0, smul_smul, mul_one_div_cancel hS.ne', one_smul]
  obtain ⟨z1, z2, z3, z4⟩ := exact_sol c0 _ hc0' rfl
  constructor
  · rintro ⟨hc, hr⟩ c' r'
    obtain ⟨w1, w2, w3, w4⟩ := exact_sol ctr r hc hr
    rw [w1, w2, w3, w4]
    have : ((r - r) ^ 2 + (r - r) ^ 2 + (r - r) ^ 2 + (r - r) ^ 2) = 0 := by ring
    rw [this]
    have q1 := sq_nonneg (dot M (c' - a) / m - r')
    have q2 := sq_nonneg (dot I (c' - b) / i - r')
    have q3 := sq_nonneg (dot J (c' - c) / j - r')
    have q4 := sq_nonneg (dot K (c' - a) / k - r')
    linarith
  · intro hmin
    have := hmin c0 (V / (m + i + j + k))
    rw [z1, z2, z3, z4] at this
    simp only [sub_self] at this
    have q1 := sq_nonneg (dot M (ctr - a) / m - r)
    have q2 := sq_nonneg (dot I (ctr - b) / i - r)
    have q3 := sq_nonneg (dot J (ctr - c) / j - r)
    have q4 := sq_nonneg (dot K (ctr - a) / k - r)
    have w1 : dot M (ctr - a) / m = r := by
      have : (dot M (ctr - a) / m - r) ^ 2 = 0 := by linarith
      have := pow_eq_zero_iff (two_ne_zero) |>.mp this; linarith
    have w2 : dot I (ctr - b) / i = r := by
      have : (dot I (ctr - b) / i - r) ^ 2 = 0 := by linarith
      have := pow_eq_zero_iff (two_ne_zero) |>.mp this; linarith
    have w3 : dot J (ctr - c) / j = r := by
      have : (dot J (ctr - c) / j - r) ^ 2 = 0 := by linarith
      have := pow_eq_zero_iff (two_ne_zero) |>.mp this; linarith
    have w4 : dot K (ctr - a) / k = r := by
      have : (dot K (ctr - a) / k - r) ^ 2 = 0 := by linarith
      have := pow_eq_zero_iff (two_ne_zero) |>.mp this; linarith
    obtain ⟨e1, e2⟩ := uniq ctr r c0 _ ⟨w1, w2, w3, w4⟩ ⟨z1, z2, z3, z4⟩
    exact ⟨⟨by rw [e1]; exact hc0', e2⟩, w1, w2, w3, w4⟩

/-- C28: for every non-degenerate tetrahedron a result of `compute_inscribed_sphere` exists and every
result is a sphere tangent to the four face planes whose centre is strictly inside the tetrahedron. Its
radius is 3·volume/area, with the sign of the signed volume. -/
theorem C28_inscribed (a b c d : V3) (h : compute_signed_volume a b c d ≠ 0) :
    (∃ s : V3 × ℝ, inscribed_sphere a b c d s.1 s.2) ∧
    ∀ ctr r, inscribed_sphere a b c d ctr r →
      TangentPlane a b c ctr r ∧ TangentPlane b d c ctr r ∧ TangentPlane c d a ctr r ∧
      TangentPlane a d b ctr r ∧
      (∃ w1 w2 w3 w4 : ℝ, 0 < w1 ∧ 0 < w2 ∧ 0 < w3 ∧ 0 < w4 ∧ w1 + w2 + w3 + w4 = 1 ∧
        ctr = w1 • a + w2 • b + w3 • c + w4 • d) ∧
      (0 < r ↔ 0 < compute_signed_volume a b c d) := by
  obtain ⟨hS, hcore⟩ := inscribed_core h
  have hnz : ∀ u v w : V3, dot w (cross u v) ≠ 0 → cross u v ≠ 0 := by
    intro u v w e e'; apply e; rw [e']; simp [dot]
  have hV : dot (d - a) (cross (b - a) (c - a)) ≠ 0 := by
    intro e; apply h; unfold compute_signed_volume; rw [e]; simp
  have nm : cross (b - a) (c - a) ≠ 0 := hnz _ _ _ hV
  have ni : cross (d - b) (c - b) ≠ 0 := hnz _ _ (a - b) (by
    convert hV using 1; simp only [dot, cross, sub_x, sub_y, sub_z]; ring)
  have nj : cross (d - c) (a - c) ≠ 0 := hnz _ _ (b - c) (by
    convert hV using 1; simp only [dot, cross, sub_x, sub_y, sub_z]; ring)
  have nk : cross (d - a) (b - a) ≠ 0 := hnz _ _ (c - a) (by
    convert hV using 1; simp only [dot, cross, sub_x, sub_y, sub_z]; ring)
  have perp : ∀ u v : V3, dot (unit (cross u v)) u = 0 ∧ dot (unit (cross u v)) v = 0 := by
    intro u v
    unfold unit
    rw [divs_eq_smul, dot_smul_left, dot_smul_left, dot_comm _ u, dot_comm _ v, dot_cross_left, dot_cross_right]
    simp
  constructor
  · set S := twiceArea a b c d
    set C := norm (cross (d - b) (c - b)) • a + norm (cross (d - c) (a - c)) • b +
        norm (cross (d - a) (b - a)) • c + norm (cross (b - a) (c - a)) • d with hC
    refine ⟨((1 / S) • C, 6 * compute_signed_volume a b c d / S), (hcore _ _).1 ⟨?_, rfl⟩⟩
    rw [smul_smul, mul_one_div_cancel hS.ne', one_smul]
  · intro ctr r hr
    obtain ⟨⟨hc, hrr⟩, t1, t2, t3, t4⟩ := (hcore ctr r).2 hr
    refine ⟨tangent_of_eq (unit_dot nm) (perp _ _).1 (perp _ _).2 nm t1,
      tangent_of_eq (unit_dot ni) (perp _ _).1 (perp _ _).2 ni t2,
      tangent_of_eq (unit_dot nj) (perp _ _).1 (perp _ _).2 nj t3,
      tangent_of_eq (unit_dot nk) (perp _ _).1 (perp _ _).2 nk t4, ?_, ?_⟩
    · refine ⟨norm (cross (d - b) (c - b)) / twiceArea a b c d, norm (cross (d - c) (a - c)) / twiceArea a b c d,
        norm (cross (d - a) (b - a)) / twiceArea a b c d, norm (cross (b - a) (c - a)) / twiceArea a b c d,
        div_pos (norm_pos ni) hS, div_pos (norm_pos nj) hS, div_pos (norm_pos nk) hS,
        div_pos (norm_pos nm) hS, ?_, ?_⟩
      · rw [← add_div, ← add_div, ← add_div, div_eq_one_iff_eq hS.ne']
        unfold twiceArea; ring
      · have : ctr = (1 / twiceArea a b c d) • (twiceArea a b c d • ctr) := by
          rw [smul_smul, one_div_mul_cancel hS.ne', one_smul]
        rw [this, hc]
        ext <;> simp <;> ring
    · rw [hrr, lt_div_iff₀ hS]
      constructor <;> intro hh <;> linarith

/-- The unit corner tetrahedron (right-handed) and its mirror image (left-handed) meet the hypotheses. -/
example : compute_signed_volume 0 ⟨1,0,0⟩ ⟨0,1,0⟩ ⟨0,0,1⟩ ≠ 0 ∧
    compute_signed_volume 0 ⟨0,1,0⟩ ⟨1,0,0⟩ ⟨0,0,1⟩ ≠ 0 := by
  constructor <;> simp [compute_signed_volume, dot, cross]

end Verif
