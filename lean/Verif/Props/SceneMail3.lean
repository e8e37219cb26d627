import Verif.Props.SceneMail2
import Verif.Props.Barycentric

/-! C106: the triangles of the rings, and how far they are from those of other rings. -/

namespace Verif

open Rigid Rigid.SceneM SMesh
open VMesh (Tri)

theorem vnorm_nonneg (a : V3) : 0 ≤ V3.norm a := Real.sqrt_nonneg _

theorem vdot_self_nonneg (a : V3) : 0 ≤ V3.dot a a := by
  unfold V3.dot; nlinarith [mul_self_nonneg a.x, mul_self_nonneg a.y, mul_self_nonneg a.z]

theorem vnorm_sq (a : V3) : V3.norm a ^ 2 = V3.dot a a := Real.sq_sqrt (vdot_self_nonneg a)

theorem vnorm_add (a b : V3) : V3.norm (a + b) ≤ V3.norm a + V3.norm b := by
  have h1 := V3.dot_le_norm_mul a b
  have h2 := vnorm_sq a
  have h3 := vnorm_sq b
  have h4 := vnorm_sq (a + b)
  have h5 : V3.dot (a + b) (a + b) = V3.dot a a + 2 * V3.dot a b + V3.dot b b := by
    simp only [V3.dot, V3.add_x, V3.add_y, V3.add_z]; ring
  refine abs_le_of_sq_le_sq' ?_ (add_nonneg (vnorm_nonneg a) (vnorm_nonneg b)) |>.2
  nlinarith

theorem vnorm_smul (k : ℝ) (a : V3) : V3.norm (k • a) = |k| * V3.norm a := by
  unfold V3.norm
  rw [← Real.sqrt_sq_eq_abs, ← Real.sqrt_mul (sq_nonneg k)]
  congr 1
  simp only [V3.dot, V3.smul_x, V3.smul_y, V3.smul_z]; ring

theorem vnorm_of_dot {a : V3} (h : V3.dot a a = 1) : V3.norm a = 1 := by unfold V3.norm; rw [h]; simp

/-- the direction of slice k, and that of point i of its circle -/
noncomputable def tu (K k : ℕ) : V3 := ⟨Real.cos ((k : ℝ) * turn K), Real.sin ((k : ℝ) * turn K), 0⟩
noncomputable def tn (I K k i : ℕ) : V3 :=
  ⟨Real.cos ((i : ℝ) * turn I) * Real.cos ((k : ℝ) * turn K), Real.cos ((i : ℝ) * turn I) * Real.sin ((k : ℝ) * turn K),
    Real.sin ((i : ℝ) * turn I)⟩

theorem tp_eq (R r : ℝ) (I K k i : ℕ) : tp R r I K k i = R • tu K k + r • tn I K k i := by
  unfold tp tu tn tl tz
  refine V3.ext ?_ ?_ ?_ <;> simp <;> ring

theorem tu_norm (K k : ℕ) : V3.norm (tu K k) = 1 := by
  apply vnorm_of_dot
  simp only [tu, V3.dot]
  linear_combination Real.sin_sq_add_cos_sq ((k : ℝ) * turn K)

theorem tn_norm (I K k i : ℕ) : V3.norm (tn I K k i) = 1 := by
  apply vnorm_of_dot
  simp only [tn, V3.dot]
  linear_combination Real.cos ((i : ℝ) * turn I) ^ 2 * Real.sin_sq_add_cos_sq ((k : ℝ) * turn K) + Real.sin_sq_add_cos_sq ((i : ℝ) * turn I)

/-- Points of a triangle between two neighbouring slices. -/
theorem slice_near {R r : ℝ} (hR : 0 ≤ R) (hr : 0 ≤ r) {I K : ℕ} (hK : 3 ≤ K) {k : ℕ} {k1 k2 k3 i1 i2 i3 : ℕ} (h1 : k1 = k ∨ k1 = k + 1)
    (h2 : k2 = k ∨ k2 = k + 1) (h3 : k3 = k ∨ k3 = k + 1) {x : V3}
    (hx : InTriangle (tp R r I K k1 i1) (tp R r I K k2 i2) (tp R r I K k3 i3) x) :
    ∃ p : V3, V3.dot p p = R ^ 2 ∧ p.z = 0 ∧ V3.norm (x - p) ≤ r + R * (1 - Real.cos (Real.pi / K)) := by
  obtain ⟨a, b, c, ha, hb, hc, habc, rfl⟩ := hx
  obtain ⟨m, hm⟩ : ∃ m : V3, m = ⟨Real.cos (((k : ℝ) + 1 / 2) * turn K), Real.sin (((k : ℝ) + 1 / 2) * turn K), 0⟩ := ⟨_, rfl⟩
  have hmn : V3.norm m = 1 := by
    apply vnorm_of_dot
    rw [hm]; simp only [V3.dot]
    linear_combination Real.sin_sq_add_cos_sq (((k : ℝ) + 1 / 2) * turn K)
  have hturn : turn K / 2 = Real.pi / K := by unfold turn; ring
  have key : ∀ k', (k' = k ∨ k' = k + 1) → V3.dot m (tu K k') = Real.cos (Real.pi / K) := by
    intro k' hk'
    rw [hm]
    simp only [V3.dot, tu, mul_zero, add_zero]
    rw [← Real.cos_sub, ← hturn]
    rcases hk' with rfl | rfl
    · congr 1; ring
    · rw [← Real.cos_neg]; congr 1; push_cast; ring
  have hcos : 0 < Real.cos (Real.pi / K) := by
    have hp := Real.pi_pos
    have hK' : (3 : ℝ) ≤ K := by exact_mod_cast hK
    refine Real.cos_pos_of_mem_Ioo ⟨by have : 0 < Real.pi / K := by positivity
                                       linarith, ?_⟩
    rw [div_lt_div_iff_of_pos_left hp (by linarith) (by norm_num)]
    linarith
  obtain ⟨U, hU⟩ : ∃ U : V3, U = a • tu K k1 + b • tu K k2 + c • tu K k3 := ⟨_, rfl⟩
  obtain ⟨N, hN⟩ : ∃ N : V3, N = a • tn I K k1 i1 + b • tn I K k2 i2 + c • tn I K k3 i3 := ⟨_, rfl⟩
  have hUlow : Real.cos (Real.pi / K) ≤ V3.norm U := by
    have h4 := V3.dot_le_norm_mul m U
    have h5 : V3.dot m U = Real.cos (Real.pi / K) := by
      have : V3.dot m U = a * V3.dot m (tu K k1) + b * V3.dot m (tu K k2) + c * V3.dot m (tu K k3) := by
        rw [hU]; simp only [V3.dot, V3.add_x, V3.add_y, V3.add_z, V3.smul_x, V3.smul_y, V3.smul_z]; ring
      rw [this, key _ h1, key _ h2, key _ h3]
      linear_combination Real.cos (Real.pi / K) * habc
    rw [hmn, one_mul, h5] at h4
    exact h4
  have hle : ∀ (v1 v2 v3 : V3), V3.norm v1 = 1 → V3.norm v2 = 1 → V3.norm v3 = 1 → V3.norm (a • v1 + b • v2 + c • v3) ≤ 1 := by
    intro v1 v2 v3 e1 e2 e3
    have g1 := vnorm_add (a • v1 + b • v2) (c • v3)
    have g2 := vnorm_add (a • v1) (b • v2)
    rw [vnorm_smul, vnorm_smul, e1, e2, abs_of_nonneg ha, abs_of_nonneg hb] at g2
    rw [vnorm_smul, e3, abs_of_nonneg hc] at g1
    linarith
  have hUup : V3.norm U ≤ 1 := by rw [hU]; exact hle _ _ _ (tu_norm _ _) (tu_norm _ _) (tu_norm _ _)
  have hNup : V3.norm N ≤ 1 := by rw [hN]; exact hle _ _ _ (tn_norm _ _ _ _) (tn_norm _ _ _ _) (tn_norm _ _ _ _)
  have hUpos : 0 < V3.norm U := hcos.trans_le hUlow
  have hx : a • tp R r I K k1 i1 + b • tp R r I K k2 i2 + c • tp R r I K k3 i3 = R • U + r • N := by
    rw [tp_eq, tp_eq, tp_eq, hU, hN]
    refine V3.ext ?_ ?_ ?_ <;> simp <;> ring
  refine ⟨(R / V3.norm U) • U, ?_, ?_, ?_⟩
  · have : V3.dot ((R / V3.norm U) • U) ((R / V3.norm U) • U) = (R / V3.norm U) ^ 2 * V3.dot U U := by
      simp only [V3.dot, V3.smul_x, V3.smul_y, V3.smul_z]; ring
    rw [this, ← vnorm_sq]
    field_simp
  · rw [hU]; simp [tu]
  · rw [hx]
    have e1 : R • U + r • N - (R / V3.norm U) • U = (R - R / V3.norm U) • U + r • N := by
      refine V3.ext ?_ ?_ ?_ <;> simp <;> ring
    rw [e1]
    have g1 := vnorm_add ((R - R / V3.norm U) • U) (r • N)
    rw [vnorm_smul, vnorm_smul, abs_of_nonneg hr] at g1
    have g2 : |R - R / V3.norm U| * V3.norm U = R * (1 - V3.norm U) := by
      have : R - R / V3.norm U ≤ 0 := by
        have : R ≤ R / V3.norm U := le_div_self hR hUpos hUup
        linarith
      rw [abs_of_nonpos this]
      field_simp
      ring
    rw [g2] at g1
    have g3 : R * (1 - V3.norm U) ≤ R * (1 - Real.cos (Real.pi / K)) := mul_le_mul_of_nonneg_left (by linarith) hR
    have g4 : r * V3.norm N ≤ r * 1 := mul_le_mul_of_nonneg_left hNup hr
    linarith

/-- Every point of every triangle of the torus is near the circle in its middle. -/
theorem torus_near {R r : ℝ} (hR : 0 ≤ R) (hr : 0 ≤ r) {I K : ℕ} (hK : 3 ≤ K) {t : V3 × V3 × V3}
    (ht : t ∈ trianglesOf (create_torus R r I K).1 (create_torus R r I K).2) {x : V3} (hx : InTriangle t.1 t.2.1 t.2.2 x) :
    ∃ p : V3, V3.dot p p = R ^ 2 ∧ p.z = 0 ∧ V3.norm (x - p) ≤ r + R * (1 - Real.cos (Real.pi / K)) := by
  unfold trianglesOf create_torus torusT at ht
  simp only [List.mem_map, List.mem_flatMap, List.mem_range, torusTris] at ht
  obtain ⟨tt, ⟨k, hk, i, hi, htt⟩, rfl⟩ := ht
  obtain ⟨h1, h2, h3⟩ := torus_get_next (R := R) (r := r) hk hi
  simp only [List.mem_cons, List.not_mem_nil, or_false] at htt
  rcases htt with rfl | rfl
  · simp only [h2, h3, torus_get hk hi] at hx
    exact slice_near hR hr hK (k := k) (.inl rfl) (.inr rfl) (.inr rfl) hx
  · simp only [h1, h3, torus_get hk hi] at hx
    exact slice_near hR hr hK (k := k) (.inl rfl) (.inr rfl) (.inl rfl) hx

theorem rotate_vnorm {q : Quat} (hq : IsUnitQ q) (a : V3) : V3.norm (Quat.rotate q a) = V3.norm a := by
  unfold V3.norm
  rw [rotate_dot_V3 hq]

/-- Every point of every triangle of a ring is near the circle of its hoop. -/
theorem ring_near {R r : ℝ} (hR : 0 ≤ R) (hr : 0 ≤ r) {h : Hoop} {q : Quat} (hq : IsUnitQ q) (hn : Quat.rotate q ⟨0, 0, 1⟩ = h.n)
    {t : V3 × V3 × V3} (ht : t ∈ (trianglesOf (create_torus R r 24 24).1 (create_torus R r 24 24).2).map fun t =>
        (h.c + Quat.rotate q t.1, h.c + Quat.rotate q t.2.1, h.c + Quat.rotate q t.2.2)) {x : V3} (hx : InTriangle t.1 t.2.1 t.2.2 x) :
    ∃ p, h.On R p ∧ V3.norm (x - p) ≤ r + R * (1 - Real.cos (Real.pi / 24)) := by
  obtain ⟨t0, ht0, rfl⟩ := List.mem_map.1 ht
  obtain ⟨a, b, c, ha, hb, hc, habc, rfl⟩ := hx
  obtain ⟨p, p1, p2, p3⟩ := torus_near hR hr (K := 24) (by norm_num) ht0 ⟨a, b, c, ha, hb, hc, habc, rfl⟩
  refine ⟨h.c + Quat.rotate q p, ⟨?_, ?_⟩, ?_⟩
  · have : h.c + Quat.rotate q p - h.c = Quat.rotate q p := by refine V3.ext ?_ ?_ ?_ <;> simp
    rw [this, rotate_dot_V3 hq, p1]
  · have : h.c + Quat.rotate q p - h.c = Quat.rotate q p := by refine V3.ext ?_ ?_ ?_ <;> simp
    rw [this, ← hn, rotate_dot_V3 hq]
    simp [V3.dot, p2]
  · have e : a • (h.c + Quat.rotate q t0.1) + b • (h.c + Quat.rotate q t0.2.1) + c • (h.c + Quat.rotate q t0.2.2) - (h.c + Quat.rotate q p) =
        Quat.rotate q (a • t0.1 + b • t0.2.1 + c • t0.2.2 - p) := by
      rw [rotate_sub, rotate_add, rotate_add, (C02_rotate_linear q a _ 0).2, (C02_rotate_linear q b _ 0).2, (C02_rotate_linear q c _ 0).2]
      have : c = 1 - a - b := by linarith
      rw [this]
      refine V3.ext ?_ ?_ ?_ <;> simp <;> ring
    simp only
    rw [e, rotate_vnorm hq]
    exact_mod_cast p3

/-- **C106.** The meshes of the rings do not touch: with D = R + (R - 2r)·stretch and ρ = r + R·(1 - cos(π/24)), the thickness of the ring and
what the 24 straight pieces of it cut off the circle, no triangle of a ring shares a point with a triangle of another ring if 2ρ < R,
2ρ < 2R - D (room inside the hole) and 2ρ < √2·(D - R) (room between the vertical rings around a flat ring). -/
theorem C106_disjoint {eig : Eig} (he : EigSpec eig) {R r : ℝ} (hR : 0 < R) (hr : 0 < r) {columns rows : ℕ} {stretch density : ℝ}
    {material : String} {pinned : Bool} {s s' : Scene} {names : List String} (hok : s.OK)
    (hrun : create_chainmail eig R r columns rows stretch density material pinned s = .ok (names, s'))
    {D ρ : ℝ} (hD : D = R + (R - 2 * r) * min (max stretch 0) 1) (hρ : ρ = r + R * (1 - Real.cos (Real.pi / 24)))
    (hRD : R ≤ D) (h1 : 2 * ρ < R) (h2 : 2 * ρ < 2 * R - D) (h3 : (2 * ρ) ^ 2 < 2 * (D - R) ^ 2)
    {i j : ℕ} (hij : i ≠ j) {n n' : String} (hn : names[i]? = some n) (hn' : names[j]? = some n') {m m' : Mesh}
    (hm : s'.worldMesh n = some m) (hm' : s'.worldMesh n' = some m') {t t' : V3 × V3 × V3} (ht : t ∈ trianglesOf m.V m.T)
    (ht' : t' ∈ trianglesOf m'.V m'.T) (x : V3) : ¬ (InTriangle t.1 t.2.1 t.2.2 x ∧ InTriangle t'.1 t'.2.1 t'.2.2 x) := by
  rintro ⟨hx, hx'⟩
  obtain ⟨hl, -, -, -, -, -, -, -, -, -, hall⟩ := C106_chainmail he hR hr hok hrun
  have ring : ∀ (i : ℕ) (n : String) (m : Mesh) (t : V3 × V3 × V3), names[i]? = some n → s'.worldMesh n = some m → t ∈ trianglesOf m.V m.T →
      InTriangle t.1 t.2.1 t.2.2 x → ∃ h p, (mailHoops D columns rows)[i]? = some h ∧ h.On R p ∧ V3.norm (x - p) ≤ ρ := by
    intro i n m t hn hm ht hx
    obtain ⟨h, hh⟩ : ∃ h, (mailHoops D columns rows)[i]? = some h := by
      obtain ⟨hi, -⟩ := List.getElem?_eq_some_iff.1 hn
      exact ⟨_, List.getElem?_eq_getElem (by rw [hD]; omega)⟩
    obtain ⟨o, m2, q, -, e1, e2, e3, -, e4, -⟩ := hall i n h hn (by rw [← hD]; exact hh)
    rw [hm] at e1
    cases e1
    obtain ⟨p, hp1, hp2⟩ := ring_near hR.le hr.le e2 e3 (e4.mem_iff.1 ht) hx
    exact ⟨h, p, hh, hp1, by rw [hρ]; exact hp2⟩
  obtain ⟨h, p, g1, g2, g3⟩ := ring i n m t hn hm ht hx
  obtain ⟨h', q, k1, k2, k3⟩ := ring j n' m' t' hn' hm' ht' hx'
  obtain ⟨τ, hτ, rfl⟩ := mail_get g1
  obtain ⟨τ', hτ', rfl⟩ := mail_get k1
  have hcos := Real.cos_le_one (Real.pi / 24)
  have hρ0 : 0 < ρ := by rw [hρ]; nlinarith
  -- a clearance greater than 2ρ
  have hDR : 2 * ρ < Real.sqrt 2 * (D - R) := by
    refine abs_lt_of_sq_lt_sq' ?_ (mul_nonneg (Real.sqrt_nonneg _) (by linarith)) |>.2
    rw [mul_pow (Real.sqrt 2), Real.sq_sqrt (by norm_num)]
    exact h3
  obtain ⟨S, hS⟩ : ∃ S, S = min R (min (2 * R - D) (Real.sqrt 2 * (D - R))) := ⟨_, rfl⟩
  have s0 : 2 * ρ < S := by rw [hS]; exact lt_min h1 (lt_min h2 hDR)
  have s1 : S ≤ R := by rw [hS]; exact min_le_left _ _
  have s2 : S ≤ 2 * R - D := by rw [hS]; exact (min_le_right _ _).trans (min_le_left _ _)
  have s3 : S ≤ Real.sqrt 2 * (D - R) := by rw [hS]; exact (min_le_right _ _).trans (min_le_right _ _)
  have s4 : S ^ 2 ≤ 2 * (D - R) ^ 2 := by
    have := pow_le_pow_left₀ (by linarith : 0 ≤ S) s3 2
    rw [mul_pow, Real.sq_sqrt (by norm_num)] at this
    exact this
  have key := hoops_apart hR.le hRD (by linarith) s1 s2 s4 (mailTags_odd (List.mem_of_getElem? hτ))
    (mailTags_odd (List.mem_of_getElem? hτ')) (mail_ne hij hτ hτ') g2 k2
  have hle : V3.norm (p - q) ≤ 2 * ρ := by
    have e : p - q = (-1 : ℝ) • (x - p) + (x - q) := by refine V3.ext ?_ ?_ ?_ <;> simp
    have := vnorm_add ((-1 : ℝ) • (x - p)) (x - q)
    rw [vnorm_smul, abs_neg, abs_one, one_mul, ← e] at this
    linarith
  have hge : S ^ 2 ≤ V3.norm (p - q) ^ 2 := by
    rw [vnorm_sq]
    refine key.trans (le_of_eq ?_)
    simp only [V3.dot, V3.sub_x, V3.sub_y, V3.sub_z]; ring
  have := abs_le_of_sq_le_sq' hge (vnorm_nonneg _) |>.2
  linarith

/-- The mail of create_scene.py (`chainmail`: R = 2, r = 0.5, stretch = 0.75) has that much room, … -/
example : ∃ D ρ : ℝ, D = 2 + (2 - 2 * (1 / 2)) * min (max (3 / 4) 0) 1 ∧ ρ = 1 / 2 + 2 * (1 - Real.cos (Real.pi / 24)) ∧ 2 ≤ D ∧ 2 * ρ < 2 ∧
    2 * ρ < 2 * 2 - D ∧ (2 * ρ) ^ 2 < 2 * (D - 2) ^ 2 := by
  refine ⟨11 / 4, _, by norm_num, rfl, ?_⟩
  have h1 := Real.one_sub_sq_div_two_le_cos (x := Real.pi / 24)
  have h2 := Real.pi_le_four
  have h3 := Real.pi_pos
  have h4 : (Real.pi / 24) ^ 2 ≤ (4 / 24) ^ 2 := by
    refine pow_le_pow_left₀ (by positivity) ?_ 2
    linarith
  have h5 := Real.cos_le_one (Real.pi / 24)
  generalize Real.cos (Real.pi / 24) = c at *
  norm_num at h4
  refine ⟨by norm_num, by linarith, by linarith, ?_⟩
  nlinarith

end Verif
