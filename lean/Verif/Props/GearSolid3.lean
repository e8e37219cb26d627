import Verif.Props.GearSolid2

/-! C107: the mesh of a gear bounds a solid (third part). -/

namespace Verif

open Gear SMesh
open VMesh (Tri)

theorem cross_z (a b c : V3) : (V3.cross (b - a) (c - a)).z = cr a b + cr b c + cr c a := by
  simp only [V3.cross, cr, V3.sub_x, V3.sub_y]; ring

theorem cr_polar (r a s b z z' : ℝ) : cr ⟨(polar r a).1, (polar r a).2, z⟩ ⟨(polar s b).1, (polar s b).2, z'⟩ = r * s * Real.sin (b - a) := by
  unfold cr polar; rw [Real.sin_sub]; ring

theorem fanArea_polar (ρ r a s b : ℝ) : fanArea ρ (polar r a) (polar s b) = ρ * r * Real.sin a + r * s * Real.sin (b - a) + s * ρ * Real.sin (-b) := by
  unfold fanArea polar; rw [Real.sin_sub, Real.sin_neg]; ring

section
variable {m : ℝ} {Z : ℕ} {alpha : ℝ} (w : ℝ)

/-- the corner i of the profile, in the plane z = 0 -/
noncomputable def flatPt (m : ℝ) (Z : ℕ) (alpha : ℝ) (i : ℕ) : V3 := ⟨((make_gear_specs m Z alpha).xy.getD i 0).1, ((make_gear_specs m Z alpha).xy.getD i 0).2, 0⟩

/-- the triangles on a tooth -/
theorem capArea (h : TeethSolid m Z alpha) {c k : ℕ} (hc : c < Z) (hk : k < 30) (z : ℝ) :
    0 < cr ⟨midRad m Z alpha * Real.cos (toothDir Z c), midRad m Z alpha * Real.sin (toothDir Z c), z⟩ (flatPt m Z alpha (loopAt Z c k)) +
      cr (flatPt m Z alpha (loopAt Z c k)) (flatPt m Z alpha (loopAt Z c ((k + 1) % 30))) +
      cr (flatPt m Z alpha (loopAt Z c ((k + 1) % 30))) ⟨midRad m Z alpha * Real.cos (toothDir Z c), midRad m Z alpha * Real.sin (toothDir Z c), z⟩ := by
  have := h.fan hk
  unfold gPt at this
  rw [fanArea_polar] at this
  unfold flatPt
  rw [loop_get h hc hk, loop_get h hc (Nat.mod_lt _ (by norm_num))]
  have e1 := cr_polar (midRad m Z alpha) (toothDir Z c) (gRad m Z alpha k) (toothDir Z c + gAng m Z alpha k) z 0
  have e2 := cr_polar (gRad m Z alpha ((k + 1) % 30)) (toothDir Z c + gAng m Z alpha ((k + 1) % 30)) (midRad m Z alpha) (toothDir Z c) 0 z
  rw [cr_polar]
  rw [show toothDir Z c + gAng m Z alpha k - toothDir Z c = gAng m Z alpha k by ring] at e1
  rw [show toothDir Z c - (toothDir Z c + gAng m Z alpha ((k + 1) % 30)) = -gAng m Z alpha ((k + 1) % 30) by ring] at e2
  rw [show toothDir Z c + gAng m Z alpha ((k + 1) % 30) - (toothDir Z c + gAng m Z alpha k) = gAng m Z alpha ((k + 1) % 30) - gAng m Z alpha k by ring]
  refine lt_of_lt_of_le this (le_of_eq ?_)
  rw [← e1, ← e2]
  rfl

/-- … between its feet -/
theorem chordArea (h : TeethSolid m Z alpha) {c : ℕ} (hc : c < Z) : 0 < cr (flatPt m Z alpha (loopAt Z c 0)) (flatPt m Z alpha (34 * c + 28)) := by
  obtain ⟨q1, q2, q3, q4, q5⟩ := h.fit.radii
  obtain ⟨k0, k1, k2, k3⟩ := h.half
  have e := g29 h (k := 0) (by norm_num)
  have e28 : 34 * c + 28 = loopAt Z c 29 := by unfold loopAt; rw [if_neg (by norm_num)]; omega
  unfold flatPt
  rw [e28, loop_get h hc (by norm_num), loop_get h hc (by norm_num), cr_polar]
  rw [show (29 : ℕ) = 29 - 0 from rfl, e.1, e.2, g0.1, g0.2]
  refine mul_pos (mul_pos q1 q1) (Real.sin_pos_of_pos_of_lt_pi (by linarith) (by linarith))

/-- … and between the teeth -/
theorem rootArea (h : TeethSolid m Z alpha) {c n : ℕ} (hc : c < Z) (hn : n < 5) : 0 < cr (flatPt m Z alpha (34 * c + 28 + n)) (flatPt m Z alpha (34 * c + 28 + n + 1)) := by
  obtain ⟨q1, q2, q3, q4, q5⟩ := h.fit.radii
  obtain ⟨k0, k1, k2, k3⟩ := h.half
  obtain ⟨hT, hd0, hg0, hs⟩ := h.fit.spans
  have hd := h.fit.root
  have hb : (make_gear_specs m Z alpha).beta = Real.pi / Z := rfl
  unfold flatPt
  rw [Nat.add_assoc, Nat.add_assoc, Nat.add_assoc, specs_get m Z alpha hc (by omega), specs_get m Z alpha hc (by omega), tooth_get _ _ _ _ _ _ _ (by omega),
    tooth_get _ _ _ _ _ _ _ (by omega), cr_polar]
  unfold toothRadius toothAngle
  simp only [if_neg (show ¬ 28 + n < 12 by omega), if_neg (show ¬ 28 + n < 16 by omega), if_neg (show ¬ 28 + n < 28 by omega),
    if_neg (show ¬ 28 + (n + 1) < 12 by omega), if_neg (show ¬ 28 + (n + 1) < 16 by omega), if_neg (show ¬ 28 + (n + 1) < 28 by omega)]
  refine mul_pos (mul_pos q1 q1) (Real.sin_pos_of_pos_of_lt_pi ?_ ?_)
  · push_cast; rw [hb]; linarith
  · push_cast; rw [hb]; linarith

theorem flat_ne (h : TeethSolid m Z alpha) {i : ℕ} (hi : i < 34 * Z) : flatPt m Z alpha i ≠ flatPt m Z alpha ((i + 1) % (34 * Z)) := by
  have cap : ∀ c k, c < Z → k < 30 → flatPt m Z alpha (loopAt Z c k) ≠ flatPt m Z alpha (loopAt Z c ((k + 1) % 30)) := by
    intro c k hc hk e
    have := capArea h hc hk 0
    rw [← e] at this
    unfold cr at this
    linarith
  have hn := next_spec hi
  rcases (by omega : i % 34 < 28 ∨ (28 ≤ i % 34 ∧ i % 34 < 33) ∨ i % 34 = 33) with hr | hr | hr
  · have := cap (i / 34) (i % 34 + 1) (by omega) (by omega)
    have e1 := loopAt_spec (K := Z) (c := i / 34) (m := i % 34 + 1) (by omega)
    have e2 := loopAt_spec (K := Z) (c := i / 34) (m := (i % 34 + 1 + 1) % 30) (by omega)
    rwa [show loopAt Z (i / 34) (i % 34 + 1) = i by omega, show loopAt Z (i / 34) ((i % 34 + 1 + 1) % 30) = (i + 1) % (34 * Z) by omega] at this
  · have := rootArea h (c := i / 34) (n := i % 34 - 28) (by omega) (by omega)
    rw [show 34 * (i / 34) + 28 + (i % 34 - 28) = i by omega] at this
    rw [show (i + 1) % (34 * Z) = i + 1 by omega]
    intro e
    rw [← e] at this
    unfold cr at this
    linarith
  · have hZ : 0 < Z := by omega
    rcases hn with ⟨e, hlt⟩ | ⟨e, he⟩
    · have := cap (i / 34 + 1) 0 (by omega) (by norm_num)
      have e1 := loopAt_spec (K := Z) (c := i / 34 + 1) (m := 0) (by omega)
      have e2 := loopAt_spec (K := Z) (c := i / 34 + 1) (m := (0 + 1) % 30) (by omega)
      rwa [show loopAt Z (i / 34 + 1) 0 = i by omega, show loopAt Z (i / 34 + 1) ((0 + 1) % 30) = (i + 1) % (34 * Z) by omega] at this
    · have := cap 0 0 hZ (by norm_num)
      have e1 := loopAt_spec (K := Z) (c := 0) (m := 0) hZ
      have e2 := loopAt_spec (K := Z) (c := 0) (m := (0 + 1) % 30) hZ
      rwa [show loopAt Z 0 0 = i by omega, show loopAt Z 0 ((0 + 1) % 30) = (i + 1) % (34 * Z) by omega] at this

theorem flat_cr (h : TeethFit m Z alpha) {i : ℕ} (hi : i < 34 * Z) : 0 ≤ cr (flatPt m Z alpha i) (flatPt m Z alpha ((i + 1) % (34 * Z))) := by
  have hz3 : (3 : ℝ) ≤ Z := by exact_mod_cast h.number
  obtain ⟨hl, r, a, hp, hmono, hper, hround, hr, hstep, -⟩ := C107_profile h
  obtain ⟨q1, q2, -⟩ := h.radii
  have hr0 : ∀ n, 0 < r n := fun n => lt_of_lt_of_le (lt_min q2 q1) (hr n).1
  have hp2 : 2 * (Real.pi / Z) < Real.pi := by
    have : Real.pi / Z ≤ Real.pi / 3 := div_le_div_of_nonneg_left Real.pi_pos.le (by norm_num) hz3
    linarith [Real.pi_pos]
  have hsin : ∀ n, 0 ≤ Real.sin (a (n + 1) - a n) := by
    intro n
    have h1 := hmono (Nat.le_succ n)
    have h2 := hmono (show n + 1 ≤ n + 34 by omega)
    have h3 := (hper n).2
    exact Real.sin_nonneg_of_nonneg_of_le_pi (sub_nonneg.2 h1) (by linarith)
  unfold flatPt
  rw [hp i hi, hp _ (Nat.mod_lt _ (by omega)), cr_polar]
  have e : Real.sin (a (i + 1) - a i) = Real.sin (a ((i + 1) % (34 * Z)) - a i) := by
    rcases next_spec hi with ⟨e, _⟩ | ⟨e, e2⟩
    · rw [e]
    · rw [e, e2, hround, show a 0 + 2 * Real.pi - a i = a 0 - a i + 2 * Real.pi by ring, Real.sin_add_two_pi]
  rw [← e]
  exact mul_nonneg (mul_pos (hr0 _) (hr0 _)).le (hsin i)

/-- every triangle: the normal, and the side on which the origin lies -/
theorem gear_key (h : TeethSolid m Z alpha) {w : ℝ} (hw : 0 < w) : ∀ t : GTag, t.ok Z → V3.cross (gearPos m Z alpha w (gearTri Z t).2.1 - gearPos m Z alpha w (gearTri Z t).1)
      (gearPos m Z alpha w (gearTri Z t).2.2 - gearPos m Z alpha w (gearTri Z t).1) ≠ 0 ∧
      0 ≤ det3 (gearPos m Z alpha w (gearTri Z t).1) (gearPos m Z alpha w (gearTri Z t).2.1) (gearPos m Z alpha w (gearTri Z t).2.2) := by
  obtain ⟨ha1, ha2⟩ := gearPos_a w h.fit
  have hb : ∀ i < 34 * Z, gearPos m Z alpha w (.b i) = ⟨(flatPt m Z alpha i).x, (flatPt m Z alpha i).y, -(w / 2)⟩ := fun i hi => gearPos_b m Z alpha w hi
  have ht : ∀ i < 34 * Z, gearPos m Z alpha w (.t i) = ⟨(flatPt m Z alpha i).x, (flatPt m Z alpha i).y, w / 2⟩ := fun i hi => gearPos_t m Z alpha w hi
  have flat : ∀ (a b c : V3) (z : ℝ), a.z = z → b.z = z → c.z = z → 0 < z * (cr a b + cr b c + cr c a) →
      V3.cross (b - a) (c - a) ≠ 0 ∧ 0 ≤ det3 a b c := by
    intro a b c z h1 h2 h3 h4
    refine ⟨?_, by rw [det3_flat a b c h1 h2 h3]; exact h4.le⟩
    intro e
    have := congrArg V3.z e
    rw [cross_z] at this
    rw [this] at h4
    simp at h4
  intro t htag
  cases t with
  | lo i =>
    have hi' : i < 34 * Z := htag
    have hn : (i + 1) % (34 * Z) < 34 * Z := Nat.mod_lt _ (by omega)
    simp only [gearTri]
    rw [hb _ hi', hb _ hn, ht _ hn]
    constructor
    · intro e
      refine flat_ne h hi' ?_
      have e1 := congrArg V3.x e
      have e2 := congrArg V3.y e
      simp only [V3.cross, V3.sub_x, V3.sub_y, V3.sub_z, V3.zero_x, V3.zero_y] at e1 e2
      refine V3.ext ?_ ?_ rfl
      · have : w * ((flatPt m Z alpha ((i + 1) % (34 * Z))).x - (flatPt m Z alpha i).x) = 0 := by linarith
        rcases mul_eq_zero.1 this with h0 | h0 <;> linarith
      · have : w * ((flatPt m Z alpha ((i + 1) % (34 * Z))).y - (flatPt m Z alpha i).y) = 0 := by linarith
        rcases mul_eq_zero.1 this with h0 | h0 <;> linarith
    · have := mul_nonneg hw.le (flat_cr h.fit hi')
      simp only [det3]
      unfold cr at this
      linarith
  | hi i =>
    have hi' : i < 34 * Z := htag
    have hn : (i + 1) % (34 * Z) < 34 * Z := Nat.mod_lt _ (by omega)
    simp only [gearTri]
    rw [hb _ hi', ht _ hi', ht _ hn]
    constructor
    · intro e
      refine flat_ne h hi' ?_
      have e1 := congrArg V3.x e
      have e2 := congrArg V3.y e
      simp only [V3.cross, V3.sub_x, V3.sub_y, V3.sub_z, V3.zero_x, V3.zero_y] at e1 e2
      refine V3.ext ?_ ?_ rfl
      · have : w * ((flatPt m Z alpha ((i + 1) % (34 * Z))).x - (flatPt m Z alpha i).x) = 0 := by linarith
        rcases mul_eq_zero.1 this with h0 | h0 <;> linarith
      · have : w * ((flatPt m Z alpha ((i + 1) % (34 * Z))).y - (flatPt m Z alpha i).y) = 0 := by linarith
        rcases mul_eq_zero.1 this with h0 | h0 <;> linarith
    · have := mul_nonneg hw.le (flat_cr h.fit hi')
      simp only [det3]
      unfold cr at this
      linarith
  | capB c k =>
    have h1 := loopAt_lt htag.1 htag.2
    have h2 := loopAt_lt htag.1 (show (k + 1) % 30 < 30 by omega)
    have := mul_pos hw (capArea h htag.1 htag.2 (-(w / 2)))
    simp only [gearTri]
    rw [(gearPos_c w h htag.1).1, hb _ h1, hb _ h2]
    refine flat _ _ _ _ rfl rfl rfl ?_
    unfold cr at this ⊢
    linarith
  | capT c k =>
    have h1 := loopAt_lt htag.1 htag.2
    have h2 := loopAt_lt htag.1 (show (k + 1) % 30 < 30 by omega)
    have := mul_pos hw (capArea h htag.1 htag.2 (w / 2))
    simp only [gearTri]
    rw [(gearPos_c w h htag.1).2, ht _ h1, ht _ h2]
    refine flat _ _ _ _ rfl rfl rfl ?_
    unfold cr at this ⊢
    linarith
  | chB c =>
    have hcz : c < Z := htag
    have h1 := loopAt_lt hcz (show 0 < 30 by norm_num)
    have := mul_pos hw (chordArea h hcz)
    simp only [gearTri]
    rw [ha1, hb _ h1, hb _ (by omega)]
    refine flat _ _ _ _ rfl rfl rfl ?_
    unfold cr at this ⊢
    linarith
  | chT c =>
    have hcz : c < Z := htag
    have h1 := loopAt_lt hcz (show 0 < 30 by norm_num)
    have := mul_pos hw (chordArea h hcz)
    simp only [gearTri]
    rw [ha2, ht _ h1, ht _ (by omega)]
    refine flat _ _ _ _ rfl rfl rfl ?_
    unfold cr at this ⊢
    linarith
  | rtB c n =>
    obtain ⟨hcz, hn⟩ : c < Z ∧ n < 5 := htag
    have := mul_pos hw (rootArea h hcz hn)
    simp only [gearTri]
    rw [ha1, hb _ (by omega), hb _ (by omega)]
    refine flat _ _ _ _ rfl rfl rfl ?_
    unfold cr at this ⊢
    linarith
  | rtT c n =>
    obtain ⟨hcz, hn⟩ : c < Z ∧ n < 5 := htag
    have := mul_pos hw (rootArea h hcz hn)
    simp only [gearTri]
    rw [ha2, ht _ (by omega), ht _ (by omega)]
    refine flat _ _ _ _ rfl rfl rfl ?_
    unfold cr at this ⊢
    linarith

/-- **C107.** The mesh of a gear bounds a solid: it is closed, every one of its triangles has an area, none faces the middle of the gear, its volume is positive and
its centre of mass lies among its vertices. -/
theorem C107_solid (h : TeethSolid m Z alpha) {w : ℝ} (hw : 0 < w) : Solid (make_gear_mesh (make_gear_specs m Z alpha) w) := by
  obtain ⟨hi, hc, hl, -⟩ := C107_mesh_closed m Z alpha w
  have hT : (make_gear_mesh (make_gear_specs m Z alpha) w).2 = (gearTags Z).map (tagT Z) := by rw [gearMesh_eq]
  obtain ⟨ha1, ha2⟩ := gearPos_a w h.fit
  have key := gear_key h hw
  have mem : ∀ v : GV, gearIdx Z v < 70 * Z + 2 → gearPos m Z alpha w v ∈ (make_gear_mesh (make_gear_specs m Z alpha) w).1 := by
    intro v hv
    unfold gearPos
    rw [List.getD_eq_getElem _ _ (by rw [hl]; exact hv)]
    exact List.getElem_mem _
  have hvol := C107_volume_pos h.fit hw
  have hdef : ∀ v, gearPos m Z alpha w v = (make_gear_mesh (make_gear_specs m Z alpha) w).1.getD (gearIdx Z v) 0 := fun _ => rfl
  generalize make_gear_mesh (make_gear_specs m Z alpha) w = VT at *
  obtain ⟨V, T⟩ := VT
  refine solid_of_weakStar hi hc ?_ hvol ?_ (mem .ab (by simp [gearIdx])) (mem .at (by simp [gearIdx])) ?_
  · intro t ht'
    simp only at hT hdef
    rw [hT] at ht'
    obtain ⟨s, hs, rfl⟩ := List.mem_map.1 ht'
    have := (key s (mem_gearTags.1 hs)).1
    simp only [hdef] at this
    exact this
  · intro t ht'
    simp only at hT hdef
    rw [hT] at ht'
    obtain ⟨s, hs, rfl⟩ := List.mem_map.1 ht'
    have := (key s (mem_gearTags.1 hs)).2
    simp only [hdef] at this
    exact this
  · rw [ha1, ha2]
    refine V3.ext ?_ ?_ ?_ <;> simp

end

end Verif
