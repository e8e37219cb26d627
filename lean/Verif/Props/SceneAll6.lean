import Verif.Props.SceneAll5

/-! C110: every scene of `create_scene` (the robot aside) can be simulated. -/

namespace Verif

open Rigid Rigid.SceneM SMesh
open VMesh (Tri)

/-! ### Scaled meshes -/

theorem stretched_volume {VT : List V3 × List Tri} (hi : IndicesBelow VT.2 VT.1.length) (hc : ClosedOriented VT.2) (a d : V3) :
    enclosedVolume (stretched a d VT).1 (stretched a d VT).2 = d.x * d.y * d.z * enclosedVolume VT.1 VT.2 := by
  have h1 := (C63_scale ⟨VT.1, VT.2⟩ d.x d.y d.z).2.2 hi
  have h2 := (C63_translate (scale ⟨VT.1, VT.2⟩ d.x d.y d.z) a).2.2 hc (by
    show IndicesBelow VT.2 (VT.1.map _).length
    rw [List.length_map]; exact hi)
  rw [← h1, ← h2]
  unfold stretched translate scale vmul
  simp only [List.map_map]
  congr 1
  refine List.map_congr_left fun v _ => ?_
  refine V3.ext ?_ ?_ ?_ <;> simp <;> ring

/-- The mesh encloses at least a hundred millionth of the cube around it. -/
def Bulky (VT : List V3 × List Tri) : Prop :=
  ∀ l u, TightBox VT.1 l u → 1e-8 * (max (max (u.x - l.x) (u.y - l.y)) (u.z - l.z)) ^ 3 < enclosedVolume VT.1 VT.2

theorem star_box {VT : List V3 × List Tri} (h : StarShaped VT) : ∃ l u, TightBox VT.1 l u := by
  have hne : VT.1 ≠ [] := by
    obtain ⟨t, ht⟩ := List.exists_mem_of_ne_nil _ h.2.2.1
    have := (h.1 t ht).1
    intro e
    rw [e] at this
    simp at this
  obtain ⟨l, u, -, hb⟩ := (C63_aabb ⟨VT.1, VT.2⟩).2 hne
  exact ⟨l, u, hb⟩

theorem Bulky.fit {VT W : List V3 × List Tri} {t : ℝ} (hb : Bulky VT) (hs : StarShaped VT) (ht : 1 / 4 ≤ t) (hf : FitTo t VT W) :
    1e-10 < enclosedVolume W.1 W.2 := by
  obtain ⟨a, σ, hσ, rfl, l, u, hl, hm, -⟩ := hf
  obtain ⟨l0, u0, hl0⟩ := star_box hs
  have hv := hb l0 u0 hl0
  have hl1 := hl0.stretched a (d := ⟨σ, σ, σ⟩) hσ.le hσ.le hσ.le
  obtain ⟨rfl, rfl⟩ := hl.unique hl1
  rw [stretched_volume hs.1 hs.2.1]
  have e : max (max (a.x + σ * u0.x - (a.x + σ * l0.x)) (a.y + σ * u0.y - (a.y + σ * l0.y))) (a.z + σ * u0.z - (a.z + σ * l0.z)) =
      σ * max (max (u0.x - l0.x) (u0.y - l0.y)) (u0.z - l0.z) := by
    rw [mul_max_of_nonneg _ _ hσ.le, mul_max_of_nonneg _ _ hσ.le]
    congr 1
    · congr 1 <;> ring
    · ring
  simp only at hm
  rw [e] at hm
  generalize max (max (u0.x - l0.x) (u0.y - l0.y)) (u0.z - l0.z) = M at hm hv
  have h3 : σ ^ 3 * (1e-8 * M ^ 3) < σ ^ 3 * enclosedVolume VT.1 VT.2 := mul_lt_mul_of_pos_left hv (by positivity)
  have h4 : (1 / 4 : ℝ) ^ 3 ≤ t ^ 3 := by gcongr
  have h5 : σ ^ 3 * (1e-8 * M ^ 3) = 1e-8 * t ^ 3 := by rw [← hm]; ring
  have h6 : (⟨σ, σ, σ⟩ : V3).x * (⟨σ, σ, σ⟩ : V3).y * (⟨σ, σ, σ⟩ : V3).z = σ ^ 3 := by simp only; ring
  rw [h6]
  rw [h5] at h3
  refine lt_of_lt_of_le ?_ (le_trans (mul_le_mul_of_nonneg_left h4 (by norm_num)) h3.le)
  norm_num

/-! ### What is missing -/

/-- Nothing that was complete is made incomplete, and the parameters are the same. -/
def Fuller (s s' : Scene) : Prop := (Complete s → Complete s') ∧ s'.eng.params = s.eng.params

theorem Fuller.trans {a b c : Scene} (h : Fuller a b) (h' : Fuller b c) : Fuller a c := ⟨fun x => h'.1 (h.1 x), h'.2.trans h.2⟩

theorem Fuller.fixed {s s' : Scene} {N : List String} {B : List Brick} {material : String} {density : ℝ} (h : Adds s s' N B true material density) :
    Fuller s s' := ⟨fun hc => hc.adds h (Or.inl rfl), h.rest.2.2.2⟩

theorem Fuller.heavy {s s' : Scene} {N : List String} {B : List Brick} {material : String} {density : ℝ} (h : Adds s s' N B false material density)
    (hd : density ≠ 0) (hB : HeavyPlan B) : Fuller s s' := ⟨fun hc => hc.adds h (Or.inr ⟨hd, hB⟩), h.rest.2.2.2⟩

theorem Fuller.rains {s s' : Scene} {names : List String} {t : ℝ} {L : List (List V3 × List Tri)} {r : V3} {q : Quat} {w h d : ℝ} {I J K : ℕ}
    {q_l : ℕ → ℕ → ℕ → Quat} {material : String} {density : ℝ} (hr : Rains s s' names t L r q w h d I J K q_l material density) (hd : density ≠ 0)
    (ht : 1 / 4 ≤ t) (hL : ∀ VT ∈ L, StarShaped VT ∧ Bulky VT) : Fuller s s' := by
  refine ⟨fun hc => C105_complete hr hd (fun VT hVT W hW => (hL VT hVT).2.fit (hL VT hVT).1 ht hW) hc, ?_⟩
  obtain ⟨-, Ws, B, -, ha, -⟩ := hr
  exact ha.rest.2.2.2

theorem ground_fuller {O : Outside} (he : EigSpec O.eig) {s s' : Scene} {u : Unit} (hok : s.OK) (h : defaultGround O s = .ok (u, s')) :
    s'.OK ∧ Fuller s s' := by
  obtain ⟨g, a1, -⟩ := C90_ground he ident_unit hok h
  exact ⟨a1.ok hok, .fixed a1⟩

/-! ### Numbers -/

theorem tan_lower {n : ℕ} (hn : 3 ≤ n) (hn' : n ≤ 20) : 1 / 10 ≤ Real.tan (Real.pi / n) := by
  have h0 := Real.two_le_pi
  have h1 : (3 : ℝ) ≤ n := by exact_mod_cast hn
  have h2 : (n : ℝ) ≤ 20 := by exact_mod_cast hn'
  have h3 : Real.pi / n < Real.pi / 2 := by
    apply div_lt_div_of_pos_left Real.pi_pos (by norm_num); linarith
  have h4 := Real.lt_tan (x := Real.pi / n) (by positivity) h3
  refine le_trans ?_ h4.le
  rw [div_le_div_iff₀ (by norm_num) (by linarith)]
  linarith

theorem sin_lower {n : ℕ} (hn : 2 ≤ n) (hn' : n ≤ 20) : 1 / 10 ≤ Real.sin (Real.pi / n) := by
  have h1 : (2 : ℝ) ≤ n := by exact_mod_cast hn
  have h2 : (n : ℝ) ≤ 20 := by exact_mod_cast hn'
  have h3 : Real.pi / n ≤ Real.pi / 2 := by
    apply div_le_div_of_nonneg_left Real.pi_pos.le (by norm_num) h1
  have h4 := Real.mul_le_sin (x := Real.pi / n) (by positivity) h3
  refine le_trans ?_ h4
  have h5 := Real.pi_pos
  have : 2 / Real.pi * (Real.pi / n) = 2 / n := by field_simp
  rw [this, div_le_div_iff₀ (by norm_num) (by linarith)]
  linarith

theorem dome_numbers {ri ro : ℝ} (h : 1 ≤ ro ^ 3 - ri ^ 3) {layers : ℕ} (hl : layers ≤ 10) (h1 : 1 ≤ layers) :
    ∀ l < layers, (1e-10 : ℝ) < (ro ^ 3 - ri ^ 3) / 6 * Real.sin (2 * Real.pi / (11 : ℕ)) * Real.sin (Real.pi / 2 / (layers + 1)) *
      (Real.cos (Real.pi / 2 / (layers + 1) * l) + Real.cos (Real.pi / 2 / (layers + 1) * l + Real.pi / 2 / (layers + 1))) := by
  intro l hl'
  have hpi := Real.pi_pos
  have hl2 : ((l : ℝ) + 1) ≤ layers := by exact_mod_cast hl'
  have hl3 : (layers : ℝ) ≤ 10 := by exact_mod_cast hl
  have hl4 : (1 : ℝ) ≤ layers := by exact_mod_cast h1
  have s1 : 1 / 10 ≤ Real.sin (2 * Real.pi / (11 : ℕ)) := by
    have h4 := Real.mul_le_sin (x := 2 * Real.pi / (11 : ℕ)) (by positivity) (by push_cast; linarith)
    refine le_trans ?_ h4
    have : 2 / Real.pi * (2 * Real.pi / (11 : ℕ)) = 4 / 11 := by push_cast; field_simp; norm_num
    rw [this]; norm_num
  have hδ0 : 0 ≤ Real.pi / 2 / ((layers : ℝ) + 1) := by positivity
  have hδ : Real.pi / 2 / ((layers : ℝ) + 1) ≤ Real.pi / 2 := div_le_self (by positivity) (by linarith)
  have s2 : 1 / 11 ≤ Real.sin (Real.pi / 2 / ((layers : ℝ) + 1)) := by
    have h4 := Real.mul_le_sin hδ0 hδ
    refine le_trans ?_ h4
    have : 2 / Real.pi * (Real.pi / 2 / ((layers : ℝ) + 1)) = 1 / (layers + 1) := by field_simp
    rw [this, div_le_div_iff₀ (by norm_num) (by linarith)]
    linarith
  have ex : Real.pi / 2 / ((layers : ℝ) + 1) * l + Real.pi / 2 / ((layers : ℝ) + 1) = Real.pi / 2 / ((layers : ℝ) + 1) * (l + 1) := by ring
  have hle : Real.pi / 2 / ((layers : ℝ) + 1) * (l + 1) ≤ Real.pi / 2 - Real.pi / 2 / ((layers : ℝ) + 1) := by
    have : Real.pi / 2 - Real.pi / 2 / ((layers : ℝ) + 1) = Real.pi / 2 / ((layers : ℝ) + 1) * layers := by field_simp; ring
    rw [this]
    exact mul_le_mul_of_nonneg_left hl2 hδ0
  have c2 : 1 / 11 ≤ Real.cos (Real.pi / 2 / ((layers : ℝ) + 1) * l + Real.pi / 2 / ((layers : ℝ) + 1)) := by
    rw [ex, ← Real.sin_pi_div_two_sub]
    have hm := Real.sin_le_sin_of_le_of_le_pi_div_two (x := Real.pi / 2 / ((layers : ℝ) + 1))
      (y := Real.pi / 2 - Real.pi / 2 / ((layers : ℝ) + 1) * (l + 1)) (by linarith) (by
        have : 0 ≤ Real.pi / 2 / ((layers : ℝ) + 1) * (l + 1) := by positivity
        linarith) (by linarith)
    linarith
  have c1 : 0 ≤ Real.cos (Real.pi / 2 / ((layers : ℝ) + 1) * l) := by
    apply Real.cos_nonneg_of_neg_pi_div_two_le_of_le
    · have : 0 ≤ Real.pi / 2 / ((layers : ℝ) + 1) * l := by positivity
      linarith
    · have : Real.pi / 2 / ((layers : ℝ) + 1) * l ≤ Real.pi / 2 / ((layers : ℝ) + 1) * (l + 1) := by
        apply mul_le_mul_of_nonneg_left _ hδ0; linarith
      linarith
  have : (1 / 6 : ℝ) * (1 / 10) * (1 / 11) * (1 / 11) ≤ (ro ^ 3 - ri ^ 3) / 6 * Real.sin (2 * Real.pi / (11 : ℕ)) * Real.sin (Real.pi / 2 / (layers + 1)) *
      (Real.cos (Real.pi / 2 / (layers + 1) * l) + Real.cos (Real.pi / 2 / (layers + 1) * l + Real.pi / 2 / (layers + 1))) := by
    refine mul_le_mul (mul_le_mul (mul_le_mul (by linarith) s1 (by norm_num) (by linarith)) s2 (by norm_num) ?_) (by linarith) (by norm_num) ?_
    · exact mul_nonneg (by linarith) (by linarith)
    · exact mul_nonneg (mul_nonneg (by linarith) (by linarith)) (by linarith)
  exact lt_of_lt_of_le (by norm_num) this

/-! ### The plans of the scenes -/

theorem pantheon_heavy : HeavyPlan (pantheonPlan 5 4 8 4 11 0.99) := by
  unfold pantheonPlan
  refine HeavyPlan.append (tower_heavy ?_) (HeavyPlan.under (dome_heavy ?_) _ _)
  · have := tan_lower (n := 11) (by norm_num) (by norm_num)
    push_cast at this ⊢
    norm_num
    linarith
  · exact dome_numbers (by norm_num) (by norm_num) (by norm_num)

theorem colosseum_heavy : HeavyPlan (colosseumPlan 5 4 7 3 12 0.99) := by
  have t1 := tan_lower (n := 12) (by norm_num) (by norm_num)
  have t2 := tan_pi_twelve
  have t3 := sin_lower (n := 9) (by norm_num) (by norm_num)
  unfold colosseumPlan
  simp only
  push_cast at t1 t3 ⊢
  intro b hb
  rw [List.mem_flatMap] at hb
  obtain ⟨l, -, hb⟩ := hb
  rcases List.mem_append.1 hb with hb | hb
  · rw [List.mem_flatMap] at hb
    obtain ⟨k, -, hb⟩ := hb
    refine HeavyPlan.under (arch_heavy ?_ ?_) _ _ b hb
    · push_cast
      generalize Real.tan (Real.pi / 12) = t at *
      nlinarith
    · push_cast
      generalize Real.tan (Real.pi / 12) = t at *
      have : (1 : ℝ) * (16 / 100) * (1 / 100) ≤ (5 - 4) * ((2 * (t * 4 * 0.99) / 2) ^ 2 - (2 * (t * 4 * 0.99) / 2 - 2 * (t * 4 * 0.99) / 5) ^ 2) / 2 := by
        nlinarith
      refine lt_of_lt_of_le ?_ (mul_le_mul this t3 (by norm_num) (by linarith))
      norm_num
  · refine HeavyPlan.under (tower_heavy ?_) _ _ b hb
    push_cast
    norm_num
    linarith

theorem corner_volume (w d h : ℝ) : enclosedVolume (cornerMesh w d h).1 (cornerMesh w d h).2 = 2 * w * d * h := by
  unfold cornerMesh
  simp only
  rw [cuboid_volume]
  simp only [det3, V3.sub_x, V3.sub_y, V3.sub_z]
  norm_num
  ring

theorem junction_volume (w d h : ℝ) : enclosedVolume (junctionMesh w d h).1 (junctionMesh w d h).2 = 7 / 4 * w * d * h := by
  unfold junctionMesh
  simp only
  rw [cuboid_volume]
  simp only [det3, V3.sub_x, V3.sub_y, V3.sub_z]
  norm_num
  ring

theorem gable_volume (w d h : ℝ) : enclosedVolume (gableMesh w h d).1 (gableMesh w h d).2 = w * d * h := by
  unfold gableMesh
  simp only
  rw [prism_volume]
  norm_num
  ring

theorem leftPlank_volume (w h l : ℝ) : enclosedVolume (leftPlank w h l).1 (leftPlank w h l).2 = w * h * l / 2 := by
  unfold leftPlank
  rw [prism_volume]
  norm_num
  ring

theorem rightPlank_volume (w h l : ℝ) : enclosedVolume (rightPlank w h l).1 (rightPlank w h l).2 = w * h * l / 2 := by
  unfold rightPlank
  rw [prism_volume]
  norm_num
  ring

end Verif
