import Verif.Props.MeshTopology
import Mathlib.Tactic.IntervalCases

/-! C31: meshes of non-overlapping tetrahedra satisfy the hypotheses of the neighbour and surface theorems;
in particular every cube mesh does. -/

namespace Verif

open VMesh

/-- Specification: tetrahedra have positive volume and no point lies strictly inside two of them. -/
def NonOverlapping (T : List Tet) (pos : ℕ → V3) : Prop :=
  (∀ t ∈ T, 0 < meshVol pos t) ∧
  ∀ (e e' : ℕ) t t', T[e]? = some t → T[e']? = some t' → e ≠ e' → ∀ r,
    ¬ (StrictlyIn (pos t.i) (pos t.j) (pos t.k) (pos t.m) r ∧
       StrictlyIn (pos t'.i) (pos t'.j) (pos t'.k) (pos t'.m) r)

/-- two tetrahedra on the same side of a common face overlap -/
theorem overlap_same_side (A B C p q : V3)
    (h : 0 < V3.dot (V3.cross (B - A) (C - A)) (p - A) * V3.dot (V3.cross (B - A) (C - A)) (q - A)) :
    ∃ r, StrictlyIn A B C p r ∧ StrictlyIn A B C q r := by
  have hq : V3.dot (V3.cross (B - A) (C - A)) (q - A) ≠ 0 := by
    intro e
    rw [e, mul_zero] at h
    exact lt_irrefl _ h
  obtain ⟨D, hD⟩ : ∃ D, D = V3.dot (V3.cross (B - A) (C - A)) (q - A) := ⟨_, rfl⟩
  obtain ⟨P, hP⟩ : ∃ P, P = V3.dot (V3.cross (B - A) (C - A)) (p - A) := ⟨_, rfl⟩
  rw [← hD] at hq h
  rw [← hP] at h
  have hδ : 0 < P / D := by
    rcases lt_or_gt_of_ne hq with hl | hl
    · exact div_pos_of_neg_of_neg (by nlinarith) hl
    · exact div_pos (by nlinarith) hl
  obtain ⟨β, hβ⟩ : ∃ β, β = V3.dot (V3.cross (p - A) (C - A)) (q - A) / D := ⟨_, rfl⟩
  obtain ⟨γ, hγ⟩ : ∃ γ, γ = V3.dot (V3.cross (B - A) (p - A)) (q - A) / D := ⟨_, rfl⟩
  obtain ⟨δ, hδ'⟩ : ∃ δ, δ = P / D := ⟨_, rfl⟩
  rw [← hδ'] at hδ
  have hβ' : β * D = V3.dot (V3.cross (p - A) (C - A)) (q - A) := by rw [hβ, div_mul_cancel₀ _ hq]
  have hγ' : γ * D = V3.dot (V3.cross (B - A) (p - A)) (q - A) := by rw [hγ, div_mul_cancel₀ _ hq]
  have hδ'' : δ * D = P := by rw [hδ', div_mul_cancel₀ _ hq]
  have hp : p = (1 - β - γ - δ) • A + β • B + γ • C + δ • q := by
    have e : ∀ a b c d : ℝ, D * a = D * b → a = b := fun a b _ _ h => mul_left_cancel₀ hq h
    clear hβ hγ hδ'
    ext
    · refine e _ _ 0 0 ?_
      have : D * (((1 - β - γ - δ) • A + β • B + γ • C + δ • q).x) =
          (D - β * D - γ * D - δ * D) * A.x + (β * D) * B.x + (γ * D) * C.x + (δ * D) * q.x := by
        simp only [V3.add_x, V3.smul_x]; ring
      rw [this, hβ', hγ', hδ'', hP, hD]
      simp only [V3.dot, V3.cross, V3.sub_x, V3.sub_y, V3.sub_z]; ring
    · refine e _ _ 0 0 ?_
      have : D * (((1 - β - γ - δ) • A + β • B + γ • C + δ • q).y) =
          (D - β * D - γ * D - δ * D) * A.y + (β * D) * B.y + (γ * D) * C.y + (δ * D) * q.y := by
        simp only [V3.add_y, V3.smul_y]; ring
      rw [this, hβ', hγ', hδ'', hP, hD]
      simp only [V3.dot, V3.cross, V3.sub_x, V3.sub_y, V3.sub_z]; ring
    · refine e _ _ 0 0 ?_
      have : D * (((1 - β - γ - δ) • A + β • B + γ • C + δ • q).z) =
          (D - β * D - γ * D - δ * D) * A.z + (β * D) * B.z + (γ * D) * C.z + (δ * D) * q.z := by
        simp only [V3.add_z, V3.smul_z]; ring
      rw [this, hβ', hγ', hδ'', hP, hD]
      simp only [V3.dot, V3.cross, V3.sub_x, V3.sub_y, V3.sub_z]; ring
  obtain ⟨α, hα⟩ : ∃ α, α = 1 - β - γ - δ := ⟨_, rfl⟩
  rw [← hα] at hp
  clear hβ hγ hδ' hβ' hγ' hδ'' hD hP h hq
  obtain ⟨M, hM⟩ : ∃ M, M = 2 + 3 * (|α| + |β| + |γ|) := ⟨_, rfl⟩
  have hMpos : 0 < M := by rw [hM]; positivity
  have hM2 : 2 ≤ M := by rw [hM]; have := abs_nonneg α; have := abs_nonneg β; have := abs_nonneg γ; linarith
  obtain ⟨ε, hε⟩ : ∃ ε, ε = 1 / M := ⟨_, rfl⟩
  have hε0 : 0 < ε := by rw [hε]; positivity
  have hεM : ε * M = 1 := by rw [hε]; field_simp
  have hε1 : ε < 1 := by nlinarith
  have hw : ∀ w : ℝ, |w| ≤ |α| + |β| + |γ| → 0 < (1 - ε) / 3 + ε * w := by
    intro w hle
    have h1 : -|w| ≤ w := neg_abs_le w
    have h2 : 3 * |w| ≤ M - 2 := by rw [hM]; linarith
    have h3 : ε * (3 * -|w|) ≤ ε * (3 * w) := by
      apply mul_le_mul_of_nonneg_left _ hε0.le
      linarith
    have h4 : ε * (3 * |w|) ≤ ε * (M - 2) := mul_le_mul_of_nonneg_left h2 hε0.le
    nlinarith
  have na := abs_nonneg α
  have nb := abs_nonneg β
  have nc := abs_nonneg γ
  refine ⟨((1 - ε) / 3) • A + ((1 - ε) / 3) • B + ((1 - ε) / 3) • C + ε • p,
    ⟨_, _, _, _, by linarith, by linarith, by linarith, hε0, by ring, rfl⟩,
    ⟨(1 - ε) / 3 + ε * α, (1 - ε) / 3 + ε * β, (1 - ε) / 3 + ε * γ, ε * δ, hw α (by linarith), hw β (by linarith),
      hw γ (by linarith), mul_pos hε0 hδ, by rw [hα]; ring, ?_⟩⟩
  rw [hp]
  ext <;> simp only [V3.add_x, V3.add_y, V3.add_z, V3.smul_x, V3.smul_y, V3.smul_z] <;> ring

theorem strictlyIn_outFace {pos : ℕ → V3} {t : Tet} {v : ℕ} {r : V3}
    (h : StrictlyIn (pos (outFace t v).a) (pos (outFace t v).b) (pos (outFace t v).c) (pos (nodeOf t v)) r) :
    StrictlyIn (pos t.i) (pos t.j) (pos t.k) (pos t.m) r := by
  obtain ⟨a, b, c, d, ha, hb, hc, hd, hs, hr⟩ := h
  match v with
  | 0 => exact ⟨d, a, b, c, hd, ha, hb, hc, by linarith, by rw [hr]; simp only [outFace, nodeOf]; abel⟩
  | 1 => exact ⟨a, d, c, b, ha, hd, hc, hb, by linarith, by rw [hr]; simp only [outFace, nodeOf]; abel⟩
  | 2 => exact ⟨c, a, d, b, hc, ha, hd, hb, by linarith, by rw [hr]; simp only [outFace, nodeOf]; abel⟩
  | n + 3 => exact ⟨b, a, c, d, hb, ha, hc, hd, by linarith, by rw [hr]; simp only [outFace, nodeOf]; abel⟩

theorem strictlyIn_perm {pos : ℕ → V3} {a b c a' b' c' : ℕ} {q r : V3} (hp : [a', b', c'].Perm [a, b, c])
    (h : StrictlyIn (pos a) (pos b) (pos c) q r) : StrictlyIn (pos a') (pos b') (pos c') q r := by
  obtain ⟨x, y, z, d, hx, hy, hz, hd, hs, hr⟩ := h
  rcases perm3 hp with ⟨rfl, rfl, rfl⟩ | ⟨rfl, rfl, rfl⟩ | ⟨rfl, rfl, rfl⟩ | ⟨rfl, rfl, rfl⟩ |
    ⟨rfl, rfl, rfl⟩ | ⟨rfl, rfl, rfl⟩
  · exact ⟨x, y, z, d, hx, hy, hz, hd, hs, hr⟩
  · exact ⟨y, z, x, d, hy, hz, hx, hd, by linarith, by rw [hr]; abel⟩
  · exact ⟨z, x, y, d, hz, hx, hy, hd, by linarith, by rw [hr]; abel⟩
  · exact ⟨y, x, z, d, hy, hx, hz, hd, by linarith, by rw [hr]; abel⟩
  · exact ⟨x, z, y, d, hx, hz, hy, hd, by linarith, by rw [hr]; abel⟩
  · exact ⟨z, y, x, d, hz, hy, hx, hd, by linarith, by rw [hr]; abel⟩

/-- the side changes at most by sign when the corners of the face are permuted -/
theorem side_perm {pos : ℕ → V3} {f g : VMesh.Tri} (hp : [f.a, f.b, f.c].Perm [g.a, g.b, g.c]) :
    (∀ p, side pos f p = side pos g p) ∨ (∀ p, side pos f p = -side pos g p) := by
  obtain ⟨a, b, c⟩ := g
  obtain ⟨a', b', c'⟩ := f
  simp only at hp
  rcases perm3 hp with ⟨rfl, rfl, rfl⟩ | ⟨rfl, rfl, rfl⟩ | ⟨rfl, rfl, rfl⟩ | ⟨rfl, rfl, rfl⟩ |
    ⟨rfl, rfl, rfl⟩ | ⟨rfl, rfl, rfl⟩
  · exact Or.inl fun _ => rfl
  · left; intro p; simp only [side, V3.dot, V3.cross, V3.sub_x, V3.sub_y, V3.sub_z]; ring
  · left; intro p; simp only [side, V3.dot, V3.cross, V3.sub_x, V3.sub_y, V3.sub_z]; ring
  all_goals
    right; intro p; simp only [side, V3.dot, V3.cross, V3.sub_x, V3.sub_y, V3.sub_z]; ring

/-- a tetrahedron of nonzero volume has no two faces with the same vertices -/
theorem oppFace_inj {pos : ℕ → V3} {t : Tet} (ht : 0 < meshVol pos t) {v w : ℕ} (hv : v < 4) (hw : w < 4)
    (hp : (oppFace t v).Perm (oppFace t w)) : v = w := by
  by_contra hne
  have h1 := side_outFace pos t v
  have hmem : nodeOf t v ∈ oppFace t w := by
    interval_cases v <;> interval_cases w <;> first | (exact absurd rfl hne) | simp [nodeOf, oppFace]
  have hmem' := ((outFace_perm t v).trans hp).mem_iff.2 hmem
  have h0 : side pos (outFace t v) (pos (nodeOf t v)) = 0 := by
    simp only [List.mem_cons, List.not_mem_nil, or_false] at hmem'
    rcases hmem' with e | e | e <;> rw [e] <;>
      simp only [side, V3.dot, V3.cross, V3.sub_x, V3.sub_y, V3.sub_z] <;> ring
  rw [h0] at h1
  linarith

theorem shared_opposite {T : List Tet} {pos : ℕ → V3} (hn : NonOverlapping T pos) {x y : ℕ × ℕ} {t t' : Tet}
    (hx : x.2 < 4) (hy : y.2 < 4) (hne : x ≠ y) (ht : T[x.1]? = some t) (ht' : T[y.1]? = some t')
    (hp : (oppFace t x.2).Perm (oppFace t' y.2)) {f : VMesh.Tri} (hf : [f.a, f.b, f.c].Perm (oppFace t x.2)) :
    side pos f (pos (nodeOf t x.2)) * side pos f (pos (nodeOf t' y.2)) < 0 := by
  have v1 := hn.1 t (List.mem_of_getElem? ht)
  have v2 := hn.1 t' (List.mem_of_getElem? ht')
  have hidx : x.1 ≠ y.1 := by
    intro e
    rw [e] at ht
    obtain rfl : t = t' := Option.some.inj (ht.symm.trans ht')
    exact hne (Prod.ext e (oppFace_inj v1 hx hy hp))
  have s1 := side_outFace pos t x.2
  have s2 := side_outFace pos t' y.2
  have p1 : [f.a, f.b, f.c].Perm [(outFace t x.2).a, (outFace t x.2).b, (outFace t x.2).c] :=
    hf.trans (outFace_perm t x.2).symm
  have p2 : [f.a, f.b, f.c].Perm [(outFace t' y.2).a, (outFace t' y.2).b, (outFace t' y.2).c] :=
    hf.trans (hp.trans (outFace_perm t' y.2).symm)
  have n1 : side pos f (pos (nodeOf t x.2)) ≠ 0 := by
    rcases side_perm (pos := pos) p1 with h | h <;> rw [h, s1] <;> intro e <;> linarith
  have n2 : side pos f (pos (nodeOf t' y.2)) ≠ 0 := by
    rcases side_perm (pos := pos) p2 with h | h <;> rw [h, s2] <;> intro e <;> linarith
  by_contra hc
  have hpos : 0 < side pos f (pos (nodeOf t x.2)) * side pos f (pos (nodeOf t' y.2)) :=
    lt_of_le_of_ne (not_lt.1 hc) (mul_ne_zero n1 n2).symm
  obtain ⟨r, hr1, hr2⟩ := overlap_same_side _ _ _ _ _ hpos
  exact hn.2 x.1 y.1 t t' ht ht' hidx r ⟨strictlyIn_outFace (strictlyIn_perm p1.symm hr1),
    strictlyIn_outFace (strictlyIn_perm p2.symm hr2)⟩

/-- **C31** (applicability). Whenever the tetrahedra have positive volume and do not overlap, no face has
more than two sides and tetrahedra sharing a face lie on different sides of it; so the neighbour and
surface theorems apply. -/
theorem C31_nonoverlapping (T : List Tet) (pos : ℕ → V3) (hn : NonOverlapping T pos) :
    FaceManifold T ∧ Embedded T pos := by
  refine ⟨?_, hn.1, ?_⟩
  · rintro x y z ⟨hxy, f, g, ⟨hx, t, ht, rfl⟩, ⟨hy, t', ht', rfl⟩, hp⟩
      ⟨hxz, f', g', ⟨_, t1, ht1, rfl⟩, ⟨hz, t'', ht'', rfl⟩, hp'⟩
    obtain rfl : t = t1 := Option.some.inj (ht.symm.trans ht1)
    by_contra hyz
    have h1 := shared_opposite hn hx hy hxy ht ht' hp (outFace_perm t x.2)
    have h2 := shared_opposite hn hx hz hxz ht ht'' hp' (outFace_perm t x.2)
    have h3 := shared_opposite hn hy hz hyz ht' ht'' (hp.symm.trans hp') ((outFace_perm t x.2).trans hp)
    generalize side pos (outFace t x.2) (pos (nodeOf t x.2)) = a at *
    generalize side pos (outFace t x.2) (pos (nodeOf t' y.2)) = b at *
    generalize side pos (outFace t x.2) (pos (nodeOf t'' z.2)) = c at *
    rcases lt_or_ge a 0 with ha | ha
    · have hb : 0 < b := by by_contra hc; nlinarith
      have hc : 0 < c := by by_contra hc; nlinarith
      nlinarith [mul_pos hb hc]
    · have hb : b < 0 := by by_contra hc; nlinarith
      have hc : c < 0 := by by_contra hc; nlinarith
      nlinarith [mul_pos_of_neg_of_neg hb hc]
  · rintro x y t t' f ⟨hxy, f1, g1, ⟨hx, t1, ht1, rfl⟩, ⟨hy, t2, ht2, rfl⟩, hp⟩ ht ht' hf
    obtain rfl : t = t1 := Option.some.inj (ht.symm.trans ht1)
    obtain rfl : t' = t2 := Option.some.inj (ht'.symm.trans ht2)
    exact shared_opposite hn hx hy hxy ht ht' hp hf

/-! ### the cube mesh -/

/-- a point strictly inside a tetrahedron of a cell is strictly inside the cell -/
theorem strict_cell {I J K : ℕ} {V : List V3} {o h : V3} (hb : IsBlock I J K V o h)
    (hx : 0 < h.x) (hy : 0 < h.y) (hz : 0 < h.z) {i j k : ℕ} (hi : i + 1 < I) (hj : j + 1 < J) (hk : k + 1 < K)
    {t : Tet} (ht : t ∈ cellTets I J i j k) {r : V3} (hr : StrictlyInTet V t r) :
    ((0 < (r.x - o.x) / h.x - i ∧ (r.x - o.x) / h.x - i < 1) ∧
    (0 < (r.y - o.y) / h.y - j ∧ (r.y - o.y) / h.y - j < 1) ∧
    0 < (r.z - o.z) / h.z - k ∧ (r.z - o.z) / h.z - k < 1) := by
  rw [cellTets_eq, List.mem_map] at ht
  obtain ⟨q, hq, rfl⟩ := ht
  obtain ⟨x1, x2, x3, x4, g1, g2, g3, g4, hs⟩ := hr
  rw [get_corner hb hi hj hk] at g1 g2 g3 g4
  obtain rfl := Option.some.inj g1
  obtain rfl := Option.some.inj g2
  obtain rfl := Option.some.inj g3
  obtain rfl := Option.some.inj g4
  obtain ⟨a, b, c, d, ha, hb', hc, hd, hsum, e1, e2, e3⟩ := local_of_strict hx hy hz hs
  have B := strict_bounds _ q hq a b c d ha hb' hc hd hsum
  rw [← e1, ← e2, ← e3] at B
  exact B

theorem centroid_in {I J K : ℕ} {V : List V3} {o h : V3} (hb : IsBlock I J K V o h)
    {i j k : ℕ} (hi : i + 1 < I) (hj : j + 1 < J) (hk : k + 1 < K)
    {t : Tet} (ht : t ∈ cellTets I J i j k) : ∃ r, StrictlyInTet V t r := by
  rw [cellTets_eq, List.mem_map] at ht
  obtain ⟨q, hq, rfl⟩ := ht
  exact ⟨_, _, _, _, _, get_corner hb hi hj hk _, get_corner hb hi hj hk _, get_corner hb hi hj hk _,
    get_corner hb hi hj hk _, 1/4, 1/4, 1/4, 1/4, by norm_num, by norm_num, by norm_num, by norm_num,
    by norm_num, rfl⟩

theorem cell_unique {I J K : ℕ} {V : List V3} {o h : V3} (hb : IsBlock I J K V o h)
    (hx : 0 < h.x) (hy : 0 < h.y) (hz : 0 < h.z) {i j k i' j' k' : ℕ}
    (hi : i + 1 < I) (hj : j + 1 < J) (hk : k + 1 < K) (hi' : i' + 1 < I) (hj' : j' + 1 < J) (hk' : k' + 1 < K)
    {t : Tet} (ht : t ∈ cellTets I J i j k) (ht' : t ∈ cellTets I J i' j' k') : i = i' ∧ j = j' ∧ k = k' := by
  obtain ⟨r, hr⟩ := centroid_in hb hi hj hk ht
  have B := strict_cell hb hx hy hz hi hj hk ht hr
  have B' := strict_cell hb hx hy hz hi' hj' hk' ht' hr
  have cell : ∀ (x : ℝ) (m n : ℕ), 0 < x - m → x - m < 1 → 0 < x - n → x - n < 1 → m = n := by
    intro x m n h1 h2 h3 h4
    have q1 : (m : ℝ) < n + 1 := by linarith
    have q2 : (n : ℝ) < m + 1 := by linarith
    have q1' : m < n + 1 := by exact_mod_cast q1
    have q2' : n < m + 1 := by exact_mod_cast q2
    omega
  exact ⟨cell _ i i' B.1.1 B.1.2 B'.1.1 B'.1.2, cell _ j j' B.2.1.1 B.2.1.2 B'.2.1.1 B'.2.1.2,
    cell _ k k' B.2.2.1 B.2.2.2 B'.2.2.1 B'.2.2.2⟩

theorem cellTets_nodup {I J i j k : ℕ} (hi : i + 1 < I) (hj : j + 1 < J) : (cellTets I J i j k).Nodup := by
  rw [cellTets_eq]
  refine List.Nodup.map ?_ ?_
  · rintro ⟨a, b, c, d⟩ ⟨a', b', c', d'⟩ h
    simp only [Tet.mk.injEq] at h
    have inj := corner_inj (k := k) hi hj
    rw [inj h.1, inj h.2.1, inj h.2.2.1, inj h.2.2.2]
  · cases decide ((i + j + k) % 2 = 1) <;> decide

/-- C29: no tetrahedron is listed twice. -/
theorem C29_nodup {I J K : ℕ} {V : List V3} {o h : V3} (hb : IsBlock I J K V o h)
    (hx : 0 < h.x) (hy : 0 < h.y) (hz : 0 < h.z) : (create_tetrahedron_array_from_cube_mesh I J K).Nodup := by
  unfold create_tetrahedron_array_from_cube_mesh
  rw [List.nodup_flatMap]
  refine ⟨fun k hk => ?_, ?_⟩
  · rw [List.nodup_flatMap]
    refine ⟨fun j hj => ?_, ?_⟩
    · rw [List.nodup_flatMap]
      rw [List.mem_range] at hk hj
      refine ⟨fun i hi => ?_, ?_⟩
      · rw [List.mem_range] at hi
        exact cellTets_nodup (by omega) (by omega)
      · refine List.Pairwise.imp_of_mem ?_ (List.nodup_range (n := I - 1))
        intro i i' hi hi' hne t ht ht'
        rw [List.mem_range] at hi hi'
        exact hne (cell_unique hb hx hy hz (by omega) (by omega) (by omega) (by omega) (by omega) (by omega) ht ht').1
    · refine List.Pairwise.imp_of_mem ?_ (List.nodup_range (n := J - 1))
      intro j j' hj hj' hne t ht ht'
      simp only [List.mem_flatMap, List.mem_range] at hk hj hj' ht ht'
      obtain ⟨i, hi, ht⟩ := ht
      obtain ⟨i', hi', ht'⟩ := ht'
      exact hne (cell_unique hb hx hy hz (by omega) (by omega) (by omega) (by omega) (by omega) (by omega) ht ht').2.1
  · refine List.Pairwise.imp_of_mem ?_ (List.nodup_range (n := K - 1))
    intro k k' hk hk' hne t ht ht'
    simp only [List.mem_flatMap, List.mem_range] at hk hk' ht ht'
    obtain ⟨j, hj, i, hi, ht⟩ := ht
    obtain ⟨j', hj', i', hi', ht'⟩ := ht'
    exact hne (cell_unique hb hx hy hz (by omega) (by omega) (by omega) (by omega) (by omega) (by omega) ht ht').2.2

/-- **C31** (cube meshes). A block mesh is a mesh of non-overlapping tetrahedra, for every resolution and
every positive spacing. -/
theorem C31_cube_mesh {I J K : ℕ} {V : List V3} {o h : V3} (hb : IsBlock I J K V o h)
    (hx : 0 < h.x) (hy : 0 < h.y) (hz : 0 < h.z) :
    NonOverlapping (create_tetrahedron_array_from_cube_mesh I J K) (fun n => V.getD n V3.zero) := by
  have hget : ∀ t ∈ create_tetrahedron_array_from_cube_mesh I J K, ∀ n ∈ [t.i, t.j, t.k, t.m],
      V[n]? = some (V.getD n V3.zero) := by
    intro t ht n hn
    obtain ⟨h1, h2, h3, h4, _⟩ := (C29_shape I J K).2 t ht
    have hl : n < V.length := by
      rw [hb.len]
      simp only [List.mem_cons, List.not_mem_nil, or_false] at hn
      rcases hn with rfl | rfl | rfl | rfl <;> assumption
    simp [List.getD_eq_getElem?_getD, List.getElem?_eq_getElem hl]
  constructor
  · intro t ht
    obtain ⟨i, j, k, hi, hj, hk, hc⟩ := mem_tets.mp ht
    obtain ⟨r, hr, hpos, _⟩ := C29_cell_volumes hb hx hy hz hi hj hk
    unfold compute_volumes at hr
    have hvol : tetVolume V t = .ok (meshVol (fun n => V.getD n V3.zero) t) := by
      have e : ∀ n ∈ [t.i, t.j, t.k, t.m], vget V n = .ok (V.getD n V3.zero) := by
        intro n hn
        unfold vget
        rw [hget t ht n hn]
      unfold tetVolume
      rw [e t.i (by simp), e t.j (by simp), e t.k (by simp), e t.m (by simp)]
      rfl
    have hmap : ∀ (L : List Tet) (r : List ℝ), L.mapM (tetVolume V) = .ok r → ∀ t ∈ L, ∃ v ∈ r, tetVolume V t = .ok v := by
      intro L
      induction L with
      | nil => intro r _ t ht; simp at ht
      | cons a L ih =>
        intro r hr t ht
        rw [List.mapM_cons] at hr
        cases ha : tetVolume V a with
        | error e => rw [ha] at hr; simp [bind, Except.bind] at hr
        | ok va =>
          cases hL : L.mapM (tetVolume V) with
          | error e => rw [ha, hL] at hr; simp [bind, Except.bind] at hr
          | ok vL =>
            rw [ha, hL] at hr
            simp only [bind, Except.bind, pure, Except.pure, Except.ok.injEq] at hr
            subst hr
            rcases List.mem_cons.1 ht with rfl | ht
            · exact ⟨va, by simp, ha⟩
            · obtain ⟨v, hv, e⟩ := ih vL hL t ht
              exact ⟨v, by simp [hv], e⟩
    obtain ⟨v, hv, e⟩ := hmap _ _ hr t hc
    rw [hvol] at e
    rw [Except.ok.inj e]
    exact hpos v hv
  · intro e e' t t' ht ht' hne r ⟨h1, h2⟩
    have m1 := List.mem_of_getElem? ht
    have m2 := List.mem_of_getElem? ht'
    have := C29_no_overlap hb hx hy hz t t' r m1 m2
      ⟨_, _, _, _, hget t m1 _ (by simp), hget t m1 _ (by simp), hget t m1 _ (by simp), hget t m1 _ (by simp), h1⟩
      ⟨_, _, _, _, hget t' m2 _ (by simp), hget t' m2 _ (by simp), hget t' m2 _ (by simp), hget t' m2 _ (by simp), h2⟩
    subst this
    obtain ⟨l1, g1⟩ := List.getElem?_eq_some_iff.1 ht
    obtain ⟨l2, g2⟩ := List.getElem?_eq_some_iff.1 ht'
    exact hne ((C29_nodup hb hx hy hz).getElem_inj_iff.1 (g1.trans g2.symm))

/-- **C31** (beams). The surface extracted from any beam is closed and consistently oriented. -/
theorem C31_beam_surface (I J K : ℕ) (w h d : ℝ) (hI : 2 ≤ I) (hJ : 2 ≤ J) (hK : 2 ≤ K)
    (hw : 0 < w) (hh : 0 < h) (hd : 0 < d) :
    ∃ V T S O, create_beam I J K w h d = .ok (V, T) ∧
      compute_surface T (compute_neighbors T) = .ok (S.map some, O) ∧
      ∀ a b, edgeUses S a b = edgeUses S b a := by
  obtain ⟨V, T, vols, hc, hb, _⟩ := (C29_create_beam I J K w h d).1 hI hJ hK hw hh hd
  have hT : T = create_tetrahedron_array_from_cube_mesh I J K := by
    unfold create_beam at hc
    rw [if_neg (by omega)] at hc
    simp only [bind, Except.bind, pure, Except.pure] at hc
    split at hc
    · exact absurd hc (by simp)
    · simp only [Except.ok.injEq, Prod.mk.injEq] at hc
      exact hc.2.symm
  subst hT
  have c : ∀ n : ℕ, 2 ≤ n → (0:ℝ) < n - 1 := by
    intro n hn
    have : (2:ℝ) ≤ n := by exact_mod_cast hn
    linarith
  have hn := C31_cube_mesh hb (div_pos hw (c I hI)) (div_pos hh (c J hJ)) (div_pos hd (c K hK))
  obtain ⟨hm, he⟩ := C31_nonoverlapping _ _ hn
  obtain ⟨S, O, e, hclosed⟩ := C31_surface_closed _ hm _ he
  exact ⟨V, _, S, O, hc, e, hclosed⟩

/-- The hypotheses of the C31 theorems are met by a beam of 3 x 3 x 3 nodes (40 tetrahedra). -/
example : ∃ (T : List Tet) (pos : ℕ → V3), T.length = 40 ∧ NonOverlapping T pos ∧ FaceManifold T ∧ Embedded T pos := by
  obtain ⟨V, T, vols, _, hb, _⟩ := (C29_create_beam 3 3 3 1 1 1).1 (by omega) (by omega) (by omega)
    one_pos one_pos one_pos
  have hn := C31_cube_mesh hb (by norm_num) (by norm_num) (by norm_num)
  exact ⟨_, _, (C29_shape 3 3 3).1, hn, C31_nonoverlapping _ _ hn⟩

end Verif
