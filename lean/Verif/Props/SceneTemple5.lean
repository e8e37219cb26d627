import Verif.Props.SceneTemple4

/-! C109: the temple. -/

namespace Verif

open Rigid Rigid.SceneM SMesh
open VMesh (Tri)

/-- What is needed of a gable brick. -/
theorem mem_gableBoth {I n : ℕ} {a : Part × Cell} (ha : a ∈ gableBoth I n) : ∃ m j i : ℕ, m < n + 1 ∧ j < I - 1 ∧ i < I - j ∧
    a.2 = ⟨if i = 0 then 8 * i + 4 * j + 2 else 8 * i + 4 * j - 2, if i = I - j - 1 then 8 * i + 4 * j + 2 else 8 * i + 4 * j + 6, 30 + 2 * j, 32 + 2 * j,
      24 * m + 1, 24 * m + 3⟩ ∧
    (i = 0 → a.1 = along [(4 * j + 2, 30 + 2 * j), (4 * j + 6, 30 + 2 * j), (4 * j + 6, 32 + 2 * j)] (24 * m + 1) (24 * m + 3)) ∧
    (i = I - j - 1 → a.1 = along [(8 * I - 4 * j - 6, 30 + 2 * j), (8 * I - 4 * j - 10, 30 + 2 * j), (8 * I - 4 * j - 10, 32 + 2 * j)] (24 * m + 1) (24 * m + 3)) := by
  unfold gableBoth at ha
  simp only [List.mem_flatMap, List.mem_map, List.mem_range] at ha
  obtain ⟨m, hm, j, hj, i, hi, rfl⟩ := ha
  refine ⟨m, j, i, hm, hj, hi, ?_, ?_, ?_⟩
  · rw [Cell.mk.injEq]
    refine ⟨?_, ?_, ?_, ?_, ?_, ?_⟩
    · split_ifs <;> omega
    · split_ifs <;> omega
    · rfl
    · ring
    · rfl
    · ring
  · intro h0
    simp only [if_pos h0]
    subst h0
    congr 1
    · simp only [List.cons.injEq, Prod.mk.injEq, and_true]; push_cast; omega
  · intro h1
    have h0 : i ≠ 0 := by omega
    simp only [if_neg h0, if_pos h1]
    have : (i : ℤ) = I - j - 1 := by omega
    congr 1
    · simp only [List.cons.injEq, Prod.mk.injEq, and_true]; omega

theorem sep_gables (I n : ℕ) : (gableBoth I n).Pairwise Sep := by
  unfold gableBoth
  refine pairwise_range (fun m _ => pairwise_range (fun j hj => pairwise_range_map fun i i' hii hi => ?_) fun j j' hjj hj a ha b hb => ?_)
    fun m m' hmm hm a ha b hb => ?_
  · left
    simp only [Cell.Apart]
    have h1 : ¬ i = I - j - 1 := by omega
    have h2 : ¬ i' = 0 := by omega
    rw [if_neg h1, if_neg h2]
    omega
  · simp only [List.mem_map, List.mem_range] at ha hb
    obtain ⟨i, hi, rfl⟩ := ha
    obtain ⟨i', hi', rfl⟩ := hb
    left
    simp only [Cell.Apart]
    omega
  · simp only [List.mem_flatMap, List.mem_map, List.mem_range] at ha hb
    obtain ⟨j, hj, i, hi, rfl⟩ := ha
    obtain ⟨j', hj', i', hi', rfl⟩ := hb
    left
    simp only [Cell.Apart]
    omega

theorem sep_planks {I n : ℕ} : (plankBoth I n).Pairwise Sep := by
  unfold plankBoth
  refine pairwise_range (fun m _ => pairwise_range (fun j hj => pairwise_pair ?_) fun j j' hjj hj a ha b hb => ?_) fun m m' hmm hm a ha b hb => ?_
  · temple_cells
  · simp only [List.mem_cons, List.not_mem_nil, or_false] at ha hb
    rcases ha with rfl | rfl <;> rcases hb with rfl | rfl <;> temple_cells
  · simp only [List.mem_flatMap, List.mem_range, List.mem_cons, List.not_mem_nil, or_false] at ha hb
    obtain ⟨i, hi, ha⟩ := ha
    obtain ⟨i', hi', hb⟩ := hb
    have key : ∀ {P Q : Part} {x0 x1 x2 x3 y0 y1 y2 y3 : ℤ}, Sep (P, ⟨x0, x1, y0, y1, if m = 0 ∨ m = n - 1 then (if m = 0 then 24 * (n : ℤ) + 4 else 24 * n + 2 - 24 * m) - 26
        else (if m = 0 then 24 * (n : ℤ) + 4 else 24 * n + 2 - 24 * m) - 24, if m = 0 then 24 * n + 4 else 24 * n + 2 - 24 * m⟩)
        (Q, ⟨x2, x3, y2, y3, if m' = 0 ∨ m' = n - 1 then (if m' = 0 then 24 * (n : ℤ) + 4 else 24 * n + 2 - 24 * m') - 26
        else (if m' = 0 then 24 * (n : ℤ) + 4 else 24 * n + 2 - 24 * m') - 24, if m' = 0 then 24 * n + 4 else 24 * n + 2 - 24 * m'⟩) := by
      intro P Q x0 x1 x2 x3 y0 y1 y2 y3
      left
      simp only [Cell.Apart]
      right; right; right; right; right
      have h0 : ¬ m' = 0 := by omega
      have h1 : ¬ m = n - 1 := by omega
      simp only [if_neg h0, h1, or_false]
      split_ifs <;> omega
    rcases ha with rfl | rfl <;> rcases hb with rfl | rfl <;> exact key

theorem sep_ridge {I n : ℕ} : (ridgeBoth I n).Pairwise Sep := by
  unfold ridgeBoth
  refine pairwise_range_map fun i j hij hj => ?_
  temple_cells

theorem sep_gables_planks {I n : ℕ} : ∀ a ∈ gableBoth I n, ∀ b ∈ plankBoth I n, Sep a b := by
  intro a ha b hb
  obtain ⟨m, j, i, hm, hj, hi, hc, h0, h1⟩ := mem_gableBoth ha
  unfold plankBoth at hb
  simp only [List.mem_flatMap, List.mem_range, List.mem_cons, List.not_mem_nil, or_false] at hb
  obtain ⟨m', hm', k, hk, hb⟩ := hb
  obtain ⟨P, c⟩ := a
  simp only at hc h0 h1
  subst hc
  by_cases hjk : j = k
  · subst hjk
    rcases hb with rfl | rfl
    · by_cases g0 : i = 0
      · right
        rw [h0 g0]
        refine along_apart (-1) 2 (58 + 0 * j) (by omega) ?_ ?_ <;> temple_plane
      · left
        simp only [Cell.Apart, if_neg g0]
        omega
    · by_cases g1 : i = I - j - 1
      · right
        rw [h1 g1]
        refine along_apart 1 2 (8 * I - 6 + 60) (by omega) ?_ ?_ <;> temple_plane
      · left
        simp only [Cell.Apart, if_neg g1]
        omega
  · left
    rcases hb with rfl | rfl <;> simp only [Cell.Apart] <;> omega

theorem sep_gables_ridge {I n : ℕ} : ∀ a ∈ gableBoth I n, ∀ b ∈ ridgeBoth I n, Sep a b := by
  intro a ha b hb
  obtain ⟨m, j, i, hm, hj, hi, hc, -⟩ := mem_gableBoth ha
  unfold ridgeBoth at hb
  simp only [List.mem_map, List.mem_range] at hb
  obtain ⟨k, hk, rfl⟩ := hb
  left
  rw [hc]
  simp only [Cell.Apart]
  omega

theorem sep_planks_ridge {I n : ℕ} : ∀ a ∈ plankBoth I n, ∀ b ∈ ridgeBoth I n, Sep a b := by
  intro a ha b hb
  unfold plankBoth at ha
  unfold ridgeBoth at hb
  simp only [List.mem_flatMap, List.mem_map, List.mem_range, List.mem_cons, List.not_mem_nil, or_false] at ha hb
  obtain ⟨k, hk, rfl⟩ := hb
  obtain ⟨m, hm, i, hi, rfl | rfl⟩ := ha <;> left <;> simp only [Cell.Apart] <;> omega

/-! ### Levels -/

theorem level_steps {I n : ℕ} : ∀ a ∈ stepBoth I n, a.2.y1 ≤ 26 := by
  intro a ha
  unfold stepBoth at ha
  simp only [List.mem_cons, List.not_mem_nil, or_false] at ha
  rcases ha with rfl | rfl | rfl | rfl <;> simp [boxed]

theorem level_pillars {I n : ℕ} : ∀ a ∈ pillarBoth I n, a.2.y1 ≤ 26 := by
  intro a ha
  obtain ⟨c, hc, rfl⟩ := mem_pillarBoth ha
  exact (cells_square (List.mem_append.2 hc)).2.1.le

theorem level_epistyle {I n : ℕ} : ∀ a ∈ brickBoth I n ++ cornerBoth I n ++ wedgeBoth I n ++ junctionBoth I n, 26 ≤ a.2.y0 ∧ a.2.y1 ≤ 30 := by
  intro a ha
  unfold brickBoth cornerBoth wedgeBoth junctionBoth at ha
  simp only [List.mem_append, List.mem_flatMap, List.mem_map, List.mem_range, List.mem_cons, List.not_mem_nil, or_false] at ha
  rcases ha with (((⟨m, hm, i, hi, rfl⟩ | ⟨m, hm, rfl | rfl⟩) | rfl | rfl | rfl | rfl | rfl | rfl | rfl | rfl) | ⟨m, hm, rfl | rfl⟩) |
    ⟨m, hm, rfl | rfl | rfl | rfl⟩ <;> simp [boxed]

theorem level_roof {I n : ℕ} (hI : 3 ≤ I) : ∀ a ∈ gableBoth I n ++ plankBoth I n ++ ridgeBoth I n, 30 ≤ a.2.y0 := by
  intro a ha
  unfold gableBoth plankBoth ridgeBoth at ha
  simp only [List.mem_append, List.mem_flatMap, List.mem_map, List.mem_range, List.mem_cons, List.not_mem_nil, or_false] at ha
  rcases ha with (⟨m, hm, j, hj, i, hi, rfl⟩ | ⟨m, hm, i, hi, rfl | rfl⟩) | ⟨k, hk, rfl⟩ <;> simp only <;> omega

theorem temple_parts_apart {I n : ℕ} (hI : 3 ≤ I) (hn : 1 ≤ n) :
    (stepParts I n ++ (outerCells I n ++ innerCells I n).map Cell.box ++ (brickParts I n ++ cornerParts I n ++ wedgeParts I n ++ junctionParts I n ++
      gableParts I n ++ plankParts I n ++ ridgeParts I n)).Pairwise PartsApart := by
  obtain ⟨f1, f2, f3, f4, f5, f6, f7, f8⟩ := both_fst I n
  have f9 : (pillarBoth I n).map Prod.fst = (outerCells I n ++ innerCells I n).map Cell.box := by
    unfold pillarBoth
    rw [List.map_map]
    rfl
  have e : stepParts I n ++ (outerCells I n ++ innerCells I n).map Cell.box ++ (brickParts I n ++ cornerParts I n ++ wedgeParts I n ++ junctionParts I n ++
      gableParts I n ++ plankParts I n ++ ridgeParts I n) = ((stepBoth I n ++ pillarBoth I n) ++
      ((brickBoth I n ++ cornerBoth I n ++ wedgeBoth I n ++ junctionBoth I n) ++ (gableBoth I n ++ plankBoth I n ++ ridgeBoth I n))).map Prod.fst := by
    simp only [List.map_append, f1, f2, f3, f4, f5, f6, f7, f8, f9, List.append_assoc]
  rw [e]
  refine sep_pairwise ?_ ?_
  · intro a ha
    simp only [List.mem_append] at ha
    rcases ha with (h | h) | (((h | h) | h) | h) | (h | h) | h
    · exact within_steps hI hn a h
    · exact within_pillars a h
    · exact within_bricks a h
    · exact within_corners a h
    · exact within_wedges a h
    · exact within_junctions a h
    · exact within_gables a h
    · exact within_planks a h
    · exact within_ridge a h
  · rw [List.pairwise_append]
    refine ⟨?_, ?_, ?_⟩
    · rw [List.pairwise_append]
      exact ⟨sep_steps I n, sep_pillars hI hn, sep_steps_pillars⟩
    · rw [List.pairwise_append]
      refine ⟨?_, ?_, ?_⟩
      · rw [List.pairwise_append, List.pairwise_append, List.pairwise_append]
        refine ⟨⟨⟨sep_bricks hI, sep_corners hI hn, sep_bricks_corners hI⟩, sep_wedges hI, ?_⟩, sep_junctions hI, ?_⟩
        · intro a ha b hb
          rcases List.mem_append.1 ha with h | h
          · exact sep_bricks_wedges hI a h b hb
          · exact sep_corners_wedges hI a h b hb
        · intro a ha b hb
          simp only [List.mem_append] at ha
          rcases ha with (h | h) | h
          · exact sep_bricks_junctions hI a h b hb
          · exact sep_corners_junctions hI a h b hb
          · exact sep_wedges_junctions hI a h b hb
      · rw [List.pairwise_append, List.pairwise_append]
        refine ⟨⟨sep_gables I n, sep_planks, sep_gables_planks⟩, sep_ridge, ?_⟩
        intro a ha b hb
        rcases List.mem_append.1 ha with h | h
        · exact sep_gables_ridge a h b hb
        · exact sep_planks_ridge a h b hb
      · intro a ha b hb
        left
        have h1 := level_epistyle a ha
        have h2 := level_roof hI b hb
        unfold Cell.Apart
        omega
    · intro a ha b hb
      left
      have h1 : a.2.y1 ≤ 26 := by
        rcases List.mem_append.1 ha with h | h
        · exact level_steps a h
        · exact level_pillars a h
      have h2 : 26 ≤ b.2.y0 := by
        rcases List.mem_append.1 hb with h | h
        · exact (level_epistyle b h).1
        · exact (by norm_num : (26:ℤ) ≤ 30).trans (level_roof hI b h)
      unfold Cell.Apart
      omega

theorem IsTemple.apart {I n : ℕ} (hI : 3 ≤ I) (hn : 1 ≤ n) {w h : ℝ} (hw : 0 < w) (hh : 0 < h) {stones : ℕ} (hst : stones ≠ 0) {B : List Brick}
    (hB : IsTemple I n w h stones B) : B.Pairwise fun a b => PlaneApart a.world b.world := by
  obtain ⟨B1, B2, rfl, h1, h2⟩ := hB
  have hs : 0 < h / 10 := by positivity
  have hM := blocks_apart (M := templeMeasure I n w h) hw hs (List.rel_append (List.rel_append (singles h1)
    (forall₂_map' (l := outerCells I n ++ innerCells I n) (f := pillarAt (templeMeasure I n w h) stones) (g := Cell.box) ?_)) (singles h2))
    (temple_parts_apart hI hn)
  · have e : ∀ L : List Brick, (L.map fun b => [b]).flatten = L := by
      intro L
      rw [← List.flatMap_def, flatMap_singleton_id]
    rw [List.flatten_append, List.flatten_append, e, e, ← List.flatMap_def] at hM
    exact hM
  · intro c hc
    have := cells_square hc
    exact pillarAt_block hw hs hst this.1 (by omega) this.2.2.2.2

/-! ### Success -/

theorem corner_star {w e : ℝ} (hw : 0 < w) (he : 0 < e) : StarShaped (cornerMesh w w e) := by
  unfold cornerMesh
  simp only [lit0, lit2, lit15, lit05, lit_1]
  have h1 : 0 < w * w * e := by positivity
  refine cuboid_star 0 ?_ ?_ ?_ ?_ ?_ ?_ ?_ ?_ ?_ ?_ ?_ ?_ <;> simp only [sub_zero, det3, V3.sub_x, V3.sub_y, V3.sub_z] <;> linarith

theorem junction_star {w e : ℝ} (hw : 0 < w) (he : 0 < e) : StarShaped (junctionMesh w w e) := by
  unfold junctionMesh
  simp only [lit0, lit2, lit05]
  have h1 : 0 < w * w * e := by positivity
  refine cuboid_star 0 ?_ ?_ ?_ ?_ ?_ ?_ ?_ ?_ ?_ ?_ ?_ ?_ <;> simp only [sub_zero, det3, V3.sub_x, V3.sub_y, V3.sub_z] <;> linarith

theorem gable_star {w e : ℝ} (hw : 0 < w) (he : 0 < e) : StarShaped (gableMesh (2.0 * w) e (0.5 * w)) := by
  unfold gableMesh prism
  simp only [lit0, lit2, lit05]
  have h1 : 0 < w * w * e := by positivity
  refine cuboid_star 0 ?_ ?_ ?_ ?_ ?_ ?_ ?_ ?_ ?_ ?_ ?_ ?_ <;> simp only [sub_zero, det3, V3.sub_x, V3.sub_y, V3.sub_z] <;> linarith

theorem plank_star {w e l : ℝ} (hw : 0 < w) (he : 0 < e) (hl : 0 < l) : StarShaped (leftPlank w e l) ∧ StarShaped (rightPlank w e l) := by
  unfold leftPlank rightPlank prism
  simp only [lit0, lit2, lit15]
  have h1 : 0 < w * e * l := by positivity
  constructor
  · refine cuboid_star ⟨w * (3 / 4), e / 2, -(l / 2)⟩ ?_ ?_ ?_ ?_ ?_ ?_ ?_ ?_ ?_ ?_ ?_ ?_ <;> simp only [det3, V3.sub_x, V3.sub_y, V3.sub_z] <;> linarith
  · refine cuboid_star ⟨-(w * (3 / 4)), e / 2, -(l / 2)⟩ ?_ ?_ ?_ ?_ ?_ ?_ ?_ ?_ ?_ ?_ ?_ ?_ <;> simp only [det3, V3.sub_x, V3.sub_y, V3.sub_z] <;> linarith

theorem makeOne_runs {eig : Eig} (he : EigSpec eig) {shape base material : String} {VT : List V3 × List Tri} (hst : StarShaped VT) (P : List (Unit × V3 × Quat))
    {s : Scene} (hr : Ready material s) : ∃ k s1, newShape eig shape VT s = .ok (k, s1) ∧
      ∃ N s', makeBodies base (fun _ => k) P s1 = .ok (N, s') ∧ Ready material s' ∧ Up s s' N := by
  obtain ⟨k, s1, h1, r1, hs1, g1⟩ := newShape_runs (base := shape) he hr hst
  obtain ⟨N, s', h2, r2, u2⟩ := makeBodies_runs (base := base) (name := fun _ : Unit => k) (mesh := fun _ => VT) (P := P) r1 fun _ => hs1
  exact ⟨k, s1, h1, N, s', h2, r2, u2.of_grows g1⟩

theorem bind_one {α β γ : Type} {m : SceneM α} {f : α → SceneM β} {g : α → β → SceneM γ} {s : Scene} {Q : β → Scene → Prop} {R : γ → Scene → Prop}
    (h : ∃ k s1, m s = .ok (k, s1) ∧ ∃ N s', f k s1 = .ok (N, s') ∧ Q N s') (hg : ∀ k N s', Q N s' → ∃ c t, g k N s' = .ok (c, t) ∧ R c t) :
    ∃ c t, (m >>= fun k => f k >>= fun N => g k N) s = .ok (c, t) ∧ R c t := by
  obtain ⟨k, s1, h1, N, s', h2, q⟩ := h
  obtain ⟨c, t, h3, r⟩ := hg k N s' q
  exact ⟨c, t, bind_ok.2 ⟨k, s1, h1, bind_ok.2 ⟨N, s', h2, h3⟩⟩, r⟩

theorem temple_runs {eig : Eig} (he : EigSpec eig) {hull : List V3 → List V3 × List Tri} {I n : ℕ} (hI : 3 ≤ I) (hn : 1 ≤ n) {w h : ℝ} (hw : 0 < w)
    (hh : 0 < h) {stones : ℕ} (hst : stones ≠ 0) (density : ℝ) {material : String} {s : Scene} (hr : Ready material s) (hH : TempleHulls hull w h w) :
    Succeeds material (create_temple eig hull I (3 * n + 1) w h w stones density material) s := by
  have hI' : (3:ℝ) ≤ I := by exact_mod_cast hI
  have hn' : (1:ℝ) ≤ n := by exact_mod_cast hn
  have hK : ((3 * n + 1 : ℕ) : ℝ) = 3 * n + 1 := by push_cast; ring
  have he0 : (0:ℝ) < 0.1 * h := by rw [lit01]; linarith
  have hIw : 3 * w ≤ I * w := by nlinarith
  have hnw : w ≤ n * w := by nlinarith
  unfold Succeeds create_temple
  rw [if_neg (by push_cast; omega)]
  simp only
  refine bind_runs (templeStep_runs he hr (by nlinarith) he0 (by rw [hK]; nlinarith)) ?_
  rintro n1 s1 ⟨r1, u1⟩
  refine bind_runs (templeStep_runs he r1 (by nlinarith) he0 (by rw [hK]; nlinarith)) ?_
  rintro n2 s2 ⟨r2, u2⟩
  refine bind_runs (templeStep_runs he r2 (by nlinarith) he0 (by rw [hK]; nlinarith)) ?_
  rintro n3 s3 ⟨r3, u3⟩
  refine bind_runs (templeStep_runs he r3 (by rw [lit25]; nlinarith) he0 (by rw [hK, lit25]; nlinarith)) ?_
  rintro n4 s4 ⟨r4, u4⟩
  refine bind_runs (mapM_rows_runs (fun s => Ready material s) (fun r _ s hr => pillar_runs he r _ density hr hw hh hw (by omega)) s4 r4) ?_
  rintro n5 s5 ⟨r5, u5⟩
  refine bind_runs (mapM_rows_runs (fun s => Ready material s) (fun r _ s hr => pillar_runs he r _ density hr hw (by rw [lit01]; linarith) hw (by omega)) s5 r5) ?_
  rintro n6 s6 ⟨r6, u6⟩
  have he2 : 0 < 2.0 * (0.1 * h) := by rw [lit2]; linarith
  refine bind_one (makeOne_runs he (box_star (by rw [lit2]; linarith) he2 hw) _ r6) ?_
  rintro k7 n7 s7 ⟨r7, u7⟩
  refine bind_one (makeOne_runs he (corner_star hw he2) _ r7) ?_
  rintro k8 n8 s8 ⟨r8, u8⟩
  refine bind_one (makeOne_runs he hH.wedge.2 _ r8) ?_
  rintro k9 n9 s9 ⟨r9, u9⟩
  refine bind_one (makeOne_runs he (junction_star hw he2) _ r9) ?_
  rintro k10 n10 s10 ⟨r10, u10⟩
  refine bind_runs (newShape_runs he r10 (gable_star hw he0)) ?_
  rintro k11 t11 ⟨q11, a11, g11⟩
  refine bind_runs (newShape_runs he q11 hH.edge.2) ?_
  rintro k12 t12 ⟨q12, a12, g12⟩
  refine bind_runs (makeBodies_runs (mesh := fun edge : Bool => if edge then hull (edgePoints (2.0 * w) (0.1 * h) (0.5 * w))
    else gableMesh (2.0 * w) (0.1 * h) (0.5 * w)) q12 (by intro c; cases c; exacts [a11.grows g12, a12])) ?_
  rintro n11 s11 ⟨r11, v11⟩
  have u11 := Up.of_grows g11 (Up.of_grows g12 v11)
  have hl1 : 0 < 6.5 * w := by rw [lit65]; linarith
  have hl2 : 0 < 6.0 * w := by rw [lit_6]; linarith
  refine bind_runs (newShape_runs he r11 (plank_star hw he0 hl1).1) ?_
  rintro p1 t1 ⟨q1, a1, g1⟩
  refine bind_runs (newShape_runs he q1 (plank_star hw he0 hl2).1) ?_
  rintro p2 t2 ⟨q2, a2, g2⟩
  refine bind_runs (newShape_runs he q2 (plank_star hw he0 hl1).2) ?_
  rintro p3 t3 ⟨q3, a3, g3⟩
  refine bind_runs (newShape_runs he q3 (plank_star hw he0 hl2).2) ?_
  rintro p4 t4 ⟨q4, a4, g4⟩
  refine bind_runs (makeBodies_runs (mesh := plankMesh w (0.1 * h) w) q4 (by
    rintro ⟨c, c'⟩
    cases c <;> cases c'
    · exact (a2.grows g3).grows g4
    · exact ((a1.grows g2).grows g3).grows g4
    · exact a4
    · exact a3.grows g4)) ?_
  rintro n12 s12 ⟨r12, v12⟩
  have u12 := Up.of_grows g1 (Up.of_grows g2 (Up.of_grows g3 (Up.of_grows g4 v12)))
  refine bind_one (makeOne_runs he hH.ridge.2 _ r12) ?_
  rintro k13 n13 s13 ⟨r13, u13⟩
  have u : Up s s13 ([n1, n2, n3, n4] ++ n5.flatten ++ n6.flatten ++ n7 ++ n8 ++ n9 ++ n10 ++ n11 ++ n12 ++ n13) :=
    (((((((((((u1.append u2).append u3).append u4).append u5).append u6).append u7).append u8).append u9).append u10).append u11).append u12).append u13
  refine bind_runs (u.setup_runs r13) ?_
  rintro _ s14 ⟨r14, u14⟩
  exact pure_runs ⟨r14, u14⟩

/-! ### The hulls exist -/

/-- The faces of a prism over a triangle whose first three corners are in front. -/
def frontPrism : List Tri := [⟨0, 1, 2⟩, ⟨3, 5, 4⟩, ⟨0, 3, 4⟩, ⟨0, 4, 1⟩, ⟨1, 4, 5⟩, ⟨1, 5, 2⟩, ⟨2, 5, 3⟩, ⟨2, 3, 0⟩]

/-- The faces of a prism over a triangle whose first three corners are at the back. -/
def backPrism : List Tri := [⟨0, 2, 1⟩, ⟨3, 4, 5⟩, ⟨0, 4, 3⟩, ⟨0, 1, 4⟩, ⟨1, 5, 4⟩, ⟨1, 2, 5⟩, ⟨2, 3, 5⟩, ⟨2, 0, 3⟩]

/-- The faces of a prism over a pentagon. -/
def fivePrism : List Tri := [⟨0, 1, 2⟩, ⟨0, 2, 3⟩, ⟨0, 3, 4⟩, ⟨5, 7, 6⟩, ⟨5, 8, 7⟩, ⟨5, 9, 8⟩, ⟨0, 5, 6⟩, ⟨0, 6, 1⟩, ⟨1, 6, 7⟩, ⟨1, 7, 2⟩, ⟨2, 7, 8⟩, ⟨2, 8, 3⟩,
  ⟨3, 8, 9⟩, ⟨3, 9, 4⟩, ⟨4, 9, 5⟩, ⟨4, 5, 0⟩]

open Classical in
/-- Faces for the points of the temple's hulls. -/
noncomputable def someHull (P : List V3) : List V3 × List Tri :=
  if StarShaped (P, frontPrism) then (P, frontPrism) else if StarShaped (P, backPrism) then (P, backPrism) else (P, fivePrism)

theorem someHull_of {P : List V3} (h : StarShaped (P, frontPrism) ∨ StarShaped (P, backPrism) ∨ StarShaped (P, fivePrism)) : HullOf P (someHull P) := by
  unfold someHull
  by_cases h1 : StarShaped (P, frontPrism)
  · rw [if_pos h1]; exact ⟨List.Perm.refl _, h1⟩
  by_cases h2 : StarShaped (P, backPrism)
  · rw [if_neg h1, if_pos h2]; exact ⟨List.Perm.refl _, h2⟩
  · rw [if_neg h1, if_neg h2]; exact ⟨List.Perm.refl _, (h.resolve_left h1).resolve_left h2⟩

theorem someHull_temple {w h : ℝ} (hw : 0 < w) (hh : 0 < h) : TempleHulls someHull w h w := by
  have h1 : 0 < w * w * h := by positivity
  refine ⟨someHull_of (Or.inr (Or.inr ?_)), someHull_of (Or.inl ?_), someHull_of (Or.inr (Or.inl ?_))⟩
  · refine ⟨?_, closed_of_decide ?_ ?_, by simp [fivePrism], 0, ?_⟩
    · show ∀ t ∈ fivePrism, t.a < 10 ∧ t.b < 10 ∧ t.c < 10
      decide
    · show (dirEdges fivePrism).Nodup
      decide
    · show ∀ e ∈ dirEdges fivePrism, e.swap ∈ dirEdges fivePrism
      decide
    · intro t ht
      simp only [fivePrism, List.mem_cons, List.not_mem_nil, or_false] at ht
      rcases ht with rfl | rfl | rfl | rfl | rfl | rfl | rfl | rfl | rfl | rfl | rfl | rfl | rfl | rfl | rfl | rfl <;>
        simp only [wedgePoints, List.getD_cons_zero, List.getD_cons_succ, sub_zero, det3, V3.sub_x, V3.sub_y, V3.sub_z, lit0, lit2, lit15, lit05, lit01, lit_1] <;>
        linarith
  · refine ⟨?_, closed_of_decide ?_ ?_, by simp [frontPrism], ⟨w * (2 / 3), -(h / 60), 0⟩, ?_⟩
    · show ∀ t ∈ frontPrism, t.a < 6 ∧ t.b < 6 ∧ t.c < 6
      decide
    · show (dirEdges frontPrism).Nodup
      decide
    · show ∀ e ∈ dirEdges frontPrism, e.swap ∈ dirEdges frontPrism
      decide
    · intro t ht
      simp only [frontPrism, List.mem_cons, List.not_mem_nil, or_false] at ht
      rcases ht with rfl | rfl | rfl | rfl | rfl | rfl | rfl | rfl <;>
        simp only [edgePoints, List.getD_cons_zero, List.getD_cons_succ, det3, V3.sub_x, V3.sub_y, V3.sub_z, lit0, lit2, lit15, lit05, lit01, lit_1] <;>
        linarith
  · refine ⟨?_, closed_of_decide ?_ ?_, by simp [backPrism], ⟨0, h / 60, w / 2⟩, ?_⟩
    · show ∀ t ∈ backPrism, t.a < 6 ∧ t.b < 6 ∧ t.c < 6
      decide
    · show (dirEdges backPrism).Nodup
      decide
    · show ∀ e ∈ dirEdges backPrism, e.swap ∈ dirEdges backPrism
      decide
    · intro t ht
      simp only [backPrism, List.mem_cons, List.not_mem_nil, or_false] at ht
      rcases ht with rfl | rfl | rfl | rfl | rfl | rfl | rfl | rfl <;>
        simp only [ridgePoints, List.getD_cons_zero, List.getD_cons_succ, det3, V3.sub_x, V3.sub_y, V3.sub_z, lit0, lit2, lit15, lit05, lit01, lit_1] <;>
        linarith

/-! ### The theorems -/

/-- **C109.** `create_temple` with I ≥ 3 pillars in front, 3n + 1 along the sides (n ≥ 1) and square pillars: the new free bodies are those of the plan —
every step, brick, plank and ridge stone has exactly the planned corners, every pillar is a pillar standing in its place — and no two of them overlap. -/
theorem C109_temple {eig : Eig} (he : EigSpec eig) {hull : List V3 → List V3 × List Tri} {I n : ℕ} (hI : 3 ≤ I) (hn : 1 ≤ n) {w h : ℝ} (hw : 0 < w)
    (hh : 0 < h) {stones : ℕ} {density : ℝ} {material : String} {s s' : Scene} {names : List String} (hok : s.OK) (hH : TempleHulls hull w h w)
    (hrun : create_temple eig hull I (3 * n + 1) w h w stones density material s = .ok (names, s')) :
    ∃ B, IsTemple I n w h stones B ∧ Adds s s' names B false material density ∧ NoOverlap s' names := by
  obtain ⟨-, hst, hb⟩ := temple_built he hok hH hrun
  have hT := bricks_temple (I := I) (stones := stones) (by omega : n ≠ 0) hH
  exact ⟨_, hT, hb.adds, hb.adds.noOverlap (hT.apart hI hn hw hh (hst (by omega)))⟩

/-- **C109.** If the number of pillars along the sides is not one more than a multiple of three, `create_temple` raises a RuntimeError before anything
is added; so the temples of `C109_temple` are all there are with n ≥ 1 and square pillars. -/
theorem C109_temple_raises {eig : Eig} {hull : List V3 → List V3 × List Tri} {I K : ℕ} {w h d : ℝ} {stones : ℕ} {density : ℝ} {material : String} {s : Scene}
    (hK : K % 3 ≠ 1) : create_temple eig hull I K w h d stones density material s = .error .runtimeError := by
  unfold create_temple
  rw [if_pos (by omega)]
  rfl

/-- **C109.** The temple is built in every scene that has the material and gives new names. -/
theorem C109_temple_succeeds {eig : Eig} (he : EigSpec eig) {hull : List V3 → List V3 × List Tri} {I n : ℕ} (hI : 3 ≤ I) (hn : 1 ≤ n) {w h : ℝ} (hw : 0 < w)
    (hh : 0 < h) {stones : ℕ} (hst : stones ≠ 0) (density : ℝ) {material : String} {s : Scene} (hr : Ready material s) (hH : TempleHulls hull w h w) :
    ∃ names s', create_temple eig hull I (3 * n + 1) w h w stones density material s = .ok (names, s') ∧ Ready material s' := by
  obtain ⟨names, s', h1, h2, -⟩ := temple_runs he hI hn hw hh hst density hr hH
  exact ⟨names, s', h1, h2⟩

/-- The temple of the scene "temple", in a fresh engine. -/
example : ∃ (eig : Eig) (names : List String) (s' : Scene), EigSpec eig ∧
    create_temple eig someHull 4 7 1 3 1 3 1 "default" freshScene = .ok (names, s') := by
  obtain ⟨eig, he⟩ := eigSpec_exists
  obtain ⟨names, s', h, -⟩ := C109_temple_succeeds he (I := 4) (n := 2) (w := 1) (h := 3) (stones := 3) (by norm_num) (by norm_num) (by norm_num)
    (by norm_num) (by norm_num) 1 freshScene_ready (someHull_temple (by norm_num) (by norm_num))
  exact ⟨eig, names, s', he, h⟩

end Verif
