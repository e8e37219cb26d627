import Verif.Model.VolumeMesh
import Verif.Props.Grid3
import Verif.Props.Tetrahedron
import Mathlib.Tactic.IntervalCases

/-! C29: the tetrahedral mesh of a block of cubic cells. -/

namespace Verif
open V3 VMesh

/-- The node number of node (i,j,k); the grid's linear index. -/
def nodeIx (I J i j k : ℕ) : ℕ := (k * J + j) * I + i

theorem nodeIx_lt {I J K i j k : ℕ} (hi : i < I) (hj : j < J) (hk : k < K) : nodeIx I J i j k < I * J * K := by
  unfold nodeIx
  have h1 : k * J + j + 1 ≤ K * J := by
    calc k * J + j + 1 ≤ k * J + J := by omega
      _ = (k + 1) * J := by ring
      _ ≤ K * J := Nat.mul_le_mul_right _ hk
  calc (k * J + j) * I + i < (k * J + j) * I + I := by omega
    _ = (k * J + j + 1) * I := by ring
    _ ≤ K * J * I := Nat.mul_le_mul_right _ h1
    _ = I * J * K := by ring

theorem nodeIx_inj {I J i j k i' j' k' : ℕ} (hi : i < I) (hj : j < J) (hi' : i' < I) (hj' : j' < J)
    (h : nodeIx I J i j k = nodeIx I J i' j' k') : i = i' ∧ j = j' ∧ k = k' := by
  unfold nodeIx at h
  have e1 : i = i' := by
    have := congrArg (· % I) h
    simpa [Nat.mul_add_mod', Nat.mod_eq_of_lt hi, Nat.mod_eq_of_lt hi'] using this
  subst e1
  have e2 : k * J + j = k' * J + j' := by
    have : (k * J + j) * I = (k' * J + j') * I := by omega
    exact Nat.eq_of_mul_eq_mul_right (by omega) this
  have e3 : j = j' := by
    have := congrArg (· % J) e2
    simpa [Nat.mul_add_mod', Nat.mod_eq_of_lt hj, Nat.mod_eq_of_lt hj'] using this
  subst e3
  have : k * J = k' * J := by omega
  exact ⟨rfl, rfl, Nat.eq_of_mul_eq_mul_right (by omega) this⟩

/-- Corner (a,b,c) of a cell, numbered 4c+2b+a, as offset. -/
def off (n : Fin 8) : ℕ × ℕ × ℕ := (n.val % 2, n.val / 2 % 2, n.val / 4)

/-- The fill pattern in corner numbers. -/
def pattern (flip : Bool) : List (Fin 8 × Fin 8 × Fin 8 × Fin 8) :=
  if flip then [(0,1,2,4), (2,1,3,7), (4,6,7,2), (4,7,5,1), (2,7,4,1)]
  else [(0,1,3,5), (0,3,2,6), (4,6,5,0), (5,6,7,3), (0,3,6,5)]

/-- Node number of a corner. -/
def corner (I J i j k : ℕ) (n : Fin 8) : ℕ := nodeIx I J (i + (off n).1) (j + (off n).2.1) (k + (off n).2.2)

theorem cellTets_eq (I J i j k : ℕ) : cellTets I J i j k =
    (pattern (decide ((i + j + k) % 2 = 1))).map (fun q =>
      ⟨corner I J i j k q.1, corner I J i j k q.2.1, corner I J i j k q.2.2.1, corner I J i j k q.2.2.2⟩) := by
  unfold cellTets pattern
  by_cases h : (i + j + k) % 2 = 1 <;> simp [h, corner, nodeIx, off]

theorem corner_lt {I J K i j k : ℕ} (hi : i + 1 < I) (hj : j + 1 < J) (hk : k + 1 < K) (n : Fin 8) :
    corner I J i j k n < I * J * K := by
  unfold corner
  apply nodeIx_lt <;> · fin_cases n <;> simp [off] <;> omega

theorem mem_tets {I J K : ℕ} {t : Tet} : t ∈ create_tetrahedron_array_from_cube_mesh I J K ↔
    ∃ i j k, i + 1 < I ∧ j + 1 < J ∧ k + 1 < K ∧ t ∈ cellTets I J i j k := by
  simp only [create_tetrahedron_array_from_cube_mesh, List.mem_flatMap, List.mem_range]
  constructor
  · rintro ⟨k, hk, j, hj, i, hi, h⟩; exact ⟨i, j, k, by omega, by omega, by omega, h⟩
  · rintro ⟨i, j, k, hi, hj, hk, h⟩; exact ⟨k, by omega, j, by omega, i, by omega, h⟩

theorem corner_inj {I J i j k : ℕ} (hi : i + 1 < I) (hj : j + 1 < J) : Function.Injective (corner I J i j k) := by
  intro m n h
  unfold corner at h
  have ho : ∀ n : Fin 8, (off n).1 ≤ 1 ∧ (off n).2.1 ≤ 1 := by decide
  have hm := ho m
  have hn := ho n
  obtain ⟨e1, e2, e3⟩ := nodeIx_inj (by omega) (by omega) (by omega) (by omega) h
  have hoff : ∀ m n : Fin 8, (off m).1 = (off n).1 → (off m).2.1 = (off n).2.1 →
    (off m).2.2 = (off n).2.2 → m = n := by decide
  exact hoff m n (by omega) (by omega) (by omega)

/-- C29: the array has five rows per cell, all node indices are in range and the four corners of every
row are different. -/
theorem C29_shape (I J K : ℕ) :
    (create_tetrahedron_array_from_cube_mesh I J K).length = (I - 1) * (J - 1) * (K - 1) * 5 ∧
    ∀ t ∈ create_tetrahedron_array_from_cube_mesh I J K,
      t.i < I * J * K ∧ t.j < I * J * K ∧ t.k < I * J * K ∧ t.m < I * J * K ∧ [t.i, t.j, t.k, t.m].Nodup := by
  constructor
  · have h5 : ∀ i j k, (cellTets I J i j k).length = 5 := by
      intro i j k; unfold cellTets; simp only; split_ifs <;> rfl
    simp only [create_tetrahedron_array_from_cube_mesh, List.length_flatMap, h5, List.map_const',
      List.length_range, List.sum_replicate, smul_eq_mul]
    ring
  · intro t ht
    obtain ⟨i, j, k, hi, hj, hk, h⟩ := mem_tets.mp ht
    rw [cellTets_eq, List.mem_map] at h
    obtain ⟨q, hq, rfl⟩ := h
    refine ⟨corner_lt hi hj hk _, corner_lt hi hj hk _, corner_lt hi hj hk _, corner_lt hi hj hk _, ?_⟩
    have hinj : Function.Injective (corner I J i j k) := corner_inj hi hj
    have : ([q.1, q.2.1, q.2.2.1, q.2.2.2].map (corner I J i j k)).Nodup := by
      apply List.Nodup.map hinj
      have hp : ∀ f : Bool, ∀ q ∈ pattern f, [q.1, q.2.1, q.2.2.1, q.2.2.2].Nodup := by
        intro f q hq
        cases f <;> simp only [pattern, Bool.false_eq_true, if_true, if_false, List.mem_cons,
          List.not_mem_nil, or_false] at hq <;> rcases hq with rfl | rfl | rfl | rfl | rfl <;> decide
      exact hp _ q hq
    simpa using this

/-! ### geometry -/

/-- Specification: the vertex array of a block whose node (i,j,k) sits at o + (i hx, j hy, k hz). -/
structure IsBlock (I J K : ℕ) (V : List V3) (o h : V3) : Prop where
  len : V.length = I * J * K
  pos : ∀ i j k : ℕ, i < I → j < J → k < K →
    V[(k * J + j) * I + i]? = some ⟨o.x + i * h.x, o.y + j * h.y, o.z + k * h.z⟩

/-- position of a corner -/
def cornerPos (o h : V3) (i j k : ℕ) (n : Fin 8) : V3 :=
  ⟨o.x + ((i : ℝ) + (off n).1) * h.x, o.y + ((j : ℝ) + (off n).2.1) * h.y, o.z + ((k : ℝ) + (off n).2.2) * h.z⟩

theorem vget_corner {I J K : ℕ} {V : List V3} {o h : V3} (hb : IsBlock I J K V o h) {i j k : ℕ}
    (hi : i + 1 < I) (hj : j + 1 < J) (hk : k + 1 < K) (n : Fin 8) :
    vget V (corner I J i j k n) = .ok (cornerPos o h i j k n) := by
  have ho : ∀ n : Fin 8, (off n).1 ≤ 1 ∧ (off n).2.1 ≤ 1 ∧ (off n).2.2 ≤ 1 := by decide
  have hn := ho n
  unfold vget corner nodeIx
  rw [hb.pos _ _ _ (by omega) (by omega) (by omega)]
  simp [cornerPos]

theorem tetVolume_corner {I J K : ℕ} {V : List V3} {o h : V3} (hb : IsBlock I J K V o h) {i j k : ℕ}
    (hi : i + 1 < I) (hj : j + 1 < J) (hk : k + 1 < K) (q : Fin 8 × Fin 8 × Fin 8 × Fin 8) :
    tetVolume V ⟨corner I J i j k q.1, corner I J i j k q.2.1, corner I J i j k q.2.2.1,
      corner I J i j k q.2.2.2⟩ = .ok (Tetra.compute_signed_volume (cornerPos o h i j k q.1)
        (cornerPos o h i j k q.2.1) (cornerPos o h i j k q.2.2.1) (cornerPos o h i j k q.2.2.2)) := by
  unfold tetVolume
  simp only [vget_corner hb hi hj hk]
  rfl

theorem mapM_append' {α β : Type} (f : α → Except PyErr β) {L1 L2 : List α} {r1 r2 : List β}
    (h1 : L1.mapM f = .ok r1) (h2 : L2.mapM f = .ok r2) : (L1 ++ L2).mapM f = .ok (r1 ++ r2) := by
  rw [List.mapM_append, h1, h2]; rfl

theorem mapM_flatMap_sum {α : Type} (f : Tet → Except PyErr ℝ) (g : α → List Tet) (c : ℝ) (L : List α)
    (h : ∀ a ∈ L, ∃ r, (g a).mapM f = .ok r ∧ (∀ v ∈ r, 0 < v) ∧ r.sum = c) :
    ∃ r, (L.flatMap g).mapM f = .ok r ∧ (∀ v ∈ r, 0 < v) ∧ r.sum = L.length * c := by
  induction L with
  | nil => exact ⟨[], rfl, by simp, by simp⟩
  | cons a L ih =>
    obtain ⟨r1, e1, p1, s1⟩ := h a (by simp)
    obtain ⟨r2, e2, p2, s2⟩ := ih (fun b hb => h b (by simp [hb]))
    refine ⟨r1 ++ r2, mapM_append' f e1 e2, ?_, ?_⟩
    · intro v hv
      rcases List.mem_append.mp hv with h | h
      · exact p1 v h
      · exact p2 v h
    · rw [List.sum_append, s1, s2, List.length_cons]; push_cast; ring

/-- C29: in a block with positive spacing the five tetrahedra of every cell have positive volume and
their volumes sum to the volume of the cell. -/
theorem C29_cell_volumes {I J K : ℕ} {V : List V3} {o h : V3} (hb : IsBlock I J K V o h)
    (hx : 0 < h.x) (hy : 0 < h.y) (hz : 0 < h.z) {i j k : ℕ}
    (hi : i + 1 < I) (hj : j + 1 < J) (hk : k + 1 < K) :
    ∃ r, compute_volumes V (cellTets I J i j k) = .ok r ∧ (∀ v ∈ r, 0 < v) ∧ r.sum = h.x * h.y * h.z := by
  have hp : 0 < h.x * h.y * h.z := by positivity
  unfold compute_volumes
  rw [cellTets_eq]
  have hmap : ∀ L : List (Fin 8 × Fin 8 × Fin 8 × Fin 8), (L.map (fun q =>
      (⟨corner I J i j k q.1, corner I J i j k q.2.1, corner I J i j k q.2.2.1, corner I J i j k q.2.2.2⟩ : Tet))).mapM
        (tetVolume V) = .ok (L.map fun q => Tetra.compute_signed_volume (cornerPos o h i j k q.1)
        (cornerPos o h i j k q.2.1) (cornerPos o h i j k q.2.2.1) (cornerPos o h i j k q.2.2.2)) := by
    intro L
    induction L with
    | nil => rfl
    | cons q L ih => rw [List.map_cons, List.mapM_cons, tetVolume_corner hb hi hj hk, ih]; rfl
  refine ⟨_, hmap _, ?_, ?_⟩
  · have hall : ∀ f : Bool, ∀ q ∈ pattern f, 0 < Tetra.compute_signed_volume (cornerPos o h i j k q.1)
        (cornerPos o h i j k q.2.1) (cornerPos o h i j k q.2.2.1) (cornerPos o h i j k q.2.2.2) := by
      intro f q hq
      cases f <;> simp only [pattern, Bool.false_eq_true, if_true, if_false, List.mem_cons,
        List.not_mem_nil, or_false] at hq <;> rcases hq with rfl | rfl | rfl | rfl | rfl <;>
        simp only [Tetra.compute_signed_volume, dot, cross, cornerPos, off, sub_x, sub_y, sub_z] <;>
        norm_num <;> nlinarith [hp]
    intro v hv
    obtain ⟨q, hq, rfl⟩ := List.mem_map.mp hv
    exact hall _ q hq
  · have hsum : ∀ f : Bool, ((pattern f).map fun q => Tetra.compute_signed_volume (cornerPos o h i j k q.1)
        (cornerPos o h i j k q.2.1) (cornerPos o h i j k q.2.2.1) (cornerPos o h i j k q.2.2.2)).sum =
        h.x * h.y * h.z := by
      intro f
      cases f <;> simp only [pattern, Bool.false_eq_true, if_true, if_false, List.map_cons, List.map_nil,
        List.sum_cons, List.sum_nil] <;>
        simp only [Tetra.compute_signed_volume, dot, cross, cornerPos, off, sub_x, sub_y, sub_z] <;>
        norm_num <;> ring
    exact hsum _

theorem block_volumes {I J K : ℕ} {V : List V3} {o h : V3} (hb : IsBlock I J K V o h)
    (hx : 0 < h.x) (hy : 0 < h.y) (hz : 0 < h.z) :
    ∃ r, compute_volumes V (create_tetrahedron_array_from_cube_mesh I J K) = .ok r ∧ (∀ v ∈ r, 0 < v) ∧
      r.sum = ((K - 1 : ℕ) * ((J - 1 : ℕ) * ((I - 1 : ℕ) * (h.x * h.y * h.z)))) := by
  unfold compute_volumes create_tetrahedron_array_from_cube_mesh
  have := mapM_flatMap_sum (tetVolume V) (fun k => (List.range (J - 1)).flatMap fun j =>
    (List.range (I - 1)).flatMap fun i => cellTets I J i j k)
    ((J - 1 : ℕ) * ((I - 1 : ℕ) * (h.x * h.y * h.z))) (List.range (K - 1)) ?_
  · simpa using this
  · intro k hk
    have := mapM_flatMap_sum (tetVolume V) (fun j =>
      (List.range (I - 1)).flatMap fun i => cellTets I J i j k)
      ((I - 1 : ℕ) * (h.x * h.y * h.z)) (List.range (J - 1)) ?_
    · simpa using this
    · intro j hj
      have := mapM_flatMap_sum (tetVolume V) (fun i => cellTets I J i j k)
        (h.x * h.y * h.z) (List.range (I - 1)) ?_
      · simpa using this
      · intro i hi
        simp only [List.mem_range] at hi hj hk
        exact C29_cell_volumes hb hx hy hz (by omega) (by omega) (by omega)

/-- C29: `create_beam` with at least two nodes per axis and positive sizes gives a block centred at the
origin, all tetrahedra positively oriented, with total volume width·height·depth. One node along an
axis raises ZeroDivisionError. -/
theorem C29_create_beam (I J K : ℕ) (w h d : ℝ) :
    (2 ≤ I → 2 ≤ J → 2 ≤ K → 0 < w → 0 < h → 0 < d →
      ∃ V T vols, create_beam I J K w h d = .ok (V, T) ∧
        IsBlock I J K V ⟨-w / 2, -h / 2, -d / 2⟩ ⟨w / (I - 1), h / (J - 1), d / (K - 1)⟩ ∧
        compute_volumes V T = .ok vols ∧ (∀ v ∈ vols, 0 < v) ∧ vols.sum = w * h * d) ∧
    ((I = 1 ∨ J = 1 ∨ K = 1) → create_beam I J K w h d = .error .zeroDivision) := by
  constructor
  · intro hI hJ hK hw hh hd
    have cI : (2:ℝ) ≤ I := by exact_mod_cast hI
    have cJ : (2:ℝ) ≤ J := by exact_mod_cast hJ
    have cK : (2:ℝ) ≤ K := by exact_mod_cast hK
    have mem : ∀ n, n ∈ VMesh.nodeLoop I J K ↔ n.1 < I ∧ n.2.1 < J ∧ n.2.2 < K := by
      rintro ⟨i, j, k⟩
      simp only [VMesh.nodeLoop, List.mem_flatMap, List.mem_map, List.mem_range, Prod.mk.injEq]
      constructor
      · rintro ⟨k', hk, j', hj, i', hi, rfl, rfl, rfl⟩; exact ⟨hi, hj, hk⟩
      · rintro ⟨hi, hj, hk⟩; exact ⟨k, hk, j, hj, i, hi, rfl, rfl, rfl⟩
    have hix : ∀ n : ℕ × ℕ × ℕ, n.1 + n.2.1 * I + n.2.2 * I * J = nodeIx I J n.1 n.2.1 n.2.2 := by
      intro n; unfold nodeIx; ring
    obtain ⟨V, h1, h2, h3, -⟩ := fold_set (fun n : ℕ × ℕ × ℕ => n.1 + n.2.1 * I + n.2.2 * I * J)
      (fun n => (⟨-w / 2 + n.1 * (w / ((I : ℝ) - 1)), -h / 2 + n.2.1 * (h / ((J : ℝ) - 1)),
        -d / 2 + n.2.2 * (d / ((K : ℝ) - 1))⟩ : V3)) (VMesh.nodeLoop I J K) (List.replicate (I * J * K) 0)
      (fun n hn => by
        rw [hix, List.length_replicate]
        obtain ⟨a, b, c⟩ := (mem n).mp hn
        exact nodeIx_lt a b c)
      (fun m hm n hn e => by
        rw [hix, hix] at e
        obtain ⟨a, b, c⟩ := (mem n).mp hn
        obtain ⟨a', b', c'⟩ := (mem m).mp hm
        obtain ⟨e1, e2, e3⟩ := nodeIx_inj a' b' a b e
        rw [e1, e2, e3])
    have hb : IsBlock I J K V ⟨-w / 2, -h / 2, -d / 2⟩ ⟨w / (I - 1), h / (J - 1), d / (K - 1)⟩ := by
      refine ⟨by simpa using h2, ?_⟩
      intro i j k hi hj hk
      have := h3 (i, j, k) ((mem _).mpr ⟨hi, hj, hk⟩)
      rw [hix] at this
      exact this
    obtain ⟨r, r1, r2, r3⟩ := block_volumes hb (h := ⟨w / (I - 1), h / (J - 1), d / (K - 1)⟩)
      (div_pos hw (by linarith)) (div_pos hh (by linarith)) (div_pos hd (by linarith))
    refine ⟨V, create_tetrahedron_array_from_cube_mesh I J K, r, ?_, hb, r1, r2, ?_⟩
    · unfold create_beam
      rw [if_neg (by omega)]
      simp only [pure, Except.pure, bind, Except.bind]
      rw [h1]
    · rw [r3, Nat.cast_sub (by omega), Nat.cast_sub (by omega), Nat.cast_sub (by omega)]
      have q1 : (I : ℝ) - 1 ≠ 0 := by linarith
      have q2 : (J : ℝ) - 1 ≠ 0 := by linarith
      have q3 : (K : ℝ) - 1 ≠ 0 := by linarith
      push_cast
      field_simp
  · intro hc
    unfold create_beam
    rw [if_pos hc]; rfl

/-- C29: the mesh of a grid is the block of its nodes, with positive tetrahedra of total volume the
volume of the box; the nodal values are passed on. -/
theorem C29_from_grid3d (lo hi : V3) (I J K : ℤ) (hI : 2 ≤ I) (hJ : 2 ≤ J) (hK : 2 ≤ K)
    (hx : lo.x < hi.x) (hy : lo.y < hi.y) (hz : lo.z < hi.z) (vals : Option (List ℝ)) :
    ∃ g V T vols, Grid.init lo hi I J K = .ok g ∧ from_grid3d { g with values := vals } = .ok (V, T, vals) ∧
      (∀ i j k, i < g.I → j < g.J → k < g.K → V[g.get_linear_index i j k]? = some (g.get_node_coord i j k)) ∧
      compute_volumes V T = .ok vols ∧ (∀ v ∈ vols, 0 < v) ∧
      vols.sum = (hi.x - lo.x) * (hi.y - lo.y) * (hi.z - lo.z) := by
  obtain ⟨g, hg, e1, e2, eI, eJ, eK, ev, sx, sy, sz⟩ :=
    (C23_constructor lo hi I J K).1 ⟨⟨hx.le, hy.le, hz.le⟩, hI, hJ, hK⟩
  obtain ⟨V, hV, hlen, hpos⟩ := (C23_eval_on_grid { g with values := vals } (fun _ => 0)).2
  have cI : (2:ℝ) ≤ (I:ℝ) := by exact_mod_cast hI
  have cJ : (2:ℝ) ≤ (J:ℝ) := by exact_mod_cast hJ
  have cK : (2:ℝ) ≤ (K:ℝ) := by exact_mod_cast hK
  have px : 0 < g.spacing.x := by
    by_contra hc; push Not at hc
    nlinarith
  have py : 0 < g.spacing.y := by
    by_contra hc; push Not at hc
    nlinarith
  have pz : 0 < g.spacing.z := by
    by_contra hc; push Not at hc
    nlinarith
  have hb : IsBlock g.I g.J g.K V g.min_coord g.spacing := by
    refine ⟨hlen, ?_⟩
    intro i j k hi hj hk
    have := hpos i j k hi hj hk
    have e : Grid.get_linear_index { g with values := vals } i j k = (k * g.J + j) * g.I + i := by
      unfold Grid.get_linear_index; ring
    rw [e] at this
    rw [this]
    simp only [Grid.get_node_coord]
    congr 2 <;> ring
  obtain ⟨r, r1, r2, r3⟩ := block_volumes hb px py pz
  refine ⟨g, V, create_tetrahedron_array_from_cube_mesh g.I g.J g.K, r, hg, ?_, hpos, r1, r2, ?_⟩
  · unfold from_grid3d; rw [hV]; rfl
  · rw [r3, Nat.cast_sub (by omega), Nat.cast_sub (by omega), Nat.cast_sub (by omega)]
    have q1 : (g.I : ℝ) = (I : ℝ) := by exact_mod_cast eI
    have q2 : (g.J : ℝ) = (J : ℝ) := by exact_mod_cast eJ
    have q3 : (g.K : ℝ) = (K : ℝ) := by exact_mod_cast eK
    rw [q1, q2, q3, ← sx, ← sy, ← sz]
    push_cast
    ring

/-! ### tiling of one cell -/

/-- Specification: strictly inside the tetrahedron. -/
def StrictlyIn (x1 x2 x3 x4 : V3) (r : V3) : Prop :=
  ∃ a b c d : ℝ, 0 < a ∧ 0 < b ∧ 0 < c ∧ 0 < d ∧ a + b + c + d = 1 ∧
    r = a • x1 + b • x2 + c • x3 + d • x4

/-- Specification: the point r lies in tetrahedron t of the mesh with vertices V. -/
def InTet (V : List V3) (t : Tet) (r : V3) : Prop :=
  ∃ x1 x2 x3 x4, V[t.i]? = some x1 ∧ V[t.j]? = some x2 ∧ V[t.k]? = some x3 ∧ V[t.m]? = some x4 ∧
    InTetrahedron x1 x2 x3 x4 r

/-- Specification: the point r lies strictly in tetrahedron t of the mesh with vertices V. -/
def StrictlyInTet (V : List V3) (t : Tet) (r : V3) : Prop :=
  ∃ x1 x2 x3 x4, V[t.i]? = some x1 ∧ V[t.j]? = some x2 ∧ V[t.k]? = some x3 ∧ V[t.m]? = some x4 ∧
    StrictlyIn x1 x2 x3 x4 r

theorem get_corner {I J K : ℕ} {V : List V3} {o h : V3} (hb : IsBlock I J K V o h) {i j k : ℕ}
    (hi : i + 1 < I) (hj : j + 1 < J) (hk : k + 1 < K) (n : Fin 8) :
    V[corner I J i j k n]? = some (cornerPos o h i j k n) := by
  have ho : ∀ n : Fin 8, (off n).1 ≤ 1 ∧ (off n).2.1 ≤ 1 ∧ (off n).2.2 ≤ 1 := by decide
  have hn := ho n
  unfold corner nodeIx
  rw [hb.pos _ _ _ (by omega) (by omega) (by omega)]
  simp [cornerPos]

theorem weights_noflip (o h : V3) (i j k : ℕ) (s t u : ℝ) (q : Fin 8 × Fin 8 × Fin 8 × Fin 8) (a b c d : ℝ)
    (hs : a + b + c + d = 1)
    (h1 : a * (off q.1).1 + b * (off q.2.1).1 + c * (off q.2.2.1).1 + d * (off q.2.2.2).1 = s)
    (h2 : a * (off q.1).2.1 + b * (off q.2.1).2.1 + c * (off q.2.2.1).2.1 + d * (off q.2.2.2).2.1 = t)
    (h3 : a * (off q.1).2.2 + b * (off q.2.1).2.2 + c * (off q.2.2.1).2.2 + d * (off q.2.2.2).2.2 = u) :
    (⟨o.x + (i + s) * h.x, o.y + (j + t) * h.y, o.z + (k + u) * h.z⟩ : V3) =
      a • cornerPos o h i j k q.1 + b • cornerPos o h i j k q.2.1 + c • cornerPos o h i j k q.2.2.1 +
        d • cornerPos o h i j k q.2.2.2 := by
  obtain rfl : a = 1 - b - c - d := by linarith
  rw [← h1, ← h2, ← h3]
  ext <;> simp only [cornerPos, add_x, add_y, add_z, smul_x, smul_y, smul_z] <;> ring

/-- C29: the five tetrahedra of a cell cover the cell. -/
theorem C29_cell_covered {I J K : ℕ} {V : List V3} {o h : V3} (hb : IsBlock I J K V o h) {i j k : ℕ}
    (hi : i + 1 < I) (hj : j + 1 < J) (hk : k + 1 < K) (s t u : ℝ) (hs0 : 0 ≤ s) (hs1 : s ≤ 1) (ht0 : 0 ≤ t)
    (ht1 : t ≤ 1) (hu0 : 0 ≤ u) (hu1 : u ≤ 1) :
    ∃ T ∈ cellTets I J i j k, InTet V T ⟨o.x + (i + s) * h.x, o.y + (j + t) * h.y, o.z + (k + u) * h.z⟩ := by
  rw [cellTets_eq]
  have key : ∀ f : Bool, ∃ q ∈ pattern f, InTetrahedron (cornerPos o h i j k q.1) (cornerPos o h i j k q.2.1)
      (cornerPos o h i j k q.2.2.1) (cornerPos o h i j k q.2.2.2)
      ⟨o.x + (i + s) * h.x, o.y + (j + t) * h.y, o.z + (k + u) * h.z⟩ := by
    intro f
    cases f
    · by_cases c1 : s - t - u ≥ 0
      · refine ⟨(0,1,3,5), by simp [pattern], 1 - s, s - t - u, t, u, by linarith, by linarith, by linarith,
          by linarith, by ring, weights_noflip o h i j k s t u (0,1,3,5) _ _ _ _ (by ring) ?_ ?_ ?_⟩ <;>
          simp [off] <;> ring
      by_cases c2 : t - s - u ≥ 0
      · refine ⟨(0,3,2,6), by simp [pattern], 1 - t, s, t - s - u, u, by linarith, by linarith, by linarith,
          by linarith, by ring, weights_noflip o h i j k s t u (0,3,2,6) _ _ _ _ (by ring) ?_ ?_ ?_⟩ <;>
          simp [off] <;> ring
      by_cases c3 : u - s - t ≥ 0
      · refine ⟨(4,6,5,0), by simp [pattern], u - s - t, t, s, 1 - u, by linarith, by linarith, by linarith,
          by linarith, by ring, weights_noflip o h i j k s t u (4,6,5,0) _ _ _ _ (by ring) ?_ ?_ ?_⟩ <;>
          simp [off] <;> ring
      by_cases c4 : s + t + u - 2 ≥ 0
      · refine ⟨(5,6,7,3), by simp [pattern], 1 - t, 1 - s, s + t + u - 2, 1 - u, by linarith, by linarith, by linarith,
          by linarith, by ring, weights_noflip o h i j k s t u (5,6,7,3) _ _ _ _ (by ring) ?_ ?_ ?_⟩ <;>
          simp [off] <;> ring
      push Not at c1 c2 c3 c4
      refine ⟨(0,3,6,5), by simp [pattern], (2 - s - t - u) / 2, (s + t - u) / 2, (t + u - s) / 2, (s + u - t) / 2,
          by linarith, by linarith, by linarith,
          by linarith, by ring, weights_noflip o h i j k s t u (0,3,6,5) _ _ _ _ (by ring) ?_ ?_ ?_⟩ <;>
          simp [off] <;> ring
    · by_cases c1 : 1 - s - t - u ≥ 0
      · refine ⟨(0,1,2,4), by simp [pattern], 1 - s - t - u, s, t, u, by linarith, by linarith, by linarith,
          by linarith, by ring, weights_noflip o h i j k s t u (0,1,2,4) _ _ _ _ (by ring) ?_ ?_ ?_⟩ <;>
          simp [off] <;> ring
      by_cases c2 : s + t - u - 1 ≥ 0
      · refine ⟨(2,1,3,7), by simp [pattern], 1 - s, 1 - t, s + t - u - 1, u, by linarith, by linarith, by linarith,
          by linarith, by ring, weights_noflip o h i j k s t u (2,1,3,7) _ _ _ _ (by ring) ?_ ?_ ?_⟩ <;>
          simp [off] <;> ring
      by_cases c3 : t + u - s - 1 ≥ 0
      · refine ⟨(4,6,7,2), by simp [pattern], 1 - t, t + u - s - 1, s, 1 - u, by linarith, by linarith, by linarith,
          by linarith, by ring, weights_noflip o h i j k s t u (4,6,7,2) _ _ _ _ (by ring) ?_ ?_ ?_⟩ <;>
          simp [off] <;> ring
      by_cases c4 : s + u - t - 1 ≥ 0
      · refine ⟨(4,7,5,1), by simp [pattern], 1 - s, t, s + u - t - 1, 1 - u, by linarith, by linarith, by linarith,
          by linarith, by ring, weights_noflip o h i j k s t u (4,7,5,1) _ _ _ _ (by ring) ?_ ?_ ?_⟩ <;>
          simp [off] <;> ring
      push Not at c1 c2 c3 c4
      refine ⟨(2,7,4,1), by simp [pattern], (1 - s + t - u) / 2, (s + t + u - 1) / 2, (1 - s - t + u) / 2,
          (1 + s - t - u) / 2,
          by linarith, by linarith, by linarith,
          by linarith, by ring, weights_noflip o h i j k s t u (2,7,4,1) _ _ _ _ (by ring) ?_ ?_ ?_⟩ <;>
          simp [off] <;> ring
  obtain ⟨q, hq, hin⟩ := key (decide ((i + j + k) % 2 = 1))
  exact ⟨_, List.mem_map.mpr ⟨q, hq, rfl⟩, _, _, _, _, get_corner hb hi hj hk _, get_corner hb hi hj hk _,
    get_corner hb hi hj hk _, get_corner hb hi hj hk _, hin⟩

/-- Reading off the local coordinates of a strictly interior point. -/
theorem local_of_strict {o h : V3} (hx : 0 < h.x) (hy : 0 < h.y) (hz : 0 < h.z) {i j k : ℕ}
    {q : Fin 8 × Fin 8 × Fin 8 × Fin 8} {r : V3}
    (hr : StrictlyIn (cornerPos o h i j k q.1) (cornerPos o h i j k q.2.1)
      (cornerPos o h i j k q.2.2.1) (cornerPos o h i j k q.2.2.2) r) :
    ∃ a b c d : ℝ, 0 < a ∧ 0 < b ∧ 0 < c ∧ 0 < d ∧ a + b + c + d = 1 ∧
      (r.x - o.x) / h.x - i = a * (off q.1).1 + b * (off q.2.1).1 + c * (off q.2.2.1).1 + d * (off q.2.2.2).1 ∧
      (r.y - o.y) / h.y - j = a * (off q.1).2.1 + b * (off q.2.1).2.1 + c * (off q.2.2.1).2.1 + d * (off q.2.2.2).2.1 ∧
      (r.z - o.z) / h.z - k = a * (off q.1).2.2 + b * (off q.2.1).2.2 + c * (off q.2.2.1).2.2 + d * (off q.2.2.2).2.2 := by
  obtain ⟨a, b, c, d, ha, hb, hc, hd, hs, rfl⟩ := hr
  refine ⟨a, b, c, d, ha, hb, hc, hd, hs, ?_, ?_, ?_⟩
  · have : (a • cornerPos o h i j k q.1 + b • cornerPos o h i j k q.2.1 + c • cornerPos o h i j k q.2.2.1 +
      d • cornerPos o h i j k q.2.2.2).x - o.x = (i + (a * (off q.1).1 + b * (off q.2.1).1 + c * (off q.2.2.1).1 + d * (off q.2.2.2).1)) * h.x := by
      obtain rfl : a = 1 - b - c - d := by linarith
      simp only [cornerPos, add_x, smul_x]; ring
    rw [this, mul_div_cancel_right₀ _ hx.ne']; ring
  · have : (a • cornerPos o h i j k q.1 + b • cornerPos o h i j k q.2.1 + c • cornerPos o h i j k q.2.2.1 +
      d • cornerPos o h i j k q.2.2.2).y - o.y = (j + (a * (off q.1).2.1 + b * (off q.2.1).2.1 + c * (off q.2.2.1).2.1 + d * (off q.2.2.2).2.1)) * h.y := by
      obtain rfl : a = 1 - b - c - d := by linarith
      simp only [cornerPos, add_y, smul_y]; ring
    rw [this, mul_div_cancel_right₀ _ hy.ne']; ring
  · have : (a • cornerPos o h i j k q.1 + b • cornerPos o h i j k q.2.1 + c • cornerPos o h i j k q.2.2.1 +
      d • cornerPos o h i j k q.2.2.2).z - o.z = (k + (a * (off q.1).2.2 + b * (off q.2.1).2.2 + c * (off q.2.2.1).2.2 + d * (off q.2.2.2).2.2)) * h.z := by
      obtain rfl : a = 1 - b - c - d := by linarith
      simp only [cornerPos, add_z, smul_z]; ring
    rw [this, mul_div_cancel_right₀ _ hz.ne']; ring

theorem strict01 {a b c d : ℝ} (ha : 0 < a) (hb : 0 < b) (hc : 0 < c) (hd : 0 < d) (hs : a + b + c + d = 1)
    {w x y z : ℕ} (hw : w ≤ 1) (hx : x ≤ 1) (hy : y ≤ 1) (hz : z ≤ 1) (h0 : w + x + y + z ≠ 0)
    (h4 : w + x + y + z ≠ 4) : 0 < a * (w : ℝ) + b * x + c * y + d * z ∧ a * (w : ℝ) + b * x + c * y + d * z < 1 := by
  interval_cases w <;> interval_cases x <;> interval_cases y <;> interval_cases z <;> simp at h0 h4 <;>
    constructor <;> push_cast <;> linarith

theorem strict_bounds : ∀ f : Bool, ∀ q ∈ pattern f, ∀ a b c d : ℝ, 0 < a → 0 < b → 0 < c → 0 < d → a + b + c + d = 1 →
    (0 < a * ((off q.1).1 : ℝ) + b * (off q.2.1).1 + c * (off q.2.2.1).1 + d * (off q.2.2.2).1 ∧
     a * ((off q.1).1 : ℝ) + b * (off q.2.1).1 + c * (off q.2.2.1).1 + d * (off q.2.2.2).1 < 1) ∧
    (0 < a * ((off q.1).2.1 : ℝ) + b * (off q.2.1).2.1 + c * (off q.2.2.1).2.1 + d * (off q.2.2.2).2.1 ∧
     a * ((off q.1).2.1 : ℝ) + b * (off q.2.1).2.1 + c * (off q.2.2.1).2.1 + d * (off q.2.2.2).2.1 < 1) ∧
    (0 < a * ((off q.1).2.2 : ℝ) + b * (off q.2.1).2.2 + c * (off q.2.2.1).2.2 + d * (off q.2.2.2).2.2 ∧
     a * ((off q.1).2.2 : ℝ) + b * (off q.2.1).2.2 + c * (off q.2.2.1).2.2 + d * (off q.2.2.2).2.2 < 1) := by
  intro f q hq a b c d ha hb hc hd hs
  have ho : ∀ n : Fin 8, (off n).1 ≤ 1 ∧ (off n).2.1 ≤ 1 ∧ (off n).2.2 ≤ 1 := by decide
  have hp : ((off q.1).1 + (off q.2.1).1 + (off q.2.2.1).1 + (off q.2.2.2).1 ≠ 0 ∧
      (off q.1).1 + (off q.2.1).1 + (off q.2.2.1).1 + (off q.2.2.2).1 ≠ 4) ∧
      ((off q.1).2.1 + (off q.2.1).2.1 + (off q.2.2.1).2.1 + (off q.2.2.2).2.1 ≠ 0 ∧
      (off q.1).2.1 + (off q.2.1).2.1 + (off q.2.2.1).2.1 + (off q.2.2.2).2.1 ≠ 4) ∧
      ((off q.1).2.2 + (off q.2.1).2.2 + (off q.2.2.1).2.2 + (off q.2.2.2).2.2 ≠ 0 ∧
      (off q.1).2.2 + (off q.2.1).2.2 + (off q.2.2.1).2.2 + (off q.2.2.2).2.2 ≠ 4) := by
    cases f <;> simp only [pattern, Bool.false_eq_true, if_true, if_false, List.mem_cons,
        List.not_mem_nil, or_false] at hq <;> rcases hq with rfl | rfl | rfl | rfl | rfl <;> decide
  exact ⟨strict01 ha hb hc hd hs (ho _).1 (ho _).1 (ho _).1 (ho _).1 hp.1.1 hp.1.2,
    strict01 ha hb hc hd hs (ho _).2.1 (ho _).2.1 (ho _).2.1 (ho _).2.1 hp.2.1.1 hp.2.1.2,
    strict01 ha hb hc hd hs (ho _).2.2 (ho _).2.2 (ho _).2.2 (ho _).2.2 hp.2.2.1 hp.2.2.2⟩

/-- Strictly positive weights giving the local point (s,t,u). -/
def LocalIn (q : Fin 8 × Fin 8 × Fin 8 × Fin 8) (a b c d s t u : ℝ) : Prop :=
  0 < a ∧ 0 < b ∧ 0 < c ∧ 0 < d ∧ a + b + c + d = 1 ∧
      s = a * (off q.1).1 + b * (off q.2.1).1 + c * (off q.2.2.1).1 + d * (off q.2.2.2).1 ∧
      t = a * (off q.1).2.1 + b * (off q.2.1).2.1 + c * (off q.2.2.1).2.1 + d * (off q.2.2.2).2.1 ∧
      u = a * (off q.1).2.2 + b * (off q.2.1).2.2 + c * (off q.2.2.1).2.2 + d * (off q.2.2.2).2.2

/-- Which tetrahedron of the pattern, by the signs of four linear forms. -/
theorem local_noflip {q : Fin 8 × Fin 8 × Fin 8 × Fin 8} {a b c d s t u : ℝ} (hq : q ∈ pattern false)
    (h : LocalIn q a b c d s t u) :
    (q = (0,1,3,5) ∧ 0 < s - t - u) ∨ (q = (0,3,2,6) ∧ 0 < t - s - u) ∨ (q = (4,6,5,0) ∧ 0 < u - s - t) ∨
    (q = (5,6,7,3) ∧ 0 < s + t + u - 2) ∨
    (q = (0,3,6,5) ∧ s - t - u < 0 ∧ t - s - u < 0 ∧ u - s - t < 0 ∧ s + t + u - 2 < 0) := by
  obtain ⟨ha, hb, hc, hd, hs, e1, e2, e3⟩ := h
  simp only [pattern, Bool.false_eq_true, if_false, List.mem_cons, List.not_mem_nil, or_false] at hq
  rcases hq with rfl | rfl | rfl | rfl | rfl <;> norm_num [off] at e1 e2 e3
  · left; exact ⟨rfl, by linarith⟩
  · right; left; exact ⟨rfl, by linarith⟩
  · right; right; left; exact ⟨rfl, by linarith⟩
  · right; right; right; left; exact ⟨rfl, by linarith⟩
  · right; right; right; right; exact ⟨rfl, by linarith, by linarith, by linarith, by linarith⟩

theorem local_flip {q : Fin 8 × Fin 8 × Fin 8 × Fin 8} {a b c d s t u : ℝ} (hq : q ∈ pattern true)
    (h : LocalIn q a b c d s t u) :
    (q = (0,1,2,4) ∧ 0 < 1 - s - t - u) ∨ (q = (2,1,3,7) ∧ 0 < s + t - u - 1) ∨ (q = (4,6,7,2) ∧ 0 < t + u - s - 1) ∨
    (q = (4,7,5,1) ∧ 0 < s + u - t - 1) ∨
    (q = (2,7,4,1) ∧ 1 - s - t - u < 0 ∧ s + t - u - 1 < 0 ∧ t + u - s - 1 < 0 ∧ s + u - t - 1 < 0) := by
  obtain ⟨ha, hb, hc, hd, hs, e1, e2, e3⟩ := h
  simp only [pattern, if_true, List.mem_cons, List.not_mem_nil, or_false] at hq
  rcases hq with rfl | rfl | rfl | rfl | rfl <;> norm_num [off] at e1 e2 e3
  · left; exact ⟨rfl, by linarith⟩
  · right; left; exact ⟨rfl, by linarith⟩
  · right; right; left; exact ⟨rfl, by linarith⟩
  · right; right; right; left; exact ⟨rfl, by linarith⟩
  · right; right; right; right; exact ⟨rfl, by linarith, by linarith, by linarith, by linarith⟩

theorem pattern_unique (f : Bool) (q q' : Fin 8 × Fin 8 × Fin 8 × Fin 8) (hq : q ∈ pattern f) (hq' : q' ∈ pattern f)
    {a b c d a' b' c' d' s t u : ℝ} (h : LocalIn q a b c d s t u) (h' : LocalIn q' a' b' c' d' s t u) : q = q' := by
  obtain ⟨⟨s0, s1⟩, ⟨t0, t1⟩, u0, u1⟩ := strict_bounds f q hq a b c d h.1 h.2.1 h.2.2.1 h.2.2.2.1 h.2.2.2.2.1
  rw [← h.2.2.2.2.2.1] at s0 s1
  rw [← h.2.2.2.2.2.2.1] at t0 t1
  rw [← h.2.2.2.2.2.2.2] at u0 u1
  cases f
  · have r := local_noflip hq h
    have r' := local_noflip hq' h'
    clear h h' hq hq'
    rcases r with ⟨rfl, r⟩ | ⟨rfl, r⟩ | ⟨rfl, r⟩ | ⟨rfl, r⟩ | ⟨rfl, r1, r2, r3, r4⟩ <;>
    rcases r' with ⟨rfl, r'⟩ | ⟨rfl, r'⟩ | ⟨rfl, r'⟩ | ⟨rfl, r'⟩ | ⟨rfl, r1', r2', r3', r4'⟩ <;>
    first | rfl | (exfalso; linarith)
  · have r := local_flip hq h
    have r' := local_flip hq' h'
    clear h h' hq hq'
    rcases r with ⟨rfl, r⟩ | ⟨rfl, r⟩ | ⟨rfl, r⟩ | ⟨rfl, r⟩ | ⟨rfl, r1, r2, r3, r4⟩ <;>
    rcases r' with ⟨rfl, r'⟩ | ⟨rfl, r'⟩ | ⟨rfl, r'⟩ | ⟨rfl, r'⟩ | ⟨rfl, r1', r2', r3', r4'⟩ <;>
    first | rfl | (exfalso; linarith)

/-- C29: no point lies strictly inside two different tetrahedra of the mesh. -/
theorem C29_no_overlap {I J K : ℕ} {V : List V3} {o h : V3} (hb : IsBlock I J K V o h)
    (hx : 0 < h.x) (hy : 0 < h.y) (hz : 0 < h.z) (T T' : Tet) (r : V3)
    (hT : T ∈ create_tetrahedron_array_from_cube_mesh I J K)
    (hT' : T' ∈ create_tetrahedron_array_from_cube_mesh I J K)
    (hr : StrictlyInTet V T r) (hr' : StrictlyInTet V T' r) : T = T' := by
  obtain ⟨i, j, k, hi, hj, hk, hm⟩ := mem_tets.mp hT
  obtain ⟨i', j', k', hi', hj', hk', hm'⟩ := mem_tets.mp hT'
  rw [cellTets_eq, List.mem_map] at hm hm'
  obtain ⟨q, hq, rfl⟩ := hm
  obtain ⟨q', hq', rfl⟩ := hm'
  obtain ⟨x1, x2, x3, x4, g1, g2, g3, g4, hs⟩ := hr
  obtain ⟨y1, y2, y3, y4, f1, f2, f3, f4, hs'⟩ := hr'
  rw [get_corner hb hi hj hk] at g1 g2 g3 g4
  rw [get_corner hb hi' hj' hk'] at f1 f2 f3 f4
  obtain rfl := Option.some.inj g1
  obtain rfl := Option.some.inj g2
  obtain rfl := Option.some.inj g3
  obtain rfl := Option.some.inj g4
  obtain rfl := Option.some.inj f1
  obtain rfl := Option.some.inj f2
  obtain rfl := Option.some.inj f3
  obtain rfl := Option.some.inj f4
  obtain ⟨a, b, c, d, ha, hb', hc, hd, hsum, e1, e2, e3⟩ := local_of_strict hx hy hz hs
  obtain ⟨a', b', c', d', ha', hb'', hc', hd', hsum', e1', e2', e3'⟩ := local_of_strict hx hy hz hs'
  generalize (r.x - o.x) / h.x = X at *
  generalize (r.y - o.y) / h.y = Y at *
  generalize (r.z - o.z) / h.z = Z at *
  clear g1 g2 g3 g4 f1 f2 f3 f4 hs hs' hT hT' hb
  -- the cell is determined: local coordinates are strictly between 0 and 1
  have B := strict_bounds _ q hq a b c d ha hb' hc hd hsum
  have B' := strict_bounds _ q' hq' a' b' c' d' ha' hb'' hc' hd' hsum'
  rw [← e1, ← e2, ← e3] at B
  rw [← e1', ← e2', ← e3'] at B'
  have cell : ∀ (x : ℝ) (m n : ℕ), 0 < x - m → x - m < 1 → 0 < x - n → x - n < 1 → m = n := by
    intro x m n h1 h2 h3 h4
    have q1 : (m : ℝ) < n + 1 := by linarith
    have q2 : (n : ℝ) < m + 1 := by linarith
    have q1' : m < n + 1 := by exact_mod_cast q1
    have q2' : n < m + 1 := by exact_mod_cast q2
    omega
  obtain rfl := cell X i i' B.1.1 B.1.2 B'.1.1 B'.1.2
  obtain rfl := cell Y j j' B.2.1.1 B.2.1.2 B'.2.1.1 B'.2.1.2
  obtain rfl := cell Z k k' B.2.2.1 B.2.2.2 B'.2.2.1 B'.2.2.2
  rw [pattern_unique _ q q' hq hq' ⟨ha, hb', hc, hd, hsum, rfl, rfl, rfl⟩ ⟨ha', hb'', hc', hd', hsum', e1.symm.trans e1', e2.symm.trans e2', e3.symm.trans e3'⟩]

/-! ### conformity -/

/-- Specification: the three nodes form a face of the tetrahedron. -/
def IsFace (S : Finset ℕ) (t : Tet) : Prop := S.card = 3 ∧ S ⊆ {t.i, t.j, t.k, t.m}

/-- Specification: the eight nodes of cell (i,j,k). -/
def IsCellNode (I J i j k : ℕ) (n : ℕ) : Prop :=
  ∃ a b c, a ≤ 1 ∧ b ≤ 1 ∧ c ≤ 1 ∧ n = ((k + c) * J + (j + b)) * I + (i + a)

/-- The corners of a pattern entry. -/
def qset (q : Fin 8 × Fin 8 × Fin 8 × Fin 8) : Finset (Fin 8) := {q.1, q.2.1, q.2.2.1, q.2.2.2}

theorem isCellNode_iff {I J i j k n : ℕ} : IsCellNode I J i j k n ↔ ∃ c : Fin 8, n = corner I J i j k c := by
  constructor
  · rintro ⟨a, b, c, ha, hb, hc, rfl⟩
    refine ⟨⟨4 * c + 2 * b + a, by omega⟩, ?_⟩
    have e1 : (4 * c + 2 * b + a) % 2 = a := by omega
    have e2 : (4 * c + 2 * b + a) / 2 % 2 = b := by omega
    have e3 : (4 * c + 2 * b + a) / 4 = c := by omega
    simp only [corner, off, nodeIx, e1, e2, e3]
  · rintro ⟨c, rfl⟩
    have ho : ∀ n : Fin 8, (off n).1 ≤ 1 ∧ (off n).2.1 ≤ 1 ∧ (off n).2.2 ≤ 1 := by decide
    exact ⟨_, _, _, (ho c).1, (ho c).2.1, (ho c).2.2, rfl⟩

theorem face_in_cell {I J i j k : ℕ} (hi : i + 1 < I) (hj : j + 1 < J) (S0 : Finset (Fin 8)) (h3 : S0.card = 3) :
    (∃ T ∈ cellTets I J i j k, IsFace (S0.image (corner I J i j k)) T) ↔
      ∃ q ∈ pattern (decide ((i + j + k) % 2 = 1)), S0 ⊆ qset q := by
  have hinj := corner_inj (k := k) hi hj
  rw [cellTets_eq]
  have hset : ∀ q : Fin 8 × Fin 8 × Fin 8 × Fin 8, ({corner I J i j k q.1, corner I J i j k q.2.1,
      corner I J i j k q.2.2.1, corner I J i j k q.2.2.2} : Finset ℕ) = (qset q).image (corner I J i j k) := by
    intro q; simp [qset, Finset.image_insert]
  constructor
  · rintro ⟨T, hT, -, hsub⟩
    obtain ⟨q, hq, rfl⟩ := List.mem_map.mp hT
    refine ⟨q, hq, ?_⟩
    simp only [hset] at hsub
    exact (Finset.image_subset_image_iff hinj).mp hsub
  · rintro ⟨q, hq, hsub⟩
    refine ⟨_, List.mem_map.mpr ⟨q, hq, rfl⟩, ?_, ?_⟩
    · rw [Finset.card_image_of_injective _ hinj, h3]
    · simp only [hset]
      exact Finset.image_subset_image hsub

theorem conform_aux {I J i j k i' j' k' : ℕ} (hi : i + 1 < I) (hj : j + 1 < J) (hi' : i' + 1 < I) (hj' : j' + 1 < J)
    (A : Finset (Fin 8)) (σ : Fin 8 → Fin 8) (hσ : ∀ n ∈ A, corner I J i j k n = corner I J i' j' k' (σ n))
    (hsh : ∀ m n : Fin 8, corner I J i j k m = corner I J i' j' k' n → m ∈ A)
    (hpar : (decide ((i' + j' + k') % 2 = 1)) = !(decide ((i + j + k) % 2 = 1)))
    (hdec : ∀ f : Bool, ∀ S ∈ A.powersetCard 3, (∃ q ∈ pattern f, S ⊆ qset q) ↔
      ∃ q ∈ pattern (!f), S.image σ ⊆ qset q)
    (S : Finset ℕ) (h3 : S.card = 3) (hS : ∀ n ∈ S, IsCellNode I J i j k n ∧ IsCellNode I J i' j' k' n) :
    (∃ T ∈ cellTets I J i j k, IsFace S T) ↔ ∃ T ∈ cellTets I J i' j' k', IsFace S T := by
  have hinj := corner_inj (k := k) hi hj
  set S0 := A.filter (fun c => corner I J i j k c ∈ S) with hS0
  have e1 : S0.image (corner I J i j k) = S := by
    ext n
    simp only [hS0, Finset.mem_image, Finset.mem_filter]
    constructor
    · rintro ⟨c, ⟨-, h⟩, rfl⟩; exact h
    · intro hn
      obtain ⟨h1, h2⟩ := hS n hn
      obtain ⟨c, rfl⟩ := isCellNode_iff.mp h1
      obtain ⟨c', h'⟩ := isCellNode_iff.mp h2
      exact ⟨c, ⟨hsh c c' h', hn⟩, rfl⟩
  have hA : S0 ⊆ A := Finset.filter_subset _ _
  have e2 : (S0.image σ).image (corner I J i' j' k') = S := by
    rw [Finset.image_image, ← e1]
    apply Finset.image_congr
    intro n hn
    exact (hσ n (hA hn)).symm
  have c0 : S0.card = 3 := by
    rw [← h3, ← e1, Finset.card_image_of_injective _ hinj]
  have c1 : (S0.image σ).card = 3 := by
    rw [← h3, ← e2, Finset.card_image_of_injective _ (corner_inj (k := k') hi' hj')]
  have r1 := face_in_cell (k := k) hi hj S0 c0
  have r2 := face_in_cell (k := k') hi' hj' (S0.image σ) c1
  rw [e1] at r1
  rw [e2] at r2
  rw [r1, r2, hpar]
  exact hdec _ S0 (Finset.mem_powersetCard.mpr ⟨hA, c0⟩)

/-- C29: neighbouring cells split their common face in the same way: three of its nodes form a face of
a tetrahedron of one cell exactly when they form a face of a tetrahedron of the other. (Cells that
differ in more than one index have at most two nodes in common.) -/
theorem C29_conforming {I J K i j k i' j' k' : ℕ} (hi : i + 1 < I) (hj : j + 1 < J) (_hk : k + 1 < K)
    (hi' : i' + 1 < I) (hj' : j' + 1 < J) (_hk' : k' + 1 < K)
    (hn : (i' = i + 1 ∧ j' = j ∧ k' = k) ∨ (i' = i ∧ j' = j + 1 ∧ k' = k) ∨ (i' = i ∧ j' = j ∧ k' = k + 1))
    (S : Finset ℕ) (h3 : S.card = 3) (hS : ∀ n ∈ S, IsCellNode I J i j k n ∧ IsCellNode I J i' j' k' n) :
    (∃ T ∈ cellTets I J i j k, IsFace S T) ↔ ∃ T ∈ cellTets I J i' j' k', IsFace S T := by
  have ho : ∀ n : Fin 8, (off n).1 ≤ 1 ∧ (off n).2.1 ≤ 1 ∧ (off n).2.2 ≤ 1 := by decide
  rcases hn with ⟨rfl, rfl, rfl⟩ | ⟨rfl, rfl, rfl⟩ | ⟨rfl, rfl, rfl⟩
  · refine conform_aux hi hj hi' hj' {1, 3, 5, 7} (fun n => n - 1) ?_ ?_ ?_ ?_ S h3 hS
    · intro n hn
      have : ∀ n ∈ ({1, 3, 5, 7} : Finset (Fin 8)), (off n).1 = (off (n - 1)).1 + 1 ∧ (off n).2.1 = (off (n - 1)).2.1 ∧
        (off n).2.2 = (off (n - 1)).2.2 := by decide
      obtain ⟨a, b, c⟩ := this n hn
      unfold corner
      rw [a, b, c]; congr 1; omega
    · intro m n h
      have hm := ho m; have hn := ho n
      obtain ⟨a, -, -⟩ := nodeIx_inj (by omega) (by omega) (by omega) (by omega) h
      have : ∀ m : Fin 8, (off m).1 = 1 → m ∈ ({1, 3, 5, 7} : Finset (Fin 8)) := by decide
      exact this m (by omega)
    · rw [← decide_not, decide_eq_decide]; omega
    · set_option maxRecDepth 20000 in decide
  · refine conform_aux hi hj hi' hj' {2, 3, 6, 7} (fun n => n - 2) ?_ ?_ ?_ ?_ S h3 hS
    · intro n hn
      have : ∀ n ∈ ({2, 3, 6, 7} : Finset (Fin 8)), (off n).1 = (off (n - 2)).1 ∧ (off n).2.1 = (off (n - 2)).2.1 + 1 ∧
        (off n).2.2 = (off (n - 2)).2.2 := by decide
      obtain ⟨a, b, c⟩ := this n hn
      unfold corner
      rw [a, b, c]; congr 1; omega
    · intro m n h
      have hm := ho m; have hn := ho n
      obtain ⟨-, a, -⟩ := nodeIx_inj (by omega) (by omega) (by omega) (by omega) h
      have : ∀ m : Fin 8, (off m).2.1 = 1 → m ∈ ({2, 3, 6, 7} : Finset (Fin 8)) := by decide
      exact this m (by omega)
    · rw [← decide_not, decide_eq_decide]; omega
    · set_option maxRecDepth 20000 in decide
  · refine conform_aux hi hj hi' hj' {4, 5, 6, 7} (fun n => n - 4) ?_ ?_ ?_ ?_ S h3 hS
    · intro n hn
      have : ∀ n ∈ ({4, 5, 6, 7} : Finset (Fin 8)), (off n).1 = (off (n - 4)).1 ∧ (off n).2.1 = (off (n - 4)).2.1 ∧
        (off n).2.2 = (off (n - 4)).2.2 + 1 := by decide
      obtain ⟨a, b, c⟩ := this n hn
      unfold corner
      rw [a, b, c]; congr 1; omega
    · intro m n h
      have hm := ho m; have hn := ho n
      obtain ⟨-, -, a⟩ := nodeIx_inj (by omega) (by omega) (by omega) (by omega) h
      have : ∀ m : Fin 8, (off m).2.2 = 1 → m ∈ ({4, 5, 6, 7} : Finset (Fin 8)) := by decide
      exact this m (by omega)
    · rw [← decide_not, decide_eq_decide]; omega
    · set_option maxRecDepth 20000 in decide

/-- A 3 x 3 x 3 block meets the hypotheses of the geometric theorems and has an interior face. -/
example : ∃ V T, create_beam 3 3 3 2 2 2 = .ok (V, T) ∧ IsBlock 3 3 3 V ⟨-2 / 2, -2 / 2, -2 / 2⟩
    ⟨2 / ((3 : ℕ) - 1), 2 / ((3 : ℕ) - 1), 2 / ((3 : ℕ) - 1)⟩ := by
  obtain ⟨V, T, -, h1, h2, -⟩ := (C29_create_beam 3 3 3 2 2 2).1 (by norm_num) (by norm_num) (by norm_num)
    (by norm_num) (by norm_num) (by norm_num)
  exact ⟨V, T, h1, h2⟩

end Verif
