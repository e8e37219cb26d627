import Verif.Model.Grid3
import Mathlib.Analysis.Calculus.Deriv.Mul
import Mathlib.Analysis.Calculus.Deriv.Add
import Mathlib.Data.Set.Function

/-! C23-C25: the regular grid. -/

namespace Verif
open Grid

/-! ## C23 -/

/-- C23: the constructor accepts exactly boxes with min ≤ max and at least two nodes per axis; the
spacing is then the box size divided by the number of cells. -/
theorem C23_constructor (lo hi : V3) (I J K : ℤ) :
    (((lo.x ≤ hi.x ∧ lo.y ≤ hi.y ∧ lo.z ≤ hi.z) ∧ 2 ≤ I ∧ 2 ≤ J ∧ 2 ≤ K) →
      ∃ g, Grid.init lo hi I J K = .ok g ∧ g.min_coord = lo ∧ g.max_coord = hi ∧
        (g.I : ℤ) = I ∧ (g.J : ℤ) = J ∧ (g.K : ℤ) = K ∧ g.values = none ∧
        lo.x + g.spacing.x * (I - 1) = hi.x ∧ lo.y + g.spacing.y * (J - 1) = hi.y ∧
        lo.z + g.spacing.z * (K - 1) = hi.z) ∧
    (¬ ((lo.x ≤ hi.x ∧ lo.y ≤ hi.y ∧ lo.z ≤ hi.z) ∧ 2 ≤ I ∧ 2 ≤ J ∧ 2 ≤ K) →
      Grid.init lo hi I J K = .error .valueError) := by
  constructor
  · rintro ⟨⟨hx, hy, hz⟩, hI, hJ, hK⟩
    unfold Grid.init
    rw [if_neg (by push Not; exact ⟨hx, hy, hz⟩), if_neg (by omega), if_neg (by omega), if_neg (by omega)]
    have cI : (2 : ℝ) ≤ I := by exact_mod_cast hI
    have cJ : (2 : ℝ) ≤ J := by exact_mod_cast hJ
    have cK : (2 : ℝ) ≤ K := by exact_mod_cast hK
    refine ⟨_, rfl, rfl, rfl, ?_, ?_, ?_, rfl, ?_, ?_, ?_⟩
    · simp; omega
    · simp; omega
    · simp; omega
    · simp only [V3.sub_x]; rw [div_mul_cancel₀ _ (by linarith)]; ring
    · simp only [V3.sub_y]; rw [div_mul_cancel₀ _ (by linarith)]; ring
    · simp only [V3.sub_z]; rw [div_mul_cancel₀ _ (by linarith)]; ring
  · intro h
    unfold Grid.init
    split_ifs with h1 h2 h3 h4
    · rfl
    · rfl
    · rfl
    · rfl
    · exfalso; apply h
      push Not at h1
      exact ⟨h1, by omega, by omega, by omega⟩

/-- C23: the linear index maps the node triples one-to-one onto 0, ..., I*J*K-1. -/
theorem C23_linear_index_bijective (g : Grid) :
    Set.BijOn (fun n : ℕ × ℕ × ℕ => g.get_linear_index n.1 n.2.1 n.2.2)
      {n | n.1 < g.I ∧ n.2.1 < g.J ∧ n.2.2 < g.K} {m | m < g.I * g.J * g.K} := by
  refine ⟨?_, ?_, ?_⟩
  · rintro ⟨i, j, k⟩ ⟨hi, hj, hk⟩
    simp only [get_linear_index, Set.mem_setOf_eq] at *
    have h1 : j + g.J * k + 1 ≤ g.J * g.K := by
      calc j + g.J * k + 1 ≤ g.J + g.J * k := by omega
        _ = g.J * (k + 1) := by ring
        _ ≤ g.J * g.K := Nat.mul_le_mul_left _ hk
    calc i + g.I * (j + g.J * k) < g.I + g.I * (j + g.J * k) := by omega
      _ = g.I * (j + g.J * k + 1) := by ring
      _ ≤ g.I * (g.J * g.K) := Nat.mul_le_mul_left _ h1
      _ = g.I * g.J * g.K := by ring
  · rintro ⟨i, j, k⟩ ⟨hi, hj, hk⟩ ⟨i', j', k'⟩ ⟨hi', hj', hk'⟩ h
    simp only [get_linear_index] at *
    have e1 : i = i' := by
      have := congrArg (· % g.I) h
      simpa [Nat.mod_eq_of_lt hi, Nat.mod_eq_of_lt hi'] using this
    have e2 : j + g.J * k = j' + g.J * k' := by
      have hI : 0 < g.I := by omega
      have := congrArg (· / g.I) h
      simpa [Nat.add_mul_div_left _ _ hI, Nat.div_eq_of_lt hi, Nat.div_eq_of_lt hi'] using this
    have e3 : j = j' := by
      have := congrArg (· % g.J) e2
      simpa [Nat.mod_eq_of_lt hj, Nat.mod_eq_of_lt hj'] using this
    have e4 : k = k' := by
      have hJ : 0 < g.J := by omega
      have := congrArg (· / g.J) e2
      simpa [Nat.add_mul_div_left _ _ hJ, Nat.div_eq_of_lt hj, Nat.div_eq_of_lt hj'] using this
    rw [e1, e3, e4]
  · intro m hm
    simp only [Set.mem_setOf_eq] at hm
    have hI : 0 < g.I := by
      rcases Nat.eq_zero_or_pos g.I with h | h
      · rw [h] at hm; simp at hm
      · exact h
    have hJ : 0 < g.J := by
      rcases Nat.eq_zero_or_pos g.J with h | h
      · rw [h] at hm; simp at hm
      · exact h
    refine ⟨(m % g.I, m / g.I % g.J, m / g.I / g.J), ⟨Nat.mod_lt _ hI, Nat.mod_lt _ hJ, ?_⟩, ?_⟩
    · simp only
      rw [Nat.div_div_eq_div_mul]
      exact Nat.div_lt_of_lt_mul hm
    · simp only [get_linear_index]
      rw [Nat.mod_add_div, Nat.mod_add_div]

/-- C23: the index validity test is exact. -/
theorem C23_valid_index (g : Grid) (i j k : ℤ) : g.is_valid_node_index i j k = true ↔
    (0 ≤ i ∧ i < g.I) ∧ (0 ≤ j ∧ j < g.J) ∧ (0 ≤ k ∧ k < g.K) := by
  unfold is_valid_node_index
  split_ifs with h1 h2
  · constructor
    · simp
    · omega
  · constructor
    · simp
    · omega
  · constructor
    · omega
    · simp

theorem mem_nodeLoop (g : Grid) (n : ℕ × ℕ × ℕ) :
    n ∈ g.nodeLoop ↔ n.1 < g.I ∧ n.2.1 < g.J ∧ n.2.2 < g.K := by
  obtain ⟨i, j, k⟩ := n
  simp only [nodeLoop, List.mem_flatMap, List.mem_map, List.mem_range, Prod.mk.injEq]
  constructor
  · rintro ⟨k', hk, j', hj, i', hi, rfl, rfl, rfl⟩; exact ⟨hi, hj, hk⟩
  · rintro ⟨hi, hj, hk⟩; exact ⟨k, hk, j, hj, i, hi, rfl, rfl, rfl⟩

theorem fold_set {α β : Type} (ix : β → ℕ) (f : β → α) (L : List β) :
    ∀ v0 : List α, (∀ n ∈ L, ix n < v0.length) → (∀ m ∈ L, ∀ n ∈ L, ix m = ix n → f m = f n) →
    ∃ v, L.foldlM (fun (v : List α) n => if ix n < v.length then .ok (v.set (ix n) (f n))
        else (.error .indexError : Except PyErr (List α))) v0 = .ok v ∧ v.length = v0.length ∧
      (∀ n ∈ L, v[ix n]? = some (f n)) ∧ ∀ m : ℕ, (∀ n ∈ L, ix n ≠ m) → v[m]? = v0[m]? := by
  induction L using List.reverseRecOn with
  | nil => intro v0 _ _; exact ⟨v0, rfl, rfl, by simp, fun m _ => rfl⟩
  | append_singleton L e ih =>
    intro v0 h1 h2
    obtain ⟨v, a1, a2, a3, a4⟩ := ih v0 (fun n hn => h1 n (by simp [hn]))
      (fun m hm n hn => h2 m (by simp [hm]) n (by simp [hn]))
    have he := h1 e (by simp)
    refine ⟨v.set (ix e) (f e), ?_, by simp [a2], ?_, ?_⟩
    · rw [List.foldlM_append, a1]
      simp only [List.foldlM_cons, List.foldlM_nil, bind, Except.bind, a2, he, if_true]
      rfl
    · intro n hn
      by_cases hne : ix e = ix n
      · rw [← hne, List.getElem?_set_self (by omega)]
        exact congrArg some (h2 e (by simp) n hn hne)
      · rw [List.getElem?_set_ne hne]
        rcases List.mem_append.mp hn with h | h
        · exact a3 n h
        · simp at h; subst h; exact absurd rfl hne
    · intro m hm
      rw [List.getElem?_set_ne (hm e (by simp))]
      exact a4 m (fun n hn => hm n (by simp [hn]))

theorem nodeLoop_ix (g : Grid) (n : ℕ × ℕ × ℕ) (hn : n ∈ g.nodeLoop) :
    g.get_linear_index n.1 n.2.1 n.2.2 < g.I * g.J * g.K := by
  rw [mem_nodeLoop] at hn
  exact (C23_linear_index_bijective g).1 hn

theorem nodeLoop_inj (g : Grid) (m n : ℕ × ℕ × ℕ) (hm : m ∈ g.nodeLoop) (hn : n ∈ g.nodeLoop)
    (h : g.get_linear_index m.1 m.2.1 m.2.2 = g.get_linear_index n.1 n.2.1 n.2.2) : m = n := by
  rw [mem_nodeLoop] at hm hn
  exact (C23_linear_index_bijective g).2.1 hm hn h

/-- C23: after `eval_on_grid` every node (i,j,k) holds the function value at its own coordinate, the
value array has exactly I*J*K entries, and nothing else of the grid changes. `get_nodes_array` lists
the coordinates under the same linear index. -/
theorem C23_eval_on_grid (g : Grid) (f : V3 → ℝ) :
    (∃ g', g.eval_on_grid f = .ok g' ∧ (∃ v, g' = { g with values := some v } ∧
        v.length = g.I * g.J * g.K) ∧
      ∀ i j k, i < g.I → j < g.J → k < g.K →
        g'.get_node_value i j k = .ok (f (g.get_node_coord i j k))) ∧
    (∃ A, g.get_nodes_array = .ok A ∧ A.length = g.I * g.J * g.K ∧
      ∀ i j k, i < g.I → j < g.J → k < g.K →
        A[g.get_linear_index i j k]? = some (g.get_node_coord i j k)) := by
  constructor
  · obtain ⟨v, h1, h2, h3, -⟩ := fold_set (fun n : ℕ × ℕ × ℕ => g.get_linear_index n.1 n.2.1 n.2.2)
      (fun n => f (g.get_node_coord n.1 n.2.1 n.2.2)) g.nodeLoop (List.replicate (g.I * g.J * g.K) 0)
      (fun n hn => by simpa using nodeLoop_ix g n hn)
      (fun m hm n hn h => by rw [nodeLoop_inj g m n hm hn h])
    refine ⟨{ g with values := some v }, ?_, ⟨v, rfl, by simpa using h2⟩, ?_⟩
    · unfold eval_on_grid
      simp only
      rw [h1]; rfl
    · intro i j k hi hj hk
      have := h3 (i, j, k) ((mem_nodeLoop g _).mpr ⟨hi, hj, hk⟩)
      unfold get_node_value
      simp only
      have e : ({ g with values := some v } : Grid).get_linear_index i j k = g.get_linear_index i j k := rfl
      rw [e, this]
  · obtain ⟨v, h1, h2, h3, -⟩ := fold_set (fun n : ℕ × ℕ × ℕ => g.get_linear_index n.1 n.2.1 n.2.2)
      (fun n => g.get_node_coord n.1 n.2.1 n.2.2) g.nodeLoop (List.replicate (g.I * g.J * g.K) 0)
      (fun n hn => by simpa using nodeLoop_ix g n hn)
      (fun m hm n hn h => by rw [nodeLoop_inj g m n hm hn h])
    refine ⟨v, h1, by simpa using h2, ?_⟩
    intro i j k hi hj hk
    exact h3 (i, j, k) ((mem_nodeLoop g _).mpr ⟨hi, hj, hk⟩)

/-! ## C24 -/

/-- Specification: a grid as the constructor makes it from a box with positive extents, with nodal
values φ(i,j,k). -/
structure Sampled (g : Grid) (φ : ℕ → ℕ → ℕ → ℝ) : Prop where
  hI : 2 ≤ g.I
  hJ : 2 ≤ g.J
  hK : 2 ≤ g.K
  hx : 0 < g.spacing.x
  hy : 0 < g.spacing.y
  hz : 0 < g.spacing.z
  ex : g.min_coord.x + g.spacing.x * (g.I - 1) = g.max_coord.x
  ey : g.min_coord.y + g.spacing.y * (g.J - 1) = g.max_coord.y
  ez : g.min_coord.z + g.spacing.z * (g.K - 1) = g.max_coord.z
  val : ∀ i j k, i < g.I → j < g.J → k < g.K → g.get_node_value i j k = .ok (φ i j k)

/-- Every grid constructed with positive extents and filled by `eval_on_grid` is `Sampled`. -/
theorem sampled_of_eval {lo hi : V3} {I J K : ℤ} {g0 g : Grid} {f : V3 → ℝ}
    (h : lo.x < hi.x ∧ lo.y < hi.y ∧ lo.z < hi.z) (h0 : Grid.init lo hi I J K = .ok g0)
    (h1 : g0.eval_on_grid f = .ok g) : Sampled g (fun i j k => f (g.get_node_coord i j k)) := by
  have hv : (lo.x ≤ hi.x ∧ lo.y ≤ hi.y ∧ lo.z ≤ hi.z) ∧ 2 ≤ I ∧ 2 ≤ J ∧ 2 ≤ K := by
    by_contra hc
    rw [(C23_constructor lo hi I J K).2 hc] at h0; cases h0
  obtain ⟨g', e0, rfl, rfl, eI, eJ, eK, -, ex, ey, ez⟩ := (C23_constructor lo hi I J K).1 hv
  rw [h0] at e0; cases e0
  obtain ⟨⟨g', e1, ⟨v, rfl, -⟩, hval⟩, -⟩ := C23_eval_on_grid g0 f
  rw [h1] at e1; cases e1
  have cI : (2 : ℝ) ≤ I := by exact_mod_cast hv.2.1
  have cJ : (2 : ℝ) ≤ J := by exact_mod_cast hv.2.2.1
  have cK : (2 : ℝ) ≤ K := by exact_mod_cast hv.2.2.2
  have cI' : ((g0.I : ℕ) : ℝ) = I := by exact_mod_cast eI
  have cJ' : ((g0.J : ℕ) : ℝ) = J := by exact_mod_cast eJ
  have cK' : ((g0.K : ℕ) : ℝ) = K := by exact_mod_cast eK
  have pos : ∀ {a b s n : ℝ}, a < b → a + s * (n - 1) = b → 2 ≤ n → 0 < s := by
    intro a b s n hab he hn
    by_contra hs
    push Not at hs
    nlinarith
  exact ⟨by show 2 ≤ g0.I; omega, by show 2 ≤ g0.J; omega, by show 2 ≤ g0.K; omega,
    pos h.1 ex cI, pos h.2.1 ey cJ, pos h.2.2 ez cK,
    by show _ + _ * ((g0.I : ℝ) - 1) = _; rw [cI']; exact ex,
    by show _ + _ * ((g0.J : ℝ) - 1) = _; rw [cJ']; exact ey,
    by show _ + _ * ((g0.K : ℝ) - 1) = _; rw [cK']; exact ez, hval⟩

/-- the eight values of cell (i,j,k) -/
def cellVals (φ : ℕ → ℕ → ℕ → ℝ) (i j k : ℕ) : Cell8 :=
  ⟨φ i j k, φ i j (k+1), φ i (j+1) k, φ i (j+1) (k+1), φ (i+1) j k, φ (i+1) j (k+1), φ (i+1) (j+1) k,
    φ (i+1) (j+1) (k+1)⟩

/-- local coordinate of x in cell c of an axis starting at lo with spacing h -/
noncomputable def loc (x lo h : ℝ) (c : ℕ) : ℝ := (x - ((c : ℝ) * h + lo)) / h

theorem cell8_ok {g : Grid} {φ} (hs : Sampled g φ) {i j k : ℕ} (hi : i + 1 < g.I) (hj : j + 1 < g.J)
    (hk : k + 1 < g.K) : g.cell8 i j k = .ok (cellVals φ i j k) := by
  unfold cell8
  rw [hs.val i j k (by omega) (by omega) (by omega), hs.val i j (k+1) (by omega) (by omega) (by omega),
    hs.val i (j+1) k (by omega) (by omega) (by omega), hs.val i (j+1) (k+1) (by omega) (by omega) (by omega),
    hs.val (i+1) j k (by omega) (by omega) (by omega), hs.val (i+1) j (k+1) (by omega) (by omega) (by omega),
    hs.val (i+1) (j+1) k (by omega) (by omega) (by omega),
    hs.val (i+1) (j+1) (k+1) (by omega) (by omega) (by omega)]
  rfl

theorem clip_lt (x lo h : ℝ) {n : ℕ} (hn : 2 ≤ n) : clipCell x lo h n + 1 < n := by
  unfold clipCell; omega

theorem loc_mul {x lo h : ℝ} {c : ℕ} (hh : 0 < h) : h * loc x lo h c = x - (c * h + lo) := by
  unfold loc; field_simp

/-- the clipped cell of a point of a closed cell is that cell, or the next one and the point is on the
common plane -/
theorem clip_adjacent {x lo h : ℝ} {n i : ℕ} (hh : 0 < h) (hi : i + 1 < n)
    (h1 : lo + h * i ≤ x) (h2 : x ≤ lo + h * (i + 1)) :
    clipCell x lo h n = i ∨ (clipCell x lo h n = i + 1 ∧ loc x lo h i = 1 ∧ loc x lo h (i + 1) = 0) := by
  have f1 : (i : ℝ) ≤ (x - lo) / h := by rw [le_div_iff₀ hh]; linarith
  have f2 : (x - lo) / h ≤ (i : ℝ) + 1 := by rw [div_le_iff₀ hh]; linarith
  have f3 : (i : ℤ) ≤ ⌊(x - lo) / h⌋ := Int.le_floor.mpr (by push_cast; exact f1)
  have f4 : ⌊(x - lo) / h⌋ ≤ (i : ℤ) + 1 := by
    have := Int.floor_le_floor f2
    simpa using this
  rcases f4.lt_or_eq with h5 | h5
  · left; unfold clipCell; omega
  · by_cases h6 : i + 2 < n
    · right
      have f5 : ((i : ℝ) + 1) ≤ (x - lo) / h := by
        have := Int.floor_le ((x - lo) / h)
        rw [h5] at this; push_cast at this; exact this
      have f6 : x = lo + h * (i + 1) := by
        rw [le_div_iff₀ hh] at f5; linarith
      refine ⟨by unfold clipCell; omega, ?_, ?_⟩
      · unfold loc; rw [f6, div_eq_one_iff_eq hh.ne']; ring
      · unfold loc; rw [f6]; push_cast; rw [div_eq_zero_iff]; left; ring
    · left; unfold clipCell; omega

theorem get_value_ok {g : Grid} {φ} (hs : Sampled g φ) (p : V3) :
    g.get_value p = .ok (interp (cellVals φ (clipCell p.x g.min_coord.x g.spacing.x g.I)
      (clipCell p.y g.min_coord.y g.spacing.y g.J) (clipCell p.z g.min_coord.z g.spacing.z g.K))
      (loc p.x g.min_coord.x g.spacing.x (clipCell p.x g.min_coord.x g.spacing.x g.I))
      (loc p.y g.min_coord.y g.spacing.y (clipCell p.y g.min_coord.y g.spacing.y g.J))
      (loc p.z g.min_coord.z g.spacing.z (clipCell p.z g.min_coord.z g.spacing.z g.K))) := by
  unfold get_value get_enclosing_cell_idx
  rw [if_neg (by push Not; exact ⟨hs.hx.ne', hs.hy.ne', hs.hz.ne'⟩)]
  simp only [bind, Except.bind]
  rw [cell8_ok hs (clip_lt _ _ _ hs.hI) (clip_lt _ _ _ hs.hJ) (clip_lt _ _ _ hs.hK)]
  rfl

theorem interp_x (φ : ℕ → ℕ → ℕ → ℝ) (i j k : ℕ) (t u : ℝ) :
    interp (cellVals φ i j k) 1 t u = interp (cellVals φ (i + 1) j k) 0 t u := by
  simp only [interp, cellVals]; ring
theorem interp_y (φ : ℕ → ℕ → ℕ → ℝ) (i j k : ℕ) (s u : ℝ) :
    interp (cellVals φ i j k) s 1 u = interp (cellVals φ i (j + 1) k) s 0 u := by
  simp only [interp, cellVals]; ring
theorem interp_z (φ : ℕ → ℕ → ℕ → ℝ) (i j k : ℕ) (s t : ℝ) :
    interp (cellVals φ i j k) s t 1 = interp (cellVals φ i j (k + 1)) s t 0 := by
  simp only [interp, cellVals]; ring

/-- Specification: trilinear interpolation of eight corner values with weights s, t, u. -/
def trilinear (φ : ℕ → ℕ → ℕ → ℝ) (i j k : ℕ) (s t u : ℝ) : ℝ :=
  (1-s)*(1-t)*(1-u)*φ i j k + (1-s)*(1-t)*u*φ i j (k+1) + (1-s)*t*(1-u)*φ i (j+1) k +
  (1-s)*t*u*φ i (j+1) (k+1) + s*(1-t)*(1-u)*φ (i+1) j k + s*(1-t)*u*φ (i+1) j (k+1) +
  s*t*(1-u)*φ (i+1) (j+1) k + s*t*u*φ (i+1) (j+1) (k+1)

theorem interp_eq (φ : ℕ → ℕ → ℕ → ℝ) (i j k : ℕ) (s t u : ℝ) :
    interp (cellVals φ i j k) s t u = trilinear φ i j k s t u := by
  simp only [interp, cellVals, trilinear]; ring

/-- C24: for every point of a closed cell (i,j,k), given by weights s, t, u in [0,1], `get_value`
returns the trilinear interpolation of the eight corner values. This holds for whichever cell
contains the point, so the interpolant is continuous across cell faces, up to the boundary of the
grid. -/
theorem C24_trilinear {g : Grid} {φ} (hs : Sampled g φ) (i j k : ℕ) (hi : i + 1 < g.I)
    (hj : j + 1 < g.J) (hk : k + 1 < g.K) (s t u : ℝ) (hs0 : 0 ≤ s) (hs1 : s ≤ 1) (ht0 : 0 ≤ t)
    (ht1 : t ≤ 1) (hu0 : 0 ≤ u) (hu1 : u ≤ 1) :
    g.get_value (g.get_node_coord i j k + ⟨s * g.spacing.x, t * g.spacing.y, u * g.spacing.z⟩) =
      .ok (trilinear φ i j k s t u) := by
  set p := g.get_node_coord i j k + ⟨s * g.spacing.x, t * g.spacing.y, u * g.spacing.z⟩ with hp
  have px : p.x = g.min_coord.x + g.spacing.x * i + s * g.spacing.x := rfl
  have py : p.y = g.min_coord.y + g.spacing.y * j + t * g.spacing.y := rfl
  have pz : p.z = g.min_coord.z + g.spacing.z * k + u * g.spacing.z := rfl
  have hx := hs.hx
  have hy := hs.hy
  have hz := hs.hz
  have lx : loc p.x g.min_coord.x g.spacing.x i = s := by
    unfold loc; rw [px, div_eq_iff hx.ne']; ring
  have ly : loc p.y g.min_coord.y g.spacing.y j = t := by
    unfold loc; rw [py, div_eq_iff hy.ne']; ring
  have lz : loc p.z g.min_coord.z g.spacing.z k = u := by
    unfold loc; rw [pz, div_eq_iff hz.ne']; ring
  rw [get_value_ok hs, ← interp_eq]
  have ax := clip_adjacent (x := p.x) (lo := g.min_coord.x) hx hi (by rw [px]; nlinarith) (by rw [px]; nlinarith)
  have ay := clip_adjacent (x := p.y) (lo := g.min_coord.y) hy hj (by rw [py]; nlinarith) (by rw [py]; nlinarith)
  have az := clip_adjacent (x := p.z) (lo := g.min_coord.z) hz hk (by rw [pz]; nlinarith) (by rw [pz]; nlinarith)
  congr 1
  clear_value p
  clear hp px py pz
  rw [lx] at ax; rw [ly] at ay; rw [lz] at az
  rcases ax with ax | ⟨ax, rfl, bx⟩ <;> rcases ay with ay | ⟨ay, rfl, by'⟩ <;>
    rcases az with az | ⟨az, rfl, bz⟩ <;> simp only [ax, ay, az] <;>
    simp only [*, interp_x, interp_y, interp_z]

/-- C24: `get_value` returns the stored value at every node, including the nodes on the upper
boundary. -/
theorem C24_nodes {g : Grid} {φ} (hs : Sampled g φ) (i j k : ℕ) (hi : i < g.I) (hj : j < g.J)
    (hk : k < g.K) : g.get_value (g.get_node_coord i j k) = .ok (φ i j k) := by
  have hI := hs.hI; have hJ := hs.hJ; have hK := hs.hK
  -- the cell below, unless i = 0
  have cellOf : ∀ n i : ℕ, 2 ≤ n → i < n → ∃ c : ℕ, ∃ s : ℝ, c + 1 < n ∧ 0 ≤ s ∧ s ≤ 1 ∧
      ((c = i ∧ s = 0) ∨ (c + 1 = i ∧ s = 1)) := by
    intro n i hn hi
    by_cases h : i + 1 < n
    · exact ⟨i, 0, h, le_refl _, zero_le_one, Or.inl ⟨rfl, rfl⟩⟩
    · exact ⟨i - 1, 1, by omega, zero_le_one, le_refl _, Or.inr ⟨by omega, rfl⟩⟩
  obtain ⟨a, s, a1, a2, a3, a4⟩ := cellOf g.I i hI hi
  obtain ⟨b, t, b1, b2, b3, b4⟩ := cellOf g.J j hJ hj
  obtain ⟨c, u, c1, c2, c3, c4⟩ := cellOf g.K k hK hk
  have key := C24_trilinear hs a b c a1 b1 c1 s t u a2 a3 b2 b3 c2 c3
  have hp : g.get_node_coord a b c + ⟨s * g.spacing.x, t * g.spacing.y, u * g.spacing.z⟩ =
      g.get_node_coord i j k := by
    ext
    · simp only [get_node_coord, V3.add_x]
      rcases a4 with ⟨rfl, rfl⟩ | ⟨rfl, rfl⟩
      · ring
      · push_cast; ring
    · simp only [get_node_coord, V3.add_y]
      rcases b4 with ⟨rfl, rfl⟩ | ⟨rfl, rfl⟩
      · ring
      · push_cast; ring
    · simp only [get_node_coord, V3.add_z]
      rcases c4 with ⟨rfl, rfl⟩ | ⟨rfl, rfl⟩
      · ring
      · push_cast; ring
  rw [hp] at key
  rw [key]
  congr 1
  rcases a4 with ⟨rfl, rfl⟩ | ⟨rfl, rfl⟩ <;> rcases b4 with ⟨rfl, rfl⟩ | ⟨rfl, rfl⟩ <;>
    rcases c4 with ⟨rfl, rfl⟩ | ⟨rfl, rfl⟩ <;> simp [trilinear]

/-- C24: every multilinear field is reproduced exactly at every point, also outside the box. -/
theorem C24_multilinear_exact (c0 c1 c2 c3 c4 c5 c6 c7 : ℝ) {g : Grid}
    (hs : Sampled g (fun i j k => (fun q : V3 => c0 + c1*q.x + c2*q.y + c3*q.z + c4*q.x*q.y +
      c5*q.y*q.z + c6*q.x*q.z + c7*q.x*q.y*q.z) (g.get_node_coord i j k))) (p : V3) :
    g.get_value p = .ok (c0 + c1*p.x + c2*p.y + c3*p.z + c4*p.x*p.y + c5*p.y*p.z + c6*p.x*p.z +
      c7*p.x*p.y*p.z) := by
  rw [get_value_ok hs]
  congr 1
  have hx := loc_mul (x := p.x) (lo := g.min_coord.x) (c := clipCell p.x g.min_coord.x g.spacing.x g.I) hs.hx
  have hy := loc_mul (x := p.y) (lo := g.min_coord.y) (c := clipCell p.y g.min_coord.y g.spacing.y g.J) hs.hy
  have hz := loc_mul (x := p.z) (lo := g.min_coord.z) (c := clipCell p.z g.min_coord.z g.spacing.z g.K) hs.hz
  generalize clipCell p.x g.min_coord.x g.spacing.x g.I = a at *
  generalize clipCell p.y g.min_coord.y g.spacing.y g.J = b at *
  generalize clipCell p.z g.min_coord.z g.spacing.z g.K = c at *
  generalize loc p.x g.min_coord.x g.spacing.x a = s at *
  generalize loc p.y g.min_coord.y g.spacing.y b = t at *
  generalize loc p.z g.min_coord.z g.spacing.z c = u at *
  have ex : p.x = g.min_coord.x + g.spacing.x * a + g.spacing.x * s := by linarith
  have ey : p.y = g.min_coord.y + g.spacing.y * b + g.spacing.y * t := by linarith
  have ez : p.z = g.min_coord.z + g.spacing.z * c + g.spacing.z * u := by linarith
  rw [ex, ey, ez]
  simp only [interp, cellVals, get_node_coord]
  push_cast
  ring

theorem loc_range {x lo h : ℝ} {n : ℕ} (hh : 0 < h) (hn : 2 ≤ n) (h1 : lo ≤ x)
    (h2 : x ≤ lo + h * (n - 1)) :
    0 ≤ loc x lo h (clipCell x lo h n) ∧ loc x lo h (clipCell x lo h n) ≤ 1 := by
  have f0 : 0 ≤ (x - lo) / h := div_nonneg (by linarith) hh.le
  have f1 : (x - lo) / h ≤ n - 1 := by rw [div_le_iff₀ hh]; linarith
  have f2 := Int.floor_le ((x - lo) / h)
  have f3 := Int.lt_floor_add_one ((x - lo) / h)
  have f4 : 0 ≤ ⌊(x - lo) / h⌋ := Int.floor_nonneg.mpr f0
  have e : loc x lo h (clipCell x lo h n) = (x - lo) / h - (clipCell x lo h n : ℝ) := by
    unfold loc; field_simp; ring
  rw [e]
  by_cases hc : ⌊(x - lo) / h⌋ ≤ (n : ℤ) - 2
  · have hcc : (clipCell x lo h n : ℤ) = ⌊(x - lo) / h⌋ := by unfold clipCell; omega
    have hcr : (clipCell x lo h n : ℝ) = (⌊(x - lo) / h⌋ : ℝ) := by exact_mod_cast hcc
    rw [hcr]
    constructor <;> linarith
  · have hcc : (clipCell x lo h n : ℤ) = (n : ℤ) - 2 := by unfold clipCell; omega
    have hcr : (clipCell x lo h n : ℝ) = (n : ℝ) - 2 := by exact_mod_cast hcc
    have f5 : (n : ℤ) - 1 ≤ ⌊(x - lo) / h⌋ := by omega
    have f6 : ((n : ℝ) - 1) ≤ (⌊(x - lo) / h⌋ : ℝ) := by exact_mod_cast f5
    rw [hcr]
    constructor <;> linarith

/-- C24: `get_value` always reads an existing cell, and for a point of the box the result lies between
any bounds of the nodal values of that cell (hence of all nodal values). -/
theorem C24_bounds {g : Grid} {φ} (hs : Sampled g φ) (p : V3)
    (hx : g.min_coord.x ≤ p.x ∧ p.x ≤ g.max_coord.x) (hy : g.min_coord.y ≤ p.y ∧ p.y ≤ g.max_coord.y)
    (hz : g.min_coord.z ≤ p.z ∧ p.z ≤ g.max_coord.z) :
    ∃ i j k v, g.get_enclosing_cell_idx p = .ok (i, j, k) ∧ i + 1 < g.I ∧ j + 1 < g.J ∧ k + 1 < g.K ∧
      g.get_value p = .ok v ∧
      (∀ lo, (∀ a ∈ [i, i+1], ∀ b ∈ [j, j+1], ∀ c ∈ [k, k+1], lo ≤ φ a b c) → lo ≤ v) ∧
      (∀ hi, (∀ a ∈ [i, i+1], ∀ b ∈ [j, j+1], ∀ c ∈ [k, k+1], φ a b c ≤ hi) → v ≤ hi) := by
  refine ⟨(clipCell p.x g.min_coord.x g.spacing.x g.I), (clipCell p.y g.min_coord.y g.spacing.y g.J),
    (clipCell p.z g.min_coord.z g.spacing.z g.K), _, ?_, clip_lt _ _ _ hs.hI, clip_lt _ _ _ hs.hJ, clip_lt _ _ _ hs.hK,
    get_value_ok hs p, ?_, ?_⟩
  · unfold get_enclosing_cell_idx
    rw [if_neg (by push Not; exact ⟨hs.hx.ne', hs.hy.ne', hs.hz.ne'⟩)]
  all_goals
    obtain ⟨s0, s1⟩ := loc_range hs.hx hs.hI hx.1 (by rw [hs.ex]; exact hx.2)
    obtain ⟨t0, t1⟩ := loc_range hs.hy hs.hJ hy.1 (by rw [hs.ey]; exact hy.2)
    obtain ⟨u0, u1⟩ := loc_range hs.hz hs.hK hz.1 (by rw [hs.ez]; exact hz.2)
    generalize clipCell p.x g.min_coord.x g.spacing.x g.I = a at *
    generalize clipCell p.y g.min_coord.y g.spacing.y g.J = b at *
    generalize clipCell p.z g.min_coord.z g.spacing.z g.K = c at *
    generalize loc p.x g.min_coord.x g.spacing.x a = s at *
    generalize loc p.y g.min_coord.y g.spacing.y b = t at *
    generalize loc p.z g.min_coord.z g.spacing.z c = u at *
    intro m hm
    rw [interp_eq]
    have s1' : 0 ≤ 1 - s := by linarith
    have t1' : 0 ≤ 1 - t := by linarith
    have u1' : 0 ≤ 1 - u := by linarith
    have w1 : 0 ≤ (1-s)*(1-t)*(1-u) := by positivity
    have w2 : 0 ≤ (1-s)*(1-t)*u := by positivity
    have w3 : 0 ≤ (1-s)*t*(1-u) := by positivity
    have w4 : 0 ≤ (1-s)*t*u := by positivity
    have w5 : 0 ≤ s*(1-t)*(1-u) := by positivity
    have w6 : 0 ≤ s*(1-t)*u := by positivity
    have w7 : 0 ≤ s*t*(1-u) := by positivity
    have w8 : 0 ≤ s*t*u := by positivity
    have m1 := mul_le_mul_of_nonneg_left (hm a (by simp) b (by simp) c (by simp)) w1
    have m2 := mul_le_mul_of_nonneg_left (hm a (by simp) b (by simp) (c+1) (by simp)) w2
    have m3 := mul_le_mul_of_nonneg_left (hm a (by simp) (b+1) (by simp) c (by simp)) w3
    have m4 := mul_le_mul_of_nonneg_left (hm a (by simp) (b+1) (by simp) (c+1) (by simp)) w4
    have m5 := mul_le_mul_of_nonneg_left (hm (a+1) (by simp) b (by simp) c (by simp)) w5
    have m6 := mul_le_mul_of_nonneg_left (hm (a+1) (by simp) b (by simp) (c+1) (by simp)) w6
    have m7 := mul_le_mul_of_nonneg_left (hm (a+1) (by simp) (b+1) (by simp) c (by simp)) w7
    have m8 := mul_le_mul_of_nonneg_left (hm (a+1) (by simp) (b+1) (by simp) (c+1) (by simp)) w8
    have hsum : (1-s)*(1-t)*(1-u)*m + (1-s)*(1-t)*u*m + (1-s)*t*(1-u)*m + (1-s)*t*u*m + s*(1-t)*(1-u)*m +
      s*(1-t)*u*m + s*t*(1-u)*m + s*t*u*m = m := by ring
    unfold trilinear
    linarith

/-- C24: outside the box too, the cell index is valid and a value is returned. -/
theorem C24_total {g : Grid} {φ} (hs : Sampled g φ) (p : V3) : ∃ i j k v,
    g.get_enclosing_cell_idx p = .ok (i, j, k) ∧ i + 1 < g.I ∧ j + 1 < g.J ∧ k + 1 < g.K ∧
      g.get_value p = .ok v := by
  refine ⟨(clipCell p.x g.min_coord.x g.spacing.x g.I), (clipCell p.y g.min_coord.y g.spacing.y g.J),
    (clipCell p.z g.min_coord.z g.spacing.z g.K), _, ?_, clip_lt _ _ _ hs.hI, clip_lt _ _ _ hs.hJ, clip_lt _ _ _ hs.hK, get_value_ok hs p⟩
  unfold get_enclosing_cell_idx
  rw [if_neg (by push Not; exact ⟨hs.hx.ne', hs.hy.ne', hs.hz.ne'⟩)]

/-- C24: the inside test accepts exactly the box shrunk by the boundary width. -/
theorem C24_is_inside (g : Grid) (p : V3) (b : ℝ) :
    (0 ≤ b → ∃ r, g.is_inside p b = .ok r ∧ (r = true ↔
      (g.min_coord.x + b ≤ p.x ∧ p.x ≤ g.max_coord.x - b) ∧
      (g.min_coord.y + b ≤ p.y ∧ p.y ≤ g.max_coord.y - b) ∧
      (g.min_coord.z + b ≤ p.z ∧ p.z ≤ g.max_coord.z - b))) ∧
    (b < 0 → g.is_inside p b = .error .valueError) := by
  constructor
  · intro hb
    unfold is_inside
    rw [if_neg (by linarith)]
    split_ifs with h1 h2 h3 h4 h5 h6
    · exact ⟨_, rfl, by constructor <;> intro h <;> [simp at h; (exfalso; linarith [h.1.2])]⟩
    · exact ⟨_, rfl, by constructor <;> intro h <;> [simp at h; (exfalso; linarith [h.2.1.2])]⟩
    · exact ⟨_, rfl, by constructor <;> intro h <;> [simp at h; (exfalso; linarith [h.2.2.2])]⟩
    · exact ⟨_, rfl, by constructor <;> intro h <;> [simp at h; (exfalso; linarith [h.1.1])]⟩
    · exact ⟨_, rfl, by constructor <;> intro h <;> [simp at h; (exfalso; linarith [h.2.1.1])]⟩
    · exact ⟨_, rfl, by constructor <;> intro h <;> [simp at h; (exfalso; linarith [h.2.2.1])]⟩
    · push Not at *
      exact ⟨true, rfl, by simp; exact ⟨⟨h4, h1⟩, ⟨h5, h2⟩, ⟨h6, h3⟩⟩⟩
  · intro hb; unfold is_inside; rw [if_pos hb]

/-! ## C25 -/

/-- Specification: the value of the interpolant as a real function (0 where `get_value` raises). -/
noncomputable def valueOf (g : Grid) (p : V3) : ℝ :=
  match g.get_value p with
  | .ok v => v
  | .error _ => 0

/-- Specification: G holds the three partial derivatives of the interpolant at p. -/
def IsGradientAt (g : Grid) (p G : V3) : Prop :=
  HasDerivAt (fun x => valueOf g ⟨x, p.y, p.z⟩) G.x p.x ∧
  HasDerivAt (fun y => valueOf g ⟨p.x, y, p.z⟩) G.y p.y ∧
  HasDerivAt (fun z => valueOf g ⟨p.x, p.y, z⟩) G.z p.z

theorem get_gradient_ok {g : Grid} {φ} (hs : Sampled g φ) (p : V3)
    (hm : g.min_coord.x ≠ 0 ∧ g.min_coord.y ≠ 0 ∧ g.min_coord.z ≠ 0) :
    g.get_gradient p = .ok (gradFormula (cellVals φ (clipCell p.x g.min_coord.x g.spacing.x g.I)
      (clipCell p.y g.min_coord.y g.spacing.y g.J) (clipCell p.z g.min_coord.z g.spacing.z g.K))
      ((p.x - ((clipCell p.x g.min_coord.x g.spacing.x g.I : ℝ) * g.spacing.x + g.min_coord.x)) / g.min_coord.x)
      ((p.y - ((clipCell p.y g.min_coord.y g.spacing.y g.J : ℝ) * g.spacing.y + g.min_coord.y)) / g.min_coord.y)
      ((p.z - ((clipCell p.z g.min_coord.z g.spacing.z g.K : ℝ) * g.spacing.z + g.min_coord.z)) / g.min_coord.z)
      g.spacing) := by
  unfold get_gradient get_enclosing_cell_idx
  rw [if_neg (by push Not; exact ⟨hs.hx.ne', hs.hy.ne', hs.hz.ne'⟩)]
  simp only [bind, Except.bind]
  rw [cell8_ok hs (clip_lt _ _ _ hs.hI) (clip_lt _ _ _ hs.hJ) (clip_lt _ _ _ hs.hK)]
  simp only
  rw [if_neg (by push Not; exact hm)]

/-- C25, as far as it holds: for nodal values of an affine field a + b·x the gradient is exact at every
point (no component of min_coord may be 0). Missing: every field with a mixed term, see
`C25_gradient_wrong`. -/
theorem C25_gradient_affine_partial (a : ℝ) (b : V3) {g : Grid}
    (hs : Sampled g (fun i j k => (fun q : V3 => a + b.x * q.x + b.y * q.y + b.z * q.z) (g.get_node_coord i j k)))
    (hm : g.min_coord.x ≠ 0 ∧ g.min_coord.y ≠ 0 ∧ g.min_coord.z ≠ 0) (p : V3) :
    g.get_gradient p = .ok b ∧ IsGradientAt g p b := by
  constructor
  · rw [get_gradient_ok hs p hm]
    congr 1
    have hx := hs.hx.ne'; have hy := hs.hy.ne'; have hz := hs.hz.ne'
    ext <;> simp only [gradFormula, cellVals, get_node_coord] <;> push_cast <;> field_simp <;> ring
  · have hv : ∀ q : V3, valueOf g q = a + b.x * q.x + b.y * q.y + b.z * q.z := by
      intro q
      have := C24_multilinear_exact a b.x b.y b.z 0 0 0 0 (g := g) (by simpa using hs) q
      unfold valueOf
      rw [this]; simp
    refine ⟨?_, ?_, ?_⟩
    · simp only [hv]
      have := (((hasDerivAt_id p.x).const_mul b.x).const_add a).add_const (b.y * p.y)
      have := this.add_const (b.z * p.z)
      simpa using this
    · simp only [hv]
      have := (((hasDerivAt_id p.y).const_mul b.y).const_add (a + b.x * p.x)).add_const (b.z * p.z)
      simpa using this
    · simp only [hv]
      have := (((hasDerivAt_id p.z).const_mul b.z).const_add (a + b.x * p.x + b.y * p.y))
      simpa using this

/-- C25 fails: a 2x2x2 grid on the box [1,3]^3 sampled from the field x*y. At the centre the gradient
of the interpolant (which is x*y itself) is (2,2,0); `get_gradient` returns (3,3,0). -/
theorem C25_gradient_wrong : ∃ g0 g : Grid, Grid.init ⟨1,1,1⟩ ⟨3,3,3⟩ 2 2 2 = .ok g0 ∧
    g0.eval_on_grid (fun q => q.x * q.y) = .ok g ∧ IsGradientAt g ⟨2,2,2⟩ ⟨2,2,0⟩ ∧
    g.get_gradient ⟨2,2,2⟩ = .ok ⟨3,3,0⟩ := by
  obtain ⟨g0, h0, e1, -, eI, eJ, eK, -, ex, ey, ez⟩ := (C23_constructor ⟨1,1,1⟩ ⟨3,3,3⟩ 2 2 2).1
    ⟨⟨by norm_num, by norm_num, by norm_num⟩, by norm_num, by norm_num, by norm_num⟩
  obtain ⟨⟨g, h1, ⟨v, hg, -⟩, -⟩, -⟩ := C23_eval_on_grid g0 (fun q => q.x * q.y)
  have hs := sampled_of_eval ⟨by norm_num, by norm_num, by norm_num⟩ h0 h1
  refine ⟨g0, g, h0, h1, ?_, ?_⟩
  · have hv : ∀ q : V3, valueOf g q = q.x * q.y := by
      intro q
      have := C24_multilinear_exact 0 0 0 0 1 0 0 0 (g := g) (by simpa using hs) q
      unfold valueOf
      rw [this]; simp
    refine ⟨?_, ?_, ?_⟩
    · simp only [hv]
      simpa using (hasDerivAt_id (2:ℝ)).mul_const (2:ℝ)
    · simp only [hv]
      simpa using (hasDerivAt_id (2:ℝ)).const_mul (2:ℝ)
    · simp only [hv]
      exact hasDerivAt_const _ _
  · have m1 : g.min_coord = ⟨1,1,1⟩ := by rw [hg]; exact e1
    have s1 : g.spacing = ⟨2,2,2⟩ := by
      rw [hg]
      show g0.spacing = _
      push_cast at ex ey ez
      norm_num at ex ey ez
      ext
      · show g0.spacing.x = 2; linarith
      · show g0.spacing.y = 2; linarith
      · show g0.spacing.z = 2; linarith
    have n1 : g.I = 2 := by rw [hg]; show g0.I = 2; omega
    have n2 : g.J = 2 := by rw [hg]; show g0.J = 2; omega
    have n3 : g.K = 2 := by rw [hg]; show g0.K = 2; omega
    rw [get_gradient_ok hs _ (by rw [m1]; norm_num)]
    have hc : clipCell 2 1 2 2 = 0 := by
      unfold clipCell; simp
    congr 1
    simp only [m1, s1, n1, n2, n3, hc]
    ext <;> simp only [gradFormula, cellVals, get_node_coord, m1, s1] <;> norm_num

/-- C25: boxes with a corner coordinate 0 (e.g. the unit cube at the origin) have no gradient at all:
numpy divides by zero at every point. -/
theorem C25_zero_corner {g : Grid} {φ} (hs : Sampled g φ) (p : V3)
    (hm : g.min_coord.x = 0 ∨ g.min_coord.y = 0 ∨ g.min_coord.z = 0) :
    g.get_gradient p = .error .zeroDivision := by
  unfold get_gradient get_enclosing_cell_idx
  rw [if_neg (by push Not; exact ⟨hs.hx.ne', hs.hy.ne', hs.hz.ne'⟩)]
  simp only [bind, Except.bind]
  rw [cell8_ok hs (clip_lt _ _ _ hs.hI) (clip_lt _ _ _ hs.hJ) (clip_lt _ _ _ hs.hK)]
  simp only
  rw [if_pos hm]

/-- The hypotheses are met by every grid built on a box with positive extents. -/
example : ∃ g φ, Sampled g φ ∧ g.min_coord.x ≠ 0 := by
  obtain ⟨g0, h0, e1, -⟩ := (C23_constructor ⟨1,1,1⟩ ⟨3,4,5⟩ 3 4 5).1
    ⟨⟨by norm_num, by norm_num, by norm_num⟩, by norm_num, by norm_num, by norm_num⟩
  obtain ⟨⟨g, h1, ⟨v, hg, -⟩, -⟩, -⟩ := C23_eval_on_grid g0 (fun q => q.x * q.y)
  refine ⟨g, _, sampled_of_eval ⟨by norm_num, by norm_num, by norm_num⟩ h0 h1, ?_⟩
  rw [hg]; show g0.min_coord.x ≠ 0; rw [e1]; norm_num

end Verif
