import Verif.Model.KDOP
import Verif.Lemmas.Vec
import Mathlib.Analysis.Convex.Basic
import Mathlib.Analysis.Convex.Hull

/-! C17: k-DOP construction, union and overlap. -/

namespace Verif

/-- Specification: the directions of a K-DOP (K = 3: the axes, K = 4: the cube diagonals). -/
def dopDirs : ℕ → List V3
  | 3 => [⟨1, 0, 0⟩, ⟨0, 1, 0⟩, ⟨0, 0, 1⟩]
  | 4 => [⟨1, 1, 1⟩, ⟨1, 1, -1⟩, ⟨1, -1, 1⟩, ⟨1, -1, -1⟩]
  | _ => []

/-- Specification: the point p lies in the k-DOP: between the two planes of every direction. -/
def InDop (A : KDOP) (p : V3) : Prop :=
  ∀ k d, (dopDirs A.K)[k]? = some d →
    (A.slabs k).lower ≤ (V3.dot d p : ℝ) ∧ (V3.dot d p : ℝ) ≤ (A.slabs k).upper

/-- Specification: A is contained in B slab by slab. -/
def DopLe (A B : KDOP) : Prop := A.K = B.K ∧
  ∀ k < A.K, (B.slabs k).lower ≤ (A.slabs k).lower ∧ (A.slabs k).upper ≤ (B.slabs k).upper

theorem DopLe.refl (A : KDOP) : DopLe A A := ⟨rfl, fun _ _ => ⟨le_refl _, le_refl _⟩⟩
theorem DopLe.trans {A B C : KDOP} (h : DopLe A B) (h' : DopLe B C) : DopLe A C :=
  ⟨h.1.trans h'.1, fun k hk => ⟨(h'.2 k (h.1 ▸ hk)).1.trans (h.2 k hk).1,
    (h.2 k hk).2.trans (h'.2 k (h.1 ▸ hk)).2⟩⟩

theorem dopDirs_length_le (K : ℕ) : (dopDirs K).length ≤ K := by
  unfold dopDirs; split <;> simp

theorem DopLe.inDop {A B : KDOP} (h : DopLe A B) {p : V3} (hp : InDop A p) : InDop B p := by
  intro k d hd
  rw [← h.1] at hd
  have hk : k < A.K := by
    have := (List.getElem?_eq_some_iff.mp hd).1
    exact lt_of_lt_of_le this (dopDirs_length_le _)
  have h1 := hp k d hd
  have h2 := h.2 k hk
  exact ⟨h2.1.trans h1.1, h1.2.trans h2.2⟩

theorem fitSlab_spec (d : V3) (V : List V3) :
    (∀ v ∈ V, (KDOP.fitSlab d V).lower ≤ (V3.dot d v : ℝ) ∧ (V3.dot d v : ℝ) ≤ (KDOP.fitSlab d V).upper) ∧
    (∀ l : EReal, (∀ v ∈ V, l ≤ (V3.dot d v : ℝ)) → l ≤ (KDOP.fitSlab d V).lower) ∧
    (∀ u : EReal, (∀ v ∈ V, ((V3.dot d v : ℝ) : EReal) ≤ u) → (KDOP.fitSlab d V).upper ≤ u) := by
  have gen : ∀ (V : List V3) (I : Interval),
      let J := V.foldl (fun I v => (⟨min I.lower (V3.dot d v : ℝ), max I.upper (V3.dot d v : ℝ)⟩ : Interval)) I
      (J.lower ≤ I.lower ∧ I.upper ≤ J.upper) ∧
      (∀ v ∈ V, J.lower ≤ (V3.dot d v : ℝ) ∧ (V3.dot d v : ℝ) ≤ J.upper) ∧
      (∀ l : EReal, l ≤ I.lower → (∀ v ∈ V, l ≤ (V3.dot d v : ℝ)) → l ≤ J.lower) ∧
      (∀ u : EReal, I.upper ≤ u → (∀ v ∈ V, ((V3.dot d v : ℝ) : EReal) ≤ u) → J.upper ≤ u) := by
    intro V
    induction V with
    | nil => intro I; simp
    | cons w V ih =>
      intro I
      have := ih ⟨min I.lower (V3.dot d w : ℝ), max I.upper (V3.dot d w : ℝ)⟩
      simp only [List.foldl_cons] at this ⊢
      obtain ⟨⟨h1, h2⟩, h3, h4, h5⟩ := this
      refine ⟨⟨h1.trans (min_le_left _ _), (le_max_left _ _).trans h2⟩, ?_, ?_, ?_⟩
      · intro v hv
        rcases List.mem_cons.mp hv with rfl | hv
        · exact ⟨h1.trans (min_le_right _ _), (le_max_right _ _).trans h2⟩
        · exact h3 v hv
      · intro l hl hall
        exact h4 l (le_min hl (hall w (by simp))) (fun v hv => hall v (by simp [hv]))
      · intro u hu hall
        exact h5 u (max_le hu (hall w (by simp))) (fun v hv => hall v (by simp [hv]))
  obtain ⟨-, h2, h3, h4⟩ := gen V Interval.init
  exact ⟨h2, fun l hl => h3 l le_top hl, fun u hu => h4 u bot_le hu⟩

theorem table_dirs {K : ℕ} (hK : K = 3 ∨ K = 4) : ∃ dir, KDOP.get_direction_table K = some dir ∧
    (∀ k d, (dopDirs K)[k]? = some d → dir k = d ∧ k < K) ∧
    (∀ k, k < K → (dopDirs K)[k]? = some (dir k)) := by
  rcases hK with rfl | rfl
  · refine ⟨_, rfl, ?_, ?_⟩
    · intro k d h
      match k with
      | 0 => simp [dopDirs] at h; exact ⟨h, by omega⟩
      | 1 => simp [dopDirs] at h; exact ⟨h, by omega⟩
      | 2 => simp [dopDirs] at h; exact ⟨h, by omega⟩
      | (n + 3) => simp [dopDirs] at h
    · intro k h
      match k with
      | 0 => rfl
      | 1 => rfl
      | 2 => rfl
      | (n + 3) => omega
  · refine ⟨_, rfl, ?_, ?_⟩
    · intro k d h
      match k with
      | 0 => simp [dopDirs] at h; exact ⟨h, by omega⟩
      | 1 => simp [dopDirs] at h; exact ⟨h, by omega⟩
      | 2 => simp [dopDirs] at h; exact ⟨h, by omega⟩
      | 3 => simp [dopDirs] at h; exact ⟨h, by omega⟩
      | (n + 4) => simp [dopDirs] at h
    · intro k h
      match k with
      | 0 => rfl
      | 1 => rfl
      | 2 => rfl
      | 3 => rfl
      | (n + 4) => omega

/-- C17: every k-DOP is a convex set. -/
theorem C17_convex (A : KDOP) (p q : V3) (hp : InDop A p) (hq : InDop A q) (t : ℝ) (h0 : 0 ≤ t)
    (h1 : t ≤ 1) : InDop A ((1 - t) • p + t • q) := by
  intro k d hd
  obtain ⟨a1, a2⟩ := hp k d hd
  obtain ⟨b1, b2⟩ := hq k d hd
  rw [V3.dot_add_right, V3.dot_smul_right, V3.dot_smul_right]
  generalize V3.dot d p = x at *
  generalize V3.dot d q = y at *
  generalize (A.slabs k).lower = l at *
  generalize (A.slabs k).upper = u at *
  have hmin : min x y ≤ (1 - t) * x + t * y := by
    rcases min_choice x y with h | h <;> rw [h]
    · have := min_eq_left_iff.mp h; nlinarith
    · have := min_eq_right_iff.mp h; nlinarith
  have hmax : (1 - t) * x + t * y ≤ max x y := by
    rcases max_choice x y with h | h <;> rw [h]
    · have := max_eq_left_iff.mp h; nlinarith
    · have := max_eq_right_iff.mp h; nlinarith
  constructor
  · refine le_trans ?_ (EReal.coe_le_coe_iff.mpr hmin)
    rcases min_choice x y with h | h <;> rw [h] <;> assumption
  · refine le_trans (EReal.coe_le_coe_iff.mpr hmax) ?_
    rcases max_choice x y with h | h <;> rw [h] <;> assumption

/-- C17: `make(K, V, envelope)` succeeds for K = 3, 4; contains every point whose projections are
within the envelope of those of some vertex; and is the least k-DOP doing so in each slab: any k-DOP
whose slabs contain all projections widened by the envelope contains it. Other K raise. -/
theorem C17_make (K : ℕ) (hK : K = 3 ∨ K = 4) (V : List V3) (envelope : ℝ) :
    ∃ A, KDOP.make K V envelope = .ok A ∧ A.K = K ∧
      (∀ v ∈ V, ∀ p, (∀ d ∈ dopDirs K, |V3.dot d p - V3.dot d v| ≤ envelope) → InDop A p) ∧
      (∀ B : KDOP, B.K = K → (∀ v ∈ V, ∀ k d, (dopDirs K)[k]? = some d →
          (B.slabs k).lower ≤ (V3.dot d v - envelope : ℝ) ∧
          (V3.dot d v + envelope : ℝ) ≤ (B.slabs k).upper) → DopLe A B) := by
  obtain ⟨dir, hdir, h1, h2⟩ := table_dirs hK
  refine ⟨⟨K, fun k => if k < K then ⟨(KDOP.fitSlab (dir k) V).lower - (envelope : EReal),
    (KDOP.fitSlab (dir k) V).upper + (envelope : EReal)⟩ else Interval.init⟩, ?_, rfl, ?_, ?_⟩
  · unfold KDOP.make; rw [hdir]
  · intro v hv p hp k d hd
    simp only at hd
    obtain ⟨e, hk⟩ := h1 k d hd
    subst e
    simp only [hk, if_true]
    obtain ⟨a, b⟩ := (fitSlab_spec (dir k) V).1 v hv
    have hmem := hp (dir k) (List.mem_of_getElem? hd)
    rw [abs_le] at hmem
    constructor
    · refine le_trans (EReal.sub_le_sub a (le_refl _)) ?_
      rw [← EReal.coe_sub, EReal.coe_le_coe_iff]; linarith
    · refine le_trans ?_ (add_le_add b (le_refl _))
      rw [← EReal.coe_add, EReal.coe_le_coe_iff]; linarith
  · intro B hB hall
    refine ⟨hB.symm, ?_⟩
    intro k hk
    simp only at hk
    simp only [hk, if_true]
    constructor
    · rw [EReal.le_sub_iff_add_le (Or.inl (EReal.coe_ne_bot _)) (Or.inl (EReal.coe_ne_top _))]
      apply (fitSlab_spec (dir k) V).2.1
      intro v hv
      have := (hall v hv k _ (h2 k hk)).1
      rw [EReal.coe_sub, EReal.le_sub_iff_add_le (Or.inl (EReal.coe_ne_bot _)) (Or.inl (EReal.coe_ne_top _))] at this
      exact this
    · have key : (KDOP.fitSlab (dir k) V).upper ≤ (B.slabs k).upper - (envelope : EReal) := by
        apply (fitSlab_spec (dir k) V).2.2
        intro v hv
        rw [EReal.le_sub_iff_add_le (Or.inl (EReal.coe_ne_bot _)) (Or.inl (EReal.coe_ne_top _))]
        have := (hall v hv k _ (h2 k hk)).2
        rwa [EReal.coe_add] at this
      rwa [EReal.le_sub_iff_add_le (Or.inl (EReal.coe_ne_bot _)) (Or.inl (EReal.coe_ne_top _))] at key

theorem C17_make_unsupported (K : ℕ) (h3 : K ≠ 3) (h4 : K ≠ 4) (V : List V3) (e : ℝ) :
    KDOP.make K V e = .error .typeError := by
  simp [KDOP.make, KDOP.get_direction_table, h3, h4]

/-- C17: `make` contains the vertices (for a non-negative envelope), hence their convex hull. -/
theorem C17_make_contains_hull (K : ℕ) (hK : K = 3 ∨ K = 4) (V : List V3) (envelope : ℝ)
    (he : 0 ≤ envelope) (A : KDOP) (hA : KDOP.make K V envelope = .ok A) (p : V3)
    (hp : p ∈ convexHull ℝ {v | v ∈ V}) : InDop A p := by
  obtain ⟨A', hA', -, hin, -⟩ := C17_make K hK V envelope
  rw [hA] at hA'
  cases hA'
  have hconv : Convex ℝ {p | InDop A p} := by
    intro a ha b hb s t hs ht hst
    have : s = 1 - t := by linarith
    subst this
    exact C17_convex A a b ha hb t ht (by linarith)
  refine (convexHull_min ?_ hconv) hp
  intro v hv
  exact hin v hv v (by intro d _; simpa using he)

/-- C17: `union` of two k-DOPs with the same K is their least upper bound (so it contains all points
of both); different K raise RuntimeError in `union` and `overlap`. -/
theorem C17_union (A B : KDOP) :
    (A.K = B.K → ∃ U, KDOP.union A B = .ok U ∧ DopLe A U ∧ DopLe B U ∧
      (∀ p, InDop A p ∨ InDop B p → InDop U p) ∧
      (∀ C, DopLe A C → DopLe B C → DopLe U C)) ∧
    (A.K ≠ B.K → KDOP.union A B = .error .runtimeError ∧ KDOP.overlap A B = .error .runtimeError) := by
  constructor
  · intro h
    have hA : DopLe A ⟨A.K, fun k => if k < A.K then
      ⟨min (A.slabs k).lower (B.slabs k).lower, max (A.slabs k).upper (B.slabs k).upper⟩
        else Interval.init⟩ := by
      refine ⟨rfl, ?_⟩
      intro k hk
      simp only [hk, if_true]
      exact ⟨min_le_left _ _, le_max_left _ _⟩
    have hB : DopLe B ⟨A.K, fun k => if k < A.K then
      ⟨min (A.slabs k).lower (B.slabs k).lower, max (A.slabs k).upper (B.slabs k).upper⟩
        else Interval.init⟩ := by
      refine ⟨h.symm, ?_⟩
      intro k hk
      simp only [h, hk, if_true]
      exact ⟨min_le_right _ _, le_max_right _ _⟩
    refine ⟨_, by unfold KDOP.union; rw [if_neg (by simpa using h)], hA, hB, ?_, ?_⟩
    · rintro p (hp | hp)
      · exact hA.inDop hp
      · exact hB.inDop hp
    · intro C h1 h2
      refine ⟨h1.1, ?_⟩
      intro k hk
      simp only at hk
      simp only [hk, if_true]
      obtain ⟨a, b⟩ := h1.2 k hk
      obtain ⟨c, d⟩ := h2.2 k (h ▸ hk)
      exact ⟨le_min a c, max_le b d⟩
  · intro h
    exact ⟨by unfold KDOP.union; rw [if_pos h], by unfold KDOP.overlap; rw [if_pos h]⟩

theorem overlap_iff (A B : KDOP) (h : A.K = B.K) : ∃ b, KDOP.overlap A B = .ok b ∧ (b = true ↔
    ∀ k < A.K, (B.slabs k).lower ≤ (A.slabs k).upper ∧ (A.slabs k).lower ≤ (B.slabs k).upper) := by
  classical
  refine ⟨_, by unfold KDOP.overlap; rw [if_neg (by simpa using h)], ?_⟩
  rw [decide_eq_true_iff]
  push Not
  rfl

/-- C17: `overlap` is symmetric, never false for two k-DOPs that share a point, and monotone:
enlarging the volumes never loses an overlap. -/
theorem C17_overlap (A B : KDOP) :
    KDOP.overlap A B = KDOP.overlap B A ∧
    (∀ p, (A.K = 3 ∨ A.K = 4) → A.K = B.K → InDop A p → InDop B p → KDOP.overlap A B = .ok true) ∧
    (∀ A' B', DopLe A A' → DopLe B B' → KDOP.overlap A B = .ok true → KDOP.overlap A' B' = .ok true) := by
  have mono : ∀ A' B', DopLe A A' → DopLe B B' → KDOP.overlap A B = .ok true →
      KDOP.overlap A' B' = .ok true := by
    intro A' B' hA hB ho
    have hk : A.K = B.K := by
      by_contra h
      rw [((C17_union A B).2 h).2] at ho; cases ho
    obtain ⟨b, hb, hb2⟩ := overlap_iff A B hk
    rw [hb] at ho; injection ho with ho
    rw [ho] at hb2
    have h1 := hb2.mp rfl
    obtain ⟨c, hc, hc2⟩ := overlap_iff A' B' (by rw [← hA.1, ← hB.1, hk])
    rw [hc]
    congr 1
    rw [hc2]
    intro k hkk
    rw [← hA.1] at hkk
    obtain ⟨x1, x2⟩ := h1 k hkk
    obtain ⟨y1, y2⟩ := hA.2 k hkk
    obtain ⟨z1, z2⟩ := hB.2 k (hk ▸ hkk)
    exact ⟨z1.trans (x1.trans y2), y1.trans (x2.trans z2)⟩
  refine ⟨?_, ?_, mono⟩
  · by_cases h : A.K = B.K
    · obtain ⟨b, hb, hb2⟩ := overlap_iff A B h
      obtain ⟨c, hc, hc2⟩ := overlap_iff B A h.symm
      rw [hb, hc]
      congr 1
      rw [Bool.eq_iff_iff, hb2, hc2, h]
      constructor <;> intro H k hk <;> exact ⟨(H k hk).2, (H k hk).1⟩
    · rw [((C17_union A B).2 h).2, ((C17_union B A).2 (Ne.symm h)).2]
  · intro p hK h hA hB
    obtain ⟨b, hb, hb2⟩ := overlap_iff A B h
    rw [hb]
    congr 1
    rw [hb2]
    intro k hk
    obtain ⟨dir, -, -, hd⟩ := table_dirs hK
    obtain ⟨a1, a2⟩ := hA k _ (hd k hk)
    obtain ⟨b1, b2⟩ := hB k _ (h ▸ hd k hk)
    exact ⟨b1.trans a2, a1.trans b2⟩

/-- C17: for K = 3 (boxes) with real, non-empty slabs the overlap test is exact. -/
theorem C17_overlap_exact_boxes (A B : KDOP) (hA : A.K = 3) (hB : B.K = 3)
    (la ua lb ub : ℕ → ℝ)
    (hAs : ∀ k < 3, A.slabs k = ⟨(la k : ℝ), (ua k : ℝ)⟩) (hBs : ∀ k < 3, B.slabs k = ⟨(lb k : ℝ), (ub k : ℝ)⟩)
    (hla : ∀ k < 3, la k ≤ ua k) (hlb : ∀ k < 3, lb k ≤ ub k) :
    KDOP.overlap A B = .ok true ↔ ∃ p, InDop A p ∧ InDop B p := by
  constructor
  · intro ho
    obtain ⟨b, hb, hb2⟩ := overlap_iff A B (by rw [hA, hB])
    rw [hb] at ho; injection ho with ho
    rw [ho] at hb2
    have h := hb2.mp rfl
    rw [hA] at h
    have hx : ∀ k < 3, lb k ≤ ua k ∧ la k ≤ ub k := by
      intro k hk
      have := h k hk
      rw [hAs k hk, hBs k hk] at this
      simpa using this
    have pt : ∀ (C : KDOP) (l u : ℕ → ℝ) (p : V3), C.K = 3 → (∀ k < 3, C.slabs k = ⟨(l k : ℝ), (u k : ℝ)⟩) →
        (l 0 ≤ p.x ∧ p.x ≤ u 0) → (l 1 ≤ p.y ∧ p.y ≤ u 1) → (l 2 ≤ p.z ∧ p.z ≤ u 2) → InDop C p := by
      intro C l u p hC hs h0 h1 h2 k d hd
      rw [hC] at hd
      match k with
      | 0 => simp [dopDirs] at hd; subst hd; rw [hs 0 (by omega)]; simpa [V3.dot] using h0
      | 1 => simp [dopDirs] at hd; subst hd; rw [hs 1 (by omega)]; simpa [V3.dot] using h1
      | 2 => simp [dopDirs] at hd; subst hd; rw [hs 2 (by omega)]; simpa [V3.dot] using h2
      | (n + 3) => simp [dopDirs] at hd
    have a0 := hx 0 (by omega); have a1 := hx 1 (by omega); have a2 := hx 2 (by omega)
    have c0 := hla 0 (by omega); have c1 := hla 1 (by omega); have c2 := hla 2 (by omega)
    have d0 := hlb 0 (by omega); have d1 := hlb 1 (by omega); have d2 := hlb 2 (by omega)
    refine ⟨⟨max (la 0) (lb 0), max (la 1) (lb 1), max (la 2) (lb 2)⟩, pt A la ua _ hA hAs ?_ ?_ ?_,
      pt B lb ub _ hB hBs ?_ ?_ ?_⟩ <;> simp [a0, a1, a2, c0, c1, c2, d0, d1, d2]
  · rintro ⟨p, h1, h2⟩
    exact (C17_overlap A B).2.1 p (Or.inl hA) (by rw [hA, hB]) h1 h2

/-- concrete: the 4-DOP of two points exists and contains their midpoint -/
example (A : KDOP) (hA : KDOP.make 4 [⟨0,0,0⟩, ⟨2,0,0⟩] 0 = .ok A) : InDop A ⟨1,0,0⟩ := by
  refine C17_make_contains_hull 4 (Or.inr rfl) _ 0 (le_refl _) A hA _ ?_
  have h := (convex_convexHull ℝ {v | v ∈ [(⟨0,0,0⟩ : V3), ⟨2,0,0⟩]})
    (subset_convexHull ℝ _ (show (⟨0,0,0⟩ : V3) ∈ _ by simp))
    (subset_convexHull ℝ _ (show (⟨2,0,0⟩ : V3) ∈ _ by simp))
    (show (0:ℝ) ≤ 1/2 by norm_num) (show (0:ℝ) ≤ 1/2 by norm_num) (by norm_num)
  convert h using 1
  ext <;> simp

end Verif
