import Verif.Model.Vector3
import Verif.Lemmas.Vec
import Verif.Spec.Linear
import Verif.Lemmas.Quaternion
import Mathlib.Data.Prod.Lex

/-! # C07, C08: orthonormal frames and vector comparison -/

namespace Verif
open V3 Matrix

/-- The guess is one of the axes, along a component of `n` of least magnitude: on a unit vector,
that component squared is at most 1/3. -/
theorem tangentGuess_spec (n : V3) (hn : dot n n = 1) :
    let t := tangentGuess ⟨|n.x|, |n.y|, |n.z|⟩
    dot t t = 1 ∧ 3 * (dot n t) ^ 2 ≤ 1 := by
  have sx : |n.x| ^ 2 = n.x ^ 2 := sq_abs _
  have sy : |n.y| ^ 2 = n.y ^ 2 := sq_abs _
  have sz : |n.z| ^ 2 = n.z ^ 2 := sq_abs _
  have px := abs_nonneg n.x
  have py := abs_nonneg n.y
  have pz := abs_nonneg n.z
  simp only [dot] at hn
  simp only [tangentGuess]
  by_cases h3 : |n.z| ≤ |n.x| ∧ |n.z| ≤ |n.y|
  · simp only [h3, and_self, if_true]
    refine ⟨by simp [dot, k], ?_⟩
    have := pow_le_pow_left₀ pz h3.1 2
    have := pow_le_pow_left₀ pz h3.2 2
    simp [dot, k]; nlinarith
  · simp only [h3, if_false]
    by_cases h2 : |n.y| ≤ |n.x| ∧ |n.y| ≤ |n.z|
    · simp only [h2, and_self, if_true]
      refine ⟨by simp [dot, j], ?_⟩
      have := pow_le_pow_left₀ py h2.1 2
      have := pow_le_pow_left₀ py h2.2 2
      simp [dot, j]; nlinarith
    · simp only [h2, if_false]
      have h1 : |n.x| ≤ |n.y| ∧ |n.x| ≤ |n.z| := by
        by_contra hc
        have : ¬ (|n.z| ≤ |n.x| ∧ |n.z| ≤ |n.y|) := h3
        rw [not_and_or, not_le, not_le] at *
        rcases hc with a | a <;> rcases h2 with b | b <;> rcases h3 with c | c <;> linarith
      simp only [h1, and_self, if_true]
      refine ⟨by simp [dot, i], ?_⟩
      have := pow_le_pow_left₀ px h1.1 2
      have := pow_le_pow_left₀ px h1.2 2
      simp [dot, i]; nlinarith

/-- C07: for every non-zero vector the returned triple is an orthonormal right-handed frame whose
last vector is the normalised argument. -/
theorem C07_orthonormal_frame (n0 : V3) (h : n0 ≠ 0) :
    let (t, b, n) := make_orthonormal_vectors n0
    t.toFun ⬝ᵥ t.toFun = 1 ∧ b.toFun ⬝ᵥ b.toFun = 1 ∧ n.toFun ⬝ᵥ n.toFun = 1 ∧
      t.toFun ⬝ᵥ b.toFun = 0 ∧ b.toFun ⬝ᵥ n.toFun = 0 ∧ t.toFun ⬝ᵥ n.toFun = 0 ∧
      crossProduct t.toFun b.toFun = n.toFun ∧
      (∃ c : ℝ, 0 < c ∧ n0 = c • n) := by
  have hn1 : dot (unit n0) (unit n0) = 1 := unit_dot h
  have hdef : divs n0 (V3.norm n0) = unit n0 := rfl
  have hsc : ∃ c : ℝ, 0 < c ∧ n0 = c • unit n0 := by
    refine ⟨V3.norm n0, norm_pos h, ?_⟩
    have := (norm_pos h).ne'
    ext <;> simp [unit, divs] <;> field_simp
  simp only [make_orthonormal_vectors, hdef]
  generalize unit n0 = n at hn1 hsc ⊢
  obtain ⟨ht, hnt⟩ := tangentGuess_spec n hn1
  generalize tangentGuess ⟨|n.x|, |n.y|, |n.z|⟩ = t0 at ht hnt ⊢
  have hb0 : dot (cross n t0) (cross n t0) = 1 - dot n t0 ^ 2 := by
    rw [cross_dot_cross, hn1, ht]; ring
  have hbne : cross n t0 ≠ 0 := by
    intro e
    rw [e] at hb0
    have : dot (0 : V3) 0 = 0 := by simp [dot]
    rw [this] at hb0
    nlinarith
  have hbn : dot n (cross n t0) = 0 := dot_cross_left n t0
  have hb1 : dot (unit (cross n t0)) (unit (cross n t0)) = 1 := unit_dot hbne
  have hbn' : dot n (unit (cross n t0)) = 0 := by
    rw [unit, divs_eq_smul, dot_smul_right, hbn, mul_zero]
  have hdef2 : divs (cross n t0) (V3.norm (cross n t0)) = unit (cross n t0) := rfl
  rw [hdef2]
  generalize unit (cross n t0) = b at hb1 hbn' ⊢
  have e1 : dot (cross b n) (cross b n) = 1 := by
    rw [cross_dot_cross, hb1, hn1, dot_comm b n, hbn']; norm_num
  refine ⟨?_, ?_, ?_, ?_, ?_, ?_, ?_, hsc⟩
  · rw [toFun_dot]; exact e1
  · rw [toFun_dot]; exact hb1
  · rw [toFun_dot]; exact hn1
  · rw [toFun_dot, dot_comm]; exact dot_cross_left b n
  · rw [toFun_dot, dot_comm]; exact hbn'
  · rw [toFun_dot, dot_comm]; exact dot_cross_right b n
  · rw [← toFun_cross]
    congr 1
    simp only [dot] at hb1 hbn'
    ext <;> simp only [cross]
    · linear_combination n.x * hb1 - b.x * hbn'
    · linear_combination n.y * hb1 - b.y * hbn'
    · linear_combination n.z * hb1 - b.z * hbn'

/-- Non-vacuity, with a three-way tie of the component magnitudes. -/
example : (⟨1, -1, 1⟩ : V3) ≠ 0 := by
  intro h; have := congrArg V3.x h; simp at this

/-- The lexicographic order on triples, from Mathlib. -/
def lexKey (a : V3) : ℝ ×ₗ ℝ ×ₗ ℝ := toLex (a.x, toLex (a.y, a.z))

/-- C08: `less` is lexicographic order. -/
theorem C08_less_iff_lex (a b : V3) : less a b = true ↔ lexKey a < lexKey b := by
  rw [lexKey, lexKey, Prod.Lex.toLex_lt_toLex]
  simp only [Prod.Lex.toLex_lt_toLex]
  unfold less
  split_ifs <;> simp <;> grind

/-- C08: `greather` is the converse of `less`; the non-strict comparisons are the matching
non-strict lexicographic orders. -/
theorem C08_other_comparisons (a b : V3) :
    (greather a b = true ↔ lexKey b < lexKey a) ∧
    (less_than_equal a b = true ↔ lexKey a ≤ lexKey b) ∧
    (greather_than_equal a b = true ↔ lexKey b ≤ lexKey a) := by
  have hg : greather a b = true ↔ lexKey b < lexKey a := by
    rw [lexKey, lexKey, Prod.Lex.toLex_lt_toLex]
    simp only [Prod.Lex.toLex_lt_toLex]
    unfold greather
    split_ifs <;> simp <;> grind
  have hl := C08_less_iff_lex a b
  refine ⟨hg, ?_, ?_⟩
  · rw [← not_lt, ← hg]; simp [less_than_equal]
  · rw [← not_lt, ← hl]; simp [greather_than_equal]

/-- C08: `less` is a strict total order: irreflexive, transitive, and exactly one of
`a < b`, `a = b`, `b < a`. -/
theorem C08_less_strict_total_order (a b c : V3) :
    less a a = false ∧
    (less a b = true → less b c = true → less a c = true) ∧
    (less a b = true ∨ a = b ∨ less b a = true) ∧
    ¬ (less a b = true ∧ less b a = true) ∧
    (less a b = true → a ≠ b) := by
  have key : ∀ x y : V3, lexKey x = lexKey y → x = y := by
    intro x y h
    have h1 := congrArg (fun p => (ofLex p).1) h
    have h2 := congrArg (fun p => (ofLex (ofLex p).2).1) h
    have h3 := congrArg (fun p => (ofLex (ofLex p).2).2) h
    ext
    · exact h1
    · exact h2
    · exact h3
  have irr : ∀ x : V3, less x x = false := by
    intro x
    rw [Bool.eq_false_iff, Ne, C08_less_iff_lex]; exact lt_irrefl _
  refine ⟨irr a, ?_, ?_, ?_, ?_⟩
  · simp only [C08_less_iff_lex]; exact lt_trans
  · simp only [C08_less_iff_lex]
    rcases lt_trichotomy (lexKey a) (lexKey b) with h | h | h
    · exact Or.inl h
    · exact Or.inr (Or.inl (key a b h))
    · exact Or.inr (Or.inr h)
  · simp only [C08_less_iff_lex]; rintro ⟨h1, h2⟩; exact lt_asymm h1 h2
  · rintro h rfl; rw [irr a] at h; exact absurd h (by simp)

/-- Non-vacuity: a comparison decided by the last component. -/
example : less ⟨1, 2, 3⟩ ⟨1, 2, 4⟩ = true := by
  unfold less; norm_num

/-- `max_abs_component` returns the index of a component of largest magnitude. -/
theorem C08_max_abs_component (a : V3) (m : Fin 3) :
    |a.toFun m| ≤ |a.toFun (max_abs_component a)| := by
  unfold max_abs_component
  fin_cases m <;> (split_ifs with h1 h2) <;> simp [V3.toFun] <;> grind

end Verif
