import Verif.Props.MeshTopology

/-! C62: `to_triangles` and `to_tetrahedrons`. -/

namespace Verif

open VMesh

theorem flatMap4_get {α β : Type*} (f : α → List β) (hf : ∀ a, (f a).length = 4) :
    ∀ (L : List α) (e : ℕ) (a : α), L[e]? = some a → ∀ r < 4, (L.flatMap f)[4 * e + r]? = (f a)[r]?
  | [], e, a, h, r, hr => by simp at h
  | b :: L, 0, a, h, r, hr => by
    simp only [List.getElem?_cons_zero, Option.some.injEq] at h
    subst h
    rw [List.flatMap_cons, Nat.mul_zero, Nat.zero_add, List.getElem?_append_left (by rw [hf]; exact hr)]
  | b :: L, e + 1, a, h, r, hr => by
    rw [List.getElem?_cons_succ] at h
    rw [List.flatMap_cons, List.getElem?_append_right (by rw [hf]; omega), hf,
      show 4 * (e + 1) + r - 4 = 4 * e + r by omega]
    exact flatMap4_get f hf L e a h r hr

/-- Specification: the four oriented triangles are the four faces of a tetrahedron with corners i, j, k, m,
one opposite each corner, and each normal points away from the opposite corner whenever the volume is
positive. -/
def OutwardFaces (i j k m : ℕ) (F : List VMesh.Tri) : Prop :=
  ∃ f0 f1 f2 f3 : VMesh.Tri, F = [f0, f1, f2, f3] ∧
    [f0.a, f0.b, f0.c].Perm [i, j, k] ∧ [f1.a, f1.b, f1.c].Perm [i, j, m] ∧
    [f2.a, f2.b, f2.c].Perm [j, k, m] ∧ [f3.a, f3.b, f3.c].Perm [i, k, m] ∧
    ∀ pos : ℕ → V3, 0 < meshVol pos ⟨i, j, k, m⟩ →
      side pos f0 (pos m) < 0 ∧ side pos f1 (pos k) < 0 ∧ side pos f2 (pos i) < 0 ∧ side pos f3 (pos j) < 0

theorem outward_pattern (i j k m : ℕ) : OutwardFaces i j k m [⟨j, i, k⟩, ⟨i, j, m⟩, ⟨j, k, m⟩, ⟨k, i, m⟩] := by
  refine ⟨_, _, _, _, rfl, List.Perm.swap _ _ _, List.Perm.refl _, List.Perm.refl _, List.Perm.swap _ _ _, ?_⟩
  intro pos hv
  have key : ∀ f p, side pos f p = -6 * meshVol pos ⟨i, j, k, m⟩ → side pos f p < 0 := by
    intro f p h
    rw [h]
    linarith
  refine ⟨key _ _ ?_, key _ _ ?_, key _ _ ?_, key _ _ ?_⟩ <;>
    · simp only [side, meshVol, V3.dot, V3.cross, V3.sub_x, V3.sub_y, V3.sub_z]
      ring

/-- **C62** (`to_triangles`). The face array has four rows per tetrahedron: rows 4e, ..., 4e+3 are the four
faces of tetrahedron e, oriented outwards. -/
theorem C62_to_triangles (T : List Tet) :
    (to_triangles T).length = 4 * T.length ∧
    ∀ (e : ℕ) t, T[e]? = some t → ∃ F, OutwardFaces t.i t.j t.k t.m F ∧
      ∀ r < 4, (to_triangles T)[4 * e + r]? = F[r]? := by
  constructor
  · unfold to_triangles
    rw [List.length_flatMap]
    simp [mul_comm]
  · intro e t ht
    exact ⟨_, outward_pattern _ _ _ _, flatMap4_get _ (fun _ => rfl) T e t ht⟩

/-- the four scaled corners -/
noncomputable def shrunk (pos : ℕ → V3) (scale : ℝ) (t : Tet) : List V3 :=
  let c := V3.divs (pos t.i + pos t.j + pos t.k + pos t.m) 4
  [c + scale • (pos t.i - c), c + scale • (pos t.j - c), c + scale • (pos t.k - c), c + scale • (pos t.m - c)]

/-- the faces written for tetrahedron number e -/
def idxFaces (te : Tet × ℕ) : List VMesh.Tri :=
  [⟨te.2 * 4 + 1, te.2 * 4 + 0, te.2 * 4 + 2⟩, ⟨te.2 * 4 + 0, te.2 * 4 + 1, te.2 * 4 + 3⟩,
   ⟨te.2 * 4 + 1, te.2 * 4 + 2, te.2 * 4 + 3⟩, ⟨te.2 * 4 + 2, te.2 * 4 + 0, te.2 * 4 + 3⟩]

theorem to_tetrahedrons_eq (V : List V3) (T : List Tet) (scale : ℝ)
    (hT : ∀ t ∈ T, t.i < V.length ∧ t.j < V.length ∧ t.k < V.length ∧ t.m < V.length) :
    to_tetrahedrons V T scale =
      .ok (T.flatMap (shrunk (fun n => V.getD n V3.zero) scale), T.zipIdx.flatMap idxFaces) := by
  have hget : ∀ n < V.length, vget V n = .ok (V.getD n V3.zero) := by
    intro n hn
    unfold vget
    simp [List.getElem?_eq_getElem hn]
  have hbody : ∀ t ∈ T, ∀ e, toTetBody V scale e t =
      .ok (shrunk (fun n => V.getD n V3.zero) scale t, idxFaces (t, e)) := by
    intro t ht e
    obtain ⟨h1, h2, h3, h4⟩ := hT t ht
    unfold toTetBody
    rw [hget _ h1, hget _ h2, hget _ h3, hget _ h4]
    rfl
  have key : ∀ (L : List Tet) (n : ℕ) (acc : List V3 × List VMesh.Tri), (∀ t ∈ L, t ∈ T) →
      (L.zipIdx n).foldlM (fun acc te => do
        let r ← toTetBody V scale te.2 te.1
        (.ok (acc.1 ++ r.1, acc.2 ++ r.2) : Except PyErr (List V3 × List VMesh.Tri))) acc =
      .ok (acc.1 ++ L.flatMap (shrunk (fun n => V.getD n V3.zero) scale), acc.2 ++ (L.zipIdx n).flatMap idxFaces) := by
    intro L
    induction L with
    | nil => intro n acc _; simp [pure, Except.pure]
    | cons t L ih =>
      intro n acc hL
      rw [List.zipIdx_cons, List.foldlM_cons, hbody t (hL t (by simp)) n]
      refine (ih (n + 1) (acc.1 ++ shrunk (fun n => V.getD n V3.zero) scale t, acc.2 ++ idxFaces (t, n))
        (fun s hs => hL s (by simp [hs]))).trans ?_
      simp [List.flatMap_cons]
  have := key T 0 ([], []) (fun t h => h)
  rw [List.nil_append, List.nil_append] at this
  exact this

/-- **C62** (`to_tetrahedrons`). On a mesh with valid indices the function succeeds; it gives four new
vertices and four faces per tetrahedron: the new corners of tetrahedron e are rows 4e, ..., 4e+3, namely its
corners moved towards their mean by the scale factor; the mean is unchanged, the signed volume is multiplied
by the cube of the scale, and the four faces join these four new vertices and are oriented outwards. -/
theorem C62_to_tetrahedrons (V : List V3) (T : List Tet) (scale : ℝ)
    (hT : ∀ t ∈ T, t.i < V.length ∧ t.j < V.length ∧ t.k < V.length ∧ t.m < V.length) :
    ∃ W F, to_tetrahedrons V T scale = .ok (W, F) ∧ W.length = 4 * T.length ∧ F.length = 4 * T.length ∧
      ∀ (e : ℕ) t p0 p1 p2 p3, T[e]? = some t → V[t.i]? = some p0 → V[t.j]? = some p1 → V[t.k]? = some p2 →
        V[t.m]? = some p3 →
        ∃ q0 q1 q2 q3 G, W[4 * e]? = some q0 ∧ W[4 * e + 1]? = some q1 ∧ W[4 * e + 2]? = some q2 ∧
          W[4 * e + 3]? = some q3 ∧
          q0 - q1 = scale • (p0 - p1) ∧ q0 - q2 = scale • (p0 - p2) ∧ q0 - q3 = scale • (p0 - p3) ∧
          q0 + q1 + q2 + q3 = p0 + p1 + p2 + p3 ∧
          Tetra.compute_signed_volume q0 q1 q2 q3 = scale ^ 3 * Tetra.compute_signed_volume p0 p1 p2 p3 ∧
          OutwardFaces (4 * e) (4 * e + 1) (4 * e + 2) (4 * e + 3) G ∧
          ∀ r < 4, F[4 * e + r]? = G[r]? := by
  refine ⟨_, _, to_tetrahedrons_eq V T scale hT, ?_, ?_, ?_⟩
  · rw [List.length_flatMap]
    simp [shrunk, mul_comm]
  · rw [List.length_flatMap]
    simp [idxFaces, mul_comm]
  · intro e t p0 p1 p2 p3 ht h0 h1 h2 h3
    have hW := flatMap4_get (shrunk (fun n => V.getD n V3.zero) scale) (fun _ => rfl) T e t ht
    have hF := flatMap4_get idxFaces (fun _ => rfl) T.zipIdx e (t, e) (by
      rw [List.getElem?_zipIdx, ht]; simp)
    have g : ∀ n p, V[n]? = some p → V.getD n V3.zero = p := by
      intro n p h
      simp [h]
    have g0 := g _ _ h0
    have g1 := g _ _ h1
    have g2 := g _ _ h2
    have g3 := g _ _ h3
    have hs : shrunk (fun n => V.getD n V3.zero) scale t =
        [V3.divs (p0 + p1 + p2 + p3) 4 + scale • (p0 - V3.divs (p0 + p1 + p2 + p3) 4),
         V3.divs (p0 + p1 + p2 + p3) 4 + scale • (p1 - V3.divs (p0 + p1 + p2 + p3) 4),
         V3.divs (p0 + p1 + p2 + p3) 4 + scale • (p2 - V3.divs (p0 + p1 + p2 + p3) 4),
         V3.divs (p0 + p1 + p2 + p3) 4 + scale • (p3 - V3.divs (p0 + p1 + p2 + p3) 4)] := by
      unfold shrunk
      simp only [g0, g1, g2, g3]
    rw [hs] at hW
    refine ⟨_, _, _, _, _, hW 0 (by omega), hW 1 (by omega), hW 2 (by omega), hW 3 (by omega), ?_, ?_, ?_, ?_, ?_,
      ?_, hF⟩
    · ext <;> simp [V3.divs] <;> ring
    · ext <;> simp [V3.divs] <;> ring
    · ext <;> simp [V3.divs] <;> ring
    · ext <;> simp [V3.divs] <;> ring
    · generalize V3.divs (p0 + p1 + p2 + p3) 4 = c
      simp only [Tetra.compute_signed_volume, V3.dot, V3.cross, V3.sub_x, V3.sub_y, V3.sub_z, V3.add_x, V3.add_y,
        V3.add_z, V3.smul_x, V3.smul_y, V3.smul_z]
      ring
    · have := outward_pattern (4 * e) (4 * e + 1) (4 * e + 2) (4 * e + 3)
      unfold idxFaces
      simpa [mul_comm] using this

/-- The hypotheses are met by the unit tetrahedron. -/
example : ∃ (V : List V3) (T : List Tet), T ≠ [] ∧
    ∀ t ∈ T, t.i < V.length ∧ t.j < V.length ∧ t.k < V.length ∧ t.m < V.length :=
  ⟨[⟨0,0,0⟩, ⟨1,0,0⟩, ⟨0,1,0⟩, ⟨0,0,1⟩], [⟨0,1,2,3⟩], by simp, by simp⟩

end Verif
