import Verif.Model.SoftCollision
import Verif.Props.CollisionComplete
import Verif.Props.Barycentric
import Verif.Props.SpatialHashPhase
import Verif.Props.MeshTopology
import Verif.Lemmas.Soft

/-! C82: the contacts soft body collision detection reports. -/

namespace Verif

open VMesh (Tri Tet)
open SoftCollision

/-! ### Specification -/

/-- `w` are the barycentric coordinates of p in the tetrahedron X. -/
def IsBary (X : Fin 4 → V3) (p : V3) (w : Fin 4 → ℝ) : Prop :=
  ∑ i, w i = 1 ∧ ∑ i, w i • X i = p

/-- Six times the signed volume of a tetrahedron. -/
def vol6 (X : Fin 4 → V3) : ℝ := V3.dot (X 3 - X 0) (V3.cross (X 1 - X 0) (X 2 - X 0))

/-- Corner number i of tetrahedron t at the positions V. -/
def tetPos (V : List V3) (t : Tet) (i : Fin 4) : V3 := V.getD (nodeOf t i) 0

/-- The triangle f is the face of the tetrahedron t that does not contain the local corner v. -/
def IsFaceOf (t : Tet) (v : ℕ) (f : Tri) : Prop := v < 4 ∧ [f.a, f.b, f.c].Perm (oppFace t v)

section
variable {N : ℕ}

/-- Point p lies on the triangle f with the corner positions V. -/
def OnFace (V : List V3) (f : Tri) (p : V3) : Prop := OnTriangle p (V.getD f.a 0) (V.getD f.b 0) (V.getD f.c 0)

/-- The three scalar products of y with the edges from the last corner of a tetrahedron. -/
def edgeDots (X : Fin 4 → V3) (y : V3) : V3 := ⟨V3.dot (X 0 - X 3) y, V3.dot (X 1 - X 3) y, V3.dot (X 2 - X 3) y⟩

/-- How the code makes the normal n from the gradient d at the material point: n is the unit vector along the scalar products of the
deformed edges with the vector y whose scalar products with the material edges are the components of d. -/
def PushedNormal (X0 X : Fin 4 → V3) (d n : V3) : Prop := ∃ y, edgeDots X0 y = d ∧ n = V3.unit (edgeDots X y)

/-- What a reported contact means.  The contact lies on a surface triangle f of body B; its weights in the tetrahedron behind f are
non-negative with no weight on the inner corner; it has a unit normal; its weights in the tetrahedron of body A reproduce the
position, and at the material point with the same weights the distance field of body A has the value reported as gap, at most
the envelope; the normal comes from the gradient of the field there. -/
structure IsSoftContact (P : Collision.CDParams) (B : Fin N → Body) (c : Contact N) : Prop where
  unit_normal : V3.dot c.n c.n = 1
  near : c.g ≤ P.envelope
  on_B : ∃ (m : ℕ) (f : Tri) (o : ℕ × ℕ) (t : Tet), (B c.bodyB).surface[m]? = some f ∧ (B c.bodyB).owners[m]? = some o ∧ o.1 = c.idx_tetB ∧
    (B c.bodyB).T[c.idx_tetB]? = some t ∧ OnFace (B c.bodyB).x f c.p ∧ IsBary (tetPos (B c.bodyB).x t) c.p c.omegaB ∧
    (IsFaceOf t o.2 f → (∀ i, 0 ≤ c.omegaB i) ∧ ∀ i : Fin 4, i = o.2 → c.omegaB i = 0)
  in_A : ∃ (o : ℕ × ℕ) (t : Tet) (x : V3), o ∈ (B c.bodyA).owners ∧
    o.1 = c.idx_tetA ∧ (B c.bodyA).T[c.idx_tetA]? = some t ∧
    IsBary (tetPos (B c.bodyA).x t) c.p c.omegaA ∧ IsBary (tetPos (B c.bodyA).x0 t) x c.omegaA ∧
    (B c.bodyA).grid.get_value x = .ok c.g ∧ (B c.bodyA).grid.is_inside x = .ok true ∧
    ∃ d, (B c.bodyA).grid.get_gradient x = .ok d ∧ d ≠ 0 ∧ PushedNormal (tetPos (B c.bodyA).x0 t) (tetPos (B c.bodyA).x t) d c.n

end

/-! ### Barycentric coordinates -/

theorem sum4_V3 (f : Fin 4 → V3) : ∑ i, f i = f 0 + f 1 + f 2 + f 3 := Fin.sum_univ_four f

theorem bary_ok {X : Fin 4 → V3} {p : V3} {w : Fin 4 → ℝ} (h : bary X p = .ok w) :
    IsBary X p w ∧ vol6 X ≠ 0 ∧ ∀ w', IsBary X p w' → w' = w := by
  have hv : vol6 X ≠ 0 := by
    intro h0
    unfold bary at h
    rw [(C26_degenerate (X 0) (X 1) (X 2) (X 3) p).2 h0] at h
    cases h
  obtain ⟨w1, w2, w3, w4, h1, h2, h3, h4, -⟩ := C26_tetrahedron (X 0) (X 1) (X 2) (X 3) p hv
  unfold bary at h
  rw [h1] at h
  cases h
  refine ⟨⟨?_, ?_⟩, hv, ?_⟩
  · rw [Fin.sum_univ_four]; exact h2
  · rw [sum4_V3]; exact h3
  · intro w' hw
    obtain ⟨a, b⟩ := hw
    rw [Fin.sum_univ_four] at a
    rw [sum4_V3] at b
    obtain ⟨e1, e2, e3, e4⟩ := h4 _ _ _ _ a b
    funext i
    have : ∀ i : Fin 4, i = 0 ∨ i = 1 ∨ i = 2 ∨ i = 3 := by decide
    rcases this i with rfl | rfl | rfl | rfl
    · exact e1
    · exact e2
    · exact e3
    · exact e4

theorem bary_total {X : Fin 4 → V3} (h : vol6 X ≠ 0) (p : V3) : ∃ w, bary X p = .ok w := by
  obtain ⟨w1, w2, w3, w4, h1, -⟩ := C26_tetrahedron (X 0) (X 1) (X 2) (X 3) p h
  refine ⟨![w1, w2, w3, w4], ?_⟩
  unfold bary
  rw [h1]
  rfl

theorem interpolate_eq (X : Fin 4 → V3) (w : Fin 4 → ℝ) : interpolate X w = ∑ i, w i • X i := (sum4_V3 fun i => w i • X i).symm

/-- barycentric coordinates of an affine combination -/
theorem isBary_comb {X : Fin 4 → V3} {a b c : V3} {wa wb wc : Fin 4 → ℝ} {u v w : ℝ} (hs : u + v + w = 1) (ha : IsBary X a wa)
    (hb : IsBary X b wb) (hc : IsBary X c wc) : IsBary X (u • a + v • b + w • c) (fun i => u * wa i + v * wb i + w * wc i) := by
  obtain ⟨a1, a2⟩ := ha
  obtain ⟨b1, b2⟩ := hb
  obtain ⟨c1, c2⟩ := hc
  constructor
  · rw [Finset.sum_add_distrib, Finset.sum_add_distrib, ← Finset.mul_sum, ← Finset.mul_sum, ← Finset.mul_sum, a1, b1, c1]
    linarith
  · rw [← a2, ← b2, ← c2]
    simp only [Finset.smul_sum, ← Finset.sum_add_distrib]
    refine Finset.sum_congr rfl fun i _ => ?_
    rw [add_smul, add_smul, mul_smul, mul_smul, mul_smul]

/-- a corner has the coordinates of a corner -/
theorem isBary_corner (X : Fin 4 → V3) (i : Fin 4) : IsBary X (X i) (fun j => if j = i then 1 else 0) := by
  constructor
  · simp
  · simp [Finset.sum_ite_eq', ite_smul]

/-- a point of a face of the tetrahedron: non-negative weights, none on the opposite corner -/
theorem isBary_face {V : List V3} {t : Tet} {v : ℕ} {f : Tri} (hf : IsFaceOf t v f) {p : V3} (hp : OnFace V f p) :
    ∃ w, IsBary (tetPos V t) p w ∧ (∀ i, 0 ≤ w i) ∧ ∀ i : Fin 4, i = v → w i = 0 := by
  obtain ⟨hv, hperm⟩ := hf
  have hnode : ∀ n ∈ [f.a, f.b, f.c], ∃ i : Fin 4, (i : ℕ) ≠ v ∧ nodeOf t i = n := by
    intro n hn
    have := hperm.subset hn
    have h4 : v = 0 ∨ v = 1 ∨ v = 2 ∨ v = 3 := by omega
    rcases h4 with rfl | rfl | rfl | rfl <;> simp only [oppFace, List.mem_cons, List.not_mem_nil, or_false] at this <;>
      rcases this with rfl | rfl | rfl
    · exact ⟨1, by decide, rfl⟩
    · exact ⟨2, by decide, rfl⟩
    · exact ⟨3, by decide, rfl⟩
    · exact ⟨0, by decide, rfl⟩
    · exact ⟨2, by decide, rfl⟩
    · exact ⟨3, by decide, rfl⟩
    · exact ⟨0, by decide, rfl⟩
    · exact ⟨1, by decide, rfl⟩
    · exact ⟨3, by decide, rfl⟩
    · exact ⟨0, by decide, rfl⟩
    · exact ⟨1, by decide, rfl⟩
    · exact ⟨2, by decide, rfl⟩
  obtain ⟨i, hi, ei⟩ := hnode f.a (by simp)
  obtain ⟨j, hj, ej⟩ := hnode f.b (by simp)
  obtain ⟨k, hk, ek⟩ := hnode f.c (by simp)
  obtain ⟨a, b, c, ha, hb, hc, hs, rfl⟩ := hp
  have this := isBary_comb hs (isBary_corner (tetPos V t) i) (isBary_corner (tetPos V t) j) (isBary_corner (tetPos V t) k)
  have e : ∀ {m : Fin 4} {n : ℕ}, nodeOf t m = n → tetPos V t m = V.getD n 0 := by
    rintro m n rfl; rfl
  rw [e ei, e ej, e ek] at this
  refine ⟨_, this, ?_, ?_⟩
  all_goals intro m
  · positivity
  · intro hm
    have n1 : m ≠ i := by rintro rfl; exact hi hm
    have n2 : m ≠ j := by rintro rfl; exact hj hm
    have n3 : m ≠ k := by rintro rfl; exact hk hm
    simp [n1, n2, n3]

/-! ### Soundness of one row -/

section
variable {N : ℕ}

theorem bvhLookup_getD {V : List V3} {i : ℕ} {p : V3} (h : BVH.lookup V i = .ok p) : p = V.getD i 0 := by
  unfold BVH.lookup at h
  cases hv : V[i]? with
  | none => rw [hv] at h; cases h
  | some q => rw [hv] at h; cases h; rw [List.getD_eq_getElem?_getD, hv]; rfl

theorem tetCorners_ok {V : List V3} {T : List Tet} {e : ℕ} {X : Fin 4 → V3} (h : tetCorners V T e = .ok X) :
    ∃ t, T[e]? = some t ∧ X = tetPos V t := by
  unfold tetCorners at h
  cases ht : T[e]? with
  | none => rw [ht] at h; cases h
  | some t =>
    rw [ht] at h
    simp only [bind, Except.bind] at h
    refine ⟨t, rfl, ?_⟩
    cases h1 : BVH.lookup V t.i with
    | error _ => rw [h1] at h; cases h
    | ok a =>
    cases h2 : BVH.lookup V t.j with
    | error _ => rw [h1, h2] at h; cases h
    | ok b =>
    cases h3 : BVH.lookup V t.k with
    | error _ => rw [h1, h2, h3] at h; cases h
    | ok c =>
    cases h4 : BVH.lookup V t.m with
    | error _ => rw [h1, h2, h3, h4] at h; cases h
    | ok d =>
      rw [h1, h2, h3, h4] at h
      cases h
      funext i
      have : ∀ i : Fin 4, i = 0 ∨ i = 1 ∨ i = 2 ∨ i = 3 := by decide
      rcases this i with rfl | rfl | rfl | rfl
      · exact bvhLookup_getD h1
      · exact bvhLookup_getD h2
      · exact bvhLookup_getD h3
      · exact bvhLookup_getD h4

theorem owner_ok {b : Body} {t : ℤ} {e : ℕ} (h : owner b t = .ok e) : ∃ (m : ℕ) (o : ℕ × ℕ), t = m ∧ b.owners[m]? = some o ∧ o.1 = e := by
  unfold owner at h
  split at h
  · cases h
  · rename_i o ho
    split_ifs at ho with h0
    cases h
    exact ⟨t.toNat, o, by omega, ho, rfl⟩

theorem corners_row {V : List V3} {T : List Tri} {m : ℕ} {p : Fin 3 → V3} (h : Collision.corners V T (m : ℤ) = .ok p) :
    ∃ f, T[m]? = some f ∧ p 0 = V.getD f.a 0 ∧ p 1 = V.getD f.b 0 ∧ p 2 = V.getD f.c 0 := by
  unfold Collision.corners at h
  rw [if_pos (by positivity), Int.toNat_natCast] at h
  cases ht : T[m]? with
  | none => rw [ht] at h; cases h
  | some t =>
    rw [ht] at h
    simp only [bind, Except.bind] at h
    refine ⟨t, rfl, ?_⟩
    cases h1 : BVH.lookup V t.a with
    | error _ => rw [h1] at h; cases h
    | ok a =>
    cases h2 : BVH.lookup V t.b with
    | error _ => rw [h1, h2] at h; cases h
    | ok b =>
    cases h3 : BVH.lookup V t.c with
    | error _ => rw [h1, h2, h3] at h; cases h
    | ok c =>
      rw [h1, h2, h3] at h
      cases h
      exact ⟨bvhLookup_getD h1, bvhLookup_getD h2, bvhLookup_getD h3⟩

theorem xform_triangle_ok {tri P0 : Fin 3 → V3} {X X0 : Fin 4 → V3} (h : xform_triangle_to_model_space tri X X0 = .ok P0) :
    ∀ k, ∃ w, IsBary X (tri k) w ∧ P0 k = interpolate X0 w := by
  unfold xform_triangle_to_model_space at h
  simp only [bind, Except.bind] at h
  cases h1 : bary X (tri 0) with
  | error _ => rw [h1] at h; cases h
  | ok w0 =>
  cases h2 : bary X (tri 1) with
  | error _ => rw [h1, h2] at h; cases h
  | ok w1 =>
  cases h3 : bary X (tri 2) with
  | error _ => rw [h1, h2, h3] at h; cases h
  | ok w2 =>
    rw [h1, h2, h3] at h
    cases h
    intro k
    have : ∀ i : Fin 3, i = 0 ∨ i = 1 ∨ i = 2 := by decide
    rcases this k with rfl | rfl | rfl
    · exact ⟨w0, (bary_ok h1).1, rfl⟩
    · exact ⟨w1, (bary_ok h2).1, rfl⟩
    · exact ⟨w2, (bary_ok h3).1, rfl⟩

theorem interp_isBary {X : Fin 4 → V3} {w : Fin 4 → ℝ} (h : ∑ i, w i = 1) : IsBary X (interpolate X w) w :=
  ⟨h, (interpolate_eq X w).symm⟩

/-- The material point x of the searched triangle goes back to the matching point of the world triangle. -/
theorem warp_back {tri P0 : Fin 3 → V3} {X X0 : Fin 4 → V3} (h : xform_triangle_to_model_space tri X X0 = .ok P0) {x : V3}
    (hx : OnTriangle x (P0 0) (P0 1) (P0 2)) {w : Fin 4 → ℝ} (hw : bary X0 x = .ok w) :
    OnTriangle (interpolate X w) (tri 0) (tri 1) (tri 2) := by
  obtain ⟨w0, b0, e0⟩ := xform_triangle_ok h 0
  obtain ⟨w1, b1, e1⟩ := xform_triangle_ok h 1
  obtain ⟨w2, b2, e2⟩ := xform_triangle_ok h 2
  obtain ⟨u, v, s, hu, hv, hs, hsum, rfl⟩ := hx
  refine ⟨u, v, s, hu, hv, hs, hsum, ?_⟩
  rw [e0, e1, e2] at hw
  have hB := isBary_comb hsum (interp_isBary (X := X0) b0.1) (interp_isBary (X := X0) b1.1) (interp_isBary (X := X0) b2.1)
  rw [← (bary_ok hw).2.2 _ hB, interpolate_eq]
  exact (isBary_comb hsum b0 b1 b2).2

/-- the pieces of a contact -/
theorem softContactAt_some {P : Collision.CDParams} {kA kB : Fin N} {bA bB : Body} {eA eB : ℕ} {XB X0B : Fin 4 → V3} {x : V3} {c : Contact N}
    (h : contactAt P kA kB bA bB eA eB XB X0B x = .ok (some c)) :
    c.bodyA = kB ∧ c.bodyB = kA ∧ c.idx_tetA = eB ∧ c.idx_tetB = eA ∧ c.g ≤ P.envelope ∧ bB.grid.get_value x = .ok c.g ∧
      bB.grid.is_inside x = .ok true ∧ bary X0B x = .ok c.omegaA ∧ c.p = interpolate XB c.omegaA ∧
      ∃ XA d y, tetCorners bA.x bA.T eA = .ok XA ∧ bary XA c.p = .ok c.omegaB ∧ bB.grid.get_gradient x = .ok d ∧ 0 < V3.norm d ∧
        M3.solve (edgeRows X0B) d = .ok y ∧ c.n = V3.unit ((edgeRows XB).mulVec y) ∧ |1 - V3.norm c.n| ≤ 1 / 10 := by
  unfold contactAt at h
  simp only [bind, Except.bind, pure, Except.pure] at h
  cases h1 : bB.grid.is_inside x with
  | error _ => rw [h1] at h; cases h
  | ok inside =>
  rw [h1] at h
  simp only at h
  cases inside with
  | false => simp at h
  | true =>
  simp only [if_true] at h
  cases h2 : bB.grid.get_value x with
  | error _ => rw [h2] at h; cases h
  | ok phi =>
  rw [h2] at h
  simp only at h
  split_ifs at h with hphi
  swap
  · simp at h
  cases h3 : bB.grid.get_gradient x with
  | error _ => rw [h3] at h; cases h
  | ok d =>
  rw [h3] at h
  simp only at h
  split_ifs at h with hd
  swap
  · simp at h
  cases h4 : tetCorners bA.x bA.T eA with
  | error _ => rw [h4] at h; cases h
  | ok XA =>
  rw [h4] at h
  simp only at h
  unfold xform_contact_to_world at h
  simp only [bind, Except.bind, pure, Except.pure] at h
  cases h5 : bary X0B x with
  | error _ => rw [h5] at h; cases h
  | ok wB =>
  rw [h5] at h
  simp only at h
  cases h6 : bary XA (interpolate XB wB) with
  | error _ => rw [h6] at h; cases h
  | ok wA =>
  rw [h6] at h
  simp only at h
  cases h7 : M3.solve (edgeRows X0B) d with
  | error _ => rw [h7] at h; cases h
  | ok y =>
  rw [h7] at h
  simp only at h
  unfold Contact.init at h
  split_ifs at h with hn
  simp only at h
  cases h
  refine ⟨rfl, rfl, rfl, rfl, hphi, rfl, rfl, by first | exact h5 | rfl, rfl, XA, d, y, rfl, by first | exact h6 | rfl, rfl, hd, by first | exact h7 | rfl, rfl, ?_⟩
  simp only at hn
  have : (1.0 : ℝ) = 1 := by norm_num
  rw [this, not_lt] at hn
  refine hn.trans (by norm_num)

theorem edgeRows_det (X : Fin 4 → V3) : (edgeRows X).det = -vol6 X := by
  simp only [edgeRows, M3.det, M3.make_from_rows, vol6, V3.dot, V3.cross, V3.sub_x, V3.sub_y, V3.sub_z]
  ring

theorem mulVec_ne_zero {A : M3} (h : A.det ≠ 0) {y : V3} (hy : y ≠ 0) : A.mulVec y ≠ 0 := by
  intro e
  apply hy
  apply M3.mulVec_inj h
  rw [e]
  ext <;> simp [M3.mulVec]

theorem edgeDots_eq (X : Fin 4 → V3) (y : V3) : edgeDots X y = (edgeRows X).mulVec y := rfl

/-- One row of the list of triangle pairs. -/
theorem rowContact_sound {P : Collision.CDParams} {B : Fin N → Body} {kA kB : Fin N} {row : ℤ × ℤ} {c : Contact N}
    (h : rowContact P kA kB (B kA) (B kB) row = .ok (some c)) :
    c.bodyA = kB ∧ c.bodyB = kA ∧ IsSoftContact P B c := by
  unfold rowContact at h
  simp only [bind, Except.bind] at h
  cases h1 : owner (B kA) row.1 with
  | error _ => rw [h1] at h; cases h
  | ok eA =>
  rw [h1] at h
  simp only at h
  cases h2 : owner (B kB) row.2 with
  | error _ => rw [h2] at h; cases h
  | ok eB =>
  rw [h2] at h
  simp only at h
  cases h3 : Collision.corners (B kA).x (B kA).surface row.1 with
  | error _ => rw [h3] at h; cases h
  | ok tri =>
  rw [h3] at h
  simp only at h
  cases h4 : tetCorners (B kB).x (B kB).T eB with
  | error _ => rw [h4] at h; cases h
  | ok XB =>
  rw [h4] at h
  simp only at h
  cases h5 : tetCorners (B kB).x0 (B kB).T eB with
  | error _ => rw [h5] at h; cases h
  | ok X0B =>
  rw [h5] at h
  simp only at h
  cases h6 : xform_triangle_to_model_space tri XB X0B with
  | error _ => rw [h6] at h; cases h
  | ok P0 =>
  rw [h6] at h
  simp only at h
  cases h7 : Collision.frankWolfe P (B kB).grid P0 with
  | error _ => rw [h7] at h; cases h
  | ok x =>
  rw [h7] at h
  simp only at h
  obtain ⟨cA, cB, tA, tB, hg, hv, hin, hw, hp, XA, d, y, h8, hwB, hd, hd0, hy, hn, -⟩ := softContactAt_some h
  obtain ⟨mA, oA, e1, e2, e3⟩ := owner_ok h1
  obtain ⟨mB, oB, f1, f2, f3⟩ := owner_ok h2
  rw [e1] at h3
  obtain ⟨f, hf, k0, k1, k2⟩ := corners_row h3
  obtain ⟨tB', ht1, hX⟩ := tetCorners_ok h4
  obtain ⟨tB'', ht2, hX0⟩ := tetCorners_ok h5
  rw [ht1] at ht2
  cases ht2
  obtain ⟨tA', ht3, hXA⟩ := tetCorners_ok h8
  have hfw := C51_in_triangle h7
  have hon := warp_back h6 hfw hw
  rw [k0, k1, k2, ← hp] at hon
  refine ⟨cA, cB, ?_, hg, ?_, ?_⟩
  · have hdd : d ≠ 0 := by rintro rfl; rw [V3.norm_eq_zero.mpr rfl] at hd0; exact lt_irrefl _ hd0
    have hv0 : vol6 X0B ≠ 0 := (bary_ok hw).2.1
    have hvX : vol6 XB ≠ 0 := by
      unfold xform_triangle_to_model_space at h6
      simp only [bind, Except.bind] at h6
      cases hb : bary XB (tri 0) with
      | error _ => rw [hb] at h6; cases h6
      | ok w => exact (bary_ok hb).2.1
    have hy0 : y ≠ 0 := by
      rintro rfl
      obtain ⟨y', s1, s2⟩ := M3.solve_ok (A := edgeRows X0B) (by rw [edgeRows_det]; exact neg_ne_zero.mpr hv0) d
      rw [hy] at s1
      cases s1
      apply hdd
      rw [← s2]
      ext <;> simp [M3.mulVec]
    rw [hn]
    exact V3.unit_dot (mulVec_ne_zero (by rw [edgeRows_det]; exact neg_ne_zero.mpr hvX) hy0)
  · rw [cB]
    refine ⟨mA, f, oA, tA', hf, e2, by rw [tB, e3], by rw [tB]; exact ht3, hon, ?_, ?_⟩
    · rw [← hXA]; exact (bary_ok hwB).1
    · intro hface
      obtain ⟨w, w1, w2, w3⟩ := isBary_face hface hon
      have := (bary_ok hwB).2.2 w (by rw [hXA]; exact w1)
      rw [← this]
      exact ⟨w2, w3⟩
  · rw [cA]
    refine ⟨oB, tB', x, List.mem_of_getElem? f2, by rw [tA, f3], by rw [tA]; exact ht1, ?_, ?_, hv, hin, d, hd, ?_, y, ?_, ?_⟩
    · rw [hp, ← hX]; exact interp_isBary (bary_ok hw).1.1
    · rw [← hX0]; exact (bary_ok hw).1
    · rintro rfl; rw [V3.norm_eq_zero.mpr rfl] at hd0; exact lt_irrefl _ hd0
    · obtain ⟨y', s1, s2⟩ := M3.solve_ok (A := edgeRows X0B) (by rw [edgeRows_det]; exact neg_ne_zero.mpr (bary_ok hw).2.1) d
      rw [hy] at s1
      cases s1
      rw [← s2, ← hX0, edgeDots_eq]
    · rw [hn, ← hX, edgeDots_eq]

/-! ### The whole run -/

/-- Specification: two contacts are the same if they join the same bodies, in the same order, at the same position. -/
def SameSoftContact (c d : Contact N) : Prop := c.bodyA = d.bodyA ∧ c.bodyB = d.bodyB ∧ c.p = d.p

theorem sameUid_iff (c d : Contact N) : sameUid c d = true ↔ SameSoftContact c d := by
  unfold sameUid SameSoftContact
  simp only [decide_eq_true_eq, Prod.mk.injEq]

/-- **C50** (soft bodies). The reduced list keeps the first contact of every group of equal ones, in order. -/
theorem C50_soft_reduction (L : List (Contact N)) : Represents SameSoftContact L (contact_reduction L) := by
  have h := reduceBy_spec (sameUid (N := N)) (fun a => by rw [sameUid_iff]; simp [SameSoftContact])
    (fun a b h => by rw [sameUid_iff] at *; unfold SameSoftContact at *; grind)
    (fun a b c h1 h2 => by rw [sameUid_iff] at *; unfold SameSoftContact at *; grind) L
  simp only [sameUid_iff] at h
  exact h

/-- **C50** (soft bodies). -/
theorem C50_soft_idempotent (L : List (Contact N)) : contact_reduction (contact_reduction L) = contact_reduction L := by
  apply reduceBy_idem
  refine (C50_soft_reduction L).2.1.imp ?_
  intro a b h h'
  apply h
  rw [sameUid_iff] at h'
  obtain ⟨h1, h2, h3⟩ := h'
  exact ⟨h1.symm, h2.symm, h3.symm⟩

theorem soft_compute_contacts_mem {P : Collision.CDParams} {B : Fin N → Body} {kA kB : Fin N} {rows : List (ℤ × ℤ)} {L : List (Contact N)}
    (h : compute_contacts P B kA kB rows = .ok L) (c : Contact N) :
    c ∈ L ↔ ∃ r ∈ rows, rowContact P kA kB (B kA) (B kB) r = .ok (some c) := by
  unfold compute_contacts at h
  cases hm : rows.mapM (rowContact P kA kB (B kA) (B kB)) with
  | error e => rw [hm] at h; cases h
  | ok R =>
    rw [hm] at h
    cases h
    have hF := mapM_ok hm
    rw [List.mem_filterMap]
    constructor
    · rintro ⟨o, ho, rfl⟩
      obtain ⟨r, hr, he⟩ := forall₂_mem_right hF _ ho
      exact ⟨r, hr, he⟩
    · rintro ⟨r, hr, he⟩
      obtain ⟨o, ho, he'⟩ := forall₂_mem_left hF _ hr
      rw [he] at he'
      cases he'
      exact ⟨some c, ho, rfl⟩

theorem soft_determination_mem {P : Collision.CDParams} {B : Fin N → Body} {ov : Overlaps N} {L : List (Contact N)}
    (h : contact_determination P B ov = .ok L) (c : Contact N) :
    c ∈ L ↔ ∃ o ∈ ov, ∃ r ∈ o.2, rowContact P o.1.1 o.1.2 (B o.1.1) (B o.1.2) r = .ok (some c) ∨
      rowContact P o.1.2 o.1.1 (B o.1.2) (B o.1.1) r.swap = .ok (some c) := by
  unfold contact_determination at h
  cases hm : ov.mapM (pairContacts P B) with
  | error e => rw [hm] at h; cases h
  | ok R =>
    rw [hm] at h
    cases h
    have hF := mapM_ok hm
    have hpair : ∀ o l, pairContacts P B o = .ok l → (c ∈ l ↔ ∃ r ∈ o.2, rowContact P o.1.1 o.1.2 (B o.1.1) (B o.1.2) r = .ok (some c) ∨
      rowContact P o.1.2 o.1.1 (B o.1.2) (B o.1.1) r.swap = .ok (some c)) := by
      intro o l hl
      unfold pairContacts at hl
      simp only [bind, Except.bind] at hl
      cases h1 : compute_contacts P B o.1.1 o.1.2 o.2 with
      | error e => rw [h1] at hl; cases hl
      | ok a =>
      cases h2 : compute_contacts P B o.1.2 o.1.1 (o.2.map Prod.swap) with
      | error e => rw [h1, h2] at hl; cases hl
      | ok b =>
        rw [h1, h2] at hl
        cases hl
        rw [List.mem_append, soft_compute_contacts_mem h1, soft_compute_contacts_mem h2]
        constructor
        · rintro (⟨r, hr, he⟩ | ⟨r, hr, he⟩)
          · exact ⟨r, hr, Or.inl he⟩
          · obtain ⟨r', hr', rfl⟩ := List.mem_map.1 hr
            exact ⟨r', hr', Or.inr he⟩
        · rintro ⟨r, hr, he | he⟩
          · exact Or.inl ⟨r, hr, he⟩
          · exact Or.inr ⟨_, List.mem_map.2 ⟨r, hr, rfl⟩, he⟩
    rw [List.mem_flatten]
    constructor
    · rintro ⟨l, hl, hc⟩
      obtain ⟨o, ho, he⟩ := forall₂_mem_right hF _ hl
      exact ⟨o, ho, (hpair o l he).1 hc⟩
    · rintro ⟨o, ho, hr⟩
      obtain ⟨l, hl, he⟩ := forall₂_mem_left hF _ ho
      exact ⟨l, hl, (hpair o l he).2 hr⟩

theorem soft_determination_sound {P : Collision.CDParams} {B : Fin N → Body} {ov : Overlaps N} {L : List (Contact N)}
    (h : contact_determination P B ov = .ok L) : ∀ c ∈ contact_reduction L, IsSoftContact P B c ∧
      ∃ o ∈ ov, (c.bodyA = o.1.1 ∧ c.bodyB = o.1.2) ∨ (c.bodyA = o.1.2 ∧ c.bodyB = o.1.1) := by
  intro c hc
  have hL := (C50_soft_reduction L).1.subset hc
  obtain ⟨o, ho, r, -, hr | hr⟩ := (soft_determination_mem h c).1 hL
  · obtain ⟨h1, h2, h3⟩ := rowContact_sound hr
    exact ⟨h3, o, ho, Or.inr ⟨h1, h2⟩⟩
  · obtain ⟨h1, h2, h3⟩ := rowContact_sound hr
    exact ⟨h3, o, ho, Or.inl ⟨h1, h2⟩⟩

theorem refitBody_fields {P : Collision.CDParams} {b b' : Body} (h : SoftCollision.refitBody P b = .ok b') :
    ∃ t, b' = { b with bvh := t } := by
  unfold SoftCollision.refitBody at h
  cases ht : BVH.refit_bvh b.x (Collision.rows b.surface) b.bvh P.K P.envelope with
  | error e => rw [ht] at h; cases h
  | ok t => rw [ht] at h; cases h; exact ⟨t, rfl⟩

theorem soft_update_fold {P : Collision.CDParams} (L : List (Fin N)) (hL : L.Nodup) {B B' : Fin N → Body}
    (h : L.foldlM (fun B k => do
      let b ← SoftCollision.refitBody P (B k)
      return Function.update B k b) B = (.ok B' : Except PyErr _)) :
    (∀ k ∈ L, SoftCollision.refitBody P (B k) = .ok (B' k)) ∧ ∀ k ∉ L, B' k = B k := by
  induction L generalizing B with
  | nil => cases h; simp
  | cons a L ih =>
    rw [List.nodup_cons] at hL
    rw [List.foldlM_cons] at h
    simp only [bind, Except.bind] at h
    cases hr : SoftCollision.refitBody P (B a) with
    | error e => rw [hr] at h; cases h
    | ok b =>
      rw [hr] at h
      simp only [pure, Except.pure] at h
      obtain ⟨i1, i2⟩ := ih hL.2 h
      constructor
      · intro k hk
        by_cases hka : k = a
        · subst hka
          rw [i2 k hL.1, Function.update_self, hr]
        · have := i1 k (by simpa [hka] using hk)
          rwa [Function.update_of_ne hka] at this
      · intro k hk
        rw [List.mem_cons, not_or] at hk
        rw [i2 k hk.2, Function.update_of_ne hk.1]

theorem soft_update_ok {P : Collision.CDParams} {B B' : Fin N → Body} (h : SoftCollision.update_bvh P B = .ok B') (k : Fin N) :
    SoftCollision.refitBody P (B k) = .ok (B' k) :=
  (soft_update_fold _ (List.nodup_finRange N) h).1 k (List.mem_finRange k)

theorem softContact_congr {P : Collision.CDParams} {B B' : Fin N → Body} (hB : ∀ k, ∃ t, B' k = { B k with bvh := t }) {c : Contact N}
    (h : IsSoftContact P B' c) : IsSoftContact P B c := by
  obtain ⟨h1, h2, h3, h4⟩ := h
  obtain ⟨tA, eA⟩ := hB c.bodyA
  obtain ⟨tB, eB⟩ := hB c.bodyB
  rw [eB] at h3
  rw [eA] at h4
  exact ⟨h1, h2, h3, h4⟩

/-- **C82.** Every contact a run with bounding volume hierarchies reports joins two different bodies and is a contact in the sense of
the specification; no two reported contacts are the same; nothing but the hierarchies of the bodies changes. -/
theorem C82_sound_bvh {P : Collision.CDParams} {B B' : Fin N → Body} {cps : List (Contact N)} (h : run_bvh P B = .ok (B', cps)) :
    (∀ c ∈ cps, c.bodyA ≠ c.bodyB ∧ IsSoftContact P B c) ∧ cps.Pairwise (fun c d => ¬ SameSoftContact c d) ∧
      ∀ k, ∃ t, B' k = { B k with bvh := t } := by
  unfold run_bvh at h
  simp only [bind, Except.bind] at h
  cases h1 : SoftCollision.update_bvh P B with
  | error e => rw [h1] at h; cases h
  | ok B1 =>
  rw [h1] at h
  simp only at h
  cases h2 : SoftCollision.narrow_phase B1 with
  | error e => rw [h2] at h; cases h
  | ok ov =>
  rw [h2] at h
  simp only at h
  cases h3 : contact_determination P B1 ov with
  | error e => rw [h3] at h; cases h
  | ok L =>
  rw [h3] at h
  cases h
  have hB : ∀ k, ∃ t, B' k = { B k with bvh := t } := fun k => refitBody_fields (soft_update_ok h1 k)
  refine ⟨?_, (C50_soft_reduction L).2.1, hB⟩
  intro c hc
  obtain ⟨hs, o, ho, hor⟩ := soft_determination_sound h3 c hc
  refine ⟨?_, softContact_congr hB hs⟩
  have hlt : o.1.1 < o.1.2 := by
    unfold SoftCollision.narrow_phase at h2
    cases hm : (Collision.combinations N).mapM (SoftCollision.narrowPair B') with
    | error e => rw [hm] at h2; cases h2
    | ok R =>
      rw [hm] at h2
      cases h2
      rw [List.mem_filterMap] at ho
      obtain ⟨o', ho', he⟩ := ho
      obtain ⟨ij, hij, hnp⟩ := forall₂_mem_right (mapM_ok hm) _ ho'
      unfold SoftCollision.narrowPair at hnp
      cases ht : BVH.traversal (B' ij.1).bvh (B' ij.2).bvh with
      | error e => rw [ht] at hnp; cases hnp
      | ok res =>
        rw [ht] at hnp
        simp only [bind, Except.bind, pure, Except.pure, Except.ok.injEq] at hnp
        rw [← hnp] at he
        split_ifs at he with hl
        · cases he
          exact mem_combinations.1 hij
        · cases he
  rcases hor with ⟨a, b⟩ | ⟨a, b⟩
  · rw [a, b]; exact hlt.ne
  · rw [a, b]; exact hlt.ne'

/-- **C82.** Every contact a run with spatial hashing reports is a contact in the sense of the specification; no two reported
contacts are the same. -/
theorem C82_sound_hash {eps : ℝ} {listOf : Finset (ℤ × ℤ) → List (ℤ × ℤ)} {P : Collision.CDParams} {B : Fin N → Body}
    {grid grid' : SpatialHash.HashGrid SpatialHash.Obj} {ts : ℤ} {cps : List (Contact N)}
    (h : run_hash eps listOf P B grid ts = .ok (grid', cps)) :
    (∀ c ∈ cps, IsSoftContact P B c) ∧ cps.Pairwise (fun c d => ¬ SameSoftContact c d) := by
  unfold run_hash at h
  simp only [bind, Except.bind] at h
  cases h1 : SpatialHash.narrow_phase eps grid (hashBodies B) ts with
  | error e => rw [h1] at h; cases h
  | ok r =>
  rw [h1] at h
  simp only at h
  cases h3 : contact_determination P B (groupPairs N listOf r.2) with
  | error e => rw [h3] at h; cases h
  | ok L =>
  rw [h3] at h
  cases h
  exact ⟨fun c hc => (soft_determination_sound h3 c hc).1, (C50_soft_reduction L).2.1⟩

end

end Verif
