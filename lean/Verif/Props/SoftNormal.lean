import Verif.Props.SoftCollisionComplete

/-! C83: the normals of soft body contacts, with a run that reports contacts (non-vacuity of C82). -/

namespace Verif

open VMesh (Tri Tet)
open SoftCollision

section
variable {N : ℕ}

/-- **C83** (partial: translated bodies only, see `C83_rotated_wrong`).  If the tetrahedra behind the surface of body A have only been
translated by s from their material positions, the normal of every contact of the run is the unit vector along the gradient of the
distance field of A at the material position of the contact. -/
theorem C83_translated_partial {P : Collision.CDParams} {B B' : Fin N → Body} {cps : List (Contact N)} (h : run_bvh P B = .ok (B', cps))
    {c : Contact N} (hc : c ∈ cps) {s : V3}
    (ht : ∀ o ∈ (B c.bodyA).owners, ∀ t, (B c.bodyA).T[o.1]? = some t → ∀ i, tetPos (B c.bodyA).x t i = tetPos (B c.bodyA).x0 t i + s) :
    ∃ d, (B c.bodyA).grid.get_gradient (c.p - s) = .ok d ∧ d ≠ 0 ∧ c.n = V3.unit d := by
  obtain ⟨o, t, x, ho, ho1, hT, b1, b2, -, -, d, hd, hd0, y, hy, hn⟩ := ((C82_sound_bvh h).1 c hc).2.in_A
  have htr := ht o ho t (by rw [ho1]; exact hT)
  have hp : c.p - s = x := by
    obtain ⟨w1, w2⟩ := b1
    obtain ⟨-, w3⟩ := b2
    rw [← w2, ← w3]
    simp only [htr, smul_add, Finset.sum_add_distrib, ← Finset.sum_smul, w1, one_smul, add_sub_cancel_right]
  refine ⟨d, by rw [hp]; exact hd, hd0, ?_⟩
  rw [hn, ← hy]
  congr 1
  unfold edgeDots
  rw [htr, htr, htr, htr]
  simp only [add_sub_add_right_eq_sub]

/-- The material tetrahedron of the example: unit edges along the axes from the last corner. -/
def cornerTet : List V3 := [⟨1, 0, 0⟩, ⟨0, 1, 0⟩, ⟨0, 0, 1⟩, ⟨0, 0, 0⟩]

/-- A quarter turn about the x axis. -/
def quarterX (p : V3) : V3 := ⟨p.x, -p.z, p.y⟩

/-- **C83** (finding).  There are two valid bodies, both turned by a quarter turn from their material positions, such that the run
reports a contact whose normal is exactly opposite to the turned gradient: it points into body A. -/
theorem C83_rotated_wrong : ∃ (P : Collision.CDParams) (B : Fin 2 → Body), (P.K = 3 ∨ P.K = 4) ∧ 0 ≤ P.envelope ∧
    (∀ k, SoftShapeOK (B k) ∧ SoftLinksOK (B k) ∧ (B k).x = (B k).x0.map quarterX) ∧
    ∃ B' cps, run_bvh P B = .ok (B', cps) ∧ ∃ c ∈ cps, ∃ d, c.p = quarterX 0 ∧ (B c.bodyA).grid.get_gradient 0 = .ok d ∧
      V3.norm d = 1 ∧ c.n = -quarterX d := by
  obtain ⟨g0, g1, g2, g3, -⟩ := (C23_constructor ⟨-2, -2, -2⟩ ⟨2, 2, 2⟩ 5 5 5).1 (by norm_num)
  obtain ⟨⟨g, e1, ⟨v, e2, -⟩, -⟩, -⟩ := C23_eval_on_grid g0 (fun q => 0 + 0 * q.x + 0 * q.y + (-1) * q.z)
  have hs := sampled_of_eval (by norm_num) g1 e1
  have hmin : g.min_coord = ⟨-2, -2, -2⟩ := by rw [e2]; exact g2
  have hmax : g.max_coord = ⟨2, 2, 2⟩ := by rw [e2]; exact g3
  have hc : g.min_coord.x ≠ 0 ∧ g.min_coord.y ≠ 0 ∧ g.min_coord.z ≠ 0 := by rw [hmin]; norm_num
  have hgrad : ∀ p, g.get_gradient p = .ok ⟨0, 0, -1⟩ := fun p => (C25_gradient_affine_partial 0 ⟨0, 0, -1⟩ hs hc p).1
  have hval : ∀ p : V3, g.get_value p = .ok (-p.z) := by
    intro p
    have := C24_multilinear_exact 0 0 0 (-1) 0 0 0 0 (g := g) (by simpa using hs) p
    simpa using this
  have hV : MeshOK (cornerTet.map quarterX) (Collision.rows [⟨3, 0, 1⟩]) := by simp [MeshOK, Collision.rows, cornerTet]
  obtain ⟨tree, trees, m1, -⟩ := C18_make_bvh _ _ 3 8 0.1 hV (Or.inl rfl) (by norm_num)
  let b : Body := ⟨cornerTet.map quarterX, cornerTet, [⟨0, 1, 2, 3⟩], [⟨3, 0, 1⟩], [(0, 2)], g, tree⟩
  have hpos0 : tetPos b.x0 ⟨0, 1, 2, 3⟩ = ![⟨1, 0, 0⟩, ⟨0, 1, 0⟩, ⟨0, 0, 1⟩, ⟨0, 0, 0⟩] := by
    funext i
    fin_cases i <;> rfl
  have hpos : tetPos b.x ⟨0, 1, 2, 3⟩ = ![⟨1, -0, 0⟩, ⟨0, -0, 1⟩, ⟨0, -1, 0⟩, ⟨0, -0, 0⟩] := by
    funext i
    fin_cases i <;> rfl
  have hb : SoftShapeOK b := by
    refine ⟨hV, rfl, ?_, ⟨_, hs⟩, hc⟩
    intro o ho
    simp only [b, List.mem_singleton] at ho
    subst ho
    refine ⟨⟨0, 1, 2, 3⟩, rfl, ?_, ?_, ?_⟩
    · have : ∀ i : Fin 4, nodeOf ⟨0, 1, 2, 3⟩ i < 4 := by decide
      intro i
      exact ⟨by simpa [b, cornerTet] using this i, by simpa [b, cornerTet] using this i⟩
    · rw [hpos]; simp [vol6, V3.dot, V3.cross]
    · rw [hpos0]; simp [vol6, V3.dot, V3.cross]
  have hl : SoftLinksOK b := (colliderOK_make hV (Or.inl rfl) (by norm_num) m1 ⟨_, hs⟩ hc).links
  obtain ⟨B', cps, h1, -, h2⟩ := C82_complete_bvh (P := ⟨100, 0.001, 3, 0.1⟩) (Or.inl rfl) (by norm_num) (B := fun _ : Fin 2 => b)
    (fun _ => hb) (fun _ => hl)
  have hfw : ∀ p : Fin 3 → V3, p 0 = 0 → (p 1).z = 0 → (p 2).z = 0 → Collision.frankWolfe ⟨100, 0.001, 3, 0.1⟩ g p = .ok 0 := by
    intro p p0 p1 p2
    have hloop : ∀ fuel i, Collision.fwLoop g p 0.001 fuel i 0 = .ok 0 := by
      intro fuel
      induction fuel with
      | zero => intro i; rfl
      | succ n ih =>
        intro i
        unfold Collision.fwLoop Collision.fwStep
        rw [hgrad]
        simp only [bind, Except.bind, pure, Except.pure]
        rw [show Collision.argmin3 (V3.dot (p 0) ⟨0, 0, -1⟩) (V3.dot (p 1) ⟨0, 0, -1⟩) (V3.dot (p 2) ⟨0, 0, -1⟩) = 0 by
          simp [Collision.argmin3, V3.dot, p0, p1, p2], p0]
        rw [if_neg (by simp [V3.dot]; norm_num)]
        rw [sub_self, smul_zero, add_zero]
        exact ih _
    unfold Collision.frankWolfe Collision.fwStart
    rw [hgrad, hgrad, hgrad]
    simp only [bind, Except.bind, pure, Except.pure]
    rw [show Collision.argmin3 (V3.norm ⟨0, 0, -1⟩) (V3.norm ⟨0, 0, -1⟩) (V3.norm ⟨0, 0, -1⟩) = 0 by simp [Collision.argmin3], p0]
    exact hloop _ _
  have hmeet : SurfacesMeet b b 0 0 := by
    have : OnFace b.x ⟨3, 0, 1⟩ 0 := ⟨1, 0, 0, by norm_num, by norm_num, by norm_num, by norm_num, by
      simp [b, cornerTet, quarterX]; rfl⟩
    exact ⟨_, _, 0, rfl, rfl, this, this⟩
  have hwarp : WarpedTriangle b b ⟨3, 0, 1⟩ ⟨0, 1, 2, 3⟩ ![0, ⟨1, 0, 0⟩, ⟨0, 1, 0⟩] := by
    intro k
    have h3 : ∀ i : Fin 3, i = 0 ∨ i = 1 ∨ i = 2 := by decide
    rcases h3 k with rfl | rfl | rfl
    · exact ⟨_, isBary_corner (tetPos b.x ⟨0, 1, 2, 3⟩) 3, isBary_corner (tetPos b.x0 ⟨0, 1, 2, 3⟩) 3⟩
    · exact ⟨_, isBary_corner (tetPos b.x ⟨0, 1, 2, 3⟩) 0, isBary_corner (tetPos b.x0 ⟨0, 1, 2, 3⟩) 0⟩
    · exact ⟨_, isBary_corner (tetPos b.x ⟨0, 1, 2, 3⟩) 1, isBary_corner (tetPos b.x0 ⟨0, 1, 2, 3⟩) 1⟩
  obtain ⟨c, hc1, -, -, w, hw1, hw2⟩ := h2 0 1 0 0 (by decide) hmeet ⟨3, 0, 1⟩ (0, 2) ⟨0, 1, 2, 3⟩ ![0, ⟨1, 0, 0⟩, ⟨0, 1, 0⟩] 0 0 ⟨0, 0, -1⟩
    rfl rfl rfl hwarp (hfw _ rfl rfl rfl) (by
      obtain ⟨r, r1, r2⟩ := (C24_is_inside g 0 (1 / 2)).1 (by norm_num)
      have : r = true := r2.2 (by rw [hmin, hmax]; norm_num)
      rw [← this]; exact r1) (by simpa using hval 0) (by norm_num) (hgrad 0) (by intro h; simpa using congrArg V3.z h)
  refine ⟨⟨100, 0.001, 3, 0.1⟩, fun _ => b, Or.inl rfl, by norm_num, fun _ => ⟨hb, hl, rfl⟩, B', cps, h1, c, hc1, ⟨0, 0, -1⟩, ?_, hgrad 0, ?_, ?_⟩
  · have : w = fun j => if j = 3 then 1 else 0 := by
      refine isBary_inj (X := tetPos b.x0 ⟨0, 1, 2, 3⟩) ?_ hw1 (isBary_corner _ 3)
      rw [hpos0]; simp [vol6, V3.dot, V3.cross]
    rw [this] at hw2
    rw [← hw2.2, (isBary_corner (tetPos b.x ⟨0, 1, 2, 3⟩) 3).2]
    rfl
  · simp [V3.norm, V3.dot]
  · obtain ⟨o, t, x, ho, -, hT, -, -, -, -, d, hd, -, y, hy, hn⟩ := ((C82_sound_bvh h1).1 c hc1).2.in_A
    have ht : t = ⟨0, 1, 2, 3⟩ := by
      have := List.mem_of_getElem? hT
      simpa [b] using this
    subst ht
    simp only [b] at hd
    rw [hgrad] at hd
    cases hd
    rw [hpos0] at hy
    rw [hpos] at hn
    simp [edgeDots, V3.dot] at hy
    rw [hn]
    have hun : ∀ v : V3, V3.norm v = 1 → V3.unit v = v := by
      intro v hv
      unfold V3.unit
      rw [hv]
      ext <;> simp [V3.divs]
    have h1' : edgeDots ![⟨1, -0, 0⟩, ⟨0, -0, 1⟩, ⟨0, -1, 0⟩, ⟨0, -0, 0⟩] y = ⟨0, -1, 0⟩ := by
      obtain ⟨y1, y2, y3⟩ := hy
      ext <;> simp [edgeDots, V3.dot, y1, y2, y3]
    rw [h1', hun _ (by simp [V3.norm, V3.dot])]
    ext <;> simp [quarterX]

end

end Verif
