import Verif.Props.SceneBuild
import Verif.Props.MeshShapes

/-! Solids on different sides of a plane, and what a builder adds to a scene. -/

namespace Verif

open Rigid Rigid.SceneM SMesh
open VMesh (Tri)

/-! ### PlaneApart -/

theorem PlaneApart.symm {A B : List V3} (h : PlaneApart A B) : PlaneApart B A := by
  obtain ⟨n, c, hn, h1, h2⟩ := h
  refine ⟨-n, -c, ?_, ?_, ?_⟩
  · intro h0; apply hn
    have hx := congrArg V3.x h0; have hy := congrArg V3.y h0; have hz := congrArg V3.z h0
    simp at hx hy hz
    exact V3.ext hx hy hz
  · intro b hb
    have := h2 b hb
    simp only [V3.dot, V3.neg_x, V3.neg_y, V3.neg_z] at *
    linarith
  · intro a ha
    have := h1 a ha
    simp only [V3.dot, V3.neg_x, V3.neg_y, V3.neg_z] at *
    linarith

theorem PlaneApart.perm {A A' B B' : List V3} (hA : A'.Perm A) (hB : B'.Perm B) (h : PlaneApart A B) : PlaneApart A' B' := by
  obtain ⟨n, c, hn, h1, h2⟩ := h
  exact ⟨n, c, hn, fun a ha => h1 a (hA.mem_iff.1 ha), fun b hb => h2 b (hB.mem_iff.1 hb)⟩

/-- Solids on different sides of a plane do not overlap. -/
theorem PlaneApart.not_overlap {A B : List V3} (h : PlaneApart A B) : ¬ Overlap A B := by
  obtain ⟨n, c, hn, h1, h2⟩ := h
  rintro ⟨p, ε, hε, hball⟩
  have hpos := V3.norm_pos hn
  set u : V3 := (ε / V3.norm n) • n with hu
  have hnn : V3.dot n n = V3.norm n ^ 2 := (V3.norm_sq n).symm
  have huu : V3.dot u u = ε ^ 2 := by
    rw [hu, V3.dot_smul_left, V3.dot_smul_right, hnn]
    field_simp
  have e1 : (p + u) - p = u := by refine V3.ext ?_ ?_ ?_ <;> simp
  have e2 : (p - u) - p = -u := by refine V3.ext ?_ ?_ ?_ <;> simp
  have huu' : V3.dot (-u) (-u) = ε ^ 2 := by
    rw [← huu]; simp [V3.dot]
  have a := (hball (p + u) (by rw [e1, huu])).1 n c h1
  have b' := (hball (p - u) (by rw [e2, huu'])).2 (-n) (-c) (by
    intro b hb
    have := h2 b hb
    simp only [V3.dot, V3.neg_x, V3.neg_y, V3.neg_z] at *
    linarith)
  have hnu : V3.dot n u = ε * V3.norm n := by
    rw [hu, V3.dot_smul_right, hnn]; field_simp
  have ha : V3.dot n (p + u) = V3.dot n p + V3.dot n u := by simp [V3.dot]; ring
  have hb : V3.dot (-n) (p - u) = -V3.dot n p + V3.dot n u := by simp [V3.dot]; ring
  have : 0 < ε * V3.norm n := mul_pos hε hpos
  linarith

theorem rotate_dot_V3 {q : Quat} (hq : IsUnitQ q) (a b : V3) : V3.dot (Quat.rotate q a) (Quat.rotate q b) = V3.dot a b := by
  have := C02_rotate_dot hq a b
  rwa [V3.toFun_dot, V3.toFun_dot] at this

theorem rotate_ne_zero_V3 {q : Quat} (hq : IsUnitQ q) {n : V3} (hn : n ≠ 0) : Quat.rotate q n ≠ 0 := by
  intro h
  apply hn
  have := rotate_dot_V3 hq n n
  rw [h] at this
  exact V3.dot_self_eq_zero.1 (this.symm.trans (by simp [V3.dot]))

theorem PlaneApart.rigid {A B : List V3} {q : Quat} (hq : IsUnitQ q) (r : V3) (h : PlaneApart A B) :
    PlaneApart (A.map fun p => Quat.rotate q p + r) (B.map fun p => Quat.rotate q p + r) := by
  obtain ⟨n, c, hn, h1, h2⟩ := h
  have key : ∀ p, V3.dot (Quat.rotate q n) (Quat.rotate q p + r) = V3.dot n p + V3.dot (Quat.rotate q n) r := by
    intro p
    rw [← rotate_dot_V3 hq n p]
    simp [V3.dot]; ring
  refine ⟨Quat.rotate q n, c + V3.dot (Quat.rotate q n) r, rotate_ne_zero_V3 hq hn, ?_, ?_⟩
  · intro a ha
    obtain ⟨p, hp, rfl⟩ := List.mem_map.1 ha
    rw [key]; linarith [h1 p hp]
  · intro b hb
    obtain ⟨p, hp, rfl⟩ := List.mem_map.1 hb
    rw [key]; linarith [h2 p hp]

/-- Bricks that are apart stay apart when the whole structure is moved. -/
theorem PlaneApart.under {a b : Brick} {q : Quat} (hq : IsUnitQ q) (r : V3) (h : PlaneApart a.world b.world) :
    PlaneApart (a.under r q).world (b.under r q).world := by
  rw [Brick.under_world, Brick.under_world]
  exact h.rigid hq r

theorem pairwise_under {B : List Brick} {q : Quat} (hq : IsUnitQ q) (r : V3)
    (h : B.Pairwise fun a b => PlaneApart a.world b.world) :
    (B.map fun b => b.under r q).Pairwise fun a b => PlaneApart a.world b.world := by
  rw [List.pairwise_map]
  exact h.imp fun hab => hab.under hq r

/-- Separation by a horizontal plane. -/
theorem PlaneApart.of_y {A B : List V3} (c : ℝ) (h1 : ∀ a ∈ A, a.y ≤ c) (h2 : ∀ b ∈ B, c ≤ b.y) : PlaneApart A B := by
  refine ⟨⟨0, 1, 0⟩, c, ?_, ?_, ?_⟩
  · intro h; have := congrArg V3.y h; simp at this
  · intro a ha; simpa [V3.dot] using h1 a ha
  · intro b hb; simpa [V3.dot] using h2 b hb

/-- Separation by a plane perpendicular to the x axis. -/
theorem PlaneApart.of_x {A B : List V3} (c : ℝ) (h1 : ∀ a ∈ A, a.x ≤ c) (h2 : ∀ b ∈ B, c ≤ b.x) : PlaneApart A B := by
  refine ⟨⟨1, 0, 0⟩, c, ?_, ?_, ?_⟩
  · intro h; have := congrArg V3.x h; simp at this
  · intro a ha; simpa [V3.dot] using h1 a ha
  · intro b hb; simpa [V3.dot] using h2 b hb

/-! ### What a builder adds -/

/-- The call took the scene s to s' by adding bodies called N (new, different names, in this order), one for each brick of B:
nothing that was there before changed, body i has, in the world, the corners and triangles of brick i, and it has the given
type and material, the mass volume · density and, as its position, the brick's centre of mass. -/
structure Adds (s s' : Scene) (N : List String) (B : List Brick) (fixed : Bool) (material : String) (density : ℝ) : Prop where
  keys : s'.eng.bodies.keys = s.eng.bodies.keys ++ N
  fresh : ∀ n ∈ N, s.eng.bodies.get? n = none
  nodup : N.Nodup
  old : ∀ n, n ∉ N → s'.eng.bodies.get? n = s.eng.bodies.get? n
  oldMesh : ∀ n m, s.worldMesh n = some m → s'.worldMesh n = some m
  rest : s'.eng.forces = s.eng.forces ∧ s'.eng.hinges = s.eng.hinges ∧
    s'.eng.surfaces_interactions = s.eng.surfaces_interactions ∧ s'.eng.params = s.eng.params
  ok : s.OK → s'.OK
  length : N.length = B.length
  each : ∀ (i : ℕ) (n : String) (b : Brick), N[i]? = some n → B[i]? = some b → ∃ o m, s'.eng.bodies.get? n = some o ∧ s'.worldMesh n = some m ∧
    m.V.Perm b.world ∧ (trianglesOf m.V m.T).Perm ((trianglesOf b.V b.T).map fun t => (b.at t.1, b.at t.2.1, b.at t.2.2)) ∧
    o.body.is_fixed = fixed ∧ o.body.material = material ∧ o.body.mass = snapPos (enclosedVolume b.V b.T) * density ∧
    o.body.r = b.at (massCentre b.V b.T)

/-- No two of the bodies N overlap: there is a plane between them (they may touch). -/
def NoOverlap (s : Scene) (N : List String) : Prop :=
  ∀ n ∈ N, ∀ n' ∈ N, n ≠ n' → ∃ m m', s.worldMesh n = some m ∧ s.worldMesh n' = some m' ∧ PlaneApart m.V m'.V ∧ ¬ Overlap m.V m'.V

theorem worldMesh_eq {s : Scene} {n : String} {o : BodyObj} {sh : Shape} {m : Mesh} (h1 : s.eng.bodies.get? n = some o)
    (h2 : o.body.shape = some sh) (h3 : s.meshes.get? sh.name = some m) :
    s.worldMesh n = some ⟨m.V.map (bodyToWorld o.body), m.T⟩ := by
  unfold Scene.worldMesh
  rw [h1]
  show (o.body.shape >>= _) = _
  rw [h2]
  show (s.meshes.get? sh.name >>= _) = _
  rw [h3]
  show some _ = some _
  congr 3

theorem forall₂_getElem {α β : Type*} {R : α → β → Prop} {l : List α} {l' : List β} (h : List.Forall₂ R l l') {i : ℕ} {a : α}
    {b : β} (ha : l[i]? = some a) (hb : l'[i]? = some b) : R a b := by
  induction h generalizing i with
  | nil => simp at ha
  | cons hr _ ih =>
    cases i with
    | zero => simp at ha hb; subst ha; subst hb; exact hr
    | succ i => simp at ha hb; exact ih ha hb

theorem PutUp.adds {s s' : Scene} {B : List Brick} {N : List String} {fixed : Bool} {material : String} {density : ℝ}
    (h : PutUp (Finished fixed material density) s s' B N) : Adds s s' N B fixed material density := by
  refine ⟨h.1.keys, h.1.fresh, h.1.nodup, h.1.old, ?_, ⟨h.1.forces, h.1.hinges, h.1.inter, h.1.params⟩, h.1.ok, h.length, ?_⟩
  · intro n m hm
    unfold Scene.worldMesh at hm
    cases ho : s.eng.bodies.get? n with
    | none => rw [ho] at hm; cases hm
    | some o =>
      rw [ho] at hm
      change (o.body.shape >>= _) = _ at hm
      cases hs : o.body.shape with
      | none => rw [hs] at hm; cases hm
      | some sh =>
        rw [hs] at hm
        change (s.meshes.get? sh.name >>= _) = _ at hm
        cases hk : s.meshes.get? sh.name with
        | none => rw [hk] at hm; cases hm
        | some mm =>
          rw [← hm, hk]
          have hn : n ∉ N := by
            intro hn; rw [h.1.fresh n hn] at ho; cases ho
          have ho' : s'.eng.bodies.get? n = some o := by rw [h.1.old n hn, ho]
          unfold Scene.worldMesh
          rw [ho']
          show (o.body.shape >>= _) = _
          rw [hs]
          show (s'.meshes.get? sh.name >>= _) = _
          rw [h.1.meshes _ _ hk]
  · intro i n b hn hb
    obtain ⟨o, sh, m, h1, h2, h3, ⟨h4, h5, -, h9⟩, h6, h7, h8⟩ := forall₂_getElem h.2 hn hb
    exact ⟨o, _, h1, worldMesh_eq h1 h2 h3, h4, h5, h6, h7, h8, h9⟩

theorem Adds.mem {s s' : Scene} {B : List Brick} {N : List String} {fixed : Bool} {material : String} {density : ℝ}
    (h : Adds s s' N B fixed material density) {n : String} (hn : n ∈ N) : ∃ (i : ℕ) (b : Brick), N[i]? = some n ∧ B[i]? = some b := by
  obtain ⟨i, hi, rfl⟩ := List.getElem_of_mem hn
  exact ⟨i, B[i]'(h.length ▸ hi), List.getElem?_eq_getElem hi, List.getElem?_eq_getElem _⟩

theorem Adds.noOverlap {s s' : Scene} {B : List Brick} {N : List String} {fixed : Bool} {material : String} {density : ℝ}
    (h : Adds s s' N B fixed material density) (hB : B.Pairwise fun a b => PlaneApart a.world b.world) : NoOverlap s' N := by
  intro n hn n' hn' hne
  obtain ⟨i, b, hi, hbi⟩ := h.mem hn
  obtain ⟨j, b', hj, hbj⟩ := h.mem hn'
  obtain ⟨o, m, -, hm, hV, -⟩ := h.each i n b hi hbi
  obtain ⟨o', m', -, hm', hV', -⟩ := h.each j n' b' hj hbj
  have hij : i ≠ j := by
    rintro rfl
    rw [hi] at hj
    cases hj
    exact hne rfl
  have hap : PlaneApart b.world b'.world := by
    rw [List.getElem?_eq_some_iff] at hbi hbj
    obtain ⟨hi', rfl⟩ := hbi
    obtain ⟨hj', rfl⟩ := hbj
    rw [List.pairwise_iff_getElem] at hB
    rcases Nat.lt_or_gt_of_ne hij with hlt | hlt
    · exact hB i j hi' hj' hlt
    · exact (hB j i hj' hi' hlt).symm
  have := hap.perm hV hV'
  exact ⟨m, m', hm, hm', this, this.not_overlap⟩

/-! ### Formulas -/

theorem rotate_Ry (A : ℝ) (p : V3) : Quat.rotate (Quat.Ry A) p =
    ⟨Real.cos A * p.x + Real.sin A * p.z, p.y, -Real.sin A * p.x + Real.cos A * p.z⟩ := by
  have hc : Real.cos A = Real.cos (A / 2) ^ 2 - Real.sin (A / 2) ^ 2 := by
    rw [← Real.cos_two_mul']; congr 1; ring
  have hs : Real.sin A = 2 * Real.sin (A / 2) * Real.cos (A / 2) := by
    rw [← Real.sin_two_mul]; congr 1; ring
  have h1 := Real.sin_sq_add_cos_sq (A / 2)
  unfold Quat.Ry
  rw [hc, hs]
  generalize Real.sin (A / 2) = s at *
  generalize Real.cos (A / 2) = c at *
  obtain ⟨x, y, z⟩ := p
  refine V3.ext ?_ ?_ ?_ <;> simp [Quat.rotate, Quat.prod, Quat.conjugate, Quat.vec, V3.dot, V3.cross]
  · ring
  · linear_combination y * h1
  · ring

theorem rotate_Rz (A : ℝ) (p : V3) : Quat.rotate (Quat.Rz A) p =
    ⟨Real.cos A * p.x - Real.sin A * p.y, Real.sin A * p.x + Real.cos A * p.y, p.z⟩ := by
  have hc : Real.cos A = Real.cos (A / 2) ^ 2 - Real.sin (A / 2) ^ 2 := by
    rw [← Real.cos_two_mul']; congr 1; ring
  have hs : Real.sin A = 2 * Real.sin (A / 2) * Real.cos (A / 2) := by
    rw [← Real.sin_two_mul]; congr 1; ring
  have h1 := Real.sin_sq_add_cos_sq (A / 2)
  unfold Quat.Rz
  rw [hc, hs]
  generalize Real.sin (A / 2) = s at *
  generalize Real.cos (A / 2) = c at *
  obtain ⟨x, y, z⟩ := p
  refine V3.ext ?_ ?_ ?_ <;> simp [Quat.rotate, Quat.prod, Quat.conjugate, Quat.vec, V3.dot, V3.cross]
  · ring
  · ring
  · linear_combination z * h1

/-- The corners of a box. -/
theorem mem_box {w h d : ℝ} {v : V3} (hv : v ∈ (create_box w h d).1) :
    (v.x = w / 2 ∨ v.x = -(w / 2)) ∧ (v.y = h / 2 ∨ v.y = -(h / 2)) ∧ (v.z = d / 2 ∨ v.z = -(d / 2)) := by
  simp only [create_box, show (0.5:ℝ) = 1 / 2 by norm_num, List.mem_cons, List.not_mem_nil, or_false] at hv
  rcases hv with rfl | rfl | rfl | rfl | rfl | rfl | rfl | rfl <;> simp <;> refine ⟨?_, ?_, ?_⟩ <;>
    first | (left; ring1) | (right; ring1)

end Verif
