import Verif.Props.SceneDome

/-! C90: the pillar and the ground. -/

namespace Verif

open Rigid Rigid.SceneM SMesh
open VMesh (Tri)

/-- The mesh of a conical frustum of 12 slices, standing on y = 0. -/
noncomputable def frustum (rb rt h : ℝ) : List V3 × List Tri :=
  match create_conical rb rt h 12 with
  | .ok VT => VT
  | .error _ => ([], [])

theorem frustum_spec (rb rt h : ℝ) : create_conical rb rt h 12 = .ok (frustum rb rt h) ∧
    IndicesBelow (frustum rb rt h).2 (frustum rb rt h).1.length ∧ ClosedOriented (frustum rb rt h).2 ∧
    ∀ v ∈ (frustum rb rt h).1, v.y = 0 ∨ v.y = h := by
  obtain ⟨V, T, h1, h2, h3, h4, -⟩ := C33_conical rb rt h 12 (by norm_num)
  unfold frustum
  rw [h1]
  exact ⟨rfl, h3, h2, fun v hv => (h4 v hv).imp (·.1) (·.1)⟩

/-- The stones of a pillar of width w, height h and depth d in its own frame, on the y axis: the socle, the abacus, the base, the
echinus, and the stones of the shaft, which tapers from radius 0.315·w to radius 0.225·w. -/
noncomputable def pillarPlan (w h d : ℝ) (stones : ℕ) : List Brick :=
  let B := h / 15
  let T := h / 20
  let y0 := B + B * (9 / 10)
  let y1 := h - T - B * (7 / 10)
  let dy := (y1 - y0) / stones
  let radius := fun (k : ℝ) => 7 / 10 * (9 / 10 * (w / 2)) + (5 / 10 - 7 / 10) * (9 / 10 * (w / 2)) * (k / stones)
  let stone := fun (VT : List V3 × List Tri) (y : ℝ) => (⟨VT.1, VT.2, ⟨0, y, 0⟩, Quat.identity⟩ : Brick)
  [stone (create_box w B d) (B / 2), stone (create_box w T d) (h - T / 2),
   stone (frustum (9 / 10 * (w / 2)) (7 / 10 * (9 / 10 * (w / 2))) (B * (9 / 10))) B,
   stone (frustum (5 / 10 * (9 / 10 * (w / 2))) (8 / 10 * (w / 2)) (B * (7 / 10))) y1] ++
  (List.range stones).map fun (k : ℕ) => stone (frustum (radius k) (radius (k + 1)) dy) (y0 + k * dy)

theorem pillarStone_ok {eig : Eig} (he : EigSpec eig) {r : V3} {q : Quat} (hq : IsUnitQ q) {shape body : String}
    {VT : List V3 × List Tri} {y : ℝ} {s s' : Scene} {n : String} (hok : s.OK) (hi : IndicesBelow VT.2 VT.1.length)
    (hc : ClosedOriented VT.2) (h : pillarStone eig r q shape body VT y s = .ok (n, s')) :
    PutUp Placed s s' [Brick.under ⟨VT.1, VT.2, ⟨0, y, 0⟩, Quat.identity⟩ r q] [n] := by
  unfold pillarStone at h
  rw [bind_ok] at h
  obtain ⟨k, s1, h1, h2⟩ := h
  obtain ⟨hg, hsh⟩ := newShape_ok he hok hi hc h1
  have := newBody_ok hsh h2
  rw [(C01_unit_spec _).2.1 (prod_unit hq ident_unit), lit0] at this
  exact PutUp.of_grows hg this

theorem conical_ok {rb rt h : ℝ} {VT : List V3 × List Tri} {s s' : Scene} (hc : conical rb rt h s = .ok (VT, s')) :
    VT = frustum rb rt h ∧ s' = s := by
  unfold conical at hc
  rw [(frustum_spec rb rt h).1] at hc
  simp only [bind, Except.bind, pure, Except.pure, Except.ok.injEq, Prod.mk.injEq] at hc
  exact ⟨hc.1.symm, hc.2.symm⟩

theorem pillar_built {eig : Eig} (he : EigSpec eig) {r : V3} {q : Quat} (hq : IsUnitQ q) {w h d : ℝ} {stones : ℕ}
    {density : ℝ} {material : String} {s s' : Scene} {names : List String} (hok : s.OK)
    (hrun : create_pillar eig r q w h d stones density material s = .ok (names, s')) :
    stones ≠ 0 ∧ h ≠ 0 ∧
    PutUp (Finished false material density) s s' ((pillarPlan w h d stones).map fun b => b.under r q) names := by
  unfold create_pillar at hrun
  simp only [lit2, show (0.9:ℝ) = 9 / 10 by norm_num, show (0.8:ℝ) = 8 / 10 by norm_num, show (0.7:ℝ) = 7 / 10 by norm_num,
    show (0.5:ℝ) = 5 / 10 by norm_num] at hrun
  rw [bind_ok] at hrun
  obtain ⟨n1, s1, h1, hrun⟩ := hrun
  have b1 := pillarStone_ok he hq hok (C33_box_closed _ _ _).1 (C33_box_closed _ _ _).2 h1
  have o1 := b1.1.ok hok
  rw [bind_ok] at hrun
  obtain ⟨n2, s2, h2, hrun⟩ := hrun
  have b2 := pillarStone_ok he hq o1 (C33_box_closed _ _ _).1 (C33_box_closed _ _ _).2 h2
  have o2 := b2.1.ok o1
  rw [bind_ok] at hrun
  obtain ⟨VT3, s2', hc3, hrun⟩ := hrun
  obtain ⟨rfl, rfl⟩ := conical_ok hc3
  rw [bind_ok] at hrun
  obtain ⟨n3, s3, h3, hrun⟩ := hrun
  have b3 := pillarStone_ok he hq o2 (frustum_spec _ _ _).2.1 (frustum_spec _ _ _).2.2.1 h3
  have o3 := b3.1.ok o2
  rw [bind_ok] at hrun
  obtain ⟨VT4, s3', hc4, hrun⟩ := hrun
  obtain ⟨rfl, rfl⟩ := conical_ok hc4
  rw [bind_ok] at hrun
  obtain ⟨n4, s4, h4, hrun⟩ := hrun
  have b4 := pillarStone_ok he hq o3 (frustum_spec _ _ _).2.1 (frustum_spec _ _ _).2.2.1 h4
  have o4 := b4.1.ok o3
  by_cases g1 : stones = 0
  · rw [if_pos g1] at hrun; exact absurd hrun raise_ok
  rw [if_neg g1] at hrun
  by_cases g2 : h - h / 20 - h / 15 * (7 / 10) - (h / 15 + h / 15 * (9 / 10)) = 0
  · rw [if_pos g2] at hrun; exact absurd hrun raise_ok
  rw [if_neg g2] at hrun
  refine ⟨g1, ?_, ?_⟩
  · rintro rfl; apply g2; norm_num
  rw [bind_ok] at hrun
  obtain ⟨shaft, s5, h5, hrun⟩ := hrun
  rw [bind_ok] at hrun
  obtain ⟨u, s6, h6, hrun⟩ := hrun
  obtain ⟨rfl, rfl⟩ := pure_ok.1 hrun
  have hst : (stones : ℝ) ≠ 0 := by exact_mod_cast g1
  have b5 := mapM_built (Q := Placed) _ (fun n : String => [n]) (fun (k : ℕ) => [Brick.under
    ⟨(frustum (7 / 10 * (9 / 10 * (w / 2)) + (5 / 10 - 7 / 10) * (9 / 10 * (w / 2)) * (k / stones))
        (7 / 10 * (9 / 10 * (w / 2)) + (5 / 10 - 7 / 10) * (9 / 10 * (w / 2)) * ((k + 1) / stones))
        ((h - h / 20 - h / 15 * (7 / 10) - (h / 15 + h / 15 * (9 / 10))) / stones)).1,
      (frustum (7 / 10 * (9 / 10 * (w / 2)) + (5 / 10 - 7 / 10) * (9 / 10 * (w / 2)) * (k / stones))
        (7 / 10 * (9 / 10 * (w / 2)) + (5 / 10 - 7 / 10) * (9 / 10 * (w / 2)) * ((k + 1) / stones))
        ((h - h / 20 - h / 15 * (7 / 10) - (h / 15 + h / 15 * (9 / 10))) / stones)).2,
      ⟨0, h / 15 + h / 15 * (9 / 10) + k * ((h - h / 20 - h / 15 * (7 / 10) - (h / 15 + h / 15 * (9 / 10))) / stones), 0⟩,
      Quat.identity⟩ r q]) (fun s => s.OK) (fun _ _ _ hg hh => hg.ok hh) ?_ _ _ _ _ o4 h5
  · rw [flatMap_singleton_id, flatMap_singleton_map] at b5
    have key := (((b1.append b2).append b3).append b4).append b5
    have := key.setup (forM_setup_ok (Or.inr ⟨rfl, rfl⟩) _ _ _ _ (by simpa using key.1.nodup) (by simpa using h6))
    unfold pillarPlan
    simp only [List.map_append, List.map_cons, List.map_nil, List.map_map]
    simpa [Function.comp_def] using this
  · intro k s7 n s8 hok hb
    rw [bind_ok] at hb
    obtain ⟨VT, s9, hc, hb⟩ := hb
    obtain ⟨rfl, rfl⟩ := conical_ok hc
    have := pillarStone_ok he hq hok (frustum_spec _ _ _).2.1 (frustum_spec _ _ _).2.2.1 hb
    have e1 : ∀ L y0 t : ℝ, L ≠ 0 → (5 / 10 * (9 / 10 * (w / 2)) - 7 / 10 * (9 / 10 * (w / 2))) / L * (y0 + k * (L / stones) - y0) =
        (5 / 10 - 7 / 10) * (9 / 10 * (w / 2)) * (k / stones) := by
      intro L y0 t hL; field_simp; ring
    have e2 : ∀ L y0 t : ℝ, L ≠ 0 → (5 / 10 * (9 / 10 * (w / 2)) - 7 / 10 * (9 / 10 * (w / 2))) / L *
        (y0 + k * (L / stones) + L / stones - y0) = (5 / 10 - 7 / 10) * (9 / 10 * (w / 2)) * ((k + 1) / stones) := by
      intro L y0 t hL; field_simp; ring
    rw [e1 _ _ 0 g2, e2 _ _ 0 g2] at this
    exact this

/-- All points have heights between lo and hi. -/
def Between (lo hi : ℝ) (A : List V3) : Prop := ∀ p ∈ A, lo ≤ p.y ∧ p.y ≤ hi

theorem Between.apart {a b c d : ℝ} {A B : List V3} (hA : Between a b A) (hB : Between c d B) (h : b ≤ c) : PlaneApart A B :=
  PlaneApart.of_y c (fun p hp => (hA p hp).2.trans h) fun p hp => (hB p hp).1

theorem box_between {w h d y : ℝ} (hh : 0 ≤ h) : Between (y - h / 2) (y + h / 2)
    (Brick.world ⟨(create_box w h d).1, (create_box w h d).2, ⟨0, y, 0⟩, Quat.identity⟩) := by
  intro p hp
  unfold Brick.world at hp
  obtain ⟨v, hv, rfl⟩ := List.mem_map.1 hp
  obtain ⟨-, hy, -⟩ := mem_box hv
  unfold Brick.at
  simp only [rotate_ident_V3, V3.add_y]
  rcases hy with e | e <;> rw [e] <;> constructor <;> linarith

theorem frustum_between {rb rt h y : ℝ} (hh : 0 ≤ h) : Between y (y + h)
    (Brick.world ⟨(frustum rb rt h).1, (frustum rb rt h).2, ⟨0, y, 0⟩, Quat.identity⟩) := by
  intro p hp
  unfold Brick.world at hp
  obtain ⟨v, hv, rfl⟩ := List.mem_map.1 hp
  have hy := (frustum_spec rb rt h).2.2.2 v hv
  unfold Brick.at
  simp only [rotate_ident_V3, V3.add_y]
  rcases hy with e | e <;> rw [e] <;> constructor <;> linarith

theorem pillar_apart {w h d : ℝ} (hh : 0 < h) {stones : ℕ} (hs : stones ≠ 0) :
    (pillarPlan w h d stones).Pairwise fun a b => PlaneApart a.world b.world := by
  unfold pillarPlan
  simp only
  have hst : (0:ℝ) < stones := by exact_mod_cast Nat.pos_of_ne_zero hs
  obtain ⟨L, hL⟩ : ∃ L, L = h - h / 20 - h / 15 * (7 / 10) - (h / 15 + h / 15 * (9 / 10)) := ⟨_, rfl⟩
  rw [← hL]
  have hL0 : 0 < L := by rw [hL]; linarith
  have hdy : 0 < L / stones := by positivity
  have e : L = stones * (L / stones) := by field_simp
  have s1 := box_between (w := w) (h := h / 15) (d := d) (y := h / 15 / 2) (by linarith)
  have s2 := box_between (w := w) (h := h / 20) (d := d) (y := h - h / 20 / 2) (by linarith)
  have s3 := frustum_between (rb := 9 / 10 * (w / 2)) (rt := 7 / 10 * (9 / 10 * (w / 2))) (h := h / 15 * (9 / 10)) (y := h / 15)
    (by linarith)
  have s4 := frustum_between (rb := 5 / 10 * (9 / 10 * (w / 2))) (rt := 8 / 10 * (w / 2)) (h := h / 15 * (7 / 10))
    (y := h - h / 20 - h / 15 * (7 / 10)) (by linarith)
  rw [List.pairwise_append]
  refine ⟨?_, ?_, ?_⟩
  · simp only [List.pairwise_cons, List.mem_cons, List.not_mem_nil, or_false, forall_eq_or_imp, forall_eq, IsEmpty.forall_iff,
      implies_true, List.Pairwise.nil, and_true]
    refine ⟨⟨s1.apart s2 (by linarith), s1.apart s3 (by linarith), s1.apart s4 (by linarith)⟩,
      ⟨(s3.apart s2 (by linarith)).symm, (s4.apart s2 (by linarith)).symm⟩, s3.apart s4 (by linarith)⟩
  · rw [List.pairwise_map]
    refine List.Pairwise.imp ?_ List.pairwise_lt_range
    intro i j hij
    have hij' : (i : ℝ) + 1 ≤ j := by exact_mod_cast hij
    refine (frustum_between hdy.le).apart (frustum_between hdy.le) ?_
    nlinarith
  · intro a ha b hb
    obtain ⟨k, hk, rfl⟩ := List.mem_map.1 hb
    have hk' : (k : ℝ) + 1 ≤ stones := by exact_mod_cast List.mem_range.1 hk
    have hk0 : (0:ℝ) ≤ k := by positivity
    have h1 : k * (L / stones) + L / stones ≤ L := by
      have : ((k : ℝ) + 1) * (L / stones) ≤ stones * (L / stones) := by gcongr
      rw [← e] at this
      linarith
    have h2 : 0 ≤ k * (L / stones) := by positivity
    have sk := fun rb rt => frustum_between (rb := rb) (rt := rt) (h := L / stones)
      (y := h / 15 + h / 15 * (9 / 10) + k * (L / stones)) hdy.le
    simp only [List.mem_cons, List.not_mem_nil, or_false] at ha
    rcases ha with rfl | rfl | rfl | rfl
    · exact s1.apart (sk _ _) (by linarith)
    · exact ((sk _ _).apart s2 (by linarith)).symm
    · exact s3.apart (sk _ _) (by linarith)
    · exact ((sk _ _).apart s4 (by linarith)).symm

/-- C90: a pillar of positive height standing at r with orientation q: the socle, the abacus, the base, the echinus and the given
number of shaft stones are added as free bodies, stacked along the local y axis from 0 to the height, and no two overlap. -/
theorem C90_pillar {eig : Eig} (he : EigSpec eig) {r : V3} {q : Quat} (hq : IsUnitQ q) {w h d : ℝ} {stones : ℕ}
    {density : ℝ} {material : String} {s s' : Scene} {names : List String} (hok : s.OK) (hh : 0 < h)
    (hrun : create_pillar eig r q w h d stones density material s = .ok (names, s')) :
    stones ≠ 0 ∧ Adds s s' names ((pillarPlan w h d stones).map fun b => b.under r q) false material density ∧
    NoOverlap s' names ∧ names.length = 4 + stones := by
  obtain ⟨h1, -, hb⟩ := pillar_built he hq hok hrun
  have ha := hb.adds
  refine ⟨h1, ha, ha.noOverlap (pairwise_under hq r (pillar_apart hh h1)), ?_⟩
  rw [ha.length]
  simp [pillarPlan]
  omega

/-- C90: the ground: one fixed body, the box of 100 × 1 × 100 whose top face is the plane y = 0 of the given frame. -/
theorem C90_ground {eig : Eig} (he : EigSpec eig) {r : V3} {q : Quat} (hq : IsUnitQ q) {density : ℝ} {material : String}
    {s s' : Scene} {u : Unit} (hok : s.OK) (hrun : create_ground eig r q density material s = .ok (u, s')) :
    ∃ n, Adds s s' [n] [groundPlan.under r q] true material density ∧
      ∀ m, s'.worldMesh n = some m → ∀ p, p ∈ m.V ↔ ∃ x y z : ℝ, (x = 50 ∨ x = -50) ∧ (y = 0 ∨ y = -1) ∧ (z = 50 ∨ z = -50) ∧
        p = Quat.rotate q ⟨x, y, z⟩ + r := by
  obtain ⟨n, hb⟩ := ground_built he hq hok hrun
  have ha := hb.adds
  refine ⟨n, ha, ?_⟩
  intro m hm p
  obtain ⟨o, m', -, hm', hV, -⟩ := ha.each 0 n _ rfl rfl
  rw [hm] at hm'
  cases hm'
  rw [hV.mem_iff, Brick.under_world, List.mem_map]
  have hat : ∀ v, groundPlan.at v = ⟨0, -1 / 2, 0⟩ + v := by
    intro v; unfold groundPlan Brick.at; simp only [rotate_ident_V3]
  constructor
  · rintro ⟨x, hx, rfl⟩
    unfold Brick.world at hx
    obtain ⟨v, hv, rfl⟩ := List.mem_map.1 hx
    obtain ⟨hx, hy, hz⟩ := mem_box hv
    rw [hat]
    refine ⟨_, _, _, ?_, ?_, ?_, rfl⟩
    · show 0 + v.x = _ ∨ 0 + v.x = _; rcases hx with e | e <;> rw [e]
      · left; norm_num
      · right; norm_num
    · show -1 / 2 + v.y = _ ∨ -1 / 2 + v.y = _; rcases hy with e | e <;> rw [e]
      · left; norm_num
      · right; norm_num
    · show 0 + v.z = _ ∨ 0 + v.z = _; rcases hz with e | e <;> rw [e]
      · left; norm_num
      · right; norm_num
  · rintro ⟨x, y, z, hx, hy, hz, rfl⟩
    refine ⟨⟨x, y, z⟩, ?_, rfl⟩
    have := (C33_box 100 1 100).1 (x / 50) (2 * y + 1) (z / 50) (by rcases hx with rfl | rfl <;> norm_num)
      (by rcases hy with rfl | rfl <;> norm_num) (by rcases hz with rfl | rfl <;> norm_num)
    have hmem := List.mem_map_of_mem (f := groundPlan.at) this
    rw [hat] at hmem
    have e : (⟨0, -1 / 2, 0⟩ : V3) + ⟨x / 50 * 100 / 2, (2 * y + 1) * 1 / 2, z / 50 * 100 / 2⟩ = ⟨x, y, z⟩ := by
      refine V3.ext ?_ ?_ ?_ <;> simp only [V3.add_x, V3.add_y, V3.add_z] <;> ring
    rw [e] at hmem
    exact hmem

end Verif
