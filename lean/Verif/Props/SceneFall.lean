import Verif.Props.SceneScaled

/-! C105: scenes in which a lattice of bodies falls on fixed bodies. -/

namespace Verif

open Rigid Rigid.SceneM SMesh
open VMesh (Tri)

/-! ### Fixed boxes -/

/-- The box between the corners lo and hi, parallel to the axes. -/
noncomputable def boxAt (lo hi : V3) : Brick :=
  ⟨(create_box (hi.x - lo.x) (hi.y - lo.y) (hi.z - lo.z)).1, (create_box (hi.x - lo.x) (hi.y - lo.y) (hi.z - lo.z)).2, (1 / 2 : ℝ) • (lo + hi),
    Quat.identity⟩

theorem boxAt_world {lo hi p : V3} (hp : p ∈ (boxAt lo hi).world) :
    (p.x = lo.x ∨ p.x = hi.x) ∧ (p.y = lo.y ∨ p.y = hi.y) ∧ (p.z = lo.z ∨ p.z = hi.z) := by
  unfold Brick.world boxAt Brick.at at hp
  obtain ⟨v, hv, rfl⟩ := List.mem_map.1 hp
  obtain ⟨h1, h2, h3⟩ := mem_box hv
  rw [rotate_ident_V3]
  refine ⟨?_, ?_, ?_⟩
  · rcases h1 with h1 | h1
    · right; simp [h1]; ring
    · left; simp [h1]; ring
  · rcases h2 with h2 | h2
    · right; simp [h2]; ring
    · left; simp [h2]; ring
  · rcases h3 with h3 | h3
    · right; simp [h3]; ring
    · left; simp [h3]; ring

theorem PlaneApart.of_z {A B : List V3} (c : ℝ) (h1 : ∀ a ∈ A, a.z ≤ c) (h2 : ∀ b ∈ B, c ≤ b.z) : PlaneApart A B := by
  refine ⟨⟨0, 0, 1⟩, c, ?_, ?_, ?_⟩
  · intro h; have := congrArg V3.z h; simp at this
  · intro a ha; simpa [V3.dot] using h1 a ha
  · intro b hb; simpa [V3.dot] using h2 b hb

theorem newWall_ok {eig : Eig} (he : EigSpec eig) {shape body : String} {w h d : ℝ} {r : V3} {material : String} {density : ℝ} {s s' : Scene} {n : String}
    (hok : s.OK) (hrun : newWall eig shape body w h d r material density s = .ok (n, s')) :
    PutUp (Finished true material density) s s' [⟨(create_box w h d).1, (create_box w h d).2, r, Quat.identity⟩] [n] := by
  unfold newWall at hrun
  rw [bind_ok] at hrun
  obtain ⟨k, s1, h1, hrun⟩ := hrun
  rw [bind_ok] at hrun
  obtain ⟨b, s2, h2, hrun⟩ := hrun
  rw [bind_ok] at hrun
  obtain ⟨u, s3, h3, hrun⟩ := hrun
  obtain ⟨rfl, rfl⟩ := pure_ok.1 hrun
  obtain ⟨g1, sh1⟩ := newShape_ok he hok (C33_box_closed w h d).1 (C33_box_closed w h d).2 h1
  have p1 := newBody_ok sh1 h2
  rw [Quat.unit_of_isUnit ident_unit] at p1
  exact PutUp.of_grows g1 (p1.setup (setup_ok (Or.inl ⟨rfl, rfl⟩) h3))

theorem newWall_runs {eig : Eig} (he : EigSpec eig) {shape body : String} {w h d : ℝ} (hw : 0 < w) (hh : 0 < h) (hd : 0 < d) {r : V3} {material : String}
    {density : ℝ} {s : Scene} (hr : Ready material s) :
    ∃ n s', newWall eig shape body w h d r material density s = .ok (n, s') ∧ Ready material s' := by
  unfold newWall
  obtain ⟨k, s1, h1, r1, sh1, -⟩ := newShape_runs he (base := shape) hr (box_star hw hh hd)
  refine bind_runs (P := fun k s1 => Ready material s1 ∧ HasShape s1 k (create_box w h d)) ⟨k, s1, h1, r1, sh1⟩ ?_
  rintro k s1 ⟨r1, sh1⟩
  obtain ⟨n, s2, h2, r2, p2⟩ := newBody_runs (base := body) (r := r) (q := Quat.identity) r1 sh1
  obtain ⟨o, sh, m, e1, e2, -⟩ := (List.forall₂_cons.1 p2.2).1
  obtain ⟨s3, h3, r3⟩ := setup_runs (density := density) (Or.inl rfl) r2 e1 e2
  refine bind_runs (P := fun n' s' => n' = n ∧ s' = s2) ⟨n, s2, h2, rfl, rfl⟩ ?_
  rintro _ _ ⟨rfl, rfl⟩
  exact bind_runs (P := fun _ s => Ready material s) ⟨(), s3, h3, r3⟩ fun _ s hs => pure_runs hs

/-- The five walls of the sandbox: an open box whose inside is w × h × d, standing on a base of thickness t on the plane y = 0. -/
noncomputable def wallsPlan (w h d t : ℝ) : List Brick :=
  [boxAt ⟨-w / 2 - t, t, -d / 2⟩ ⟨-w / 2, t + h, d / 2⟩,
   boxAt ⟨w / 2, t, -d / 2⟩ ⟨w / 2 + t, t + h, d / 2⟩,
   boxAt ⟨-w / 2 - t, t, d / 2⟩ ⟨w / 2 + t, t + h, d / 2 + t⟩,
   boxAt ⟨-w / 2 - t, t, -d / 2 - t⟩ ⟨w / 2 + t, t + h, -d / 2⟩,
   boxAt ⟨-w / 2 - t, 0, -d / 2 - t⟩ ⟨w / 2 + t, t, d / 2 + t⟩]

theorem box_brick {w h d : ℝ} {r lo hi : V3} (h1 : w = hi.x - lo.x) (h2 : h = hi.y - lo.y) (h3 : d = hi.z - lo.z)
    (hx : r.x = (lo.x + hi.x) / 2) (hy : r.y = (lo.y + hi.y) / 2) (hz : r.z = (lo.z + hi.z) / 2) :
    (⟨(create_box w h d).1, (create_box w h d).2, r, Quat.identity⟩ : Brick) = boxAt lo hi := by
  have e : r = (1 / 2 : ℝ) • (lo + hi) := by
    refine V3.ext ?_ ?_ ?_
    · rw [hx]; simp; ring
    · rw [hy]; simp; ring
    · rw [hz]; simp; ring
  unfold boxAt
  rw [h1, h2, h3, e]

theorem walls_built {eig : Eig} (he : EigSpec eig) {w h d t density : ℝ} {material : String} {s s' : Scene} {names : List String} (hok : s.OK)
    (hrun : sandboxWalls eig w h d t density material s = .ok (names, s')) :
    PutUp (Finished true material density) s s' (wallsPlan w h d t) names := by
  unfold sandboxWalls at hrun
  rw [bind_ok] at hrun
  obtain ⟨n1, s1, h1, hrun⟩ := hrun
  rw [bind_ok] at hrun
  obtain ⟨n2, s2, h2, hrun⟩ := hrun
  rw [bind_ok] at hrun
  obtain ⟨n3, s3, h3, hrun⟩ := hrun
  rw [bind_ok] at hrun
  obtain ⟨n4, s4, h4, hrun⟩ := hrun
  rw [bind_ok] at hrun
  obtain ⟨n5, s5, h5, hrun⟩ := hrun
  obtain ⟨rfl, rfl⟩ := pure_ok.1 hrun
  have p1 := newWall_ok he hok h1
  have p2 := newWall_ok he (p1.1.ok hok) h2
  have p3 := newWall_ok he (p2.1.ok (p1.1.ok hok)) h3
  have p4 := newWall_ok he (p3.1.ok (p2.1.ok (p1.1.ok hok))) h4
  have p5 := newWall_ok he (p4.1.ok (p3.1.ok (p2.1.ok (p1.1.ok hok)))) h5
  have := (((p1.append p2).append p3).append p4).append p5
  simp only [List.cons_append, List.nil_append] at this
  convert this using 1
  unfold wallsPlan
  simp only [show (2.0 : ℝ) = 2 by norm_num, show (0.0 : ℝ) = 0 by norm_num]
  congr 1
  · refine (box_brick ?_ ?_ ?_ ?_ ?_ ?_).symm <;> simp only <;> ring
  congr 1
  · refine (box_brick ?_ ?_ ?_ ?_ ?_ ?_).symm <;> simp only <;> ring
  congr 1
  · refine (box_brick ?_ ?_ ?_ ?_ ?_ ?_).symm <;> simp only <;> ring
  congr 1
  · refine (box_brick ?_ ?_ ?_ ?_ ?_ ?_).symm <;> simp only <;> ring
  congr 1
  · refine (box_brick ?_ ?_ ?_ ?_ ?_ ?_).symm <;> simp only <;> ring

theorem walls_runs {eig : Eig} (he : EigSpec eig) {w h d t density : ℝ} (hw : 0 < w) (hh : 0 < h) (hd : 0 < d) (ht : 0 < t) {material : String}
    {s : Scene} (hr : Ready material s) :
    ∃ names s', sandboxWalls eig w h d t density material s = .ok (names, s') ∧ Ready material s' := by
  unfold sandboxWalls
  simp only [show (2.0 : ℝ) = 2 by norm_num]
  refine bind_runs (newWall_runs he ht hh hd hr) fun _ _ hr => ?_
  refine bind_runs (newWall_runs he ht hh hd hr) fun _ _ hr => ?_
  refine bind_runs (newWall_runs he (by positivity) hh ht hr) fun _ _ hr => ?_
  refine bind_runs (newWall_runs he (by positivity) hh ht hr) fun _ _ hr => ?_
  refine bind_runs (newWall_runs he (by positivity) ht (by positivity) hr) fun _ _ hr => ?_
  exact pure_runs hr

theorem walls_apart {w h d t : ℝ} (hw : 0 ≤ w) (hh : 0 ≤ h) (hd : 0 ≤ d) (ht : 0 ≤ t) :
    (wallsPlan w h d t).Pairwise fun a b => PlaneApart a.world b.world := by
  unfold wallsPlan
  have hb : ∀ lo hi : V3, lo.x ≤ hi.x → lo.y ≤ hi.y → lo.z ≤ hi.z → ∀ p ∈ (boxAt lo hi).world,
      lo.x ≤ p.x ∧ p.x ≤ hi.x ∧ lo.y ≤ p.y ∧ p.y ≤ hi.y ∧ lo.z ≤ p.z ∧ p.z ≤ hi.z := by
    intro lo hi h1 h2 h3 p hp
    obtain ⟨hx, hy, hz⟩ := boxAt_world hp
    refine ⟨?_, ?_, ?_, ?_, ?_, ?_⟩
    · rcases hx with e | e <;> rw [e]; exact h1
    · rcases hx with e | e <;> rw [e]; exact h1
    · rcases hy with e | e <;> rw [e]; exact h2
    · rcases hy with e | e <;> rw [e]; exact h2
    · rcases hz with e | e <;> rw [e]; exact h3
    · rcases hz with e | e <;> rw [e]; exact h3
  have b1 := hb ⟨-w / 2 - t, t, -d / 2⟩ ⟨-w / 2, t + h, d / 2⟩ (by simp only; linarith) (by simp only; linarith) (by simp only; linarith)
  have b2 := hb ⟨w / 2, t, -d / 2⟩ ⟨w / 2 + t, t + h, d / 2⟩ (by simp only; linarith) (by simp only; linarith) (by simp only; linarith)
  have b3 := hb ⟨-w / 2 - t, t, d / 2⟩ ⟨w / 2 + t, t + h, d / 2 + t⟩ (by simp only; linarith) (by simp only; linarith) (by simp only; linarith)
  have b4 := hb ⟨-w / 2 - t, t, -d / 2 - t⟩ ⟨w / 2 + t, t + h, -d / 2⟩ (by simp only; linarith) (by simp only; linarith) (by simp only; linarith)
  have b5 := hb ⟨-w / 2 - t, 0, -d / 2 - t⟩ ⟨w / 2 + t, t, d / 2 + t⟩ (by simp only; linarith) (by simp only; linarith) (by simp only; linarith)
  have base : ∀ lo hi : V3, lo.x ≤ hi.x → lo.y ≤ hi.y → lo.z ≤ hi.z → lo.y = t → PlaneApart (boxAt lo hi).world (boxAt ⟨-w / 2 - t, 0, -d / 2 - t⟩ ⟨w / 2 + t, t, d / 2 + t⟩).world := by
    intro lo hi h1 h2 h3 e
    exact (PlaneApart.of_y t (fun a ha => (b5 a ha).2.2.2.1) (fun a ha => by have := (hb lo hi h1 h2 h3 a ha).2.2.1; rwa [e] at this)).symm
  refine List.Pairwise.cons ?_ (List.Pairwise.cons ?_ (List.Pairwise.cons ?_ (List.Pairwise.cons ?_ (List.Pairwise.cons ?_ List.Pairwise.nil))))
  · intro b hbm
    simp only [List.mem_cons, List.not_mem_nil, or_false] at hbm
    rcases hbm with rfl | rfl | rfl | rfl
    · exact PlaneApart.of_x 0 (fun a ha => by have := (b1 a ha).2.1; simp only at this; linarith) (fun a ha => by have := (b2 a ha).1; simp only at this; linarith)
    · exact PlaneApart.of_z (d / 2) (fun a ha => (b1 a ha).2.2.2.2.2) (fun a ha => (b3 a ha).2.2.2.2.1)
    · exact (PlaneApart.of_z (-d / 2) (fun a ha => (b4 a ha).2.2.2.2.2) (fun a ha => (b1 a ha).2.2.2.2.1)).symm
    · exact base _ _ (by simp only; linarith) (by simp only; linarith) (by simp only; linarith) rfl
  · intro b hbm
    simp only [List.mem_cons, List.not_mem_nil, or_false] at hbm
    rcases hbm with rfl | rfl | rfl
    · exact PlaneApart.of_z (d / 2) (fun a ha => (b2 a ha).2.2.2.2.2) (fun a ha => (b3 a ha).2.2.2.2.1)
    · exact (PlaneApart.of_z (-d / 2) (fun a ha => (b4 a ha).2.2.2.2.2) (fun a ha => (b2 a ha).2.2.2.2.1)).symm
    · exact base _ _ (by simp only; linarith) (by simp only; linarith) (by simp only; linarith) rfl
  · intro b hbm
    simp only [List.mem_cons, List.not_mem_nil, or_false] at hbm
    rcases hbm with rfl | rfl
    · exact (PlaneApart.of_z 0 (fun a ha => by have := (b4 a ha).2.2.2.2.2; simp only at this; linarith) (fun a ha => by have := (b3 a ha).2.2.2.2.1; simp only at this; linarith)).symm
    · exact base _ _ (by simp only; linarith) (by simp only; linarith) (by simp only; linarith) rfl
  · intro b hbm
    simp only [List.mem_cons, List.not_mem_nil, or_false] at hbm
    rcases hbm with rfl
    exact base _ _ (by simp only; linarith) (by simp only; linarith) (by simp only; linarith) rfl
  · intro b hbm
    simp at hbm

/-! ### Lattices -/

theorem cell_pos {w h d : ℝ} (hw : 0 < w) (hh : 0 < h) (hd : 0 < d) {I J K : ℕ} (hI : I ≠ 0) (hJ : J ≠ 0) (hK : K ≠ 0) :
    0 < min (min (w / I) (h / J)) (d / K) := by
  have h1 : (0 : ℝ) < I := by exact_mod_cast Nat.pos_of_ne_zero hI
  have h2 : (0 : ℝ) < J := by exact_mod_cast Nat.pos_of_ne_zero hJ
  have h3 : (0 : ℝ) < K := by exact_mod_cast Nat.pos_of_ne_zero hK
  exact lt_min (lt_min (div_pos hw h1) (div_pos hh h2)) (div_pos hd h3)

/-- The solids L, scaled to the size t, were added to the scene as a lattice of free bodies (C103). -/
def Rains (s s' : Scene) (names : List String) (t : ℝ) (L : List (List V3 × List Tri)) (r : V3) (q : Quat) (w h d : ℝ) (I J K : ℕ)
    (q_l : ℕ → ℕ → ℕ → Quat) (material : String) (density : ℝ) : Prop :=
  names.length = I * J * K ∧ ∃ Ws B, List.Forall₂ (FitTo t) L Ws ∧ Adds s s' names B false material density ∧
    IsLattice Ws r q (w / I) (h / J) (d / K) I J K q_l B

/-- What the proofs need of a lattice. -/
structure Raining (s s' : Scene) (names : List String) (t : ℝ) (L : List (List V3 × List Tri)) (r : V3) (q : Quat) (w h d : ℝ) (I J K : ℕ)
    (q_l : ℕ → ℕ → ℕ → Quat) (material : String) (density : ℝ) (Ws : List (List V3 × List Tri)) (B : List Brick) : Prop where
  fit : List.Forall₂ (FitTo t) L Ws
  put : PutUp (Finished false material density) s s' B names
  lattice : IsLattice Ws r q (w / I) (h / J) (d / K) I J K q_l B

theorem Raining.rains {s s' : Scene} {names : List String} {t : ℝ} {L : List (List V3 × List Tri)} {r : V3} {q : Quat} {w h d : ℝ} {I J K : ℕ}
    {q_l : ℕ → ℕ → ℕ → Quat} {material : String} {density : ℝ} {Ws : List (List V3 × List Tri)} {B : List Brick}
    (hr : Raining s s' names t L r q w h d I J K q_l material density Ws B) : Rains s s' names t L r q w h d I J K q_l material density :=
  ⟨hr.put.length.trans hr.lattice.1, Ws, B, hr.fit, hr.put.adds, hr.lattice⟩

theorem raining_of {s s1 s' : Scene} {t : ℝ} {L Ws : List (List V3 × List Tri)} {r : V3} {q : Quat} {shape_names : List String} {width height depth : ℝ}
    {I J K : ℕ} {density : ℝ} {material : String} {rand : Bool} {q_body : Option Quat} {draw : ℕ → ℕ → ℕ → Quat} {names : List String}
    (hg : Grows s s1 []) (hsh : ScaledShapes s1 t L Ws shape_names)
    (h : create_lattice r q shape_names width height depth I J K density material rand q_body draw s1 = .ok (names, s')) :
    ∃ B, Raining s s' names t L r q width height depth I J K (fun i j k => if rand then Quat.unit (draw i j k) else q_body.getD Quat.identity) material
      density Ws B := by
  obtain ⟨B, h1, h2, -⟩ := lattice_of_scaled hsh h
  exact ⟨B, hsh.2.1, PutUp.of_grows hg h1, h2⟩

theorem Raining.above {s s' : Scene} {names : List String} {t : ℝ} {L : List (List V3 × List Tri)} {r : V3} {w h d : ℝ} {I J K : ℕ}
    {q_l : ℕ → ℕ → ℕ → Quat} {material : String} {density : ℝ} {Ws : List (List V3 × List Tri)} {B : List Brick}
    (hr : Raining s s' names t L r Quat.identity w h d I J K q_l material density Ws B) (hL : ∀ VT ∈ L, StarShaped VT) (hh : 0 ≤ h) :
    ∀ b ∈ B, ∀ p ∈ b.world, r.y + h / J / 2 - 1.733 * (t + 1e-10) ≤ p.y := by
  intro b hb p hp
  refine hr.lattice.above ?_ (div_nonneg hh (Nat.cast_nonneg J)) hb hp
  intro W hW
  obtain ⟨n, hn, rfl⟩ := List.getElem_of_mem hW
  have hf := hr.fit
  have hn' : n < L.length := hf.length_eq ▸ hn
  have := (List.forall₂_iff_get.1 hf).2 n hn' hn
  simp only [List.get_eq_getElem] at this
  exact star_radius (hL _ (List.getElem_mem hn')) this

/-- Bodies above a horizontal plane and bodies below it. -/
theorem clear_of {s s1 s' : Scene} {B B' : List Brick} {N N' : List String} {fixed fixed' : Bool} {material : String} {density : ℝ}
    (h : PutUp (Finished fixed material density) s s1 B N) (h' : PutUp (Finished fixed' material density) s1 s' B' N') (y : ℝ)
    (hB : ∀ b ∈ B, ∀ p ∈ b.world, y ≤ p.y) (hB' : ∀ b ∈ B', ∀ p ∈ b.world, p.y ≤ y) :
    ∀ n ∈ N, ∀ n' ∈ N', ∃ m m', s'.worldMesh n = some m ∧ s'.worldMesh n' = some m' ∧ PlaneApart m.V m'.V ∧ ¬ Overlap m.V m'.V := by
  intro n hn n' hn'
  have a := h.adds
  have a' := h'.adds
  obtain ⟨i, b, hi, hb⟩ := a.mem hn
  obtain ⟨j, b', hj, hb'⟩ := a'.mem hn'
  obtain ⟨o, m, -, hm, hV, -⟩ := a.each i n b hi hb
  obtain ⟨o', m', -, hm', hV', -⟩ := a'.each j n' b' hj hb'
  have hap : PlaneApart m.V m'.V := by
    refine (PlaneApart.of_y y ?_ ?_).symm
    · intro p hp; exact hB' b' (List.mem_of_getElem? hb') p (hV'.mem_iff.1 hp)
    · intro p hp; exact hB b (List.mem_of_getElem? hb) p (hV.mem_iff.1 hp)
  exact ⟨m, m', a'.oldMesh _ _ hm, hm', hap, hap.not_overlap⟩

/-- **C105.** `create_jack_lattice`: a lattice of free jacks, scaled so that the longest side of the jack's bounding box is nine tenths of
the shortest side of a cell. -/
theorem C105_jack_lattice {eig : Eig} (he : EigSpec eig) {r : V3} {q : Quat} {width height depth : ℝ} {I J K : ℕ} {density : ℝ} {material : String}
    {rand : Bool} {jack : List V3 × List Tri} {draw : ℕ → ℕ → ℕ → Quat} {s s' : Scene} {names : List String} (hok : s.OK) (hj : Scalable jack)
    (hw : 0 < width) (hh : 0 < height) (hd : 0 < depth)
    (h : create_jack_lattice eig r q width height depth I J K density material rand jack draw s = .ok (names, s')) :
    Rains s s' names (min (min (width / I) (height / J)) (depth / K) * 0.9) [jack] r q width height depth I J K
      (fun i j k => if rand then Quat.unit (draw i j k) else Quat.identity) material density := by
  unfold create_jack_lattice at h
  split_ifs at h with hI hJ hK
  · exact absurd h raise_ok
  · exact absurd h raise_ok
  · exact absurd h raise_ok
  simp only at h
  rw [bind_ok] at h
  obtain ⟨k, s1, h1, h2⟩ := h
  have ht : 0 < min (min (width / I) (height / J)) (depth / K) * 0.9 := mul_pos (cell_pos hw hh hd hI hJ hK) (by norm_num)
  obtain ⟨g1, -, W, hf, hs⟩ := newScaledShape_ok he hj ht hok h1
  obtain ⟨B, hr⟩ := raining_of (L := [jack]) (Ws := [W]) g1 ⟨by simp, by simpa using hf, by simpa using hs⟩ h2
  exact hr.rains

/-- **C105.** `create_sandbox`: a lattice of 20 kinds of grains, scaled to nine tenths of a cell and randomly turned, and then the five fixed walls of
an open box, which do not overlap each other. -/
theorem C105_sandbox {eig : Eig} (he : EigSpec eig) {w h d : ℝ} {I J K : ℕ} {density : ℝ} {material : String} {grains : ℕ → List V3 × List Tri}
    {draw : ℕ → ℕ → ℕ → Quat} {s s' : Scene} {names : List String} (hok : s.OK) (hgr : ∀ n < 20, Scalable (grains n))
    (hw : 0 < w) (hh : 0 < h) (hd : 0 < d) (hrun : create_sandbox eig w h d I J K density material grains draw s = .ok (names, s')) :
    ∃ s1 G W, names = G ++ W ∧
      Rains s s1 G (min (min (w / I) (h / J)) (d / K) * 0.9) ((List.range 20).map grains) ⟨-w / 2, 1.5 * h + 0.1 * h, -d / 2⟩ Quat.identity w h d I J K
        (fun i j k => Quat.unit (draw i j k)) material density ∧
      Adds s1 s' W (wallsPlan w h d (0.1 * h)) true material density ∧ NoOverlap s' W ∧
      ((∀ n < 20, StarShaped (grains n)) → 3 ≤ J → 1e-6 ≤ h → ∀ n ∈ G, ∀ n' ∈ W, ∃ m m', s'.worldMesh n = some m ∧ s'.worldMesh n' = some m' ∧
        PlaneApart m.V m'.V ∧ ¬ Overlap m.V m'.V) := by
  unfold create_sandbox at hrun
  simp only at hrun
  split_ifs at hrun with hI hJ hK
  · exact absurd hrun raise_ok
  · exact absurd hrun raise_ok
  · exact absurd hrun raise_ok
  rw [bind_ok] at hrun
  obtain ⟨ks, s1, h1, hrun⟩ := hrun
  rw [bind_ok] at hrun
  obtain ⟨G, s2, h2, hrun⟩ := hrun
  rw [bind_ok] at hrun
  obtain ⟨W, s3, h3, hrun⟩ := hrun
  obtain ⟨rfl, rfl⟩ := pure_ok.1 hrun
  have ht : 0 < min (min (w / I) (h / J)) (d / K) * 0.9 := mul_pos (cell_pos hw hh hd hI hJ hK) (by norm_num)
  obtain ⟨g1, -, Ws, hs⟩ := scaledShapes_ok he grains ht _ (fun n hn => hgr n (List.mem_range.1 hn)) _ _ _ hok h1
  obtain ⟨B, hr⟩ := raining_of g1 hs h2
  have hp := walls_built he (hr.put.1.ok hok) h3
  have e2 : (2.0 : ℝ) = 2 := by norm_num
  refine ⟨s2, G, W, rfl, ?_, hp.adds, hp.adds.noOverlap (walls_apart hw.le hh.le hd.le (by positivity)), ?_⟩
  · have := hr.rains
    rw [e2] at this
    simpa using this
  · intro hstar hJ3 hh6
    have hJ' : (3 : ℝ) ≤ J := by exact_mod_cast hJ3
    refine clear_of hr.put hp (0.1 * h + h) ?_ ?_
    · intro b hb p hp
      refine le_trans ?_ (hr.above (by
        intro VT hVT
        obtain ⟨n, hn, rfl⟩ := List.mem_map.1 hVT
        exact hstar n (List.mem_range.1 hn)) hh.le b hb p hp)
      simp only
      have hx : min (min (w / I) (h / J)) (d / K) ≤ h / J := (min_le_left _ _).trans (min_le_right _ _)
      have hx3 : h / J ≤ h / 3 := div_le_div_of_nonneg_left hh.le (by norm_num) hJ'
      generalize min (min (w / I) (h / J)) (d / K) = x at *
      generalize h / (J : ℝ) = y at *
      norm_num
      norm_num at hh6
      linarith
    · intro b hb p hp
      have ht' : 0 ≤ 0.1 * h := by positivity
      generalize 0.1 * h = t at *
      unfold wallsPlan at hb
      simp only [List.mem_cons, List.not_mem_nil, or_false] at hb
      rcases hb with rfl | rfl | rfl | rfl | rfl <;> rcases (boxAt_world hp).2.1 with e | e <;> rw [e] <;> simp only <;> linarith

end Verif
