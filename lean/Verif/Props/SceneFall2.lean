import Verif.Props.SceneFall

/-! C105, continued: funnel, glasses, poles, rock slide; success and failure. -/

namespace Verif

open Rigid Rigid.SceneM SMesh
open VMesh (Tri)

/-- A fixed body of a shape. -/
theorem fixedBody_ok {base k : String} {VT : List V3 × List Tri} {r : V3} {q : Quat} (hq : IsUnitQ q) {material : String} {density : ℝ} {s s1 s' : Scene}
    {n : String} {u : Unit} (hsh : HasShape s k VT) (h : newBody base k r q s = .ok (n, s1)) (h' : setup "fixed" material density n s1 = .ok (u, s')) :
    PutUp (Finished true material density) s s' [⟨VT.1, VT.2, r, q⟩] [n] := by
  have p1 := newBody_ok hsh h
  rw [Quat.unit_of_isUnit hq] at p1
  exact p1.setup (setup_ok (Or.inl ⟨rfl, rfl⟩) h')

theorem FillBox.within {w h d : ℝ} {VT W : List V3 × List Tri} (hf : FillBox w h d VT W) {l u : V3} (hb : TightBox VT.1 l u) (h0 : l + u = 0) :
    ∀ v ∈ W.1, |v.y| ≤ h / 2 := by
  obtain ⟨a, e, -, -, -, -, l', u', hb', hext, hmid⟩ := hf
  intro v hv
  have h1 := hb'.1 v hv
  have h2 := congrArg V3.y hext
  have h3 := congrArg V3.y (hmid l u hb h0)
  simp only [V3.sub_y, V3.add_y, V3.zero_y] at h2 h3
  rw [abs_le]
  constructor <;> linarith [h1.2.2.1, h1.2.2.2.1]

theorem rotate_Rx_pi (v : V3) : Quat.rotate (Quat.Rx Real.pi) v = ⟨v.x, -v.y, -v.z⟩ := by
  unfold Quat.Rx
  rw [Real.cos_pi_div_two, Real.sin_pi_div_two]
  refine V3.ext ?_ ?_ ?_ <;> simp [Quat.rotate, Quat.prod, Quat.vec, Quat.conjugate, V3.dot, V3.cross]

/-- **C105.** `create_funnel`: the lattice of jacks over three times the height of the funnel, then one fixed funnel, upside down, whose bounding box
has the given height and twice the given radius as its width and depth.  If the file has the origin in its middle and the cells are not too high, star
shaped jacks start clear of it. -/
theorem C105_funnel {eig : Eig} (he : EigSpec eig) {H R w h d : ℝ} {I J K : ℕ} {density : ℝ} {material : String} {rand : Bool}
    {jack funnel : List V3 × List Tri} {draw : ℕ → ℕ → ℕ → Quat} {s s' : Scene} {names : List String} (hok : s.OK) (hj : Scalable jack)
    (hf : IndicesBelow funnel.2 funnel.1.length ∧ ClosedOriented funnel.2) {l u : V3} (hb : TightBox funnel.1 l u) (hx : l.x < u.x) (hy : l.y < u.y)
    (hz : l.z < u.z) (hR : 0 < R) (hH : 0 < H) (hw : 0 < w) (hh : 0 < h) (hd : 0 < d)
    (hrun : create_funnel eig H R w h d I J K density material rand jack funnel draw s = .ok (names, s')) :
    ∃ s1 G n W, names = G ++ [n] ∧
      Rains s s1 G (min (min (w / I) (h / J)) (d / K) * 0.9) [jack] ⟨-w / 2, 3 * H, -d / 2⟩ Quat.identity w h d I J K
        (fun i j k => if rand then Quat.unit (draw i j k) else Quat.identity) material density ∧
      FillBox (2 * R) H (2 * R) funnel W ∧
      Adds s1 s' [n] [⟨W.1, W.2, ⟨0, 1.5 * H, 0⟩, Quat.Rx Real.pi⟩] true material density ∧
      (StarShaped jack → l + u = 0 → h / J ≤ 0.9 * H → 1e-6 ≤ H → ∀ n' ∈ G, ∃ m m', s'.worldMesh n' = some m ∧ s'.worldMesh n = some m' ∧
        PlaneApart m.V m'.V ∧ ¬ Overlap m.V m'.V) := by
  unfold create_funnel at hrun
  split_ifs at hrun with hI hJ hK
  · exact absurd hrun raise_ok
  · exact absurd hrun raise_ok
  · exact absurd hrun raise_ok
  simp only at hrun
  rw [bind_ok] at hrun
  obtain ⟨k, s1, h1, hrun⟩ := hrun
  rw [bind_ok] at hrun
  obtain ⟨G, s2, h2, hrun⟩ := hrun
  rw [bind_ok] at hrun
  obtain ⟨k', s3, h3, hrun⟩ := hrun
  rw [bind_ok] at hrun
  obtain ⟨n, s4, h4, hrun⟩ := hrun
  rw [bind_ok] at hrun
  obtain ⟨_, s5, h5, hrun⟩ := hrun
  obtain ⟨rfl, rfl⟩ := pure_ok.1 hrun
  have ht : 0 < min (min (w / I) (h / J)) (d / K) * 0.9 := mul_pos (cell_pos hw hh hd hI hJ hK) (by norm_num)
  obtain ⟨g1, -, W, hfit, hs⟩ := newScaledShape_ok he hj ht hok h1
  obtain ⟨B, hr⟩ := raining_of (L := [jack]) (Ws := [W]) g1 ⟨by simp, by simpa using hfit, by simpa using hs⟩ h2
  obtain ⟨g3, W', hW', hs'⟩ := newStretchedShape_ok he hf hb hx hy hz hR hH (hr.put.1.ok hok) h3
  have hp := PutUp.of_grows g3 (fixedBody_ok (Rx_unit _) hs' h4 h5)
  have e2 : (2.0 : ℝ) = 2 := by norm_num
  have e3 : (3.0 : ℝ) = 3 := by norm_num
  have e0 : (0.0 : ℝ) = 0 := by norm_num
  refine ⟨s2, G, n, W', rfl, ?_, hW', ?_, ?_⟩
  · have := hr.rains
    rw [e2, e3] at this
    exact this
  · have := hp.adds
    rw [e0] at this
    exact this
  · intro hstar hmid hc hH6 n' hn'
    refine clear_of hr.put hp (2 * H) ?_ ?_ n' hn' n (by simp)
    · intro b hb p hp
      refine le_trans ?_ (hr.above (by simpa using hstar) hh.le b hb p hp)
      simp only
      have hx : min (min (w / I) (h / J)) (d / K) ≤ h / J := (min_le_left _ _).trans (min_le_right _ _)
      generalize min (min (w / I) (h / J)) (d / K) = x at *
      generalize h / (J : ℝ) = y at *
      norm_num
      norm_num at hH6 hc
      linarith
    · intro b hb' p hp
      rw [List.mem_singleton] at hb'
      rw [hb'] at hp
      unfold Brick.world Brick.at at hp
      obtain ⟨v, hv, rfl⟩ := List.mem_map.1 hp
      have hy := hW'.within hb hmid v hv
      simp only [rotate_Rx_pi, V3.add_y]
      norm_num
      linarith [(abs_le.1 hy).1]

/-- **C105.** `create_glasses`: the lattice of small glasses, then one fixed large glass, whose bounding box
has the given height and twice the given radius as its width and depth.  If the file has the origin in its middle and the cells are not too high, a star
shaped small glass starts clear of it. -/
theorem C105_glasses {eig : Eig} (he : EigSpec eig) {H R w h d : ℝ} {I J K : ℕ} {density : ℝ} {material : String} {rand : Bool}
    {glass : List V3 × List Tri} {draw : ℕ → ℕ → ℕ → Quat} {s s' : Scene} {names : List String} (hok : s.OK)
    (hf : IndicesBelow glass.2 glass.1.length ∧ ClosedOriented glass.2) {l u : V3} (hb : TightBox glass.1 l u) (hx : l.x < u.x) (hy : l.y < u.y)
    (hz : l.z < u.z) (hR : 0 < R) (hH : 0 < H) (hw : 0 < w) (hh : 0 < h) (hd : 0 < d)
    (hrun : create_glasses eig H R w h d I J K density material rand glass draw s = .ok (names, s')) :
    ∃ s1 G n W, names = G ++ [n] ∧
      Rains s s1 G (min (min (w / I) (h / J)) (d / K) * 0.9) [glass] ⟨-w / 2, 1.25 * H, -d / 2⟩ Quat.identity w h d I J K
        (fun i j k => if rand then Quat.unit (draw i j k) else Quat.Rx (-Real.pi / 2)) material density ∧
      FillBox (2 * R) H (2 * R) glass W ∧
      Adds s1 s' [n] [⟨W.1, W.2, ⟨0, H / 2, 0⟩, Quat.identity⟩] true material density ∧
      (StarShaped glass → l + u = 0 → h / J ≤ 0.2 * H → 1e-6 ≤ H → ∀ n' ∈ G, ∃ m m', s'.worldMesh n' = some m ∧ s'.worldMesh n = some m' ∧
        PlaneApart m.V m'.V ∧ ¬ Overlap m.V m'.V) := by
  have hj : Scalable glass := by
    refine ⟨hf.1, hf.2, ?_⟩
    obtain ⟨-, ⟨x1, m1, e1⟩, ⟨x2, m2, e2⟩, -⟩ := hb
    refine ⟨x1, m1, x2, m2, ?_⟩
    rintro rfl
    linarith
  unfold create_glasses at hrun
  split_ifs at hrun with hI hJ hK
  · exact absurd hrun raise_ok
  · exact absurd hrun raise_ok
  · exact absurd hrun raise_ok
  simp only at hrun
  rw [bind_ok] at hrun
  obtain ⟨k, s1, h1, hrun⟩ := hrun
  rw [bind_ok] at hrun
  obtain ⟨G, s2, h2, hrun⟩ := hrun
  rw [bind_ok] at hrun
  obtain ⟨k', s3, h3, hrun⟩ := hrun
  rw [bind_ok] at hrun
  obtain ⟨n, s4, h4, hrun⟩ := hrun
  rw [bind_ok] at hrun
  obtain ⟨_, s5, h5, hrun⟩ := hrun
  obtain ⟨rfl, rfl⟩ := pure_ok.1 hrun
  have ht : 0 < min (min (w / I) (h / J)) (d / K) * 0.9 := mul_pos (cell_pos hw hh hd hI hJ hK) (by norm_num)
  obtain ⟨g1, -, W, hfit, hs⟩ := newScaledShape_ok he hj ht hok h1
  obtain ⟨B, hr⟩ := raining_of (L := [glass]) (Ws := [W]) g1 ⟨by simp, by simpa using hfit, by simpa using hs⟩ h2
  obtain ⟨g3, W', hW', hs'⟩ := newStretchedShape_ok he hf hb hx hy hz hR hH (hr.put.1.ok hok) h3
  have hp := PutUp.of_grows g3 (fixedBody_ok ident_unit hs' h4 h5)
  have e2 : (2.0 : ℝ) = 2 := by norm_num
  have e0 : (0.0 : ℝ) = 0 := by norm_num
  refine ⟨s2, G, n, W', rfl, ?_, hW', ?_, ?_⟩
  · have := hr.rains
    rw [e2] at this
    exact this
  · have := hp.adds
    rw [e0, e2] at this
    exact this
  · intro hstar hmid hc hH6 n' hn'
    refine clear_of hr.put hp (H) ?_ ?_ n' hn' n (by simp)
    · intro b hb p hp
      refine le_trans ?_ (hr.above (by simpa using hstar) hh.le b hb p hp)
      simp only
      have hx : min (min (w / I) (h / J)) (d / K) ≤ h / J := (min_le_left _ _).trans (min_le_right _ _)
      generalize min (min (w / I) (h / J)) (d / K) = x at *
      generalize h / (J : ℝ) = y at *
      norm_num
      norm_num at hH6 hc
      linarith
    · intro b hb' p hp
      rw [List.mem_singleton] at hb'
      rw [hb'] at hp
      unfold Brick.world Brick.at at hp
      obtain ⟨v, hv, rfl⟩ := List.mem_map.1 hp
      have hy := hW'.within hb hmid v hv
      simp only [rotate_ident_V3, V3.add_y, e2]
      linarith [(abs_le.1 hy).2]

/-- The brick of the pole in row i and column k. -/
noncomputable def poleAt (VT : List V3 × List Tri) (w d H R : ℝ) (I K i k : ℕ) : Brick :=
  ⟨VT.1, VT.2, ⟨i * (w / I) - w / 2 + R, H / 2, k * (d / K) - d / 2 + R⟩, Quat.identity⟩

theorem pole_ok {k0 : String} {VT : List V3 × List Tri} {w d H R : ℝ} {I K : ℕ} {density : ℝ} {material : String} {i k : ℕ} {s s' : Scene} {n : String}
    (hsh : HasShape s k0 VT) (h : poleBody k0 w d H R I K density material i k s = .ok (n, s')) :
    PutUp (Finished true material density) s s' [poleAt VT w d H R I K i k] [n] := by
  unfold poleBody at h
  rw [bind_ok] at h
  obtain ⟨n', s1, h1, h⟩ := h
  rw [bind_ok] at h
  obtain ⟨_, s2, h2, h⟩ := h
  obtain ⟨rfl, rfl⟩ := pure_ok.1 h
  have e : Quat.prod Quat.identity Quat.identity = Quat.identity := (C01_identity_unit _).1
  have hp := fixedBody_ok (by rw [e]; exact ident_unit) hsh h1 h2
  convert hp using 2
  unfold poleAt globalPos
  rw [e]
  simp only [show (2.0 : ℝ) = 2 by norm_num, show (0.0 : ℝ) = 0 by norm_num]
  congr 1
  rw [rotate_ident_V3]
  refine V3.ext ?_ ?_ ?_ <;> simp <;> ring

/-- The poles, row by row. -/
noncomputable def polesPlan (VT : List V3 × List Tri) (w d H R : ℝ) (I K : ℕ) : List Brick :=
  (List.range I).flatMap fun (i : ℕ) => (List.range K).map fun (k : ℕ) => poleAt VT w d H R I K i k

theorem pole_world {VT : List V3 × List Tri} {H R : ℝ} (hH : 0 < H) (hR : 0 < R)
    (hV : ∀ v ∈ VT.1, (v = ⟨0, H / 2, 0⟩ ∨ v = ⟨0, -(H / 2), 0⟩ ∨ v.x ^ 2 + v.z ^ 2 = R ^ 2) ∧ |v.y| ≤ |H| / 2) {w d : ℝ} {I K i k : ℕ} {p : V3}
    (hp : p ∈ (poleAt VT w d H R I K i k).world) :
    i * (w / I) - w / 2 ≤ p.x ∧ p.x ≤ i * (w / I) - w / 2 + 2 * R ∧ 0 ≤ p.y ∧ p.y ≤ H ∧ k * (d / K) - d / 2 ≤ p.z ∧
      p.z ≤ k * (d / K) - d / 2 + 2 * R := by
  unfold Brick.world poleAt Brick.at at hp
  obtain ⟨v, hv, rfl⟩ := List.mem_map.1 hp
  rw [rotate_ident_V3]
  obtain ⟨h1, h2⟩ := hV v hv
  rw [abs_of_pos hH] at h2
  have h3 := abs_le.1 h2
  have h4 : -R ≤ v.x ∧ v.x ≤ R ∧ -R ≤ v.z ∧ v.z ≤ R := by
    rcases h1 with rfl | rfl | h1
    · simp only; refine ⟨?_, ?_, ?_, ?_⟩ <;> linarith
    · simp only; refine ⟨?_, ?_, ?_, ?_⟩ <;> linarith
    · have a := abs_le_of_sq_le_sq' (a := v.x) (b := R) (by nlinarith [sq_nonneg v.z]) hR.le
      have b := abs_le_of_sq_le_sq' (a := v.z) (b := R) (by nlinarith [sq_nonneg v.x]) hR.le
      exact ⟨a.1, a.2, b.1, b.2⟩
  obtain ⟨a, b, c, e⟩ := h4
  obtain ⟨f, g⟩ := h3
  simp only [V3.add_x, V3.add_y, V3.add_z]
  refine ⟨?_, ?_, ?_, ?_, ?_, ?_⟩ <;> linarith

theorem cells_apart {δ : ℝ} (hδ : 0 ≤ δ) {i j : ℕ} (h : i < j) : (i : ℝ) * δ + δ ≤ j * δ := by
  have : (i : ℝ) + 1 ≤ j := by exact_mod_cast h
  nlinarith

theorem poles_apart {VT : List V3 × List Tri} {H R : ℝ} (hH : 0 < H) (hR : 0 < R)
    (hV : ∀ v ∈ VT.1, (v = ⟨0, H / 2, 0⟩ ∨ v = ⟨0, -(H / 2), 0⟩ ∨ v.x ^ 2 + v.z ^ 2 = R ^ 2) ∧ |v.y| ≤ |H| / 2) {w d : ℝ} {I K : ℕ}
    (hw : 2 * R ≤ w / I) (hd : 2 * R ≤ d / K) : (polesPlan VT w d H R I K).Pairwise fun a b => PlaneApart a.world b.world := by
  unfold polesPlan
  rw [List.pairwise_flatMap]
  constructor
  · intro i _
    rw [List.pairwise_map]
    refine List.pairwise_lt_range.imp ?_
    intro k k' hk
    have := cells_apart (δ := d / K) (by linarith) hk
    refine PlaneApart.of_z (k * (d / K) - d / 2 + 2 * R) (fun a ha => (pole_world hH hR hV ha).2.2.2.2.2) (fun a ha => ?_)
    have := (pole_world hH hR hV ha).2.2.2.2.1
    linarith
  · refine List.pairwise_lt_range.imp ?_
    intro i i' hi a ha b hb
    obtain ⟨k, -, rfl⟩ := List.mem_map.1 ha
    obtain ⟨k', -, rfl⟩ := List.mem_map.1 hb
    have := cells_apart (δ := w / I) (by linarith) hi
    refine PlaneApart.of_x (i * (w / I) - w / 2 + 2 * R) (fun a ha => (pole_world hH hR hV ha).2.1) (fun a ha => ?_)
    have := (pole_world hH hR hV ha).1
    linarith

/-- **C105.** `create_poles`: a lattice of the given solids, scaled to the size of a cell, and under it a grid of fixed cylinders standing on the plane
y = 0.  If the cells of the grid are at least as wide as the poles, the poles do not overlap each other; and if a cell of the lattice is not higher than
four fifths of a pole, then star shaped solids start clear of the poles. -/
theorem C105_poles {eig : Eig} (he : EigSpec eig) {H R : ℝ} {Ip Kp : ℕ} {w h d : ℝ} {I J K : ℕ} {density : ℝ} {material : String} {rand : Bool}
    {objs : List (List V3 × List Tri)} {draw : ℕ → ℕ → ℕ → Quat} {s s' : Scene} {names : List String} (hok : s.OK) (ho : ∀ VT ∈ objs, Scalable VT)
    (hR : 0 < R) (hH : 0 < H) (hw : 0 < w) (hh : 0 < h) (hd : 0 < d)
    (hrun : create_poles eig H R Ip Kp w h d I J K density material rand objs draw s = .ok (names, s')) :
    ∃ VT s1 G P, create_cylinder R H 12 1 = .ok VT ∧ names = G ++ P ∧
      Rains s s1 G (min (min (w / I) (h / J)) (d / K)) objs ⟨-w / 2, 2 * H, -d / 2⟩ Quat.identity w h d I J K
        (fun i j k => if rand then Quat.unit (draw i j k) else Quat.identity) material density ∧
      P.length = Ip * Kp ∧ Adds s1 s' P (polesPlan VT w d H R Ip Kp) true material density ∧
      (2 * R ≤ w / Ip → 2 * R ≤ d / Kp → NoOverlap s' P) ∧
      ((∀ VT ∈ objs, StarShaped VT) → h / J ≤ 0.8 * H → 1e-6 ≤ H → ∀ n ∈ G, ∀ n' ∈ P, ∃ m m', s'.worldMesh n = some m ∧ s'.worldMesh n' = some m' ∧
        PlaneApart m.V m'.V ∧ ¬ Overlap m.V m'.V) := by
  unfold create_poles at hrun
  by_cases hI : I = 0
  · rw [if_pos hI] at hrun; exact absurd hrun raise_ok
  rw [if_neg hI] at hrun
  by_cases hJ : J = 0
  · rw [if_pos hJ] at hrun; exact absurd hrun raise_ok
  rw [if_neg hJ] at hrun
  by_cases hK : K = 0
  · rw [if_pos hK] at hrun; exact absurd hrun raise_ok
  rw [if_neg hK] at hrun
  rw [bind_ok] at hrun
  obtain ⟨ks, s1, h1, hrun⟩ := hrun
  rw [bind_ok] at hrun
  obtain ⟨G, s2, h2, hrun⟩ := hrun
  rw [bind_ok] at hrun
  obtain ⟨VT, s3, h3, hrun⟩ := hrun
  obtain ⟨V, T, hcyl, hclosed, hidx, hV, -⟩ := C33_cylinder R H 12 1 (by norm_num) (by norm_num)
  unfold SceneM.cylinder at h3
  rw [hcyl] at h3
  simp only [bind, Except.bind, pure, Except.pure, Except.ok.injEq, Prod.mk.injEq] at h3
  obtain ⟨rfl, rfl⟩ := h3
  rw [bind_ok] at hrun
  obtain ⟨k, s4, h4, hrun⟩ := hrun
  by_cases hIp : Ip = 0
  · rw [if_pos hIp] at hrun; exact absurd hrun raise_ok
  rw [if_neg hIp] at hrun
  by_cases hKp : Kp = 0
  · rw [if_pos hKp] at hrun; exact absurd hrun raise_ok
  rw [if_neg hKp] at hrun
  rw [bind_ok] at hrun
  obtain ⟨rows, s5, h5, hrun⟩ := hrun
  obtain ⟨rfl, rfl⟩ := pure_ok.1 hrun
  have ht : 0 < min (min (w / I) (h / J)) (d / K) := cell_pos hw hh hd hI hJ hK
  obtain ⟨g1, -, Ws, hs⟩ := scaledShapes_ok he (fun VT => VT) ht _ ho _ _ _ hok h1
  rw [List.map_id'] at hs
  obtain ⟨B, hr⟩ := raining_of g1 hs h2
  obtain ⟨g4, sh4⟩ := newShape_ok he (hr.put.1.ok hok) hidx hclosed h4
  have hp5 := mapM_rows (Q := Finished true material density) _ (fun (i : ℕ) => (List.range Kp).map fun (k : ℕ) => poleAt (V, T) w d H R Ip Kp i k)
    (fun s => HasShape s k (V, T)) (fun _ _ _ hg hh => hh.grows hg)
    (fun i s n s' hi hm => mapM_bodies _ _ (fun k s n s' hi hm => pole_ok hi hm) hi hm) sh4 h5
  have hp : PutUp (Finished true material density) s2 s5 (polesPlan (V, T) w d H R Ip Kp) rows.flatten := PutUp.of_grows g4 hp5
  have e2 : (2.0 : ℝ) = 2 := by norm_num
  refine ⟨(V, T), s2, G, rows.flatten, hcyl, rfl, ?_, ?_, hp.adds, ?_, ?_⟩
  · have := hr.rains
    rw [e2] at this
    exact this
  · rw [hp.length]
    unfold polesPlan
    simp [List.length_flatMap]
  · intro hx hz
    exact hp.adds.noOverlap (poles_apart hH hR hV hx hz)
  · intro hstar hJ8 hH6
    refine clear_of hr.put hp H ?_ ?_
    · intro b hb p hp
      refine le_trans ?_ (hr.above hstar hh.le b hb p hp)
      rw [e2]
      simp only
      have hx : min (min (w / I) (h / J)) (d / K) ≤ h / J := (min_le_left _ _).trans (min_le_right _ _)
      generalize min (min (w / I) (h / J)) (d / K) = x at *
      generalize h / (J : ℝ) = y at *
      norm_num
      norm_num at hH6 hJ8
      linarith
    · intro b hb p hp
      unfold polesPlan at hb
      obtain ⟨i, -, hb⟩ := List.mem_flatMap.1 hb
      obtain ⟨k, -, rfl⟩ := List.mem_map.1 hb
      exact (pole_world hH hR hV hp).2.2.2.1

/-- A body with the mesh of a file, left where it is. -/
theorem placeFile_ok {eig : Eig} (he : EigSpec eig) {shape body type : String} {VT : List V3 × List Tri} {fixed : Bool} {density : ℝ} {material : String}
    (ht : (type = "fixed" ∧ fixed = true) ∨ (type = "free" ∧ fixed = false))
    (hf : IndicesBelow VT.2 VT.1.length ∧ ClosedOriented VT.2) {s s' : Scene} {n : String} (hok : s.OK)
    (h : placeFile eig shape body type VT density material s = .ok (n, s')) :
    PutUp (Finished fixed material density) s s' [⟨VT.1, VT.2, V3.zero, Quat.identity⟩] [n] := by
  unfold placeFile at h
  rw [bind_ok] at h
  obtain ⟨k, s1, h1, h⟩ := h
  rw [bind_ok] at h
  obtain ⟨b, s2, h2, h⟩ := h
  rw [bind_ok] at h
  obtain ⟨u, s3, h3, h⟩ := h
  obtain ⟨rfl, rfl⟩ := pure_ok.1 h
  obtain ⟨g1, sh1⟩ := newShape_ok he hok hf.1 hf.2 h1
  have p1 := newBody_ok sh1 h2
  rw [Quat.unit_of_isUnit ident_unit] at p1
  exact PutUp.of_grows g1 (p1.setup (setup_ok ht h3))

theorem scene_ok_grows {s s' : Scene} {N : List String} (hg : Grows s s' N) (hok : s.OK) : s'.OK := hg.ok hok

/-- **C105.** `create_rock_slide`: the fixed landscape, the free buildings (both left where their files put them), and the lattice of 20 kinds of randomly
turned rocks.  The returned list is not a list of names: its last element is the list of the names of the rocks. -/
theorem C105_rock_slide {eig : Eig} (he : EigSpec eig) {w h d : ℝ} {I J K : ℕ} {density : ℝ} {material : String} {mountains : List V3 × List Tri}
    {buildings : List (List V3 × List Tri)} {rocks : ℕ → List V3 × List Tri} {draw : ℕ → ℕ → ℕ → Quat} {s s' : Scene} {names : List (String ⊕ List String)}
    (hok : s.OK) (hm : IndicesBelow mountains.2 mountains.1.length ∧ ClosedOriented mountains.2)
    (hb : ∀ VT ∈ buildings, IndicesBelow VT.2 VT.1.length ∧ ClosedOriented VT.2) (hgr : ∀ n < 20, Scalable (rocks n))
    (hw : 0 < w) (hh : 0 < h) (hd : 0 < d) (hrun : create_rock_slide eig w h d I J K density material mountains buildings rocks draw s = .ok (names, s')) :
    ∃ s1 s2 m L G, names = (m :: L).map Sum.inl ++ [Sum.inr G] ∧
      Adds s s1 [m] [⟨mountains.1, mountains.2, V3.zero, Quat.identity⟩] true material density ∧
      Adds s1 s2 L (buildings.map fun VT => ⟨VT.1, VT.2, V3.zero, Quat.identity⟩) false material density ∧
      Rains s2 s' G (min (min (w / I) (h / J)) (d / K) * 0.9) ((List.range 20).map rocks) ⟨-10, 16, 5⟩ (Quat.Ry (3 * Real.pi / 4)) w h d I J K
        (fun i j k => Quat.unit (draw i j k)) material density := by
  unfold create_rock_slide at hrun
  rw [bind_ok] at hrun
  obtain ⟨m, s1, h1, hrun⟩ := hrun
  rw [bind_ok] at hrun
  obtain ⟨L, s2, h2, hrun⟩ := hrun
  split_ifs at hrun with hI hJ hK
  · exact absurd hrun raise_ok
  · exact absurd hrun raise_ok
  · exact absurd hrun raise_ok
  simp only at hrun
  rw [bind_ok] at hrun
  obtain ⟨ks, s3, h3, hrun⟩ := hrun
  rw [bind_ok] at hrun
  obtain ⟨G, s4, h4, hrun⟩ := hrun
  obtain ⟨rfl, rfl⟩ := pure_ok.1 hrun
  have ht : 0 < min (min (w / I) (h / J)) (d / K) * 0.9 := mul_pos (cell_pos hw hh hd hI hJ hK) (by norm_num)
  have p1 := placeFile_ok he (Or.inl ⟨rfl, rfl⟩) hm hok h1
  have p2 : PutUp (Finished false material density) s1 s2 (buildings.map fun VT => ⟨VT.1, VT.2, V3.zero, Quat.identity⟩) L := by
    have hL : ∀ (bs : List (List V3 × List Tri)) (_ : ∀ VT ∈ bs, IndicesBelow VT.2 VT.1.length ∧ ClosedOriented VT.2) (a b : Scene) (N : List String),
        a.OK → bs.mapM (fun VT => placeFile eig "shape" "building" "free" VT density material) a = .ok (N, b) →
        PutUp (Finished false material density) a b (bs.map fun VT => ⟨VT.1, VT.2, V3.zero, Quat.identity⟩) N := by
      intro bs
      induction bs with
      | nil =>
        intro _ a b N _ h
        rw [List.mapM_nil, pure_ok] at h
        obtain ⟨rfl, rfl⟩ := h
        exact ⟨Grows.refl _, List.Forall₂.nil⟩
      | cons VT bs ih =>
        intro hbs a b N hok h
        rw [List.mapM_cons, bind_ok] at h
        obtain ⟨n, a1, q1, h⟩ := h
        rw [bind_ok] at h
        obtain ⟨N', a2, q2, h⟩ := h
        obtain ⟨rfl, rfl⟩ := pure_ok.1 h
        have r1 := placeFile_ok he (Or.inr ⟨rfl, rfl⟩) (hbs VT (by simp)) hok q1
        exact r1.append (ih (fun W hW => hbs W (by simp [hW])) _ _ _ (r1.1.ok hok) q2)
    exact hL _ hb _ _ _ (p1.1.ok hok) h2
  obtain ⟨g3, -, Ws, hs⟩ := scaledShapes_ok he rocks ht _ (fun n hn => hgr n (List.mem_range.1 hn)) _ _ _ (p2.1.ok (p1.1.ok hok)) h3
  obtain ⟨B, hr⟩ := raining_of g3 hs h4
  refine ⟨s1, s2, m, L, G, rfl, p1.adds, p2.adds, ?_⟩
  simpa using hr.rains

/-- **C105.** No scene with a lattice is made if a number of cells is zero: the first division raises. -/
theorem C105_raises {eig : Eig} {r : V3} {q : Quat} {H R w h d : ℝ} {I J K : ℕ} {density : ℝ} {material : String} {rand : Bool}
    {jack funnel : List V3 × List Tri} {objs : List (List V3 × List Tri)} {grains : ℕ → List V3 × List Tri} {Ip Kp : ℕ} {draw : ℕ → ℕ → ℕ → Quat}
    {s : Scene} (h0 : I = 0 ∨ J = 0 ∨ K = 0) :
    create_jack_lattice eig r q w h d I J K density material rand jack draw s = .error .zeroDivision ∧
    create_sandbox eig w h d I J K density material grains draw s = .error .zeroDivision ∧
    create_funnel eig H R w h d I J K density material rand jack funnel draw s = .error .zeroDivision ∧
    create_glasses eig H R w h d I J K density material rand funnel draw s = .error .zeroDivision ∧
    create_poles eig H R Ip Kp w h d I J K density material rand objs draw s = .error .zeroDivision := by
  have key : ∀ {α : Type} (x : SceneM α), (if I = 0 then raise .zeroDivision else if J = 0 then raise .zeroDivision else if K = 0 then raise .zeroDivision
      else x) s = .error .zeroDivision := by
    intro α x
    split_ifs with h1 h2 h3
    · rfl
    · rfl
    · rfl
    · omega
  refine ⟨key _, key _, key _, key _, key _⟩

/-! ### Success -/

theorem scaled_lattice_runs {t : ℝ} {L Ws : List (List V3 × List Tri)} {N : List String} {s : Scene} (hs : ScaledShapes s t L Ws N) (hne : N ≠ []) {r : V3}
    {q : Quat} {width height depth : ℝ} {I J K : ℕ} (hI : I ≠ 0) (hJ : J ≠ 0) (hK : K ≠ 0) {density : ℝ} {material : String} {rand : Bool}
    {q_body : Option Quat} {draw : ℕ → ℕ → ℕ → Quat} (hr : Ready material s) :
    ∃ names s', create_lattice r q N width height depth I J K density material rand q_body draw s = .ok (names, s') ∧ Ready material s' := by
  obtain ⟨nd, -, hW⟩ := hs
  refine C103_lattice_succeeds hI hJ hK (solid := fun k => Ws.getD (N.idxOf k) ([], [])) hr hne ?_
  intro k hk
  obtain ⟨n, hn, rfl⟩ := List.getElem_of_mem hk
  have hn' : n < Ws.length := hW.length_eq ▸ hn
  have e : Ws.getD (N.idxOf N[n]) ([], []) = Ws[n] := by
    rw [nd.idxOf_getElem, List.getD_eq_getElem _ _ hn']
  rw [e]
  have := (List.forall₂_iff_get.1 hW).2 n hn hn'
  simpa using this

theorem fixedBody_runs {base k : String} {VT : List V3 × List Tri} {r : V3} {q : Quat} {material : String} {density : ℝ} {s : Scene}
    (hr : Ready material s) (hsh : HasShape s k VT) :
    ∃ n s1 s', newBody base k r q s = .ok (n, s1) ∧ setup "fixed" material density n s1 = .ok ((), s') ∧ Ready material s' ∧ HasShape s' k VT ∧ Up s s' [n] := by
  obtain ⟨n, s2, h2, r2, p2⟩ := newBody_runs (base := base) (r := r) (q := q) hr hsh
  obtain ⟨o, sh, m, e1, e2, -⟩ := (List.forall₂_cons.1 p2.2).1
  obtain ⟨s3, h3, r3⟩ := setup_runs (density := density) (Or.inl rfl) r2 e1 e2
  have p3 := p2.setup (setup_ok (Or.inl ⟨rfl, rfl⟩) h3)
  exact ⟨n, s2, s3, h2, h3, r3, hsh.grows p3.1, _, p3.mono finished_placed⟩

/-- **C105.** For star shaped solids, positive lengths and at least one cell in each direction, every builder succeeds in every scene that has the
material and gives new names. -/
theorem C105_succeeds {eig : Eig} (he : EigSpec eig) {r : V3} {q : Quat} {H R w h d : ℝ} (hR : 0 < R) (hH : 0 < H) (hw : 0 < w) (hh : 0 < h) (hd : 0 < d)
    {I J K : ℕ} (hI : I ≠ 0) (hJ : J ≠ 0) (hK : K ≠ 0) {density : ℝ} {material : String} {rand : Bool} {jack funnel : List V3 × List Tri}
    (hj : StarShaped jack) (hf : StarShaped funnel) {objs : List (List V3 × List Tri)} (hne : objs ≠ []) (ho : ∀ VT ∈ objs, StarShaped VT)
    {grains : ℕ → List V3 × List Tri} (hg : ∀ n < 20, StarShaped (grains n)) {Ip Kp : ℕ} (hIp : Ip ≠ 0) (hKp : Kp ≠ 0) {draw : ℕ → ℕ → ℕ → Quat}
    {s : Scene} (hr : Ready material s) :
    (∃ names s', create_jack_lattice eig r q w h d I J K density material rand jack draw s = .ok (names, s') ∧ Ready material s') ∧
    (∃ names s', create_sandbox eig w h d I J K density material grains draw s = .ok (names, s') ∧ Ready material s') ∧
    (∃ names s', create_funnel eig H R w h d I J K density material rand jack funnel draw s = .ok (names, s') ∧ Ready material s') ∧
    (∃ names s', create_glasses eig H R w h d I J K density material rand funnel draw s = .ok (names, s') ∧ Ready material s') ∧
    (∃ names s', create_poles eig H R Ip Kp w h d I J K density material rand objs draw s = .ok (names, s') ∧ Ready material s') := by
  have ht := cell_pos hw hh hd hI hJ hK
  have ht9 : 0 < min (min (w / I) (h / J)) (d / K) * 0.9 := mul_pos ht (by norm_num)
  have one : ∀ {VT : List V3 × List Tri} (_ : StarShaped VT) (base : String), ∃ k s1, newScaledShape eig base VT
      (min (min (w / I) (h / J)) (d / K) * 0.9) s = .ok (k, s1) ∧ Ready material s1 ∧ ∃ Ws, ScaledShapes s1 (min (min (w / I) (h / J)) (d / K) * 0.9) [VT] Ws [k] := by
    intro VT hVT base
    obtain ⟨k, s1, h1, r1, -, W, hW, hs⟩ := newScaledShape_runs he (base := base) hVT ht9 hr
    exact ⟨k, s1, h1, r1, [W], by simp, by simpa using hW, by simpa using hs⟩
  refine ⟨?_, ?_, ?_, ?_, ?_⟩
  · unfold create_jack_lattice
    rw [if_neg hI, if_neg hJ, if_neg hK]
    exact bind_runs (one hj _) fun _ _ h => scaled_lattice_runs h.2.choose_spec (by simp) hI hJ hK h.1
  · unfold create_sandbox
    simp only
    rw [if_neg hI, if_neg hJ, if_neg hK]
    obtain ⟨N, s1, h1, r1⟩ := scaledShapes_runs he (base := "grain") grains ht9 (List.range 20) (fun n hn => hg n (List.mem_range.1 hn)) s hr
    obtain ⟨-, -, Ws, hs⟩ := scaledShapes_ok he grains ht9 _ (fun n hn => (hg n (List.mem_range.1 hn)).scalable) _ _ _ hr.ok h1
    have hN : N ≠ [] := by
      have := hs.2.1.length_eq.trans hs.2.2.length_eq.symm
      rw [List.length_map, List.length_range] at this
      intro e; rw [e] at this; simp at this
    refine bind_runs (P := fun N s1 => N ≠ [] ∧ Ready material s1 ∧ ∃ Ws, ScaledShapes s1 (min (min (w / I) (h / J)) (d / K) * 0.9) ((List.range 20).map grains) Ws N)
      ⟨N, s1, h1, hN, r1, Ws, hs⟩ ?_
    rintro N s1 ⟨hN, r1, Ws, hs⟩
    refine bind_runs (scaled_lattice_runs hs hN hI hJ hK r1) fun _ _ r2 => ?_
    exact bind_runs (walls_runs he hw hh hd (by positivity) r2) fun _ _ r3 => pure_runs r3
  · unfold create_funnel
    rw [if_neg hI, if_neg hJ, if_neg hK]
    refine bind_runs (one hj _) fun _ _ h => bind_runs (scaled_lattice_runs h.2.choose_spec (by simp) hI hJ hK h.1) fun _ s2 r2 => ?_
    obtain ⟨k, s3, h3, r3, -, W, -, hs⟩ := newStretchedShape_runs he (base := "funnel") hf hR hH r2
    refine bind_runs (P := fun k' s' => k' = k ∧ s' = s3) ⟨k, s3, h3, rfl, rfl⟩ ?_
    rintro _ _ ⟨rfl, rfl⟩
    obtain ⟨n, s4, s5, h4, h5, r5, -⟩ := fixedBody_runs (base := "body") (r := ⟨0.0, 1.5 * H, 0.0⟩) (q := Quat.Rx Real.pi) (density := density) r3 hs
    refine bind_runs (P := fun k' s' => k' = n ∧ s' = s4) ⟨n, s4, h4, rfl, rfl⟩ ?_
    rintro _ _ ⟨rfl, rfl⟩
    exact bind_runs (P := fun _ s => Ready material s) ⟨(), s5, h5, r5⟩ fun _ s hs => pure_runs hs
  · unfold create_glasses
    rw [if_neg hI, if_neg hJ, if_neg hK]
    refine bind_runs (one hf _) fun _ _ h => bind_runs (scaled_lattice_runs h.2.choose_spec (by simp) hI hJ hK h.1) fun _ s2 r2 => ?_
    obtain ⟨k, s3, h3, r3, -, W, -, hs⟩ := newStretchedShape_runs he (base := "glass") hf hR hH r2
    refine bind_runs (P := fun k' s' => k' = k ∧ s' = s3) ⟨k, s3, h3, rfl, rfl⟩ ?_
    rintro _ _ ⟨rfl, rfl⟩
    obtain ⟨n, s4, s5, h4, h5, r5, -⟩ := fixedBody_runs (base := "body") (r := ⟨0.0, H / 2.0, 0.0⟩) (q := Quat.identity) (density := density) r3 hs
    refine bind_runs (P := fun k' s' => k' = n ∧ s' = s4) ⟨n, s4, h4, rfl, rfl⟩ ?_
    rintro _ _ ⟨rfl, rfl⟩
    exact bind_runs (P := fun _ s => Ready material s) ⟨(), s5, h5, r5⟩ fun _ s hs => pure_runs hs
  · unfold create_poles
    rw [if_neg hI, if_neg hJ, if_neg hK]
    obtain ⟨N, s1, h1, r1⟩ := scaledShapes_runs he (base := "small_obj_shape") (fun VT => VT) ht objs ho s hr
    obtain ⟨-, -, Ws, hs⟩ := scaledShapes_ok he (fun VT => VT) ht _ (fun n hn => (ho n hn).scalable) _ _ _ hr.ok h1
    have hN : N ≠ [] := by
      have := hs.2.1.length_eq.trans hs.2.2.length_eq.symm
      rw [List.length_map] at this
      rintro rfl
      exact hne (List.length_eq_zero_iff.1 this)
    refine bind_runs (P := fun N s1 => N ≠ [] ∧ Ready material s1 ∧ ∃ Ws, ScaledShapes s1 (min (min (w / I) (h / J)) (d / K)) (objs.map fun VT => VT) Ws N)
      ⟨N, s1, h1, hN, r1, Ws, hs⟩ ?_
    clear h1 hs r1 hN
    rintro N s1 ⟨hN, r1, Ws, hs⟩
    refine bind_runs (scaled_lattice_runs hs hN hI hJ hK r1) fun _ s2 r2 => ?_
    obtain ⟨VT, hcyl, hstar⟩ := cylinder_star hR hH 12 1 (by norm_num) (by norm_num)
    refine bind_runs (P := fun VT' s' => VT' = VT ∧ s' = s2) ⟨VT, s2, by unfold SceneM.cylinder; rw [hcyl]; rfl, rfl, rfl⟩ ?_
    rintro VT' s2' ⟨eV, e2⟩
    rw [eV, e2]
    clear eV e2 VT' s2'
    obtain ⟨k, s3, h3, r3, hs3, -⟩ := newShape_runs he (base := "pole") r2 hstar
    refine bind_runs (P := fun k' s' => k' = k ∧ s' = s3) ⟨k, s3, h3, rfl, rfl⟩ ?_
    rintro k1 s3' ⟨eV, e2⟩
    rw [eV, e2]
    clear eV e2 k1 s3'
    rw [if_neg hIp, if_neg hKp]
    have body : ∀ (i k' : ℕ) (s : Scene), (Ready material s ∧ HasShape s k VT) → ∃ n s', poleBody k w d H R Ip Kp density material i k' s = .ok (n, s') ∧
        (Ready material s' ∧ HasShape s' k VT) ∧ Up s s' [n] := by
      intro i k' s hs
      unfold poleBody
      obtain ⟨n, s4, s5, h4, h5, r5, hs5, u5⟩ := fixedBody_runs (base := "body") (r := globalPos ⟨0.0, 0.0, 0.0⟩ Quat.identity
        ⟨(i : ℝ) * (w / (Ip : ℝ)) + (-w / 2.0 + R), H / 2.0, (k' : ℝ) * (d / (Kp : ℝ)) + (-d / 2.0 + R)⟩)
        (q := Quat.prod Quat.identity Quat.identity) (density := density) hs.1 hs.2
      refine bind_runs (P := fun k' s' => k' = n ∧ s' = s4) ⟨n, s4, h4, rfl, rfl⟩ ?_
      rintro _ _ ⟨rfl, rfl⟩
      refine bind_runs (P := fun _ s' => s' = s5) ⟨(), s5, h5, rfl⟩ ?_
      rintro _ _ rfl
      exact ⟨_, _, rfl, ⟨r5, hs5⟩, u5⟩
    obtain ⟨rows, s4, h4, ⟨r4, -⟩, -⟩ := mapM_rows_runs (fun s => Ready material s ∧ HasShape s k VT) (l := List.range Ip)
      (f := fun (i : ℕ) => (List.range Kp).mapM fun (k' : ℕ) => poleBody k w d H R Ip Kp density material i k')
      (fun i _ s hs => mapM_bodies_runs _ (fun k' _ s hs => body i k' s hs) s hs) s3 ⟨r3, hs3⟩
    exact bind_runs (P := fun _ s => Ready material s) ⟨rows, s4, h4, r4⟩ fun _ s hs => pure_runs hs

/-- **C105.** If nothing was missing in the scene before, then nothing is missing after a lattice with scaled solids whose volume is above the threshold
of mass.py was added (and after fixed bodies were added, `Complete.adds`): the new scene can be simulated (C95). -/
theorem C105_complete {s s' : Scene} {names : List String} {t : ℝ} {L : List (List V3 × List Tri)} {r : V3} {q : Quat} {w h d : ℝ} {I J K : ℕ}
    {q_l : ℕ → ℕ → ℕ → Quat} {material : String} {density : ℝ} (hr : Rains s s' names t L r q w h d I J K q_l material density) (hd : density ≠ 0)
    (hv : ∀ VT ∈ L, ∀ W, FitTo t VT W → 1e-10 < enclosedVolume W.1 W.2) (hc : Complete s) : Complete s' := by
  obtain ⟨-, Ws, B, hf, ha, hl⟩ := hr
  refine hc.adds ha (Or.inr ⟨hd, ?_⟩)
  intro b hb
  obtain ⟨i, j, k, -, -, -, W, hW, a, -, rfl⟩ := hl.cell hb
  obtain ⟨n, hn, rfl⟩ := List.getElem_of_mem hW
  have hn' : n < L.length := hf.length_eq ▸ hn
  have := (List.forall₂_iff_get.1 hf).2 n hn' hn
  simp only [List.get_eq_getElem] at this
  exact hv _ (List.getElem_mem hn') _ this

/-! ### The padding is not enough for randomly turned bodies -/

theorem box_hull {w h d : ℝ} {v : V3} (hx : |v.x| ≤ w / 2) (hy : |v.y| ≤ h / 2) (hz : |v.z| ≤ d / 2) : InHull (create_box w h d).1 v := by
  intro n c hc
  have hm : ∀ a b e : ℝ, (a = w / 2 ∨ a = -(w / 2)) → (b = h / 2 ∨ b = -(h / 2)) → (e = d / 2 ∨ e = -(d / 2)) → (⟨a, b, e⟩ : V3) ∈ (create_box w h d).1 := by
    intro a b e ha hb he
    simp only [create_box, show (0.5:ℝ) = 1 / 2 by norm_num, List.mem_cons, List.not_mem_nil, or_false, V3.ext_iff, V3.smul_x, V3.smul_y, V3.smul_z]
    rcases ha with rfl | rfl <;> rcases hb with rfl | rfl <;> rcases he with rfl | rfl
    · iterate 7 right
      refine ⟨?_, ?_, ?_⟩ <;> ring
    · iterate 3 right
      left; refine ⟨?_, ?_, ?_⟩ <;> ring
    · iterate 5 right
      left; refine ⟨?_, ?_, ?_⟩ <;> ring
    · iterate 1 right
      left; refine ⟨?_, ?_, ?_⟩ <;> ring
    · iterate 6 right
      left; refine ⟨?_, ?_, ?_⟩ <;> ring
    · iterate 2 right
      left; refine ⟨?_, ?_, ?_⟩ <;> ring
    · iterate 4 right
      left; refine ⟨?_, ?_, ?_⟩ <;> ring
    · left; refine ⟨?_, ?_, ?_⟩ <;> ring
  have pick : ∀ (m x k : ℝ), |x| ≤ k → ∃ a, (a = k ∨ a = -k) ∧ m * x ≤ m * a := by
    intro m x k hk
    have h1 := abs_le.1 hk
    rcases le_total 0 m with hm | hm
    · exact ⟨k, Or.inl rfl, mul_le_mul_of_nonneg_left h1.2 hm⟩
    · exact ⟨-k, Or.inr rfl, mul_le_mul_of_nonpos_left h1.1 hm⟩
  obtain ⟨a, ha, h1⟩ := pick n.x v.x _ hx
  obtain ⟨b, hb, h2⟩ := pick n.y v.y _ hy
  obtain ⟨e, he, h3⟩ := pick n.z v.z _ hz
  have := hc _ (hm a b e ha hb he)
  simp only [V3.dot] at this ⊢
  linarith

theorem brick_hull {b : Brick} (hq : IsUnitQ b.q) {v : V3} (h : InHull b.V v) : InHull b.world (b.at v) := by
  intro n c hc
  have e : ∀ x : V3, V3.dot n (b.at x) = V3.dot n b.r + V3.dot (Quat.rotate (Quat.conjugate b.q) n) x := by
    intro x
    have := rotate_dot_V3 hq (Quat.rotate (Quat.conjugate b.q) n) x
    rw [(C02_rotate_conjugate hq n).2] at this
    unfold Brick.at
    rw [← this]
    simp only [V3.dot, V3.add_x, V3.add_y, V3.add_z]
    ring
  rw [e]
  have := h (Quat.rotate (Quat.conjugate b.q) n) (c - V3.dot n b.r) (by
    intro a ha
    have := hc (b.at a) (List.mem_map_of_mem ha)
    rw [e] at this
    linarith)
  linarith

theorem unit_cube_fit {W : List V3 × List Tri} (hf : FitTo 0.9 (create_box 1 1 1) W) : W = create_box 0.9 0.9 0.9 := by
  have hb : TightBox (create_box 1 1 1).1 ⟨-(1 / 2), -(1 / 2), -(1 / 2)⟩ ⟨1 / 2, 1 / 2, 1 / 2⟩ := by
    have hlo : (⟨-(1 / 2), -(1 / 2), -(1 / 2)⟩ : V3) ∈ (create_box 1 1 1).1 := by
      simp only [create_box, List.mem_cons]
      left; refine V3.ext ?_ ?_ ?_ <;> simp <;> norm_num
    have hhi : (⟨1 / 2, 1 / 2, 1 / 2⟩ : V3) ∈ (create_box 1 1 1).1 := by
      simp only [create_box, List.mem_cons]
      iterate 7 right
      left; refine V3.ext ?_ ?_ ?_ <;> simp <;> norm_num
    refine ⟨?_, ⟨_, hlo, rfl⟩, ⟨_, hhi, rfl⟩, ⟨_, hlo, rfl⟩, ⟨_, hhi, rfl⟩, ⟨_, hlo, rfl⟩, ⟨_, hhi, rfl⟩⟩
    intro v hv
    obtain ⟨h1, h2, h3⟩ := mem_box hv
    rcases h1 with e1 | e1 <;> rcases h2 with e2 | e2 <;> rcases h3 with e3 | e3 <;> rw [e1, e2, e3] <;> norm_num
  obtain ⟨a, σ, hσ, rfl, l, u, hb', hmax, hmid⟩ := hf
  have hmid := hmid _ _ hb
  have h2 := hb.stretched a (d := ⟨σ, σ, σ⟩) hσ.le hσ.le hσ.le
  obtain ⟨rfl, rfl⟩ := h2.unique hb'
  have m1 := congrArg V3.x hmid
  have m2 := congrArg V3.y hmid
  have m3 := congrArg V3.z hmid
  simp only [V3.add_x, V3.add_y, V3.add_z, V3.smul_x, V3.smul_y, V3.smul_z, smul_eq_mul] at m1 m2 m3
  have hs : σ = 0.9 := by
    simp only at hmax
    have e : ∀ x : ℝ, x + σ * (1 / 2) - (x + σ * -(1 / 2)) = σ := fun x => by ring
    rw [e, e, e, max_self, max_self] at hmax
    exact hmax
  have ha : a = 0 := by
    refine V3.ext ?_ ?_ ?_ <;> simp only [V3.zero_x, V3.zero_y, V3.zero_z] <;> linarith
  rw [ha, hs]
  unfold stretched create_box
  refine Prod.ext ?_ rfl
  simp only [List.map_cons, List.map_nil, List.cons.injEq, V3.ext_iff, and_true]
  norm_num

/-- **C105.** The padding of 0.9 that "avoids initial contact" (create_jack_lattice.py:54) does not avoid it for randomly turned bodies: there are
random numbers for which two solid cubes in two neighbouring cells of side 1 overlap. -/
theorem C105_padding_finding {eig : Eig} (he : EigSpec eig) : ∃ draw names s',
    create_jack_lattice eig 0 Quat.identity 2 1 1 2 1 1 1 "default" true (create_box 1 1 1) draw freshScene = .ok (names, s') ∧
    ∃ n n' m m', names = [n, n'] ∧ n ≠ n' ∧ s'.worldMesh n = some m ∧ s'.worldMesh n' = some m' ∧ Overlap m.V m'.V := by
  have hmin : min (min ((2 : ℝ) / (2 : ℕ)) (1 / (1 : ℕ))) (1 / (1 : ℕ)) * 0.9 = 0.9 := by norm_num
  obtain ⟨k, s1, h1, r1, -, W, hf, hs⟩ := newScaledShape_runs he (base := "jack") (box_star one_pos one_pos one_pos)
    (t := min (min ((2 : ℝ) / (2 : ℕ)) (1 / (1 : ℕ))) (1 / (1 : ℕ)) * 0.9) (by norm_num) freshScene_ready
  rw [hmin] at hf
  have hW := unit_cube_fit hf
  rw [hW] at hs
  have ha := axesOf_unit hs
  obtain ⟨a, haq⟩ : ∃ a, a = axesOf s1 k := ⟨_, rfl⟩
  obtain ⟨draw, hdraw⟩ : ∃ draw : ℕ → ℕ → ℕ → Quat, draw = fun _ _ _ => Quat.prod (Quat.Rz (Real.pi / 4)) a := ⟨_, rfl⟩
  obtain ⟨names, s', h2, r2⟩ := C103_lattice_succeeds (r := 0) (q := Quat.identity) (shape_names := [k]) (width := 2) (height := 1) (depth := 1) (I := 2)
    (J := 1) (K := 1) (density := 1) (rand := true) (q_body := none) (draw := draw) (solid := fun _ => create_box 0.9 0.9 0.9) (by norm_num) (by norm_num)
    (by norm_num) r1 (by simp) (by simpa using hs)
  refine ⟨draw, names, s', ?_, ?_⟩
  · unfold create_jack_lattice
    rw [if_neg (by norm_num), if_neg (by norm_num), if_neg (by norm_num)]
    rw [bind_ok]
    exact ⟨k, s1, h1, h2⟩
  obtain ⟨-, -, -, hp⟩ := lattice_built (solid := fun _ => create_box 0.9 0.9 0.9) (by simpa using hs) h2
  have hadd := hp.adds
  have hlen := hadd.length
  have hq : ∀ i j k' : ℕ, Quat.unit (Quat.prod Quat.identity (latticeOrientation true none (draw i j k'))) = Quat.prod (Quat.Rz (Real.pi / 4)) a := by
    intro i j k'
    have hu : IsUnitQ (Quat.prod (Quat.Rz (Real.pi / 4)) a) := (C01_unit_group (Rz_unit _) (haq ▸ ha)).1
    unfold latticeOrientation randQuat
    rw [if_pos rfl, hdraw]
    simp only
    rw [(C01_identity_unit _).1, Quat.unit_of_isUnit hu, Quat.unit_of_isUnit hu]
  have hbrick : ∀ i : ℕ, i < 2 → (latticePlan s1 (fun _ => create_box 0.9 0.9 0.9) [k] 0 Quat.identity (2 / (2 : ℕ)) (1 / (1 : ℕ)) (1 / (1 : ℕ)) 2 1 1
      fun i j k => latticeOrientation true none (draw i j k))[i]? =
      some ⟨(create_box 0.9 0.9 0.9).1, (create_box 0.9 0.9 0.9).2, ⟨i + 1 / 2, 1 / 2, 1 / 2⟩, Quat.Rz (Real.pi / 4)⟩ := by
    intro i hi
    have := latticePlan_get (s := s1) (solid := fun _ => create_box 0.9 0.9 0.9) (shape_names := [k]) (r := 0) (q := Quat.identity) (dW := 2 / (2 : ℕ))
      (dH := 1 / (1 : ℕ)) (dD := 1 / (1 : ℕ)) (I := 2) (J := 1) (K := 1) (q_l := fun i j k => latticeOrientation true none (draw i j k)) (i := i) (j := 0)
      (k := 0) hi (by norm_num) (by norm_num)
    simp only [mul_one, add_zero] at this
    rw [this]
    have hk : [k].getD (i % [k].length) "" = k := by simp [Nat.mod_one]
    rw [hk, hq, ← haq]
    unfold centred
    have hrot : Quat.prod (Quat.prod (Quat.Rz (Real.pi / 4)) a) (Quat.conjugate a) = Quat.Rz (Real.pi / 4) := by
      rw [C01_prod_assoc, (C01_unit_group (haq ▸ ha) (haq ▸ ha)).2.2.1, (C01_identity_unit _).2]
    rw [hrot, box_massCentre (by norm_num), rotate_zero, rotate_ident_V3]
    congr 2
    refine V3.ext ?_ ?_ ?_ <;> simp
  have hl2 : names.length = 2 := by
    rw [hlen]
    simp [latticePlan]
  obtain ⟨n, n', rfl⟩ : ∃ n n', names = [n, n'] := by
    match names, hl2 with
    | [n, n'], _ => exact ⟨n, n', rfl⟩
  obtain ⟨o, m, -, hm, hV, -⟩ := hadd.each 0 n _ rfl (hbrick 0 (by norm_num))
  obtain ⟨o', m', -, hm', hV', -⟩ := hadd.each 1 n' _ rfl (hbrick 1 (by norm_num))
  refine ⟨n, n', m, m', rfl, ?_, hm, hm', ⟨1, 1 / 2, 1 / 2⟩, 0.05, by norm_num, ?_⟩
  · have := hadd.nodup
    simpa using this
  · intro x hx
    have hk2 : Real.sqrt 2 / 2 ≤ 0.71 ∧ 0 ≤ Real.sqrt 2 / 2 := by
      refine ⟨?_, by positivity⟩
      have : Real.sqrt 2 ≤ 1.42 := by rw [Real.sqrt_le_left (by norm_num)]; norm_num
      linarith
    simp only [V3.dot, V3.sub_x, V3.sub_y, V3.sub_z] at hx
    have bx : |x.x - 1| ≤ 0.05 := abs_le_of_sq_le_sq (by nlinarith [sq_nonneg (x.y - 1 / 2), sq_nonneg (x.z - 1 / 2)]) (by norm_num)
    have by' : |x.y - 1 / 2| ≤ 0.05 := abs_le_of_sq_le_sq (by nlinarith [sq_nonneg (x.x - 1), sq_nonneg (x.z - 1 / 2)]) (by norm_num)
    have bz : |x.z - 1 / 2| ≤ 0.05 := abs_le_of_sq_le_sq (by nlinarith [sq_nonneg (x.x - 1), sq_nonneg (x.y - 1 / 2)]) (by norm_num)
    rw [abs_le] at bx by' bz
    have key : ∀ i : ℕ, i < 2 → InHull (Brick.world ⟨(create_box 0.9 0.9 0.9).1, (create_box 0.9 0.9 0.9).2, ⟨i + 1 / 2, 1 / 2, 1 / 2⟩, Quat.Rz (Real.pi / 4)⟩) x := by
      intro i hi
      have hat : x = Brick.at ⟨(create_box 0.9 0.9 0.9).1, (create_box 0.9 0.9 0.9).2, ⟨i + 1 / 2, 1 / 2, 1 / 2⟩, Quat.Rz (Real.pi / 4)⟩
          ⟨Real.sqrt 2 / 2 * (x.x - (i + 1 / 2)) + Real.sqrt 2 / 2 * (x.y - 1 / 2), Real.sqrt 2 / 2 * (x.y - 1 / 2) - Real.sqrt 2 / 2 * (x.x - (i + 1 / 2)),
            x.z - 1 / 2⟩ := by
        have h22 : Real.sqrt 2 / 2 * (Real.sqrt 2 / 2) = 1 / 2 := by
          have := Real.mul_self_sqrt (show (0 : ℝ) ≤ 2 by norm_num)
          linarith
        unfold Brick.at
        simp only [rotate_Rz, Real.cos_pi_div_four, Real.sin_pi_div_four]
        generalize Real.sqrt 2 / 2 = κ at *
        refine V3.ext ?_ ?_ ?_ <;> simp only [V3.add_x, V3.add_y, V3.add_z]
        · linear_combination (-2 * (x.x - (i + 1 / 2))) * h22
        · linear_combination (-2 * (x.y - 1 / 2)) * h22
        · ring
      rw [hat]
      refine brick_hull (Rz_unit _) (box_hull ?_ ?_ ?_)
      all_goals simp only
      · rw [← mul_add, abs_mul, abs_of_nonneg hk2.2]
        have : |x.x - (i + 1 / 2) + (x.y - 1 / 2)| ≤ 0.6 := by
          rw [abs_le]
          interval_cases i <;> norm_num at * <;> constructor <;> linarith
        nlinarith [abs_nonneg (x.x - (i + 1 / 2) + (x.y - 1 / 2))]
      · rw [← mul_sub, abs_mul, abs_of_nonneg hk2.2]
        have : |x.y - 1 / 2 - (x.x - (i + 1 / 2))| ≤ 0.6 := by
          rw [abs_le]
          interval_cases i <;> norm_num at * <;> constructor <;> linarith
        nlinarith [abs_nonneg (x.y - 1 / 2 - (x.x - (i + 1 / 2)))]
      · rw [abs_le]
        norm_num at *
        constructor <;> linarith
    have hullperm : ∀ {A B : List V3}, A.Perm B → InHull B x → InHull A x := by
      intro A B hAB hB n c hc
      exact hB n c fun a ha => hc a (hAB.mem_iff.2 ha)
    exact ⟨hullperm hV (key 0 (by norm_num)), hullperm hV' (key 1 (by norm_num))⟩

/-- All builders on concrete data: cubes falling on cubes. -/
example {eig : Eig} (he : EigSpec eig) (draw : ℕ → ℕ → ℕ → Quat) : ∃ n1 s1 n2 s2 n3 s3 n4 s4,
    create_sandbox eig 2 2 2 5 5 5 1 "default" (fun _ => create_box 1 1 1) draw freshScene = .ok (n1, s1) ∧
    create_funnel eig 2 1 2 2 2 5 5 5 1 "default" true (create_box 1 1 1) (create_box 2 1 2) draw s1 = .ok (n2, s2) ∧
    create_glasses eig 2 1 2 2 2 5 5 5 1 "default" false (create_box 1 2 1) draw s2 = .ok (n3, s3) ∧
    create_poles eig 1 0.1 4 4 2 2 2 5 5 5 1 "default" true [create_box 1 1 1, create_box 1 2 3] draw s3 = .ok (n4, s4) := by
  have hb : ∀ {a b c : ℝ}, 0 < a → 0 < b → 0 < c → StarShaped (create_box a b c) := fun ha hb hc => box_star ha hb hc
  obtain ⟨-, ⟨n1, s1, h1, r1⟩, -⟩ := C105_succeeds he (r := 0) (q := Quat.identity) (H := 1) (R := 1) (w := 2) (h := 2) (d := 2) one_pos one_pos two_pos two_pos two_pos
    (I := 5) (J := 5) (K := 5) (by norm_num) (by norm_num) (by norm_num) (density := 1) (rand := true) (hb one_pos one_pos one_pos) (hb one_pos one_pos one_pos)
    (objs := [create_box 1 1 1]) (by simp) (by simpa using hb one_pos one_pos one_pos) (grains := fun _ => create_box 1 1 1)
    (fun _ _ => hb one_pos one_pos one_pos) (Ip := 1) (Kp := 1) (by norm_num) (by norm_num) (draw := draw) freshScene_ready
  obtain ⟨-, -, ⟨n2, s2, h2, r2⟩, -⟩ := C105_succeeds he (r := 0) (q := Quat.identity) (H := 2) (R := 1) (w := 2) (h := 2) (d := 2) one_pos two_pos two_pos two_pos two_pos
    (I := 5) (J := 5) (K := 5) (by norm_num) (by norm_num) (by norm_num) (density := 1) (rand := true) (hb one_pos one_pos one_pos) (hb two_pos one_pos two_pos)
    (objs := [create_box 1 1 1]) (by simp) (by simpa using hb one_pos one_pos one_pos) (grains := fun _ => create_box 1 1 1)
    (fun _ _ => hb one_pos one_pos one_pos) (Ip := 1) (Kp := 1) (by norm_num) (by norm_num) (draw := draw) r1
  obtain ⟨-, -, -, ⟨n3, s3, h3, r3⟩, -⟩ := C105_succeeds he (r := 0) (q := Quat.identity) (H := 2) (R := 1) (w := 2) (h := 2) (d := 2) one_pos two_pos two_pos two_pos two_pos
    (I := 5) (J := 5) (K := 5) (by norm_num) (by norm_num) (by norm_num) (density := 1) (rand := false) (hb one_pos one_pos one_pos) (hb one_pos two_pos one_pos)
    (objs := [create_box 1 1 1]) (by simp) (by simpa using hb one_pos one_pos one_pos) (grains := fun _ => create_box 1 1 1)
    (fun _ _ => hb one_pos one_pos one_pos) (Ip := 1) (Kp := 1) (by norm_num) (by norm_num) (draw := draw) r2
  obtain ⟨-, -, -, -, ⟨n4, s4, h4, r4⟩⟩ := C105_succeeds he (r := 0) (q := Quat.identity) (H := 1) (R := 0.1) (w := 2) (h := 2) (d := 2) (by norm_num) one_pos two_pos two_pos two_pos
    (I := 5) (J := 5) (K := 5) (by norm_num) (by norm_num) (by norm_num) (density := 1) (rand := true) (hb one_pos one_pos one_pos) (hb one_pos two_pos one_pos)
    (objs := [create_box 1 1 1, create_box 1 2 3]) (by simp) (by simpa using ⟨hb one_pos one_pos one_pos, hb one_pos two_pos three_pos⟩) (grains := fun _ => create_box 1 1 1)
    (fun _ _ => hb one_pos one_pos one_pos) (Ip := 4) (Kp := 4) (by norm_num) (by norm_num) (draw := draw) r3
  exact ⟨n1, s1, n2, s2, n3, s3, n4, s4, h1, h2, h3, h4⟩

end Verif
