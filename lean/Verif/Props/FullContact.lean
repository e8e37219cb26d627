import Verif.Props.FullScene

/-! C96 and C97: how good the distance fields of shapes are, and where on a shape contacts are detected. -/

namespace Verif

open Rigid Rigid.SceneM SMesh Collision
open VMesh (Tri)

/-! ### Accuracy of the distance fields -/

/-- A function that changes by at most the distance travelled, as distances to a set do. -/
def Lipschitz1 (φ : V3 → ℝ) : Prop := ∀ a b, |φ a - φ b| ≤ V3.norm (a - b)

/-- **C96.** A distance field sampled on a grid is accurate to the diagonal of a cell: if the nodal values are values of a function that
changes by at most the distance travelled, then at every point of the box `get_value` is within the diagonal of a cell of that function. -/
theorem C96_accuracy {g : Grid} {φ : V3 → ℝ} (hφ : Lipschitz1 φ) (hs : Sampled g fun i j k => φ (g.get_node_coord i j k)) {p : V3}
    (hx : g.min_coord.x ≤ p.x ∧ p.x ≤ g.max_coord.x) (hy : g.min_coord.y ≤ p.y ∧ p.y ≤ g.max_coord.y)
    (hz : g.min_coord.z ≤ p.z ∧ p.z ≤ g.max_coord.z) : ∃ v, g.get_value p = .ok v ∧ |v - φ p| ≤ V3.norm g.spacing := by
  obtain ⟨i, j, k, v, hcell, hi, hj, hk, hv, hlo, hhi⟩ := C24_bounds hs p hx hy hz
  refine ⟨v, hv, ?_⟩
  have hcorner : ∀ a ∈ [i, i+1], ∀ b ∈ [j, j+1], ∀ c ∈ [k, k+1], |φ (g.get_node_coord a b c) - φ p| ≤ V3.norm g.spacing := by
    intro a ha b hb c hc
    refine (hφ _ _).trans ?_
    unfold Grid.get_enclosing_cell_idx at hcell
    rw [if_neg (by push Not; exact ⟨hs.hx.ne', hs.hy.ne', hs.hz.ne'⟩)] at hcell
    simp only [Except.ok.injEq, Prod.mk.injEq] at hcell
    obtain ⟨e1, e2, e3⟩ := hcell
    have key : ∀ {x lo h : ℝ} {n a i : ℕ}, 0 < h → 2 ≤ n → lo ≤ x → x ≤ lo + h * (n - 1) → Grid.clipCell x lo h n = i → a ∈ [i, i+1] →
        |lo + h * a - x| ≤ h := by
      intro x lo h n a i hh hn h1 h2 e ha
      obtain ⟨l0, l1⟩ := loc_range hh hn h1 h2
      have hm := loc_mul (x := x) (lo := lo) (c := Grid.clipCell x lo h n) hh
      rw [e] at l0 l1 hm
      have m1 : 0 ≤ h * loc x lo h i := by positivity
      have m2 : h * loc x lo h i ≤ h := by nlinarith
      rw [abs_le]
      simp only [List.mem_cons, List.not_mem_nil, or_false] at ha
      rcases ha with rfl | rfl
      · constructor <;> linarith
      · push_cast
        constructor <;> linarith
    have kx := key hs.hx hs.hI hx.1 (by rw [hs.ex]; exact hx.2) e1 ha
    have ky := key hs.hy hs.hJ hy.1 (by rw [hs.ey]; exact hy.2) e2 hb
    have kz := key hs.hz hs.hK hz.1 (by rw [hs.ez]; exact hz.2) e3 hc
    have sq : ∀ {a b : ℝ}, |a| ≤ b → a * a ≤ b * b := fun h => by
      have := mul_self_le_mul_self (abs_nonneg _) h
      rwa [abs_mul_abs_self] at this
    unfold V3.norm
    refine Real.sqrt_le_sqrt ?_
    have h1 := sq kx
    have h2 := sq ky
    have h3 := sq kz
    simp only [V3.dot, Grid.get_node_coord, V3.sub_x, V3.sub_y, V3.sub_z]
    linarith
  rw [abs_le]
  constructor
  · have := hlo (φ p - V3.norm g.spacing) fun a ha b hb c hc => by linarith [(abs_le.1 (hcorner a ha b hb c hc)).1]
    linarith
  · have := hhi (φ p + V3.norm g.spacing) fun a ha b hb c hc => by linarith [(abs_le.1 (hcorner a ha b hb c hc)).2]
    linarith

/-- The library's distance function computes, node by node, the function `dist V F`. -/
def Computes (sd : SignedDistance) (dist : List V3 → List Tri → V3 → ℝ) : Prop := ∀ nodes V F, sd nodes V F = nodes.map (dist V F)

theorem Computes.onePerNode {sd : SignedDistance} {dist : List V3 → List Tri → V3 → ℝ} (h : Computes sd dist) : OnePerNode sd := by
  intro nodes V F
  rw [h]; simp

/-- The field of a shape samples the distance function of its mesh. -/
theorem shapeGrid_sampled {sd : SignedDistance} {dist : List V3 → List Tri → V3 → ℝ} (hsd : Computes sd dist) {P : GeoParams}
    (hP : GoodGeo P) {m : Mesh} (hne : m.V ≠ []) {g : Grid} (hg : shapeGrid sd P m = .ok g) :
    Sampled g fun i j k => dist m.V m.T (g.get_node_coord i j k) := by
  have hpos : (0:ℝ) < 2e-9 := by norm_num
  obtain ⟨g', nodes, L, b, -, hb, hg', eI, eJ, eK, h2, h3, -, -, -, -, -, -, h4, h5, h6, h7⟩ := C96_shape_field hsd.onePerNode
    (le_trans (by norm_num) hP.envelope) hP.resolution hne
  rw [hg] at hg'
  cases hg'
  have hb1 : 2e-9 ≤ b := by
    rw [hb]
    refine le_max_of_le_right ?_
    have := hP.envelope
    have e : (2e-9 : ℝ) = 1e-9 * 2 := by norm_num
    rw [e]
    linarith
  have hres := hP.resolution
  have pos : ∀ {a c s : ℝ} {n : ℕ}, a < c → a + s * ((n : ℝ) - 1) = c → 2 ≤ n → 0 < s := by
    intro a c s n hac he hn
    have hn' : (2:ℝ) ≤ n := by exact_mod_cast hn
    by_contra hs
    push Not at hs
    nlinarith
  obtain ⟨v, hv⟩ := List.exists_mem_of_ne_nil _ hne
  have g2 := h2 v hv
  have g3 := h3 v hv
  refine ⟨by omega, by omega, by omega, pos (by linarith [g2.1, g3.1]) h5 (by omega), pos (by linarith [g2.2.1, g3.2.1]) h6 (by omega),
    pos (by linarith [g2.2.2, g3.2.2]) h7 (by omega), h5, h6, h7, ?_⟩
  intro i j k hi hj hk
  obtain ⟨x, hx1, hx2, hx⟩ := h4 i j k hi hj hk
  rw [hx]
  rw [hsd, List.getElem?_map, hx1] at hx2
  cases hx2
  rfl

/-- The diagonal of the cells of a field over a mesh of extent L: (L + 2·margin)/(resolution − 1) per axis at most. -/
theorem spacing_bound {g : Grid} {φ : ℕ → ℕ → ℕ → ℝ} (hs : Sampled g φ) {W : ℝ} {n : ℕ} (hn : 2 ≤ n) (hI : g.I = n) (hJ : g.J = n) (hK : g.K = n)
    (hx : g.max_coord.x - g.min_coord.x ≤ W) (hy : g.max_coord.y - g.min_coord.y ≤ W) (hz : g.max_coord.z - g.min_coord.z ≤ W) :
    V3.norm g.spacing ≤ Real.sqrt 3 * (W / (n - 1)) := by
  have h2 : (2:ℝ) ≤ n := by exact_mod_cast hn
  have h1 : (0:ℝ) < (n:ℝ) - 1 := by linarith
  have ex := hs.ex
  have ey := hs.ey
  have ez := hs.ez
  rw [hI] at ex
  rw [hJ] at ey
  rw [hK] at ez
  have kx : g.spacing.x ≤ W / (n - 1) := by rw [le_div_iff₀ h1]; linarith
  have ky : g.spacing.y ≤ W / (n - 1) := by rw [le_div_iff₀ h1]; linarith
  have kz : g.spacing.z ≤ W / (n - 1) := by rw [le_div_iff₀ h1]; linarith
  have hx0 := hs.hx
  have hy0 := hs.hy
  have hz0 := hs.hz
  generalize W / (n - 1) = d at *
  have hd : 0 ≤ d := by linarith
  unfold V3.norm
  rw [Real.sqrt_le_left (by positivity)]
  rw [mul_pow, Real.sq_sqrt (by norm_num)]
  simp only [V3.dot]
  nlinarith

/-- **C96.** The gaps that collision detection reports are accurate: if the library computes a distance function, the gap of every
reported contact differs from the distance of the contact position to the mesh of the first body (in the frame of that body) by at most
√3·(L + 2·margin)/(resolution − 1), the diagonal of a cell, where L is the extent of that mesh. -/
theorem C96_contact_gap {N : ℕ} {sd : SignedDistance} {dist : List V3 → List Tri → V3 → ℝ} (hsd : Computes sd dist)
    (hlip : ∀ V T, Lipschitz1 (dist V T)) {P : GeoParams} (hP : GoodGeo P) {bodies : Fin N → RigidBody} {C : Fin N → Collider}
    {c : ContactPoint N} (hc : IsContact P.toCDParams bodies C c) {m : Mesh} (hne : m.V ≠ [])
    (hgrid : shapeGrid sd P m = .ok (C c.bodyA).grid) :
    ∃ L, IsExtent m.V L ∧ |c.g - dist m.V m.T (toBody (bodies c.bodyA) c.p)| ≤
      Real.sqrt 3 * ((L + 2 * max (L / 10) (2 * P.envelope)) / (P.resolution - 1)) := by
  obtain ⟨-, -, -, -, x, -, hx, hval, -, h1, h2, h3⟩ := hc
  generalize (C c.bodyA).grid = g at *
  have hs := shapeGrid_sampled hsd hP hne hgrid
  obtain ⟨v, hv, hacc⟩ := C96_accuracy (hlip m.V m.T) hs (p := x) ⟨by linarith [h1.1], by linarith [h1.2]⟩
    ⟨by linarith [h2.1], by linarith [h2.2]⟩ ⟨by linarith [h3.1], by linarith [h3.2]⟩
  rw [hval] at hv
  cases hv
  rw [← hx]
  obtain ⟨g', nodes, L, b, hL, hb, hg', eI, eJ, eK, -, -, ⟨ax, hax, iax⟩, ⟨ay, hay, iay⟩, ⟨az, haz, iaz⟩, ⟨bx, hbx, ibx⟩, ⟨bY, hby, iby⟩,
    ⟨bz, hbz, ibz⟩, -⟩ := C96_shape_field hsd.onePerNode (le_trans (by norm_num) hP.envelope) hP.resolution hne
  rw [hgrid] at hg'
  cases hg'
  refine ⟨L, hL, hacc.trans ?_⟩
  have hres := hP.resolution
  have hn : ((P.resolution.toNat : ℕ) : ℝ) = (P.resolution : ℝ) := by
    have : ((P.resolution.toNat : ℕ) : ℤ) = P.resolution := Int.toNat_of_nonneg (by omega)
    exact_mod_cast this
  have := spacing_bound hs (W := L + 2 * b) (n := P.resolution.toNat) (by omega) (by omega) (by omega) (by omega)
    (by have := (hL.bound _ hbx _ hax).1; linarith) (by have := (hL.bound _ hby _ hay).2.1; linarith)
    (by have := (hL.bound _ hbz _ haz).2.2; linarith)
  rw [hn, hb] at this
  exact this

/-! ### Where contacts are detected -/

/-- **C97**, the part that holds: if the margin of the field is at least half a unit (the mesh is at least five units long, or the
envelope is at least a quarter), then every vertex of the mesh, and every point that is no further out than the vertices along each axis,
passes the test that `_contact_determination` makes before it reads the field.  What is missing: smaller meshes; see
C97_surface_not_covered. -/
theorem C97_surface_covered_partial {sd : SignedDistance} (hsd : OnePerNode sd) {P : GeoParams} (hP : GoodGeo P) {m : Mesh} (hne : m.V ≠ [])
    (hbig : (∃ v ∈ m.V, ∃ w ∈ m.V, 5 ≤ v.x - w.x ∨ 5 ≤ v.y - w.y ∨ 5 ≤ v.z - w.z) ∨ 1 / 4 ≤ P.envelope) :
    ∃ g, shapeGrid sd P m = .ok g ∧ ∀ x : V3, (∃ v ∈ m.V, v.x ≤ x.x) → (∃ v ∈ m.V, x.x ≤ v.x) → (∃ v ∈ m.V, v.y ≤ x.y) →
      (∃ v ∈ m.V, x.y ≤ v.y) → (∃ v ∈ m.V, v.z ≤ x.z) → (∃ v ∈ m.V, x.z ≤ v.z) → g.is_inside x = .ok true := by
  obtain ⟨g, nodes, L, b, hL, hb, hg, -, -, -, h2, h3, -⟩ := C96_shape_field hsd (le_trans (by norm_num) hP.envelope) hP.resolution hne
  have hb5 : 1 / 2 ≤ b := by
    rw [hb]
    rcases hbig with ⟨v, hv, w, hw, h⟩ | h
    · refine le_max_of_le_left ?_
      have := hL.bound v hv w hw
      rcases h with h | h | h <;> linarith [this.1, this.2.1, this.2.2]
    · exact le_max_of_le_right (by linarith)
  refine ⟨g, hg, ?_⟩
  rintro x ⟨v1, hv1, a1⟩ ⟨v2, hv2, a2⟩ ⟨v3, hv3, a3⟩ ⟨v4, hv4, a4⟩ ⟨v5, hv5, a5⟩ ⟨v6, hv6, a6⟩
  obtain ⟨r, hr, hiff⟩ := (C24_is_inside g x (1 / 2)).1 (by norm_num)
  rw [hr, hiff.2]
  refine ⟨⟨?_, ?_⟩, ⟨?_, ?_⟩, ?_, ?_⟩
  · linarith [(h2 v1 hv1).1]
  · linarith [(h3 v2 hv2).1]
  · linarith [(h2 v3 hv3).2.1]
  · linarith [(h3 v4 hv4).2.1]
  · linarith [(h2 v5 hv5).2.2]
  · linarith [(h3 v6 hv6).2.2]

/-- **C97**, the part that fails: if the mesh is less than five units long and the envelope less than a quarter (the default is a
tenth), then the vertices furthest out along each axis, on both sides, fail the test: nothing that touches the shape there gives a
contact with it as first body. -/
theorem C97_surface_not_covered {sd : SignedDistance} (hsd : OnePerNode sd) {P : GeoParams} (hP : GoodGeo P) {m : Mesh} (hne : m.V ≠ [])
    (hsmall : ∀ v ∈ m.V, ∀ w ∈ m.V, v.x - w.x < 5 ∧ v.y - w.y < 5 ∧ v.z - w.z < 5) (he : P.envelope < 1 / 4) :
    ∃ g, shapeGrid sd P m = .ok g ∧ ∀ v ∈ m.V,
      ((∀ w ∈ m.V, v.x ≤ w.x) ∨ (∀ w ∈ m.V, w.x ≤ v.x) ∨ (∀ w ∈ m.V, v.y ≤ w.y) ∨ (∀ w ∈ m.V, w.y ≤ v.y) ∨ (∀ w ∈ m.V, v.z ≤ w.z) ∨
        (∀ w ∈ m.V, w.z ≤ v.z)) → g.is_inside v = .ok false := by
  obtain ⟨g, nodes, L, b, hL, hb, hg, -, -, -, h2, h3, ⟨ax, hax, iax⟩, ⟨ay, hay, iay⟩, ⟨az, haz, iaz⟩, ⟨bx, hbx, ibx⟩, ⟨bY, hby, iby⟩,
    ⟨bz, hbz, ibz⟩, -⟩ := C96_shape_field hsd (le_trans (by norm_num) hP.envelope) hP.resolution hne
  have hb5 : b < 1 / 2 := by
    rw [hb]
    refine max_lt ?_ (by linarith)
    obtain ⟨v, hv, w, hw, h⟩ := hL.attained
    have := hsmall v hv w hw
    rcases h with h | h | h <;> linarith [this.1, this.2.1, this.2.2]
  refine ⟨g, hg, ?_⟩
  intro v hv hext
  obtain ⟨r, hr, hiff⟩ := (C24_is_inside g v (1 / 2)).1 (by norm_num)
  have hr' : r ≠ true := by
    rw [Ne, hiff]
    rintro ⟨⟨i1, i2⟩, ⟨i3, i4⟩, i5, i6⟩
    rcases hext with h | h | h | h | h | h
    · linarith [h ax hax]
    · linarith [h bx hbx]
    · linarith [h ay hay]
    · linarith [h bY hby]
    · linarith [h az haz]
    · linarith [h bz hbz]
  rw [hr]
  simpa using hr'

/-- A simulation without any collision detection. -/
noncomputable def contactFree {N : ℕ} : ℝ → World N → Except PyErr (World N) := step fun _ => .ok []

/-- Bodies whose fields are never read: the box of the field is less than a unit wide along some axis. -/
def ThinField (c : Collider) : Prop :=
  c.grid.max_coord.x - c.grid.min_coord.x < 1 ∨ c.grid.max_coord.y - c.grid.min_coord.y < 1 ∨ c.grid.max_coord.z - c.grid.min_coord.z < 1

variable {N : ℕ}

theorem thin_step {P : CDParams} (hK : P.K = 3 ∨ P.K = 4) (he : 0 ≤ P.envelope) (dt : ℝ) {s : Sim N} (hs : Simulable s)
    (hthin : ∀ k, ThinField (s.2 k)) :
    ∃ s', fullStep P dt s = .ok s' ∧ Simulable s' ∧ SameWorld s s' ∧ contactFree dt s.1 = .ok s'.1 ∧ s'.1.contact_points = [] := by
  obtain ⟨C', cps, hcd, -⟩ := C69_complete (P := P) hK he hs.unit hs.geo
  have hnil : cps = [] := by
    rw [List.eq_nil_iff_forall_not_mem]
    intro c hc
    exact C69_small_box hs.unit hcd c.bodyA (hthin _) c hc rfl
  subst hnil
  obtain ⟨s', h1, h2, h3, -⟩ := C95_step hK he dt hs
  refine ⟨s', h1, h2, h3, ?_⟩
  have hstep : step (fun w => (run_collision_detection P w.bodies s.2).map Prod.snd) dt s.1 = contactFree dt s.1 := by
    unfold contactFree step
    simp only [hcd]
    rfl
  unfold fullStep at h1
  simp only [bind, Except.bind, hcd] at h1
  rw [hstep] at h1
  cases h : contactFree dt s.1 with
  | error e => rw [h] at h1; cases h1
  | ok w =>
    rw [h] at h1
    cases h1
    refine ⟨rfl, ?_⟩
    have := (C48_frame h).1
    simp only [Except.ok.injEq] at this
    exact this.symm

theorem thin_run {P : CDParams} (hK : P.K = 3 ∨ P.K = 4) (he : 0 ≤ P.envelope) (dts : List ℝ) {s s' : Sim N} (hs : Simulable s)
    (hthin : ∀ k, ThinField (s.2 k)) (h : fullRun P dts s = .ok s') : runSteps contactFree dts s.1 = .ok s'.1 := by
  induction dts generalizing s with
  | nil => cases h; rfl
  | cons dt dts ih =>
    obtain ⟨s1, h1, h2, h3, h4, -⟩ := thin_step hK he dt hs hthin
    unfold fullRun at h
    rw [h1] at h
    unfold runSteps
    rw [h4]
    refine ih h2 ?_ h
    intro k
    have := (h3.geometry k).2.2
    unfold ThinField
    rw [this]
    exact hthin k

/-- **C97.** If no field is at least a unit wide, the complete simulator does exactly what it would do without any collision detection:
the bodies pass through each other. -/
theorem C97_thin_bodies_pass {P : CDParams} (hK : P.K = 3 ∨ P.K = 4) (he : 0 ≤ P.envelope) {s : Sim N} (hs : Simulable s)
    (hthin : ∀ k, ThinField (s.2 k)) (hts : 0 < s.1.params.time_step) {T : ℝ} (hT : 0 < T) :
    ∃ s', fullSimulate P s T = .ok s' ∧ simulate (some contactFree) s.1 T = .ok s'.1 := by
  obtain ⟨s', dts, h1, h2, -, -, -, -, -, hd⟩ := C95_simulate hK he hs hts hT
  refine ⟨s', h1, ?_⟩
  have hkeep : KeepsTimeStep (contactFree : ℝ → World N → Except PyErr (World N)) := by
    intro dt w w' h
    rw [(C48_frame h).2.2.2.2.1]
  rw [(C45_simulate contactFree hkeep s.1 hT hts).1]
  have := thin_run hK he dts hs hthin h2
  rw [hd] at this
  exact this

/-! ### A scene where it matters -/

/-- With the default parameters the fields of meshes in which no two vertices are 0.6 apart are never read. -/
theorem small_mesh_thin {sd : SignedDistance} (hsd : OnePerNode sd) {m : Mesh} (hne : m.V ≠ [])
    (hsmall : ∀ v ∈ m.V, ∀ w ∈ m.V, V3.dot (v - w) (v - w) < 0.36) {g : Grid} (hg : shapeGrid sd GeoParams.init m = .ok g) :
    g.max_coord.x - g.min_coord.x < 1 := by
  obtain ⟨g', nodes, L, b, hL, hb, hg', -, -, -, -, -, ⟨ax, hax, iax⟩, -, -, ⟨bx, hbx, ibx⟩, -⟩ :=
    C96_shape_field hsd (le_trans (by norm_num) goodGeo_default.envelope) goodGeo_default.resolution hne
  rw [hg] at hg'
  cases hg'
  have key : ∀ t u v : ℝ, t * t + u * u + v * v < 0.36 → t < 0.6 ∧ u < 0.6 ∧ v < 0.6 := by
    intro t u v h
    rw [show (0.36 : ℝ) = 0.6 * 0.6 by norm_num] at h
    refine ⟨?_, ?_, ?_⟩ <;> by_contra hc <;> push Not at hc <;>
      nlinarith [mul_self_nonneg t, mul_self_nonneg u, mul_self_nonneg v, show (0:ℝ) < 0.6 by norm_num]
  have hext : ∀ v ∈ m.V, ∀ w ∈ m.V, v.x - w.x < 0.6 ∧ v.y - w.y < 0.6 ∧ v.z - w.z < 0.6 := fun v hv w hw => key _ _ _ (hsmall v hv w hw)
  have hb2 : b = 0.2 := by
    rw [hb]
    have he : 2 * GeoParams.init.envelope = 0.2 := by norm_num [GeoParams.init]
    rw [he]
    refine max_eq_right ?_
    obtain ⟨v, hv, w, hw, h⟩ := hL.attained
    have h6 := hext v hv w hw
    have : L < 0.6 := by rcases h with h | h | h <;> linarith [h6.1, h6.2.1, h6.2.2]
    have e : (0.6 : ℝ) / 10 ≤ 0.2 := by norm_num
    linarith
  have h6 := (hext bx hbx ax hax).1
  have e : (0.6 : ℝ) + 2 * 0.2 = 1 := by norm_num
  rw [hb2] at iax ibx
  linarith

theorem bodyToWorld_dist {b : RigidBody} (hq : IsUnitQ b.q) (v w : V3) :
    V3.dot (bodyToWorld b v - bodyToWorld b w) (bodyToWorld b v - bodyToWorld b w) = V3.dot (v - w) (v - w) := by
  have e : bodyToWorld b v - bodyToWorld b w = Quat.rotate b.q (v - w) := by
    unfold bodyToWorld
    rw [sub_eq_add_neg v w, rotate_add, rotate_neg]
    abel
  rw [e, rotate_dot_V3 hq]

theorem brick_dist {b : Brick} (hq : IsUnitQ b.q) (v w : V3) : V3.dot (b.at v - b.at w) (b.at v - b.at w) = V3.dot (v - w) (v - w) := by
  have e : b.at v - b.at w = Quat.rotate b.q (v - w) := by
    unfold Brick.at
    rw [sub_eq_add_neg v w, rotate_add, rotate_neg]
    abel
  rw [e, rotate_dot_V3 hq]

/-- **C97.** Small boxes fall through each other: a stack of boxes with a diagonal below 0.6, built and simulated with the default
parameters, moves exactly as it would without collision detection, whatever its boxes rest on, and for however long. -/
theorem C97_small_boxes_pass {eig : Eig} (he : EigSpec eig) {w h d : ℝ} (hw : 0 < w) (hh : 0 < h) (hd : 0 < d) (hv : 1e-10 < w * h * d)
    (hsmall : w ^ 2 + h ^ 2 + d ^ 2 < 0.36) (K : ℕ) {density : ℝ} (hden : density ≠ 0) {sd : SignedDistance} (hsd : OnePerNode sd) {T : ℝ}
    (hT : 0 < T) :
    ∃ names s W C s', create_box_stack eig w h d K density "default" freshScene = .ok (names, s) ∧ names.length = K ∧
      s.eng.toWorld = some W ∧ (∀ i, s.collider sd GeoParams.init (W.bodies i) = .ok (C i)) ∧
      fullSimulate GeoParams.init.toCDParams (W, C) T = .ok s' ∧ simulate (some contactFree) W T = .ok s'.1 := by
  obtain ⟨names, s, h1, h2⟩ := C86_box_stack_succeeds he hw hh hd K density freshScene_ready
  obtain ⟨h3, -, h4, -⟩ := C86_box_stack he hh.le freshScene_ready.ok h1
  have hc0 : Complete freshScene := ⟨fun n o h => (by cases h), fun n o h => (by cases h), fun n o h => (by cases h)⟩
  have hc : Complete s := hc0.adds h3 (Or.inr ⟨hden, by
    intro b hb
    obtain ⟨k, -, rfl⟩ := List.mem_map.1 hb
    show 1e-10 < enclosedVolume (create_box w h d).1 (create_box w h d).2
    rw [(C33_box w h d).2.2]; exact hv⟩)
  have hts : s.eng.params.time_step = 0.01 := by rw [h3.rest.2.2.2]; rfl
  obtain ⟨W, C, a1, a2, a3, -⟩ := C95_scene hsd goodGeo_default h2.good hc (by rw [hts]; norm_num)
  obtain ⟨W', b1, b2, -, -, b3, b4, -⟩ := C43_world s.eng h2.good.eng (by
    intro k hk
    exact hc.hinge _ _ (Dict.get?_entry h2.good.eng.hinges_nodup hk))
  rw [a1] at b1
  cases b1
  have hgeo : ∀ i, ColliderOK (C i) ∧ ThinField (C i) := by
    intro i
    obtain ⟨c1, c2, c3⟩ := b2 i
    have hsh := hc.shape _ _ c3
    obtain ⟨sh, hsh⟩ := Option.ne_none_iff_exists'.1 hsh
    obtain ⟨-, -, hqi, -, -, c4, -⟩ := h2.good.eng.bodies i.1 i.2
    have c5 := c4 sh hsh
    obtain ⟨m, hm1, hm2⟩ := h2.good.meshes _ _ c5
    rw [← c1] at hsh
    obtain ⟨c, d1, d2, d3, d4⟩ := C95_collider hsd goodGeo_default hsh hm1 hm2
    rw [a2 i] at d1
    cases d1
    refine ⟨d4, Or.inl ?_⟩
    have hne : m.V ≠ [] := by
      obtain ⟨v, hv, -⟩ := hm2.lowx
      exact List.ne_nil_of_mem hv
    have hg : shapeGrid sd GeoParams.init m = .ok (C i).grid := by
      have := a2 i
      unfold Scene.collider at this
      rw [hsh] at this
      simp only at this
      rw [hm1] at this
      simp only [bind, Except.bind] at this
      cases e1 : shapeGrid sd GeoParams.init m with
      | error e => rw [e1] at this; cases this
      | ok g =>
        rw [e1] at this
        simp only at this
        cases e2 : BVH.make_bvh m.V (rows m.T) GeoParams.init.K GeoParams.init.bvh_chunk_size GeoParams.init.envelope with
        | error e => rw [e2] at this; cases this
        | ok t =>
          rw [e2] at this
          simp only [pure, Except.pure, Except.ok.injEq] at this
          rw [← this]
    refine small_mesh_thin hsd hne ?_ hg
    -- distances in the mesh are distances in the box
    have hmem : (W.bodies i).name ∈ names := by
      by_contra hn
      have := h3.old _ hn
      rw [c3] at this
      cases this
    obtain ⟨j, b, hj, hb⟩ := h3.mem hmem
    obtain ⟨o, mw, e1, e2, e3, -⟩ := h3.each j _ b hj hb
    rw [c3] at e1
    cases e1
    rw [c1] at hsh
    rw [worldMesh_eq c3 hsh hm1] at e2
    cases e2
    have hbb := List.mem_of_getElem? hb
    obtain ⟨k, -, rfl⟩ := List.mem_map.1 hbb
    intro v hv u hu
    rw [← bodyToWorld_dist hqi v u]
    have hv' := e3.mem_iff.1 (List.mem_map_of_mem (f := bodyToWorld (s.eng.bodies.entries.get i).2.body) hv)
    have hu' := e3.mem_iff.1 (List.mem_map_of_mem (f := bodyToWorld (s.eng.bodies.entries.get i).2.body) hu)
    obtain ⟨p, hp, ep⟩ := List.mem_map.1 hv'
    obtain ⟨r, hr, er⟩ := List.mem_map.1 hu'
    have hqb : IsUnitQ (Quat.Ry (k * Real.pi / 4)) := Ry_unit _
    change V3.dot (bodyToWorld (s.eng.bodies.entries.get i).2.body v - bodyToWorld (s.eng.bodies.entries.get i).2.body u)
      (bodyToWorld (s.eng.bodies.entries.get i).2.body v - bodyToWorld (s.eng.bodies.entries.get i).2.body u) < _
    rw [← ep, ← er, brick_dist hqb]
    refine lt_of_le_of_lt ?_ hsmall
    have hbox : ∀ p ∈ (create_box w h d).1, |p.x| = w / 2 ∧ |p.y| = h / 2 ∧ |p.z| = d / 2 := by
      intro p hp
      simp only [create_box, List.mem_cons, List.not_mem_nil, or_false] at hp
      rcases hp with rfl | rfl | rfl | rfl | rfl | rfl | rfl | rfl <;>
        simp only [V3.smul_x, V3.smul_y, V3.smul_z] <;> refine ⟨?_, ?_, ?_⟩ <;> norm_num [abs_of_pos, hw, hh, hd] <;> ring
    obtain ⟨p1, p2, p3⟩ := hbox p hp
    obtain ⟨r1, r2, r3⟩ := hbox r hr
    have sq : ∀ {a b c : ℝ}, |a| = c / 2 → |b| = c / 2 → (a - b) * (a - b) ≤ c ^ 2 := by
      intro a b c ha hb
      have hab : |a - b| ≤ c := by
        have := abs_sub a b
        linarith
      have := mul_self_le_mul_self (abs_nonneg _) hab
      rw [abs_mul_abs_self] at this
      nlinarith
    simp only [V3.dot, V3.sub_x, V3.sub_y, V3.sub_z]
    linarith [sq p1 r1, sq p2 r2, sq p3 r3]
  have hsim : Simulable (W, C) := by
    refine ⟨?_, ?_, fun i => (hgeo i).1, ?_⟩
    · intro k hk
      obtain ⟨c1, -, c3⟩ := b2 k
      simp only [c1] at hk ⊢
      exact hc.mass _ _ c3 hk
    · intro k
      obtain ⟨c1, -, c3⟩ := b2 k
      obtain ⟨-, -, c4, -⟩ := h2.good.eng.bodies k.1 k.2
      simp only [c1]
      exact c4
    · simp only [b3]
      exact Dict.mem_iff_get?.1 h2.good.eng.default_exists
  obtain ⟨s', f1, f2⟩ := C97_thin_bodies_pass (P := GeoParams.init.toCDParams) (Or.inl rfl)
    (le_trans (by norm_num) goodGeo_default.envelope) hsim (fun i => (hgeo i).2) (by simp only [b4, hts]; norm_num) hT
  exact ⟨names, s, W, C, s', h1, h4, a1, a2, f1, f2⟩

/-- Ten boxes with sides 0.3, simulated for a second: no contact is ever found. -/
example (eig : Eig) (he : EigSpec eig) : ∃ names s W C s', create_box_stack eig 0.3 0.3 0.3 10 1 "default" freshScene = .ok (names, s) ∧
    names.length = 10 ∧ s.eng.toWorld = some W ∧
    (∀ i, s.collider (fun nodes _ _ => nodes.map fun _ => 1) GeoParams.init (W.bodies i) = .ok (C i)) ∧
    fullSimulate GeoParams.init.toCDParams (W, C) 1 = .ok s' ∧ simulate (some contactFree) W 1 = .ok s'.1 :=
  C97_small_boxes_pass he (by norm_num) (by norm_num) (by norm_num) (by norm_num) (by norm_num) 10 one_ne_zero (fun _ _ _ => by simp) one_pos

end Verif
