import Verif.Model.SceneMail
import Verif.Props.MeshTorus
import Verif.Props.SceneFall2

/-! C106: chain mail. -/

namespace Verif

open Rigid Rigid.SceneM SMesh
open VMesh (Tri)

/-! ### Specification: hoops -/

/-- Where a ring is: its centre and the direction of its axis. -/
structure Hoop where
  c : V3
  n : V3

/-- The circle of radius R in the middle of the ring. -/
def Hoop.On (h : Hoop) (R : ℝ) (p : V3) : Prop := V3.dot (p - h.c) (p - h.c) = R ^ 2 ∧ V3.dot h.n (p - h.c) = 0

/-- The disc the circle goes around. -/
def Hoop.Inside (h : Hoop) (R : ℝ) (p : V3) : Prop := V3.dot (p - h.c) (p - h.c) < R ^ 2 ∧ V3.dot h.n (p - h.c) = 0

/-- The rings of a mail in the plane y = 0, with the origin in the middle, 2D from ring to ring: first those that lie in the plane, row by
row, then between every two neighbours of a row a vertical ring whose axis is the z axis, then between every two neighbours of a
column a vertical ring whose axis is the x axis. -/
noncomputable def mailHoops (D : ℝ) (columns rows : ℕ) : List Hoop :=
  ((List.range (rows + 1)).flatMap fun (j : ℕ) => (List.range (columns + 1)).map fun (i : ℕ) =>
    ⟨⟨D * (2 * i - columns), 0, D * (rows - 2 * j)⟩, ⟨0, 1, 0⟩⟩) ++
  ((List.range (rows + 1)).flatMap fun (j : ℕ) => (List.range columns).map fun (i : ℕ) =>
    ⟨⟨D * (2 * i + 1 - columns), 0, D * (rows - 2 * j)⟩, ⟨0, 0, 1⟩⟩) ++
  ((List.range rows).flatMap fun (j : ℕ) => (List.range (columns + 1)).map fun (i : ℕ) =>
    ⟨⟨D * (2 * i - columns), 0, D * (rows - (2 * j + 1))⟩, ⟨1, 0, 0⟩⟩)

/-! ### Placements -/

theorem rotate_Rx (A : ℝ) (p : V3) : Quat.rotate (Quat.Rx A) p =
    ⟨p.x, Real.cos A * p.y - Real.sin A * p.z, Real.sin A * p.y + Real.cos A * p.z⟩ := by
  have hc : Real.cos A = Real.cos (A / 2) ^ 2 - Real.sin (A / 2) ^ 2 := by
    rw [← Real.cos_two_mul']; congr 1; ring
  have hs : Real.sin A = 2 * Real.sin (A / 2) * Real.cos (A / 2) := by
    rw [← Real.sin_two_mul]; congr 1; ring
  have h1 := Real.sin_sq_add_cos_sq (A / 2)
  unfold Quat.Rx
  rw [hc, hs]
  generalize Real.cos (A / 2) = c at *
  generalize Real.sin (A / 2) = s at *
  refine V3.ext ?_ ?_ ?_ <;> simp [Quat.rotate, Quat.prod, Quat.conjugate, Quat.vec, V3.dot, V3.cross]
  · linear_combination p.x * h1
  · ring
  · ring

/-- A ring: the torus, turned so that its axis is that of the hoop, around the centre of the hoop. -/
def RingBrick (R r : ℝ) (b : Brick) (h : Hoop) : Prop :=
  b.V = (create_torus R r 24 24).1 ∧ b.T = (create_torus R r 24 24).2 ∧ b.r = h.c ∧ IsUnitQ b.q ∧ Quat.rotate b.q ⟨0, 0, 1⟩ = h.n

/-- the ring of create_chainmail.py at r_l, q_l -/
noncomputable def mailBrick (R r delta : ℝ) (columns rows : ℕ) (r_l : V3) (q_l : Quat) : Brick :=
  ⟨(create_torus R r 24 24).1, (create_torus R r 24 24).2,
    globalPos ⟨-delta * columns / 2, 0, delta * rows / 2⟩ (Quat.Rx (-Real.pi / 2)) r_l, Quat.prod (Quat.Rx (-Real.pi / 2)) q_l⟩

theorem rotate_down (p : V3) : Quat.rotate (Quat.Rx (-Real.pi / 2)) p = ⟨p.x, p.z, -p.y⟩ := by
  rw [rotate_Rx, show -Real.pi / 2 = -(Real.pi / 2) by ring, Real.cos_neg, Real.sin_neg, Real.cos_pi_div_two, Real.sin_pi_div_two]
  refine V3.ext ?_ ?_ ?_ <;> simp

theorem mailBrick_flat (R r D : ℝ) (columns rows : ℕ) (i j : ℕ) :
    RingBrick R r (mailBrick R r (2 * D) columns rows ⟨(i : ℝ) * (2 * D), (j : ℝ) * (2 * D), 0⟩ Quat.identity)
      ⟨⟨D * (2 * i - columns), 0, D * (rows - 2 * j)⟩, ⟨0, 1, 0⟩⟩ := by
  refine ⟨rfl, rfl, ?_, prod_unit (Rx_unit _) ident_unit, ?_⟩
  · unfold mailBrick globalPos
    simp only
    rw [rotate_down]
    refine V3.ext ?_ ?_ ?_ <;> simp <;> ring
  · unfold mailBrick
    simp only
    rw [C02_rotate_prod, rotate_ident_V3, rotate_down]
    refine V3.ext ?_ ?_ ?_ <;> simp

theorem mailBrick_across (R r D : ℝ) (columns rows : ℕ) (i j : ℕ) :
    RingBrick R r (mailBrick R r (2 * D) columns rows ⟨((i : ℝ) + 0.5) * (2 * D), (j : ℝ) * (2 * D), 0⟩ (Quat.Rx (Real.pi / 2)))
      ⟨⟨D * (2 * i + 1 - columns), 0, D * (rows - 2 * j)⟩, ⟨0, 0, 1⟩⟩ := by
  refine ⟨rfl, rfl, ?_, prod_unit (Rx_unit _) (Rx_unit _), ?_⟩
  · unfold mailBrick globalPos
    simp only [show (0.5:ℝ) = 1/2 by norm_num]
    rw [rotate_down]
    refine V3.ext ?_ ?_ ?_ <;> simp <;> ring
  · unfold mailBrick
    simp only
    rw [C02_rotate_prod, rotate_down, rotate_Rx, Real.cos_pi_div_two, Real.sin_pi_div_two]
    refine V3.ext ?_ ?_ ?_ <;> simp

theorem mailBrick_along (R r D : ℝ) (columns rows : ℕ) (i j : ℕ) :
    RingBrick R r (mailBrick R r (2 * D) columns rows ⟨(i : ℝ) * (2 * D), ((j : ℝ) + 0.5) * (2 * D), 0⟩ (Quat.Ry (Real.pi / 2)))
      ⟨⟨D * (2 * i - columns), 0, D * (rows - (2 * j + 1))⟩, ⟨1, 0, 0⟩⟩ := by
  refine ⟨rfl, rfl, ?_, prod_unit (Rx_unit _) (Ry_unit _), ?_⟩
  · unfold mailBrick globalPos
    simp only [show (0.5:ℝ) = 1/2 by norm_num]
    rw [rotate_down]
    refine V3.ext ?_ ?_ ?_ <;> simp <;> ring
  · unfold mailBrick
    simp only
    rw [C02_rotate_prod, rotate_down, rotate_Ry, Real.cos_pi_div_two, Real.sin_pi_div_two]
    refine V3.ext ?_ ?_ ?_ <;> simp

/-- the plan of create_chainmail.py -/
noncomputable def mailPlan (R r delta : ℝ) (columns rows : ℕ) : List Brick :=
  ((List.range (rows + 1)).flatMap fun (j : ℕ) => (List.range (columns + 1)).map fun (i : ℕ) =>
    mailBrick R r delta columns rows ⟨(i : ℝ) * delta, (j : ℝ) * delta, 0⟩ Quat.identity) ++
  ((List.range (rows + 1)).flatMap fun (j : ℕ) => (List.range columns).map fun (i : ℕ) =>
    mailBrick R r delta columns rows ⟨((i : ℝ) + 0.5) * delta, (j : ℝ) * delta, 0⟩ (Quat.Rx (Real.pi / 2))) ++
  ((List.range rows).flatMap fun (j : ℕ) => (List.range (columns + 1)).map fun (i : ℕ) =>
    mailBrick R r delta columns rows ⟨(i : ℝ) * delta, ((j : ℝ) + 0.5) * delta, 0⟩ (Quat.Ry (Real.pi / 2)))

theorem forall₂_grid {α β : Type} {P : α → β → Prop} (m n : ℕ) (f : ℕ → ℕ → α) (g : ℕ → ℕ → β) (h : ∀ j i, P (f j i) (g j i)) :
    List.Forall₂ P ((List.range m).flatMap fun j => (List.range n).map fun i => f j i)
      ((List.range m).flatMap fun j => (List.range n).map fun i => g j i) := by
  have row : ∀ (j : ℕ) (L : List ℕ), List.Forall₂ P (L.map fun i => f j i) (L.map fun i => g j i) := by
    intro j L
    induction L with
    | nil => exact .nil
    | cons a L ih => exact .cons (h j a) ih
  generalize List.range m = L
  induction L with
  | nil => exact .nil
  | cons a L ih =>
    rw [List.flatMap_cons, List.flatMap_cons]
    exact List.rel_append (row a _) ih

theorem mailPlan_hoops (R r D : ℝ) (columns rows : ℕ) :
    List.Forall₂ (RingBrick R r) (mailPlan R r (2 * D) columns rows) (mailHoops D columns rows) := by
  unfold mailPlan mailHoops
  refine List.rel_append (List.rel_append ?_ ?_) ?_
  · exact forall₂_grid _ _ _ _ fun j i => mailBrick_flat R r D columns rows i j
  · exact forall₂_grid _ _ _ _ fun j i => mailBrick_across R r D columns rows i j
  · exact forall₂_grid _ _ _ _ fun j i => mailBrick_along R r D columns rows i j

/-! ### Pinning -/

/-- s' is s with the bodies P made fixed. -/
structure MadeFixed (s s' : Scene) (P : List String) : Prop where
  keys : s'.eng.bodies.keys = s.eng.bodies.keys
  old : ∀ n, n ∉ P → s'.eng.bodies.get? n = s.eng.bodies.get? n
  upd : ∀ n ∈ P, ∃ o, s.eng.bodies.get? n = some o ∧ s'.eng.bodies.get? n = some { o with body := { o.body with is_fixed := true } }
  rest : s' = { s with eng := { s.eng with bodies := s'.eng.bodies } }

theorem MadeFixed.refl (s : Scene) : MadeFixed s s [] := ⟨rfl, fun _ _ => rfl, by simp, rfl⟩

theorem MadeFixed.step {s s1 s' : Scene} {P : List String} {n : String} {u : Unit} (h : MadeFixed s s1 P)
    (h1 : api (fun e => e.set_body_type n "fixed") s1 = .ok (u, s')) : MadeFixed s s' (n :: P) := by
  replace h1 := api_ok.1 h1
  obtain ⟨e, h1, rfl⟩ := h1
  obtain ⟨b, hb, h2⟩ := set_type_ok h1
  have he : e = { s1.eng with bodies := s1.eng.bodies.setItem n { b with body := { b.body with is_fixed := true } } } := by
    rcases h2 with h2 | h2
    · exact h2.2
    · exact absurd h2.1 (by decide)
  obtain ⟨d, hd⟩ : ∃ d, s1 = { s with eng := { s.eng with bodies := d } } := ⟨_, h.rest⟩
  refine ⟨?_, ?_, ?_, ?_⟩
  · rw [he]; simp only
    rw [Dict.keys_setItem, if_pos (Dict.mem_of_get? hb), h.keys]
  · intro m hm
    rw [he]; simp only
    simp only [List.mem_cons, not_or] at hm
    rw [Dict.get?_setItem_ne _ _ hm.1, h.old m hm.2]
  · intro m hm
    rw [he]; simp only
    by_cases hmn : m = n
    · subst hmn
      rw [Dict.get?_setItem_self]
      by_cases hP : m ∈ P
      · obtain ⟨o, h3, h4⟩ := h.upd m hP
        rw [hb] at h4
        cases h4
        exact ⟨o, h3, rfl⟩
      · rw [h.old m hP] at hb
        exact ⟨b, hb, rfl⟩
    · rw [Dict.get?_setItem_ne _ _ hmn]
      exact h.upd m ((List.mem_cons.1 hm).resolve_left hmn)
  · rw [he, hd]

theorem mailPins_ok {N : List String} {columns rows : ℕ} {s s' : Scene} {u : Unit} (h : mailPins N columns rows s = .ok (u, s')) :
    ∃ a b c d, N[0]? = some a ∧ N[columns]? = some b ∧ N[rows * (columns + 1)]? = some c ∧ N[rows * (columns + 1) + columns]? = some d ∧
      MadeFixed s s' [d, c, b, a] := by
  unfold mailPins at h
  rw [bind_ok] at h; obtain ⟨a, s1, h1, h⟩ := h
  obtain ⟨ha, rfl⟩ := nameAt_ok.1 h1
  rw [bind_ok] at h; obtain ⟨b, s2, h2, h⟩ := h
  obtain ⟨hb, rfl⟩ := nameAt_ok.1 h2
  rw [bind_ok] at h; obtain ⟨c, s3, h3, h⟩ := h
  obtain ⟨hc, rfl⟩ := nameAt_ok.1 h3
  rw [bind_ok] at h; obtain ⟨d, s4, h4, h⟩ := h
  obtain ⟨hd, rfl⟩ := nameAt_ok.1 h4
  rw [bind_ok] at h; obtain ⟨u1, s5, h5, h⟩ := h
  rw [bind_ok] at h; obtain ⟨u2, s6, h6, h⟩ := h
  rw [bind_ok] at h; obtain ⟨u3, s7, h7, h8⟩ := h
  refine ⟨a, b, c, d, ha, hb, ?_, ?_, ((((MadeFixed.refl s4).step h5).step h6).step h7).step h8⟩
  · rw [← hc]; congr 1; rw [Nat.succ_mul]; omega
  · rw [← hd]; congr 1; rw [Nat.succ_mul]; omega

/-! ### The mail -/

theorem mailRing_ok {k : String} {R r delta : ℝ} {columns rows : ℕ} {r_l : V3} {q_l : Quat} (hq : IsUnitQ q_l) {s s' : Scene} {n : String}
    (hsh : HasShape s k (create_torus R r 24 24)) (h : mailRing k delta columns rows r_l q_l s = .ok (n, s')) :
    PutUp Placed s s' [mailBrick R r delta columns rows r_l q_l] [n] := by
  have := newBody_ok hsh h
  rw [(C01_unit_spec _).2.1 (prod_unit (Rx_unit _) hq)] at this
  exact this

theorem mail_built {eig : Eig} (he : EigSpec eig) {R r : ℝ} {columns rows : ℕ} {stretch density : ℝ} {material : String} {pinned : Bool}
    {s s' : Scene} {names : List String} (hok : s.OK)
    (hrun : create_chainmail eig R r columns rows stretch density material pinned s = .ok (names, s')) :
    ∃ s1, PutUp (Finished false material density) s s1 (mailPlan R r (2 * R + (2 * R - 4 * r) * min (max stretch 0) 1) columns rows) names ∧
      if pinned = true then ∃ a b c d, names[0]? = some a ∧ names[columns]? = some b ∧ names[rows * (columns + 1)]? = some c ∧
        names[rows * (columns + 1) + columns]? = some d ∧ MadeFixed s1 s' [d, c, b, a] else s' = s1 := by
  unfold create_chainmail at hrun
  simp only [lit0, lit1] at hrun
  obtain ⟨-, -, c1, c2⟩ := C33_torus_closed R r 24 24 (by norm_num) (by norm_num)
  rw [bind_ok] at hrun
  obtain ⟨k, s1, h1, hrun⟩ := hrun
  obtain ⟨hg, hsh⟩ := newShape_ok he hok c1 c2 h1
  generalize 2 * R + (2 * R - 4 * r) * min (max stretch 0) 1 = delta at *
  rw [bind_ok] at hrun
  obtain ⟨rows1, s2, h2, hrun⟩ := hrun
  have p2 := mapM_rows (Q := Placed) _ (fun (j : ℕ) => (List.range (columns + 1)).map fun (i : ℕ) =>
    mailBrick R r delta columns rows ⟨(i : ℝ) * delta, (j : ℝ) * delta, 0⟩ Quat.identity)
    (fun s => HasShape s k (create_torus R r 24 24)) (fun _ _ _ hg hh => hh.grows hg)
    (by intro j s4 n s5 hsh h
        exact mapM_bodies _ _ (fun i s6 n s7 hsh h => mailRing_ok ident_unit hsh h) hsh h) hsh h2
  have hsh2 := hsh.grows p2.1
  rw [bind_ok] at hrun
  obtain ⟨rows2, s3, h3, hrun⟩ := hrun
  have p3 := mapM_rows (Q := Placed) _ (fun (j : ℕ) => (List.range columns).map fun (i : ℕ) =>
    mailBrick R r delta columns rows ⟨((i : ℝ) + 0.5) * delta, (j : ℝ) * delta, 0⟩ (Quat.Rx (Real.pi / 2)))
    (fun s => HasShape s k (create_torus R r 24 24)) (fun _ _ _ hg hh => hh.grows hg)
    (by intro j s4 n s5 hsh h
        exact mapM_bodies _ _ (fun i s6 n s7 hsh h => mailRing_ok (Rx_unit _) hsh h) hsh h) hsh2 h3
  have hsh3 := hsh2.grows p3.1
  rw [bind_ok] at hrun
  obtain ⟨rows3, s4, h4, hrun⟩ := hrun
  have p4 := mapM_rows (Q := Placed) _ (fun (j : ℕ) => (List.range (columns + 1)).map fun (i : ℕ) =>
    mailBrick R r delta columns rows ⟨(i : ℝ) * delta, ((j : ℝ) + 0.5) * delta, 0⟩ (Quat.Ry (Real.pi / 2)))
    (fun s => HasShape s k (create_torus R r 24 24)) (fun _ _ _ hg hh => hh.grows hg)
    (by intro j s4 n s5 hsh h
        exact mapM_bodies _ _ (fun i s6 n s7 hsh h => mailRing_ok (Ry_unit _) hsh h) hsh h) hsh3 h4
  have key := PutUp.of_grows hg ((p2.append p3).append p4)
  rw [bind_ok] at hrun
  obtain ⟨u, s5, h5, hrun⟩ := hrun
  have p5 := key.setup (forM_setup_ok (Or.inr ⟨rfl, rfl⟩) _ _ _ _ key.1.nodup h5)
  cases pinned with
  | false =>
    rw [if_neg (by simp)] at hrun
    obtain ⟨rfl, rfl⟩ := pure_ok.1 hrun
    exact ⟨_, p5, by simp⟩
  | true =>
    rw [if_pos (by simp)] at hrun
    rw [bind_ok] at hrun
    obtain ⟨u6, s6, h6, hrun⟩ := hrun
    obtain ⟨rfl, rfl⟩ := pure_ok.1 hrun
    exact ⟨_, p5, by simpa using mailPins_ok h6⟩

/-- Everything about the world that making bodies fixed does not change. -/
theorem MadeFixed.worldMesh {s s' : Scene} {P : List String} (h : MadeFixed s s' P) (n : String) : s'.worldMesh n = s.worldMesh n := by
  have hm : s'.meshes = s.meshes := by rw [h.rest]
  unfold Scene.worldMesh
  rw [hm]
  by_cases hn : n ∈ P
  · obtain ⟨o, h1, h2⟩ := h.upd n hn
    rw [h1, h2]
    rfl
  · rw [h.old n hn]

theorem torus_massCentre {R r : ℝ} (hR : 0 < R) (hr : 0 < r) {I K : ℕ} (hI : 3 ≤ I) (hK : 3 ≤ K) :
    massCentre (create_torus R r I K).1 (create_torus R r I K).2 = 0 := by
  unfold massCentre
  rw [torus_centroid hR hr hI hK]
  have : snap 0 = 0 := by unfold snap; simp
  refine V3.ext ?_ ?_ ?_ <;> exact this

/-- **C106.** When `create_chainmail` returns, the bodies it names have been added, one for every ring of the mail (`mailHoops`) in order,
with half the distance between neighbours D = R + (R - 2r)·stretch, the stretch clipped to [0, 1]: each a torus around the centre and the
axis of its ring, of the given material and density; if the mail is pinned the four rings at the corners are fixed, and all others are
free.  Everything else is as before. -/
theorem C106_chainmail {eig : Eig} (he : EigSpec eig) {R r : ℝ} (hR : 0 < R) (hr : 0 < r) {columns rows : ℕ} {stretch density : ℝ}
    {material : String} {pinned : Bool} {s s' : Scene} {names : List String} (hok : s.OK)
    (hrun : create_chainmail eig R r columns rows stretch density material pinned s = .ok (names, s')) :
    let rings := mailHoops (R + (R - 2 * r) * min (max stretch 0) 1) columns rows
    names.length = rings.length ∧ names.Nodup ∧ s'.eng.bodies.keys = s.eng.bodies.keys ++ names ∧
    (∀ n ∈ names, s.eng.bodies.get? n = none) ∧ (∀ n, n ∉ names → s'.eng.bodies.get? n = s.eng.bodies.get? n) ∧
    (∀ n m, s.worldMesh n = some m → s'.worldMesh n = some m) ∧ s'.eng.forces = s.eng.forces ∧ s'.eng.hinges = s.eng.hinges ∧
    s'.eng.surfaces_interactions = s.eng.surfaces_interactions ∧ s'.eng.params = s.eng.params ∧
    ∀ (i : ℕ) (n : String) (h : Hoop), names[i]? = some n → rings[i]? = some h → ∃ o m q, s'.eng.bodies.get? n = some o ∧
      s'.worldMesh n = some m ∧ IsUnitQ q ∧ Quat.rotate q ⟨0, 0, 1⟩ = h.n ∧
      m.V.Perm ((create_torus R r 24 24).1.map fun v => h.c + Quat.rotate q v) ∧
      (trianglesOf m.V m.T).Perm ((trianglesOf (create_torus R r 24 24).1 (create_torus R r 24 24).2).map fun t =>
        (h.c + Quat.rotate q t.1, h.c + Quat.rotate q t.2.1, h.c + Quat.rotate q t.2.2)) ∧
      o.body.r = h.c ∧ o.body.material = material ∧
      o.body.mass = snapPos (enclosedVolume (create_torus R r 24 24).1 (create_torus R r 24 24).2) * density ∧
      (o.body.is_fixed = true ↔ pinned = true ∧
        (i = 0 ∨ i = columns ∨ i = rows * (columns + 1) ∨ i = rows * (columns + 1) + columns)) := by
  intro rings
  obtain ⟨s1, hput, hpin⟩ := mail_built he hok hrun
  have hD : 2 * R + (2 * R - 4 * r) * min (max stretch 0) 1 = 2 * (R + (R - 2 * r) * min (max stretch 0) 1) := by ring
  rw [hD] at hput
  have hF := mailPlan_hoops R r (R + (R - 2 * r) * min (max stretch 0) 1) columns rows
  change List.Forall₂ _ _ rings at hF
  obtain ⟨plan, hplan⟩ : ∃ plan, plan = mailPlan R r (2 * (R + (R - 2 * r) * min (max stretch 0) 1)) columns rows := ⟨_, rfl⟩
  rw [← hplan] at hput hF
  have ha := hput.adds
  obtain ⟨P, hP, hPn, hPi⟩ : ∃ P, MadeFixed s1 s' P ∧ (∀ n ∈ P, n ∈ names) ∧ ∀ (i : ℕ) n, names[i]? = some n → (n ∈ P ↔ pinned = true ∧
        (i = 0 ∨ i = columns ∨ i = rows * (columns + 1) ∨ i = rows * (columns + 1) + columns)) := by
    cases pinned with
    | false =>
      rw [if_neg (by simp)] at hpin
      rw [hpin]
      exact ⟨[], MadeFixed.refl _, by simp, by simp⟩
    | true =>
      rw [if_pos rfl] at hpin
      obtain ⟨a, b, c, d, h1, h2, h3, h4, h5⟩ := hpin
      refine ⟨_, h5, ?_, ?_⟩
      · intro n hn
        simp only [List.mem_cons, List.not_mem_nil, or_false] at hn
        rcases hn with rfl | rfl | rfl | rfl
        · exact List.mem_of_getElem? h4
        · exact List.mem_of_getElem? h3
        · exact List.mem_of_getElem? h2
        · exact List.mem_of_getElem? h1
      intro i n hn
      have inj : ∀ {j : ℕ} {x : String}, names[j]? = some x → (n = x ↔ i = j) := by
        intro j x hx
        rw [List.getElem?_eq_some_iff] at hn hx
        obtain ⟨l1, e1⟩ := hn
        obtain ⟨l2, e2⟩ := hx
        rw [← e1, ← e2]
        exact ha.nodup.getElem_inj_iff
      simp only [List.mem_cons, List.not_mem_nil, or_false, inj h1, inj h2, inj h3, inj h4, true_and]
      tauto
  have hrest := hP.rest
  have hlen := hF.length_eq
  refine ⟨ha.length.trans hlen, ha.nodup, hP.keys.trans ha.keys, ha.fresh, ?_, ?_, ?_, ?_, ?_, ?_, ?_⟩
  · intro n hn
    rw [hP.old n (fun h => hn (hPn n h)), ha.old n hn]
  · intro n m hm
    rw [hP.worldMesh, ha.oldMesh n m hm]
  · rw [hrest]; exact ha.rest.1
  · rw [hrest]; exact ha.rest.2.1
  · rw [hrest]; exact ha.rest.2.2.1
  · rw [hrest]; exact ha.rest.2.2.2
  · intro i n h hn hh
    obtain ⟨b, hb⟩ : ∃ b, plan[i]? = some b := by
      rw [List.getElem?_eq_some_iff] at hh
      obtain ⟨hi, -⟩ := hh
      exact ⟨_, List.getElem?_eq_getElem (by omega)⟩
    obtain ⟨b1, b2, b3, b4, b5⟩ := forall₂_getElem hF hb hh
    obtain ⟨o, m, h1, h2, h3, h4, h5, h6, h7, h8⟩ := ha.each i n b hn hb
    have hat : ∀ v, b.at v = h.c + Quat.rotate b.q v := by intro v; unfold Brick.at; rw [b3]
    have hw : b.world = (create_torus R r 24 24).1.map fun v => h.c + Quat.rotate b.q v := by
      unfold Brick.world; rw [b1]; exact List.map_congr_left fun v _ => hat v
    have hr0 : o.body.r = h.c := by
      rw [h8, hat, b1, b2, torus_massCentre hR hr (by norm_num) (by norm_num), rotate_zero, add_zero]
    have hmass : o.body.mass = snapPos (enclosedVolume (create_torus R r 24 24).1 (create_torus R r 24 24).2) * density := by
      rw [h7, b1, b2]
    have htri : (trianglesOf m.V m.T).Perm ((trianglesOf (create_torus R r 24 24).1 (create_torus R r 24 24).2).map fun t =>
        (h.c + Quat.rotate b.q t.1, h.c + Quat.rotate b.q t.2.1, h.c + Quat.rotate b.q t.2.2)) := by
      rw [b1, b2] at h4
      simp only [hat] at h4
      exact h4
    by_cases hnP : n ∈ P
    · obtain ⟨o', g1, g2⟩ := hP.upd n hnP
      rw [h1] at g1
      cases g1
      exact ⟨_, m, b.q, g2, by rw [hP.worldMesh]; exact h2, b4, b5, hw ▸ h3, htri, hr0, h6, hmass, by simpa using (hPi i n hn).1 hnP⟩
    · refine ⟨o, m, b.q, by rw [hP.old n hnP]; exact h1, by rw [hP.worldMesh]; exact h2, b4, b5, hw ▸ h3, htri, hr0, h6, hmass, ?_⟩
      rw [h5]
      constructor
      · intro h0; cases h0
      · intro h0; exact absurd ((hPi i n hn).2 h0) hnP

end Verif
