import Verif.Props.SceneRome
import Verif.Props.MeshStar
import Verif.Props.SolidMesh

/-! C86–C91: the scene builders succeed. -/

namespace Verif

open Rigid Rigid.SceneM SMesh
open VMesh (Tri)

/-- The names that will be generated are new and different from each other (what `generate_unique_name` is meant to give). -/
def NewNames (s : Scene) : Prop :=
  (∀ i base, s.eng.shapes.get? (s.gen i base) = none ∧ s.eng.bodies.get? (s.gen i base) = none) ∧
    ∀ i j base base', i ≠ j → s.gen i base ≠ s.gen j base'

/-- A scene in which building succeeds: the material is known and the generated names are new. -/
structure Ready (material : String) (s : Scene) : Prop where
  ok : s.OK
  names : NewNames s
  material : s.eng.surfaces_interactions.exist_material material = true
  good : SceneGood s

theorem NewNames.step {s s' : Scene} {base : String} (h : NewNames s) (hg : s'.gen = fun i => s.gen (i + 1))
    (hs : ∀ n, n ≠ s.gen 0 base → s'.eng.shapes.get? n = s.eng.shapes.get? n)
    (hb : ∀ n, n ≠ s.gen 0 base → s'.eng.bodies.get? n = s.eng.bodies.get? n) : NewNames s' := by
  refine ⟨?_, ?_⟩
  · intro i b
    rw [hg]
    have hne : s.gen (i + 1) b ≠ s.gen 0 base := h.2 _ _ _ _ (by omega)
    rw [hs _ hne, hb _ hne]
    exact h.1 _ _
  · intro i j b b' hij
    rw [hg]
    exact h.2 _ _ _ _ (by omega)

theorem newSolid_runs {eig : Eig} (he : EigSpec eig) {base material : String} {VT : List V3 × List Tri} {s : Scene}
    (hr : Ready material s) (hm : Solid VT) :
    ∃ k s', newShape eig base VT s = .ok (k, s') ∧ Ready material s' ∧ HasShape s' k VT ∧ Grows s s' [] := by
  obtain ⟨m, hm1, -, -, hm4, hm5⟩ := C84_create_mesh he VT.1 VT.2 hm.idx
  obtain ⟨m', s', hm', hs'⟩ := solid_shape_succeeds he { s with gen := fun i => s.gen (i + 1) } (s.gen 0 base) hm
    (hr.names.1 0 base).1
  rw [hm1] at hm'
  cases hm'
  have hrun : newShape eig base VT s = .ok (s.gen 0 base, s') := by
    unfold newShape
    rw [bind_ok]
    refine ⟨_, _, rfl, ?_⟩
    simp only [hm1, bind, Except.bind, hs', pure, Except.pure]
  obtain ⟨hg, hsh⟩ := newShape_ok he hr.ok hm.idx hm.closed hrun
  refine ⟨_, s', hrun, ⟨hg.ok hr.ok, ?_, by rw [hg.inter]; exact hr.material, newSolid_good he hm hr.good hrun⟩, hsh, hg⟩
  obtain ⟨-, sh, m', rfl, -⟩ := C85_create_shape he _ _ _ _ hm4 (hm5 hm.closed) hs'
  exact hr.names.step (base := base) rfl (fun n hn => Dict.get?_setItem_ne _ _ hn) (fun _ _ => rfl)

theorem newShape_runs {eig : Eig} (he : EigSpec eig) {base material : String} {VT : List V3 × List Tri} {s : Scene}
    (hr : Ready material s) (hm : StarShaped VT) :
    ∃ k s', newShape eig base VT s = .ok (k, s') ∧ Ready material s' ∧ HasShape s' k VT ∧ Grows s s' [] := newSolid_runs he hr hm.solid

theorem newBody_runs {base k material : String} {VT : List V3 × List Tri} {r : V3} {q : Quat} {s : Scene}
    (hr : Ready material s) (hsh : HasShape s k VT) :
    ∃ n s', newBody base k r q s = .ok (n, s') ∧ Ready material s' ∧ PutUp Placed s s' [⟨VT.1, VT.2, r, Quat.unit q⟩] [n] := by
  have hsh' := hsh
  obtain ⟨sh, m, hs1, hs2, hs3, ⟨hr1, -⟩, -⟩ := hsh'
  have hui : IsUnitQ Quat.identity := by unfold IsUnitQ Quat.identity; norm_num
  have hnone := (hr.names.1 0 base).2
  have hrun : ∃ e', newBody base k r q s = .ok (s.gen 0 base, { s with eng := e', gen := fun i => s.gen (i + 1) }) ∧
      e'.shapes = s.eng.shapes := by
    unfold newBody generate_unique_name
    obtain ⟨name, hname⟩ : ∃ name, name = s.gen 0 base := ⟨_, rfl⟩
    rw [← hname] at hnone ⊢
    have hg1 := Dict.get?_setItem_self s.eng.bodies name ⟨s.eng.bodies.len, RigidBody.init name⟩
    have h1 : s.eng.create_rigid_body name =
        .ok { s.eng with bodies := s.eng.bodies.setItem name ⟨s.eng.bodies.len, RigidBody.init name⟩ } := by
      unfold Engine.create_rigid_body
      rw [if_neg]
      rw [(Dict.get?_eq_none _ _).1 hnone]; simp
    have h2 := connect_shape_eq (e := { s.eng with bodies := s.eng.bodies.setItem name ⟨s.eng.bodies.len, RigidBody.init name⟩ })
      hg1 hs1
    simp only at h2
    generalize s.eng.bodies.setItem name ⟨s.eng.bodies.len, RigidBody.init name⟩ = d1 at h1 h2
    generalize hd2 : d1.setItem name { idx := s.eng.bodies.len, body := { RigidBody.init name with shape := some sh } } = d2 at h2
    have hg2 : d2.get? name = some ⟨s.eng.bodies.len, { RigidBody.init name with shape := some sh }⟩ := by
      rw [← hd2]; exact Dict.get?_setItem_self _ _ _
    obtain ⟨r', hp1, -⟩ := ((C44_set_position { s.eng with bodies := d2 } name r).2 _ hg2).2.2 sh rfl hr1 hui
    simp only at hp1
    generalize hd3 : d2.setItem name _ = d3 at hp1
    have hg3 := (congrArg (fun d => d.get? name) hd3).symm
    simp only [Dict.get?_setItem_self] at hg3
    obtain ⟨q', r'', hq1, -⟩ := ((C44_set_orientation { s.eng with bodies := d3 } name q).2 _ hg3).2.2 sh rfl hr1 hui
    simp only at hq1
    generalize hd4 : d3.setItem name _ = d4 at hq1
    refine ⟨{ s.eng with bodies := d4 }, ?_, rfl⟩
    refine bind_ok.2 ⟨name, { s with gen := fun i => s.gen (i + 1) }, by rw [hname], ?_⟩
    refine bind_ok.2 ⟨(), { s with eng := { s.eng with bodies := d1 }, gen := fun i => s.gen (i + 1) }, api_ok.2 ⟨_, h1, rfl⟩, ?_⟩
    refine bind_ok.2 ⟨(), { s with eng := { s.eng with bodies := d2 }, gen := fun i => s.gen (i + 1) }, api_ok.2 ⟨_, h2, rfl⟩, ?_⟩
    refine bind_ok.2 ⟨(), { s with eng := { s.eng with bodies := d3 }, gen := fun i => s.gen (i + 1) }, api_ok.2 ⟨_, hp1, rfl⟩, ?_⟩
    refine bind_ok.2 ⟨(), { s with eng := { s.eng with bodies := d4 }, gen := fun i => s.gen (i + 1) }, api_ok.2 ⟨_, hq1, rfl⟩, ?_⟩
    rfl
  obtain ⟨e', hrun, hes⟩ := hrun
  have hp := newBody_ok hsh hrun
  refine ⟨_, _, hrun, ⟨hp.1.ok hr.ok, ?_, ?_, newBody_good hr.good hrun⟩, hp⟩
  · refine hr.names.step (base := base) rfl (fun n _ => by rw [← hes]) (fun n hn => hp.1.old n (by simpa using hn))
  · have := hp.1.inter
    rw [this]; exact hr.material

theorem setup_runs {type material : String} {density : ℝ} {n : String} {s : Scene} {o : BodyObj} {sh : Shape}
    (ht : type = "fixed" ∨ type = "free") (hr : Ready material s) (ho : s.eng.bodies.get? n = some o)
    (hsh : o.body.shape = some sh) : ∃ s', setup type material density n s = .ok ((), s') ∧ Ready material s' := by
  have hrun : ∃ e', setup type material density n s = .ok ((), { s with eng := e' }) := by
    unfold setup
    have h1 : ∃ f, s.eng.set_body_type n type =
        .ok { s.eng with bodies := s.eng.bodies.setItem n { o with body := { o.body with is_fixed := f } } } := by
      unfold Engine.set_body_type
      rw [findBody_ok.2 ho]
      simp only [bind, Except.bind]
      rcases ht with rfl | rfl
      · rw [if_pos (by decide), updateBody_some _ ho]; exact ⟨_, rfl⟩
      · rw [if_neg (by decide), if_pos (by decide), updateBody_some _ ho]; exact ⟨_, rfl⟩
    obtain ⟨f, h1⟩ := h1
    have g1 := Dict.get?_setItem_self s.eng.bodies n { o with body := { o.body with is_fixed := f } }
    generalize s.eng.bodies.setItem n { o with body := { o.body with is_fixed := f } } = d1 at h1 g1
    have h2 : ({ s.eng with bodies := d1 } : Engine).set_body_material n material =
        .ok { s.eng with bodies := d1.setItem n { o with body := { o.body with is_fixed := f, material := material } } } := by
      unfold Engine.set_body_material
      rw [findBody_ok.2 g1]
      simp only [bind, Except.bind]
      rw [if_neg, updateBody_some _ g1]
      rw [hr.material]; simp
    have g2 := Dict.get?_setItem_self d1 n { o with body := { o.body with is_fixed := f, material := material } }
    generalize d1.setItem n { o with body := { o.body with is_fixed := f, material := material } } = d2 at h2 g2
    have h3 : ∃ e, ({ s.eng with bodies := d2 } : Engine).set_mass_properties n density = .ok e := by
      unfold Engine.set_mass_properties
      rw [findBody_ok.2 g2]
      simp only [bind, Except.bind]
      rw [hsh]
      simp only
      rw [updateBody_some _ g2]
      exact ⟨_, rfl⟩
    obtain ⟨e3, h3⟩ := h3
    exact ⟨e3, bind_ok.2 ⟨(), _, api_ok.2 ⟨_, h1, rfl⟩, bind_ok.2 ⟨(), _, api_ok.2 ⟨_, h2, rfl⟩, api_ok.2 ⟨_, h3, rfl⟩⟩⟩⟩
  obtain ⟨e', hrun⟩ := hrun
  obtain ⟨fixed, hf⟩ : ∃ fixed : Bool, (type = "fixed" ∧ fixed = true) ∨ (type = "free" ∧ fixed = false) := by
    rcases ht with h | h
    · exact ⟨true, Or.inl ⟨h, rfl⟩⟩
    · exact ⟨false, Or.inr ⟨h, rfl⟩⟩
  have hs := setup_ok hf hrun
  refine ⟨_, hrun, ⟨?_, ⟨?_, hr.names.2⟩, ?_, setup_good hr.good hrun⟩⟩
  · intro k hk
    rw [hs.shapes] at hk
    exact hr.ok k hk
  · intro i b
    have := hr.names.1 i b
    refine ⟨by rw [hs.shapes]; exact this.1, ?_⟩
    by_cases hk : s.gen i b = n
    · rw [hk, ho] at this; cases this.2
    · exact (hs.old _ (by simpa using hk)).trans this.2
  · rw [hs.inter]; exact hr.material

theorem placed_mem {Q : BrickFact} {s : Scene} {N : List String} {B : List Brick}
    (h : List.Forall₂ (fun n b => Standing Q s n b) N B) {n : String} (hn : n ∈ N) : ∃ b ∈ B, Standing Q s n b := by
  induction h with
  | nil => cases hn
  | cons h1 _ ih =>
    rcases List.mem_cons.1 hn with rfl | hn
    · exact ⟨_, by simp, h1⟩
    · obtain ⟨b, hb, hs⟩ := ih hn
      exact ⟨b, by simp [hb], hs⟩

/-- s' is s with bodies N added. -/
def Up (s s' : Scene) (N : List String) : Prop := ∃ B, PutUp Placed s s' B N

theorem Up.append {s s' s'' : Scene} {N N' : List String} (h : Up s s' N) (h' : Up s' s'' N') : Up s s'' (N ++ N') := by
  obtain ⟨B, h⟩ := h
  obtain ⟨B', h'⟩ := h'
  exact ⟨_, h.append h'⟩

theorem Up.of_grows {s s' s'' : Scene} {N : List String} (h : Grows s s' []) (h' : Up s' s'' N) : Up s s'' N := by
  obtain ⟨B', h'⟩ := h'
  exact ⟨_, PutUp.of_grows h h'⟩

theorem bind_runs {α β : Type} {m : SceneM α} {f : α → SceneM β} {s : Scene} {P : α → Scene → Prop} {Q : β → Scene → Prop}
    (h1 : ∃ a s', m s = .ok (a, s') ∧ P a s') (h2 : ∀ a s', P a s' → ∃ b s'', f a s' = .ok (b, s'') ∧ Q b s'') :
    ∃ b s'', (m >>= f) s = .ok (b, s'') ∧ Q b s'' := by
  obtain ⟨a, s1, h, hp⟩ := h1
  obtain ⟨b, s2, h', hq⟩ := h2 a s1 hp
  exact ⟨b, s2, bind_ok.2 ⟨a, s1, h, h'⟩, hq⟩

theorem pure_runs {α : Type} {a : α} {s : Scene} {Q : α → Scene → Prop} (h : Q a s) :
    ∃ b s', (pure a : SceneM α) s = .ok (b, s') ∧ Q b s' := ⟨a, s, rfl, h⟩

/-- Total correctness of a loop that adds bodies. -/
theorem mapM_runs {α β : Type} {f : α → SceneM β} (names : β → List String) (Inv : Scene → Prop)
    {l : List α} (hf : ∀ a ∈ l, ∀ s, Inv s → ∃ b s', f a s = .ok (b, s') ∧ Inv s' ∧ Up s s' (names b)) :
    ∀ s : Scene, Inv s → ∃ r s', l.mapM f s = .ok (r, s') ∧ Inv s' ∧ Up s s' (r.flatMap names) := by
  induction l with
  | nil => intro s hi; exact ⟨[], s, by rw [List.mapM_nil, pure_ok]; exact ⟨rfl, rfl⟩, hi, [], PutUp.nil _ _⟩
  | cons a l ih =>
    intro s hi
    obtain ⟨b, s1, h1, i1, u1⟩ := hf a (by simp) s hi
    obtain ⟨r, s2, h2, i2, u2⟩ := ih (fun a ha => hf a (by simp [ha])) s1 i1
    refine ⟨b :: r, s2, ?_, i2, by simpa using u1.append u2⟩
    rw [List.mapM_cons, bind_ok]
    exact ⟨b, s1, h1, bind_ok.2 ⟨r, s2, h2, rfl⟩⟩

theorem body_runs {base k material : String} {VT : List V3 × List Tri} {r : V3} {q : Quat} {s : Scene}
    (h : Ready material s ∧ HasShape s k VT) :
    ∃ n s', newBody base k r q s = .ok (n, s') ∧ (Ready material s' ∧ HasShape s' k VT) ∧ Up s s' [n] := by
  obtain ⟨n, s', h1, h2, h3⟩ := newBody_runs (base := base) (r := r) (q := q) h.1 h.2
  exact ⟨n, s', h1, ⟨h2, h.2.grows h3.1⟩, _, h3⟩

theorem mapM_bodies_runs {α : Type} {f : α → SceneM String} (Inv : Scene → Prop)
    {l : List α} (hf : ∀ a ∈ l, ∀ s, Inv s → ∃ b s', f a s = .ok (b, s') ∧ Inv s' ∧ Up s s' [b]) (s : Scene) (hi : Inv s) :
    ∃ r s', l.mapM f s = .ok (r, s') ∧ Inv s' ∧ Up s s' r := by
  obtain ⟨r, s', h1, h2, h3⟩ := mapM_runs (fun n : String => [n]) Inv hf s hi
  rw [flatMap_singleton_id] at h3
  exact ⟨r, s', h1, h2, h3⟩

theorem mapM_rows_runs {α : Type} {f : α → SceneM (List String)} (Inv : Scene → Prop)
    {l : List α} (hf : ∀ a ∈ l, ∀ s, Inv s → ∃ b s', f a s = .ok (b, s') ∧ Inv s' ∧ Up s s' b) (s : Scene) (hi : Inv s) :
    ∃ r s', l.mapM f s = .ok (r, s') ∧ Inv s' ∧ Up s s' r.flatten := by
  obtain ⟨r, s', h1, h2, h3⟩ := mapM_runs (fun n : List String => n) Inv hf s hi
  rw [List.flatMap_id'] at h3
  exact ⟨r, s', h1, h2, h3⟩

theorem forM_setup_runs {type material : String} {density : ℝ} (ht : type = "fixed" ∨ type = "free") :
    ∀ (N : List String) (s : Scene), N.Nodup → Ready material s →
      (∀ n ∈ N, ∃ o sh, s.eng.bodies.get? n = some o ∧ o.body.shape = some sh) →
      ∃ s', N.forM (setup type material density) s = .ok ((), s') ∧ Ready material s' := by
  obtain ⟨fixed, hf⟩ : ∃ fixed : Bool, (type = "fixed" ∧ fixed = true) ∨ (type = "free" ∧ fixed = false) := by
    rcases ht with h | h
    · exact ⟨true, Or.inl ⟨h, rfl⟩⟩
    · exact ⟨false, Or.inr ⟨h, rfl⟩⟩
  intro N
  induction N with
  | nil => intro s _ hr _; exact ⟨s, rfl, hr⟩
  | cons n N ih =>
    intro s hn hr hN
    rw [List.nodup_cons] at hn
    obtain ⟨o, sh, ho, hsh⟩ := hN n (by simp)
    obtain ⟨s1, h1, r1⟩ := setup_runs (density := density) ht hr ho hsh
    have hs := setup_ok hf h1
    obtain ⟨s2, h2, r2⟩ := ih s1 hn.2 r1 (by
      intro k hk
      obtain ⟨o', sh', ho', hsh'⟩ := hN k (by simp [hk])
      have hne : k ≠ n := fun e => hn.1 (e ▸ hk)
      exact ⟨o', sh', (hs.old k (by simpa using hne)).trans ho', hsh'⟩)
    refine ⟨s2, ?_, r2⟩
    show (setup type material density n >>= fun _ => N.forM (setup type material density)) s = _
    exact bind_ok.2 ⟨(), s1, h1, h2⟩

/-- The new bodies of a scene can be set up. -/
theorem Up.setup_runs {material : String} {density : ℝ} {s s1 : Scene} {N : List String}
    (h : Up s s1 N) (hr : Ready material s1) :
    ∃ (u : Unit) (s' : Scene), N.forM (SceneM.setup "free" material density) s1 = .ok (u, s') ∧ Ready material s' ∧ Up s s' N := by
  obtain ⟨B, h⟩ := h
  obtain ⟨s', h1, h2⟩ := forM_setup_runs (density := density) (Or.inr rfl) N s1 h.1.nodup hr (by
    intro n hn
    obtain ⟨b, -, o, sh, m, h1, h2, -⟩ := placed_mem h.2 hn
    exact ⟨o, sh, h1, h2⟩)
  exact ⟨(), s', h1, h2, B, (h.setup (forM_setup_ok (Or.inr ⟨rfl, rfl⟩) _ _ _ _ h.1.nodup h1)).mono fun _ _ _ _ hh => hh.1⟩

/-- The result of a builder: it returns, and more can be built afterwards. -/
def Succeeds (material : String) (m : SceneM (List String)) (s : Scene) : Prop :=
  ∃ names s', m s = .ok (names, s') ∧ Ready material s' ∧ Up s s' names

/-! ### Box stack -/

theorem stack_runs {eig : Eig} (he : EigSpec eig) {w h d : ℝ} (hw : 0 < w) (hh : 0 < h) (hd : 0 < d) (K : ℕ)
    (density : ℝ) {material : String} {s : Scene} (hr : Ready material s) :
    Succeeds material (create_box_stack eig w h d K density material) s := by
  unfold Succeeds create_box_stack
  refine bind_runs (newShape_runs he hr (box_star hw hh hd)) ?_
  rintro k s1 ⟨r1, hs1, g1⟩
  obtain ⟨r, s2, h2, r2, u2⟩ := mapM_bodies_runs (l := List.range K) (f := fun (k_1 : ℕ) => (do
      let body_name ← newBody "body" k ⟨0.0, (k_1 : ℝ) * h + h / 2.0, 0.0⟩ (Quat.Ry ((k_1 : ℝ) * Real.pi / 4))
      setup "free" material density body_name
      return body_name : SceneM String))
    (fun s => Ready material s ∧ HasShape s k (create_box w h d)) (by
    intro i _ s hi
    refine bind_runs (body_runs hi) ?_
    rintro n s3 ⟨⟨r3, hs3⟩, B, u3⟩
    obtain ⟨b, -, o, sh, m, g1, g2, -⟩ := placed_mem u3.2 (List.mem_singleton.2 rfl)
    obtain ⟨s4, h4, r4⟩ := setup_runs (density := density) (Or.inr rfl) r3 g1 g2
    have hs := setup_ok (Or.inr ⟨rfl, rfl⟩) h4
    refine bind_runs (P := fun _ s' => s' = s4) ⟨(), s4, h4, rfl⟩ ?_
    rintro _ _ rfl
    refine pure_runs ⟨⟨r4, ?_⟩, B, (u3.setup hs).mono fun _ _ _ _ hh => hh.1⟩
    obtain ⟨sh, m, a1, a2, a3, a4⟩ := hs3
    exact ⟨sh, m, by rw [hs.shapes]; exact a1, a2, by rw [hs.meshes]; exact a3, a4⟩) s1 ⟨r1, hs1⟩
  exact ⟨r, s2, h2, r2.1, u2.of_grows g1⟩

/-! ### Tower -/

theorem wedge_star {bi bo h d : ℝ} (hbi : 0 < bi) (hbo : 0 < bo) (hh : 0 < h) (hd : 0 < d) :
    StarShaped (create_cuboid ⟨-bi, -h / 2, d / 2⟩ ⟨bi, -h / 2, d / 2⟩ ⟨bi, h / 2, d / 2⟩ ⟨-bi, h / 2, d / 2⟩
      ⟨-bo, -h / 2, -d / 2⟩ ⟨bo, -h / 2, -d / 2⟩ ⟨bo, h / 2, -d / 2⟩ ⟨-bo, h / 2, -d / 2⟩) := by
  have e1 : 0 < bi * h * d := by positivity
  have e2 : 0 < bo * h * d := by positivity
  refine cuboid_star 0 ?_ ?_ ?_ ?_ ?_ ?_ ?_ ?_ ?_ ?_ ?_ ?_ <;> simp only [sub_zero, det3] <;> nlinarith

theorem tower_star {ro ri h : ℝ} {segments : ℕ} {sf : ℝ} (cubes : Bool) (hs : 3 ≤ segments) (hri : 0 < ri) (hro : ri < ro)
    (hh : 0 < h) (hsf : 0 < sf) : StarShaped (towerStone ro ri h segments cubes sf) := by
  have ht : 0 < Real.tan (Real.pi / segments) := by
    have h3 : (3:ℝ) ≤ segments := by exact_mod_cast hs
    refine Real.tan_pos_of_pos_of_lt_pi_div_two (by have := Real.pi_pos; positivity) ?_
    rw [div_lt_div_iff₀ (by linarith) (by norm_num)]
    nlinarith [Real.pi_pos]
  have hbi : 0 < Real.tan (Real.pi / segments) * ri * sf := by positivity
  have hbo : 0 < Real.tan (Real.pi / segments) * ro * sf := by
    have : 0 < ro := hri.trans hro
    positivity
  unfold towerStone
  cases cubes
  · exact wedge_star hbi hbo hh (by linarith)
  · exact box_star (by linarith) hh (by linarith)

theorem tower_runs {eig : Eig} (he : EigSpec eig) (r : V3) (q : Quat) {ro ri height : ℝ} {layers segments : ℕ} (cubes : Bool)
    (density : ℝ) {material : String} {sf : ℝ} {s : Scene} (hr : Ready material s) (hl : 1 ≤ layers) (hs : 3 ≤ segments)
    (hri : 0 < ri) (hro : ri < ro) (hsf : 0 < sf) (hh : 0 < height) :
    Succeeds material (create_tower eig r q ro ri height layers segments cubes density material sf) s := by
  unfold Succeeds create_tower
  rw [if_neg (by omega), if_neg (by omega)]
  simp only [lit0, lit2]
  rw [towerBrick_eq]
  have hl0 : (0:ℝ) < layers := by exact_mod_cast hl
  have hstar := tower_star cubes hs hri hro (show 0 < height / layers by positivity) hsf
  generalize towerStone ro ri (height / layers) segments cubes sf = VT at hstar ⊢
  refine bind_runs (newShape_runs he hr hstar) ?_
  rintro k s1 ⟨r1, hs1, g1⟩
  refine bind_runs (mapM_rows_runs (fun s => Ready material s ∧ HasShape s k VT) ?_ s1 ⟨r1, hs1⟩) ?_
  · intro l _ s hi
    refine mapM_bodies_runs (fun s => Ready material s ∧ HasShape s k VT) ?_ s hi
    intro j _ s hi
    exact body_runs hi
  · rintro rows s2 ⟨⟨r2, -⟩, u2⟩
    refine bind_runs (u2.setup_runs r2) ?_
    rintro _ s3 ⟨r3, u3⟩
    exact pure_runs ⟨r3, u3.of_grows g1⟩

/-! ### Arch -/

theorem arch_star {d ri ro rc δ : ℝ} (hd : 0 < d) (hri : 0 < ri) (hro : ri < ro) (hδ0 : 0 < δ) (hδ : δ < Real.pi) :
    StarShaped (archBrick d ri ro rc δ) := by
  have hc : 0 < Real.cos (δ / 2) := Real.cos_pos_of_mem_Ioo ⟨by linarith, by linarith⟩
  have hs : 0 < Real.sin (δ / 2) := Real.sin_pos_of_pos_of_lt_pi (by linarith) (by linarith)
  have e1 : Real.cos (-δ / 2) = Real.cos (δ / 2) := by rw [← Real.cos_neg]; congr 1; ring
  have e2 : Real.sin (-δ / 2) = -Real.sin (δ / 2) := by rw [← Real.sin_neg]; congr 1; ring
  simp only [archBrick, rotate_Rz, lit0, lit2, e1, e2]
  generalize Real.cos (δ / 2) = c at *
  generalize Real.sin (δ / 2) = σ at *
  obtain ⟨g, hg, rfl⟩ : ∃ g, 0 < g ∧ ro = ri + g := ⟨ro - ri, by linarith, by ring⟩
  have p1 : 0 < ri * σ * c * d * g := by positivity
  have p2 : 0 < g * σ * c * d * g := by positivity
  refine cuboid_star ⟨c * (ri + g / 2) - rc, 0, -(d / 2)⟩ ?_ ?_ ?_ ?_ ?_ ?_ ?_ ?_ ?_ ?_ ?_ ?_ <;>
    simp only [det3, V3.sub_x, V3.sub_y, V3.sub_z] <;> nlinarith

theorem arch_runs {eig : Eig} (he : EigSpec eig) (r : V3) (q : Quat) {w h d : ℝ} {piers stones : ℕ}
    {density : ℝ} {material : String} {s : Scene} (hr : Ready material s) (hw : 0 < w) (hh : w / 2 < h) (hd : 0 < d)
    (hp : 1 ≤ piers) (hs : 3 ≤ stones) (hodd : stones % 2 = 1) (hden : 0 < density) :
    Succeeds material (create_arch eig r q w h d piers stones density material) s := by
  unfold Succeeds create_arch
  simp only [lit0, lit2, lit5]
  rw [if_neg (by omega), if_neg (by linarith), if_neg (by linarith), if_neg (by linarith), if_neg (by omega), if_neg (by omega),
    if_neg (by omega), if_neg (by linarith), if_neg (by linarith)]
  have hp0 : (0:ℝ) < piers := by exact_mod_cast hp
  have hs0 : (3:ℝ) ≤ stones := by exact_mod_cast hs
  have hpi := Real.pi_pos
  have hb := box_star (show 0 < w / 5 by linarith) (show 0 < (h - w / 2) / piers from div_pos (by linarith) hp0) hd
  have ha := arch_star (rc := w / 2 - w / 5 / 2) hd (show 0 < w / 2 - w / 5 by linarith) (show w / 2 - w / 5 < w / 2 by linarith)
    (show 0 < Real.pi / stones by positivity) (by rw [div_lt_iff₀ (by linarith)]; nlinarith)
  generalize create_box (w / 5) ((h - w / 2) / piers) d = VT at hb ⊢
  generalize archBrick d (w / 2 - w / 5) (w / 2) (w / 2 - w / 5 / 2) (Real.pi / stones) = VT2 at ha ⊢
  refine bind_runs (newShape_runs he hr hb) ?_
  rintro k s1 ⟨r1, hs1, g1⟩
  refine bind_runs (mapM_rows_runs (fun s => Ready material s ∧ HasShape s k VT) ?_ s1 ⟨r1, hs1⟩) ?_
  · intro l _ s hi
    refine bind_runs (body_runs hi) ?_
    rintro n1 s3 ⟨i3, u3⟩
    refine bind_runs (body_runs i3) ?_
    rintro n2 s4 ⟨i4, u4⟩
    exact pure_runs ⟨i4, u3.append u4⟩
  · rintro rows s2 ⟨⟨r2, -⟩, u2⟩
    refine bind_runs (newShape_runs he r2 ha) ?_
    rintro k2 s3 ⟨r3, hs3, g3⟩
    refine bind_runs (mapM_bodies_runs (fun s => Ready material s ∧ HasShape s k2 VT2) ?_ s3 ⟨r3, hs3⟩) ?_
    · intro j _ s hi
      exact body_runs hi
    · rintro arch s4 ⟨⟨r4, -⟩, u4⟩
      have u := (u2.of_grows g1).append (u4.of_grows g3)
      refine bind_runs (u.setup_runs r4) ?_
      rintro _ s5 ⟨r5, u5⟩
      exact pure_runs ⟨r5, u5⟩

/-! ### Dome -/

theorem dome_star {ri ro δθ δφ φ : ℝ} (hri : 0 < ri) (hro : ri < ro) (hθ0 : 0 < δθ) (hθ : δθ < Real.pi) (hφ : 0 ≤ φ) (hδφ : 0 < δφ)
    (h2 : φ + δφ < Real.pi / 2) : StarShaped (domeBrick ri ro δθ δφ φ) := by
  have ha : 0 < Real.cos φ := Real.cos_pos_of_mem_Ioo ⟨by linarith [Real.pi_pos], by linarith⟩
  have hA : 0 < Real.cos (φ + δφ) := Real.cos_pos_of_mem_Ioo ⟨by linarith [Real.pi_pos], by linarith⟩
  have hσ : 0 < Real.sin δθ := Real.sin_pos_of_pos_of_lt_pi hθ0 hθ
  have hK : 0 < Real.cos φ * Real.sin (φ + δφ) - Real.cos (φ + δφ) * Real.sin φ := by
    have : Real.sin δφ = Real.sin (φ + δφ) * Real.cos φ - Real.cos (φ + δφ) * Real.sin φ := by
      rw [← Real.sin_sub]; congr 1; ring
    have h3 : 0 < Real.sin δφ := Real.sin_pos_of_pos_of_lt_pi hδφ (by linarith [Real.pi_pos])
    linarith
  simp only [domeBrick, C02_rotate_prod, rotate_Ry, rotate_Rz, lit0, zero_add, Real.cos_zero, Real.sin_zero, mul_zero, sub_zero,
    add_zero, zero_mul, one_mul, neg_zero]
  generalize Real.cos φ = a at *
  generalize Real.sin φ = b at *
  generalize Real.cos (φ + δφ) = A at *
  generalize Real.sin (φ + δφ) = B at *
  generalize Real.sin δθ = σ at *
  generalize Real.cos δθ = C at *
  obtain ⟨K, hKe⟩ : ∃ K, K = a * B - A * b := ⟨_, rfl⟩
  rw [← hKe] at hK
  obtain ⟨g, hg, rfl⟩ : ∃ g, 0 < g ∧ ro = ri + g := ⟨ro - ri, by linarith, by ring⟩
  have q1 : 0 < ri * g * (ri + g / 2) * (σ * K * a) := by positivity
  have q2 : 0 < ri * g * (ri + g / 2) * (σ * K * A) := by positivity
  have q3 : 0 < (ri + g) * g * (ri + g / 2) * (σ * K * a) := by positivity
  have q4 : 0 < (ri + g) * g * (ri + g / 2) * (σ * K * A) := by positivity
  have q5 : 0 < (ri + g) ^ 2 * g * (σ * K * a) := by positivity
  have q6 : 0 < (ri + g) ^ 2 * g * (σ * K * A) := by positivity
  have q7 : 0 < ri ^ 2 * g * (σ * K * a) := by positivity
  have q8 : 0 < ri ^ 2 * g * (σ * K * A) := by positivity
  rw [hKe] at q1 q2 q3 q4 q5 q6 q7 q8
  refine cuboid_star ⟨(ri + g / 2) * ((a + a * C + A * C + A) / 4), (ri + g / 2) * ((b + B) / 2),
    (ri + g / 2) * (-(a * σ + A * σ) / 4)⟩ ?_ ?_ ?_ ?_ ?_ ?_ ?_ ?_ ?_ ?_ ?_ ?_ <;>
    simp only [det3, V3.sub_x, V3.sub_y, V3.sub_z] <;> linarith

theorem dome_runs {eig : Eig} (he : EigSpec eig) (r : V3) (q : Quat) {ro ri : ℝ} {layers segments : ℕ}
    (density : ℝ) {material : String} {s : Scene} (hr : Ready material s) (hs : 3 ≤ segments)
    (hri : 0 < ri) (hro : ri < ro) :
    Succeeds material (create_dome eig r q ro ri layers segments density material) s := by
  unfold Succeeds create_dome
  rw [if_neg (by omega)]
  simp only [lit0, lit2]
  have hs0 : (3:ℝ) ≤ segments := by exact_mod_cast hs
  have hpi := Real.pi_pos
  refine bind_runs (mapM_rows_runs (fun s => Ready material s) ?_ s hr) ?_
  · intro l hl s hr
    have hl : l + 1 ≤ layers := by simpa using hl
    have hl' : (l:ℝ) + 1 ≤ layers := by exact_mod_cast hl
    have hstar : StarShaped (domeBrick ri ro (2 * Real.pi / segments) (Real.pi / 2 / (layers + 1)) (Real.pi / 2 / (layers + 1) * l)) := by
      refine dome_star hri hro (by positivity) ?_ (by positivity) (by positivity) ?_
      · rw [div_lt_iff₀ (by linarith)]; nlinarith
      · rw [show Real.pi / 2 / ((layers:ℝ) + 1) * l + Real.pi / 2 / (layers + 1) = Real.pi / 2 * ((l + 1) / (layers + 1)) by ring]
        have : ((l:ℝ) + 1) / (layers + 1) < 1 := by rw [div_lt_one (by positivity)]; linarith
        nlinarith
    generalize domeBrick ri ro (2 * Real.pi / segments) (Real.pi / 2 / (layers + 1)) (Real.pi / 2 / (layers + 1) * l) = VT at hstar ⊢
    refine bind_runs (newShape_runs he hr hstar) ?_
    rintro k s1 ⟨r1, hs1, g1⟩
    obtain ⟨names, s2, h2, ⟨r2, -⟩, u2⟩ := mapM_bodies_runs (l := List.range segments) (f := fun (j : ℕ) =>
      newBody "body" k (globalPos r q (Quat.rotate (Quat.Ry (2 * Real.pi / segments * (j : ℝ))) ⟨0, 0, 0⟩))
        (Quat.prod q (Quat.Ry (2 * Real.pi / segments * (j : ℝ)))))
      (fun s => Ready material s ∧ HasShape s k VT) (fun j _ s hi => body_runs hi) s1 ⟨r1, hs1⟩
    exact ⟨names, s2, h2, r2, u2.of_grows g1⟩
  · rintro rows s2 ⟨r2, u2⟩
    refine bind_runs (u2.setup_runs r2) ?_
    rintro _ s3 ⟨r3, u3⟩
    exact pure_runs ⟨r3, u3⟩

/-! ### Pillar and ground -/

theorem pillarStone_runs {eig : Eig} (he : EigSpec eig) {r : V3} {q : Quat} {shape body material : String}
    {VT : List V3 × List Tri} {y : ℝ} {s : Scene} (hr : Ready material s) (hm : StarShaped VT) :
    ∃ n s', pillarStone eig r q shape body VT y s = .ok (n, s') ∧ Ready material s' ∧ Up s s' [n] := by
  unfold pillarStone
  refine bind_runs (newShape_runs he hr hm) ?_
  rintro k s1 ⟨r1, hs1, g1⟩
  obtain ⟨n, s2, h2, ⟨r2, -⟩, u2⟩ := body_runs (base := body) (r := globalPos r q ⟨0.0, y, 0.0⟩)
    (q := Quat.prod q Quat.identity) ⟨r1, hs1⟩
  exact ⟨n, s2, h2, r2, u2.of_grows g1⟩

theorem conical_runs {rb rt h : ℝ} (hb : 0 < rb) (ht : 0 < rt) (hh : 0 < h) {s : Scene} :
    ∃ VT s', conical rb rt h s = .ok (VT, s') ∧ s' = s ∧ StarShaped VT := by
  obtain ⟨VT, h1, h2⟩ := conical_star hb ht hh 12 (by norm_num)
  refine ⟨VT, s, ?_, rfl, h2⟩
  unfold conical
  rw [h1]
  rfl

theorem pillar_runs {eig : Eig} (he : EigSpec eig) (r : V3) (q : Quat) {w h d : ℝ} {stones : ℕ}
    (density : ℝ) {material : String} {s : Scene} (hr : Ready material s) (hw : 0 < w) (hh : 0 < h) (hd : 0 < d) (hs : 1 ≤ stones) :
    Succeeds material (create_pillar eig r q w h d stones density material) s := by
  unfold Succeeds create_pillar
  simp only [lit2, show (0.9:ℝ) = 9 / 10 by norm_num, show (0.8:ℝ) = 8 / 10 by norm_num, show (0.7:ℝ) = 7 / 10 by norm_num,
    show (0.5:ℝ) = 5 / 10 by norm_num]
  refine bind_runs (pillarStone_runs he hr (box_star hw (by linarith) hd)) ?_
  rintro n1 s1 ⟨r1, u1⟩
  refine bind_runs (pillarStone_runs he r1 (box_star hw (by linarith) hd)) ?_
  rintro n2 s2 ⟨r2, u2⟩
  refine bind_runs (conical_runs (by linarith) (by linarith) (by linarith)) ?_
  rintro VT3 _ ⟨rfl, st3⟩
  refine bind_runs (pillarStone_runs he r2 st3) ?_
  rintro n3 s3 ⟨r3, u3⟩
  refine bind_runs (conical_runs (by linarith) (by linarith) (by linarith)) ?_
  rintro VT4 _ ⟨rfl, st4⟩
  refine bind_runs (pillarStone_runs he r3 st4) ?_
  rintro n4 s4 ⟨r4, u4⟩
  have hs0 : (1:ℝ) ≤ stones := by exact_mod_cast hs
  rw [if_neg (by omega), if_neg (by intro e; linarith)]
  obtain ⟨y0, hy0⟩ : ∃ y, y = h / 15 + h / 15 * (9 / 10) := ⟨_, rfl⟩
  obtain ⟨y1, hy1⟩ : ∃ y, y = h - h / 20 - h / 15 * (7 / 10) := ⟨_, rfl⟩
  obtain ⟨R, hR⟩ : ∃ R, R = 9 / 10 * (w / 2) := ⟨_, rfl⟩
  rw [← hy0, ← hy1, ← hR]
  have hR0 : 0 < R := by rw [hR]; linarith
  have hy : 0 < y1 - y0 := by rw [hy0, hy1]; linarith
  refine bind_runs (mapM_bodies_runs (fun s => Ready material s) ?_ s4 r4) ?_
  · intro k hk s hr
    have hk' : (k:ℝ) + 1 ≤ stones := by
      have : k + 1 ≤ stones := by simpa using hk
      exact_mod_cast this
    have hrad : ∀ t : ℝ, t ≤ stones → 0 < 7 / 10 * R + (5 / 10 * R - 7 / 10 * R) / (y1 - y0) * (t * ((y1 - y0) / stones)) := by
      intro t ht
      have e : (5 / 10 * R - 7 / 10 * R) / (y1 - y0) * (t * ((y1 - y0) / stones)) = -(2 / 10 * R * (t / stones)) := by
        have hne := hy.ne'
        generalize y1 - y0 = y at *
        have : (stones:ℝ) ≠ 0 := by linarith
        field_simp
        ring
      rw [e]
      have : t / stones ≤ 1 := by rw [div_le_one (by linarith)]; exact ht
      nlinarith
    have e1 : y0 + k * ((y1 - y0) / stones) - y0 = k * ((y1 - y0) / stones) := by ring
    have e2 : y0 + k * ((y1 - y0) / stones) + (y1 - y0) / stones - y0 = ((k:ℝ) + 1) * ((y1 - y0) / stones) := by ring
    rw [e1, e2]
    refine bind_runs (conical_runs (hrad _ (by linarith)) (hrad _ hk') (by positivity)) ?_
    rintro VT _ ⟨rfl, st⟩
    exact pillarStone_runs he hr st
  · rintro shaft s5 ⟨r5, u5⟩
    have u : Up s s5 ([n1, n2, n3, n4] ++ shaft) := (((u1.append u2).append u3).append u4).append u5
    refine bind_runs (u.setup_runs r5) ?_
    rintro _ s6 ⟨r6, u6⟩
    exact pure_runs ⟨r6, u6⟩

theorem ground_runs {eig : Eig} (he : EigSpec eig) (r : V3) (q : Quat) (density : ℝ) {material : String} {s : Scene}
    (hr : Ready material s) : ∃ (u : Unit) (s' : Scene), create_ground eig r q density material s = .ok (u, s') ∧ Ready material s' := by
  unfold create_ground
  simp only [lit0, lit1, show (100.0:ℝ) = 100 by norm_num, show (-0.5:ℝ) = -1 / 2 by norm_num]
  refine bind_runs (newShape_runs he hr (box_star (by norm_num) (by norm_num) (by norm_num))) ?_
  rintro k s1 ⟨r1, hs1, -⟩
  refine bind_runs (body_runs ⟨r1, hs1⟩) ?_
  rintro n s2 ⟨⟨r2, -⟩, B, u2⟩
  obtain ⟨b, -, o, sh, m, g1, g2, -⟩ := placed_mem u2.2 (List.mem_singleton.2 rfl)
  obtain ⟨s3, h3, r3⟩ := setup_runs (density := density) (Or.inl rfl) r2 g1 g2
  exact ⟨(), s3, h3, r3⟩

/-! ### Pantheon and colosseum -/

theorem pantheon_runs {eig : Eig} (he : EigSpec eig) (r : V3) (q : Quat) {ro ri h : ℝ} {layers segments : ℕ}
    (density : ℝ) {material : String} {sf : ℝ} {s : Scene} (hr : Ready material s) (hl : 1 ≤ layers) (hs : 3 ≤ segments)
    (hri : 0 < ri) (hro : ri < ro) (hsf : 0 < sf) (hh : ro < h) :
    Succeeds material (create_pantheon eig r q ro ri h layers segments density material sf) s := by
  unfold Succeeds create_pantheon
  simp only [lit0]
  rw [if_neg (by linarith)]
  refine bind_runs (tower_runs he r q false density hr hl hs hri hro hsf (by linarith)) ?_
  rintro t s1 ⟨r1, u1⟩
  refine bind_runs (dome_runs he _ _ density r1 hs hri hro) ?_
  rintro d s2 ⟨r2, u2⟩
  exact pure_runs ⟨r2, u1.append u2⟩

theorem colosseum_runs {eig : Eig} (he : EigSpec eig) (r : V3) (q : Quat) {ro ri h : ℝ} {levels arches : ℕ}
    {density : ℝ} {material : String} {sf : ℝ} {s : Scene} (hr : Ready material s) (hl : 1 ≤ levels) (hs : 3 ≤ arches)
    (hri : 0 < ri) (hro : ri < ro) (hsf : 0 < sf) (hd : 0 < density)
    (hh : Real.tan (Real.pi / arches) * ri * sf < 9 / 10 * (h / levels)) :
    Succeeds material (create_colosseum eig r q ro ri h levels arches density material sf) s := by
  unfold Succeeds create_colosseum
  rw [if_neg (by omega), if_neg (by omega)]
  simp only [lit0, lit2, show (0.9:ℝ) = 9 / 10 by norm_num, show (0.1:ℝ) = 1 / 10 by norm_num, sinRatio_eq]
  have ht : 0 < Real.tan (Real.pi / arches) := by
    have h3 : (3:ℝ) ≤ arches := by exact_mod_cast hs
    refine Real.tan_pos_of_pos_of_lt_pi_div_two (by have := Real.pi_pos; positivity) ?_
    rw [div_lt_div_iff₀ (by linarith) (by norm_num)]
    nlinarith [Real.pi_pos]
  have hw : 0 < Real.tan (Real.pi / arches) * ri * sf := by positivity
  have hw2 : 2 * Real.tan (Real.pi / arches) * ri * sf = 2 * (Real.tan (Real.pi / arches) * ri * sf) := by ring
  rw [hw2]
  refine bind_runs (mapM_rows_runs (fun s => Ready material s) ?_ s hr) ?_
  · intro l _ s hr
    refine bind_runs (mapM_rows_runs (fun s => Ready material s) ?_ s hr) ?_
    · intro a _ s hr
      exact arch_runs he _ _ hr (by linarith) (by linarith) (by linarith) (by norm_num) (by norm_num) (by norm_num) hd
    · rintro names s1 ⟨r1, u1⟩
      refine bind_runs (tower_runs he _ _ false density r1 le_rfl hs hri hro hsf (by linarith)) ?_
      rintro ring s2 ⟨r2, u2⟩
      exact pure_runs ⟨r2, u1.append u2⟩
  · rintro rows s1 ⟨r1, u1⟩
    exact pure_runs ⟨r1, u1⟩

/-! ### The theorems -/

/-- **C86.** Building a stack of boxes of positive size succeeds, in an engine that knows the material and as long as the
generated names are new; and more can be built afterwards. -/
theorem C86_box_stack_succeeds {eig : Eig} (he : EigSpec eig) {w h d : ℝ} (hw : 0 < w) (hh : 0 < h) (hd : 0 < d) (K : ℕ)
    (density : ℝ) {material : String} {s : Scene} (hr : Ready material s) :
    ∃ names s', create_box_stack eig w h d K density material s = .ok (names, s') ∧ Ready material s' := by
  obtain ⟨n, s', h1, h2, -⟩ := stack_runs he hw hh hd K density hr
  exact ⟨n, s', h1, h2⟩

/-- **C87.** The tower: at least one layer and three segments, 0 < inner radius < outer radius, positive height and safety
factor. -/
theorem C87_tower_succeeds {eig : Eig} (he : EigSpec eig) (r : V3) (q : Quat) {ro ri height : ℝ} {layers segments : ℕ} (cubes : Bool)
    (density : ℝ) {material : String} {sf : ℝ} {s : Scene} (hr : Ready material s) (hl : 1 ≤ layers) (hs : 3 ≤ segments)
    (hri : 0 < ri) (hro : ri < ro) (hsf : 0 < sf) (hh : 0 < height) :
    ∃ names s', create_tower eig r q ro ri height layers segments cubes density material sf s = .ok (names, s') ∧
      Ready material s' := by
  obtain ⟨n, s', h1, h2, -⟩ := tower_runs he r q cubes density hr hl hs hri hro hsf hh
  exact ⟨n, s', h1, h2⟩

/-- **C88.** The arch: at least one pier stone, an odd number of at least three arch stones, positive sizes and density, and an
arch higher than half its width. -/
theorem C88_arch_succeeds {eig : Eig} (he : EigSpec eig) (r : V3) (q : Quat) {w h d : ℝ} {piers stones : ℕ}
    {density : ℝ} {material : String} {s : Scene} (hr : Ready material s) (hw : 0 < w) (hh : w / 2 < h) (hd : 0 < d)
    (hp : 1 ≤ piers) (hs : 3 ≤ stones) (hodd : stones % 2 = 1) (hden : 0 < density) :
    ∃ names s', create_arch eig r q w h d piers stones density material s = .ok (names, s') ∧ Ready material s' := by
  obtain ⟨n, s', h1, h2, -⟩ := arch_runs he r q hr hw hh hd hp hs hodd hden
  exact ⟨n, s', h1, h2⟩

/-- **C88.** For all other arguments `create_arch` raises: the RuntimeWarning of its checks, except that without pier stones a
ZeroDivisionError comes first (the check for `pier_stones <= 0` is never reached with 0). -/
theorem C88_arch_raises {eig : Eig} (r : V3) (q : Quat) (w h d : ℝ) (piers stones : ℕ) (density : ℝ) (material : String) (s : Scene) :
    (piers = 0 → create_arch eig r q w h d piers stones density material s = .error .zeroDivision) ∧
    (piers ≠ 0 → (w ≤ 0 ∨ h ≤ w / 2 ∨ d ≤ 0 ∨ stones ≤ 2 ∨ stones % 2 = 0 ∨ density ≤ 0) →
      create_arch eig r q w h d piers stones density material s = .error .runtimeWarning) := by
  unfold create_arch
  simp only [lit0, lit2, lit5]
  refine ⟨fun e => by rw [if_pos e]; rfl, ?_⟩
  intro hp hbad
  rw [if_neg hp]
  by_cases g1 : w ≤ 0
  · rw [if_pos g1]; rfl
  rw [if_neg g1]
  by_cases g2 : h ≤ 0
  · rw [if_pos g2]; rfl
  rw [if_neg g2]
  by_cases g3 : d ≤ 0
  · rw [if_pos g3]; rfl
  rw [if_neg g3]
  by_cases g4 : piers ≤ 0
  · rw [if_pos g4]; rfl
  rw [if_neg g4]
  by_cases g5 : stones ≤ 2
  · rw [if_pos g5]; rfl
  rw [if_neg g5]
  by_cases g6 : stones % 2 = 0
  · rw [if_pos g6]; rfl
  rw [if_neg g6]
  by_cases g7 : density ≤ 0
  · rw [if_pos g7]; rfl
  rw [if_neg g7]
  by_cases g8 : h - w / 2 ≤ 0
  · rw [if_pos g8]; rfl
  exfalso
  rcases hbad with h | h | h | h | h | h
  · exact g1 h
  · exact g8 (by linarith)
  · exact g3 h
  · exact g5 h
  · exact g6 h
  · exact g7 h

/-- **C89.** The dome: at least three segments and 0 < inner radius < outer radius. -/
theorem C89_dome_succeeds {eig : Eig} (he : EigSpec eig) (r : V3) (q : Quat) {ro ri : ℝ} {layers segments : ℕ}
    (density : ℝ) {material : String} {s : Scene} (hr : Ready material s) (hs : 3 ≤ segments)
    (hri : 0 < ri) (hro : ri < ro) :
    ∃ names s', create_dome eig r q ro ri layers segments density material s = .ok (names, s') ∧ Ready material s' := by
  obtain ⟨n, s', h1, h2, -⟩ := dome_runs (layers := layers) he r q density hr hs hri hro
  exact ⟨n, s', h1, h2⟩

/-- **C90.** The pillar: positive sizes and at least one shaft stone. -/
theorem C90_pillar_succeeds {eig : Eig} (he : EigSpec eig) (r : V3) (q : Quat) {w h d : ℝ} {stones : ℕ}
    (density : ℝ) {material : String} {s : Scene} (hr : Ready material s) (hw : 0 < w) (hh : 0 < h) (hd : 0 < d) (hs : 1 ≤ stones) :
    ∃ names s', create_pillar eig r q w h d stones density material s = .ok (names, s') ∧ Ready material s' := by
  obtain ⟨n, s', h1, h2, -⟩ := pillar_runs he r q density hr hw hh hd hs
  exact ⟨n, s', h1, h2⟩

/-- **C90.** The ground. -/
theorem C90_ground_succeeds {eig : Eig} (he : EigSpec eig) (r : V3) (q : Quat) (density : ℝ) {material : String} {s : Scene}
    (hr : Ready material s) : ∃ (u : Unit) (s' : Scene), create_ground eig r q density material s = .ok (u, s') ∧ Ready material s' :=
  ground_runs he r q density hr

/-- **C91.** The pantheon: higher than its outer radius, otherwise as for the tower and the dome. -/
theorem C91_pantheon_succeeds {eig : Eig} (he : EigSpec eig) (r : V3) (q : Quat) {ro ri h : ℝ} {layers segments : ℕ}
    (density : ℝ) {material : String} {sf : ℝ} {s : Scene} (hr : Ready material s) (hl : 1 ≤ layers) (hs : 3 ≤ segments)
    (hri : 0 < ri) (hro : ri < ro) (hsf : 0 < sf) (hh : ro < h) :
    ∃ names s', create_pantheon eig r q ro ri h layers segments density material sf s = .ok (names, s') ∧ Ready material s' := by
  obtain ⟨n, s', h1, h2, -⟩ := pantheon_runs he r q density hr hl hs hri hro hsf hh
  exact ⟨n, s', h1, h2⟩

/-- **C91.** The colosseum: the arches of a level must be higher than half their width. -/
theorem C91_colosseum_succeeds {eig : Eig} (he : EigSpec eig) (r : V3) (q : Quat) {ro ri h : ℝ} {levels arches : ℕ}
    {density : ℝ} {material : String} {sf : ℝ} {s : Scene} (hr : Ready material s) (hl : 1 ≤ levels) (hs : 3 ≤ arches)
    (hri : 0 < ri) (hro : ri < ro) (hsf : 0 < sf) (hd : 0 < density)
    (hh : Real.tan (Real.pi / arches) * ri * sf < 9 / 10 * (h / levels)) :
    ∃ names s', create_colosseum eig r q ro ri h levels arches density material sf s = .ok (names, s') ∧ Ready material s' := by
  obtain ⟨n, s', h1, h2, -⟩ := colosseum_runs he r q hr hl hs hri hro hsf hd hh
  exact ⟨n, s', h1, h2⟩

/-! ### The hypotheses can be met -/

/-- A fresh engine; the generated names are a, aa, aaa, … -/
noncomputable def freshScene : Scene := ⟨Engine.create_engine, Dict.empty, fun i _ => String.ofList (List.replicate (i + 1) 'a')⟩

theorem freshScene_ready : Ready "default" freshScene := by
  refine ⟨fun _ _ => rfl, ⟨fun _ _ => ⟨rfl, rfl⟩, ?_⟩, ?_, create_engine_ok, fun n sh h => by cases h⟩
  · intro i j _ _ hij h
    have := congrArg (fun x => x.toList.length) h
    simp [freshScene] at this
    exact hij this
  · have hk : (Dict.empty.setItem ("default", "default") SurfacesInteraction.init).keys = [("default", "default")] := by
      rw [get?_keys_setItem_new rfl]; rfl
    show (Dict.empty.setItem ("default", "default") SurfacesInteraction.init).keys.any _ = true
    rw [hk]
    rfl

/-- A pantheon, a pillar and an arch on the ground, in a fresh engine. -/
example {eig : Eig} (he : EigSpec eig) : ∃ n1 n2 n3 u s1 s2 s3 s4,
    create_ground eig 0 Quat.identity 1 "default" freshScene = .ok (u, s1) ∧
    create_pantheon eig 0 Quat.identity 5 4 8 4 11 1 "default" 0.99 s1 = .ok (n1, s2) ∧
    create_pillar eig ⟨20, 0, 0⟩ Quat.identity 1 5 1 3 1 "default" s2 = .ok (n2, s3) ∧
    create_arch eig ⟨30, 0, 0⟩ Quat.identity 2 3 1 3 5 1 "default" s3 = .ok (n3, s4) ∧
    NoOverlap s2 n1 ∧ n1.length = 88 := by
  obtain ⟨u, s1, h1, r1⟩ := C90_ground_succeeds he 0 Quat.identity 1 freshScene_ready
  obtain ⟨n1, s2, h2, r2⟩ := C91_pantheon_succeeds he 0 Quat.identity (ro := 5) (ri := 4) (h := 8) (layers := 4) (segments := 11)
    1 (sf := 0.99) r1 (by norm_num) (by norm_num) (by norm_num) (by norm_num) (by norm_num) (by norm_num)
  obtain ⟨n2, s3, h3, r3⟩ := C90_pillar_succeeds he ⟨20, 0, 0⟩ Quat.identity (w := 1) (h := 5) (d := 1) (stones := 3) 1 r2
    (by norm_num) (by norm_num) (by norm_num) (by norm_num)
  obtain ⟨n3, s4, h4, r4⟩ := C88_arch_succeeds he ⟨30, 0, 0⟩ Quat.identity (w := 2) (h := 3) (d := 1) (piers := 3) (stones := 5)
    (density := 1) r3 (by norm_num) (by norm_num) (by norm_num) (by norm_num) (by norm_num) (by norm_num) (by norm_num)
  obtain ⟨-, -, h5, h6⟩ := C91_pantheon he ident_unit r1.ok (by norm_num) (by norm_num) (by norm_num) (by norm_num) (by norm_num) h2
  exact ⟨n1, n2, n3, u, s1, s2, s3, s4, h1, h2, h3, h4, h5, h6⟩

end Verif
