import Verif.Model.SceneAll
import Verif.Props.SceneTemple5
import Verif.Props.SceneMail4
import Verif.Props.SceneGear3
import Verif.Props.RigidForces

/-! C110: what `create_scene` does to the forces. -/

namespace Verif

open Rigid Rigid.SceneM SMesh
open VMesh (Tri)

/-! ### Code that leaves the forces alone -/

/-- The forces of the engine are the same, every body that was there has kept its name and its forces, and new bodies have none. -/
structure Quiet (e e' : Engine) : Prop where
  forces : e'.forces = e.forces
  bodies : ∀ n o', e'.bodies.get? n = some o' → (∃ o, e.bodies.get? n = some o ∧ o'.body.name = o.body.name ∧ o'.body.forces = o.body.forces) ∨
    (e.bodies.get? n = none ∧ o'.body.name = n ∧ o'.body.forces = [])
  nodup : e.bodies.keys.Nodup → e'.bodies.keys.Nodup

theorem Quiet.refl (e : Engine) : Quiet e e := ⟨rfl, fun _ o' h => Or.inl ⟨o', h, rfl, rfl⟩, fun h => h⟩

theorem Quiet.of_same {e e' : Engine} (hf : e'.forces = e.forces) (hb : e'.bodies = e.bodies) : Quiet e e' :=
  ⟨hf, fun _ o' h => Or.inl ⟨o', hb ▸ h, rfl, rfl⟩, fun h => hb ▸ h⟩

theorem Quiet.trans {a b c : Engine} (h : Quiet a b) (h' : Quiet b c) (hk : ∀ n, b.bodies.get? n = none → a.bodies.get? n = none) : Quiet a c := by
  refine ⟨h'.forces.trans h.forces, ?_, fun hn => h'.nodup (h.nodup hn)⟩
  intro n o'' ho
  rcases h'.bodies n o'' ho with ⟨o', ho', e1, e2⟩ | ⟨h0, e1, e2⟩
  · rcases h.bodies n o' ho' with ⟨o, hoo, e3, e4⟩ | ⟨h0, e3, e4⟩
    · exact Or.inl ⟨o, hoo, e1.trans e3, e2.trans e4⟩
    · exact Or.inr ⟨h0, e1.trans e3, e2.trans e4⟩
  · exact Or.inr ⟨hk n h0, e1, e2⟩

/-- Bodies are never removed. -/
def KeepsBodies (e e' : Engine) : Prop := ∀ n, e'.bodies.get? n = none → e.bodies.get? n = none

/-- Both. -/
def Calm (e e' : Engine) : Prop := Quiet e e' ∧ KeepsBodies e e'

theorem Calm.refl (e : Engine) : Calm e e := ⟨.refl e, fun _ h => h⟩

theorem Calm.trans {a b c : Engine} (h : Calm a b) (h' : Calm b c) : Calm a c :=
  ⟨h.1.trans h'.1 h.2, fun n hn => h.2 n (h'.2 n hn)⟩

theorem Calm.of_same {e e' : Engine} (hf : e'.forces = e.forces) (hb : e'.bodies = e.bodies) : Calm e e' :=
  ⟨.of_same hf hb, fun _ h => hb ▸ h⟩

/-- Code that leaves the forces alone. -/
def Calmly {α : Type} (m : SceneM α) : Prop := ∀ s a s', m s = .ok (a, s') → Calm s.eng s'.eng

theorem Calmly.bind {α β : Type} {m : SceneM α} {f : α → SceneM β} (h : Calmly m) (h' : ∀ a, Calmly (f a)) : Calmly (m >>= f) := by
  intro s b s' hr
  rw [bind_ok] at hr
  obtain ⟨a, s1, h1, h2⟩ := hr
  exact (h s a s1 h1).trans (h' a s1 b s' h2)

theorem Calmly.pure {α : Type} (a : α) : Calmly (pure a : SceneM α) := by
  intro s b s' h
  obtain ⟨-, rfl⟩ := pure_ok.1 h
  exact .refl _

theorem Calmly.raise {α : Type} (e : PyErr) : Calmly (raise e : SceneM α) := fun _ _ _ h => absurd h raise_ok

theorem Calmly.api {f : Engine → Except PyErr Engine} (h : ∀ e e', f e = .ok e' → Calm e e') : Calmly (api f) := by
  intro s b s' hr
  obtain ⟨e, he, rfl⟩ := api_ok.1 hr
  exact h _ _ he

theorem Calmly.query {α : Type} {f : Engine → Except PyErr α} : Calmly (query f) := by
  intro s b s' hr
  obtain ⟨-, rfl⟩ := query_ok.1 hr
  exact .refl _

theorem Calmly.mapM {α β : Type} {f : α → SceneM β} (h : ∀ a, Calmly (f a)) (l : List α) : Calmly (l.mapM f) := by
  induction l with
  | nil => exact .pure _
  | cons a l ih =>
    rw [List.mapM_cons]
    exact .bind (h a) fun _ => .bind ih fun _ => .pure _

theorem Calmly.forM {α : Type} {f : α → SceneM Unit} (h : ∀ a, Calmly (f a)) (l : List α) : Calmly (l.forM f) := by
  induction l with
  | nil => exact .pure _
  | cons a l ih =>
    exact .bind (h a) fun _ => ih

theorem Calmly.foldlM {α β : Type} {f : β → α → SceneM β} (h : ∀ b a, Calmly (f b a)) : ∀ (l : List α) (b : β), Calmly (l.foldlM f b)
  | [], _ => .pure _
  | a :: l, b => by
    rw [List.foldlM_cons]
    exact .bind (h b a) fun b' => Calmly.foldlM h l b'

theorem calm_update {e e' : Engine} {n : String} {f : RigidBody → RigidBody} (hf : ∀ b, (f b).name = b.name ∧ (f b).forces = b.forces)
    (h : e.updateBody n f = .ok e') : Calm e e' := by
  unfold Engine.updateBody at h
  cases hb : e.findBody n with
  | error err => rw [hb] at h; cases h
  | ok b =>
    rw [hb] at h
    cases h
    have hb' := findBody_ok.1 hb
    refine ⟨⟨rfl, ?_, ?_⟩, ?_⟩
    · intro m o' ho
      by_cases hm : m = n
      · subst hm
        rw [Dict.get?_setItem_self] at ho
        cases ho
        exact Or.inl ⟨b, hb', hf b.body⟩
      · rw [Dict.get?_setItem_ne _ _ hm] at ho
        exact Or.inl ⟨o', ho, rfl, rfl⟩
    · intro hn
      rw [Dict.keys_replace hb']
      exact hn
    · intro m hm
      by_cases hmn : m = n
      · subst hmn
        rw [Dict.get?_setItem_self] at hm
        cases hm
      · rwa [Dict.get?_setItem_ne _ _ hmn] at hm

theorem calm_createBody {e e' : Engine} {n : String} (h : e.create_rigid_body n = .ok e') : Calm e e' := by
  obtain ⟨h0, rfl⟩ := create_body_ok h
  refine ⟨⟨rfl, ?_, ?_⟩, ?_⟩
  · intro m o' ho
    by_cases hm : m = n
    · subst hm
      rw [Dict.get?_setItem_self] at ho
      cases ho
      exact Or.inr ⟨h0, rfl, rfl⟩
    · rw [Dict.get?_setItem_ne _ _ hm] at ho
      exact Or.inl ⟨o', ho, rfl, rfl⟩
  · exact Dict.nodup_setItem _ _ _
  · intro m hm
    by_cases hmn : m = n
    · subst hmn; exact h0
    · rwa [Dict.get?_setItem_ne _ _ hmn] at hm

/-! ### The calls the scenes make -/

theorem calm_connectShape {e e' : Engine} {n k : String} (h : e.connect_shape n k = .ok e') : Calm e e' := by
  unfold Engine.connect_shape at h
  simp only [bind, Except.bind] at h
  split at h
  · cases h
  split at h
  · cases h
  exact calm_update (fun _ => by exact ⟨rfl, rfl⟩) h

theorem calm_setPosition {e e' : Engine} {n : String} {r : V3} {m : Bool} (h : e.set_position n r m = .ok e') : Calm e e' := by
  unfold Engine.set_position at h
  simp only [bind, Except.bind] at h
  split at h
  · cases h
  split at h
  · split at h
    · cases h
    · exact calm_update (fun _ => by exact ⟨rfl, rfl⟩) h
  · exact calm_update (fun _ => by exact ⟨rfl, rfl⟩) h

theorem calm_setOrientation {e e' : Engine} {n : String} {q : Quat} {m : Bool} (h : e.set_orientation n q m = .ok e') : Calm e e' := by
  unfold Engine.set_orientation at h
  simp only [bind, Except.bind] at h
  split at h
  · cases h
  split at h
  · split at h
    · cases h
    · exact calm_update (fun _ => by exact ⟨rfl, rfl⟩) h
  · exact calm_update (fun _ => by exact ⟨rfl, rfl⟩) h

theorem calm_setMass {e e' : Engine} {n : String} {d : ℝ} (h : e.set_mass_properties n d = .ok e') : Calm e e' := by
  unfold Engine.set_mass_properties at h
  simp only [bind, Except.bind] at h
  split at h
  · cases h
  split at h
  · cases h
  · exact calm_update (fun _ => by exact ⟨rfl, rfl⟩) h

theorem calm_setType {e e' : Engine} {n t : String} (h : e.set_body_type n t = .ok e') : Calm e e' := by
  unfold Engine.set_body_type at h
  simp only [bind, Except.bind] at h
  split at h
  · cases h
  split at h
  · exact calm_update (fun _ => by exact ⟨rfl, rfl⟩) h
  split at h
  · exact calm_update (fun _ => by exact ⟨rfl, rfl⟩) h
  · cases h

theorem calm_setMaterial {e e' : Engine} {n t : String} (h : e.set_body_material n t = .ok e') : Calm e e' := by
  unfold Engine.set_body_material at h
  simp only [bind, Except.bind] at h
  split at h
  · cases h
  split at h
  · cases h
  · exact calm_update (fun _ => by exact ⟨rfl, rfl⟩) h

theorem calm_createHinge {e e' : Engine} {n : String} (h : e.create_hinge n = .ok e') : Calm e e' := by
  unfold Engine.create_hinge at h
  split at h
  · cases h
  · cases h; exact .of_same rfl rfl

theorem calm_setHinge {e e' : Engine} {n p c : String} {o a : V3} {m : Engine.Mode} (h : e.set_hinge n p c o a m = .ok e') : Calm e e' := by
  unfold Engine.set_hinge at h
  simp only [bind, Except.bind] at h
  split at h
  · cases h
  split at h
  · cases h
  split at h
  · cases h
  split at h
  · cases h
  · cases h; exact .of_same rfl rfl

theorem calm_shape {eig : Eig} {s s' : Scene} {n : String} {m : Mesh} {b : Bool} (h : s.create_shape eig n m b = .ok s') : Calm s.eng s'.eng := by
  unfold Scene.create_shape at h
  split at h
  · cases h
  cases hp : Mass.compute_mass_properties m.V m.T 1.0 with
  | error e => rw [hp] at h; cases h
  | ok prop =>
    rw [hp] at h
    simp only [bind, Except.bind] at h
    have key : ∀ (r : V3) (q : Quat) (mass : ℝ) (I : V3) (e : Engine), s.eng.create_shape n r q mass I = .ok e → Calm s.eng e := by
      intro r q mass I e he
      unfold Engine.create_shape at he
      split at he
      · cases he
      · cases he; exact .of_same rfl rfl
    cases b with
    | false =>
      simp only [Bool.false_eq_true, if_false] at h
      generalize he : s.eng.create_shape n _ _ _ _ = e at h
      cases e with
      | error e => cases h
      | ok e => cases h; exact key _ _ _ _ _ he
    | true =>
      simp only [if_true] at h
      generalize SMesh.rotate _ _ = m' at h
      cases m' with
      | error e => cases h
      | ok m' =>
        simp only at h
        generalize he : s.eng.create_shape n _ _ _ _ = e at h
        cases e with
        | error e => cases h
        | ok e => cases h; exact key _ _ _ _ _ he

theorem calmly_name (b : String) : Calmly (generate_unique_name b) := by
  intro s a s' h
  cases h
  exact .refl _

theorem calmly_newShape {eig : Eig} {b : String} {VT : List V3 × List Tri} : Calmly (newShape eig b VT) := by
  refine .bind (calmly_name _) fun n => ?_
  intro s a s' h
  simp only [bind, Except.bind] at h
  split at h
  · cases h
  split at h
  · cases h
  rename_i s1 h1
  cases h
  exact calm_shape h1

theorem calmly_newBody {b k : String} {r : V3} {q : Quat} : Calmly (newBody b k r q) :=
  .bind (calmly_name _) fun _ => .bind (.api fun _ _ h => calm_createBody h) fun _ => .bind (.api fun _ _ h => calm_connectShape h) fun _ =>
    .bind (.api fun _ _ h => calm_setPosition h) fun _ => .bind (.api fun _ _ h => calm_setOrientation h) fun _ => .pure _

theorem calmly_newBodyAt {b k : String} {r : V3} {q : Quat} : Calmly (newBodyAt b k r q) :=
  .bind (calmly_name _) fun _ => .bind (.api fun _ _ h => calm_createBody h) fun _ => .bind (.api fun _ _ h => calm_connectShape h) fun _ =>
    .bind (.api fun _ _ h => calm_setPosition h) fun _ => .bind (.api fun _ _ h => calm_setOrientation h) fun _ => .pure _

theorem calmly_setup {t m : String} {d : ℝ} {n : String} : Calmly (setup t m d n) :=
  .bind (.api fun _ _ h => calm_setType h) fun _ => .bind (.api fun _ _ h => calm_setMaterial h) fun _ => .api fun _ _ h => calm_setMass h

theorem Calmly.ite {α : Type} {c : Prop} [Decidable c] {a b : SceneM α} (ha : Calmly a) (hb : Calmly b) : Calmly (if c then a else b) := by
  split
  · exact ha
  · exact hb

theorem calmly_scaled {eig : Eig} {b : String} {VT : List V3 × List Tri} {t : ℝ} : Calmly (newScaledShape eig b VT t) := by
  refine .bind (calmly_name _) fun n => ?_
  intro s a s' h
  simp only [bind, Except.bind] at h
  split at h
  · cases h
  split at h
  · cases h
  split at h
  · cases h
  rename_i s1 h1
  cases h
  exact calm_shape h1

theorem calmly_stretched {eig : Eig} {b : String} {VT : List V3 × List Tri} {t u : ℝ} : Calmly (newStretchedShape eig b VT t u) := by
  refine .bind (calmly_name _) fun n => ?_
  intro s a s' h
  simp only [bind, Except.bind] at h
  split at h
  · cases h
  split at h
  · cases h
  split at h
  · cases h
  split at h
  · cases h
  rename_i s1 h1
  cases h
  exact calm_shape h1

theorem calmly_conical {a b c : ℝ} : Calmly (conical a b c) := by
  intro s x s' h
  unfold conical at h
  simp only [bind, Except.bind] at h
  split at h
  · cases h
  cases h
  exact .refl _

theorem calmly_cylinder {a b : ℝ} : Calmly (cylinder a b) := by
  intro s x s' h
  unfold cylinder at h
  simp only [bind, Except.bind] at h
  split at h
  · cases h
  cases h
  exact .refl _

theorem calmly_nameAt {N : List String} {k : ℕ} : Calmly (nameAt N k) := by
  unfold nameAt
  split
  · exact .raise _
  · exact .pure _

/-- One step of the proof that code leaves the forces alone. -/
macro "calm_step" : tactic => `(tactic| with_reducible first
  | exact Calmly.pure _ | exact Calmly.raise _ | exact calmly_newShape | exact calmly_newBody | exact calmly_newBodyAt | exact calmly_setup
  | exact calmly_scaled | exact calmly_stretched | exact calmly_conical | exact calmly_cylinder | exact calmly_nameAt | exact Calmly.query
  | exact Calmly.api fun _ _ h => calm_setType h | exact Calmly.api fun _ _ h => calm_setPosition h | exact Calmly.api fun _ _ h => calm_setOrientation h
  | exact Calmly.api fun _ _ h => calm_createHinge h | exact Calmly.api fun _ _ h => calm_setHinge h
  | exact Calmly.api fun _ _ h => calm_createBody h | exact Calmly.api fun _ _ h => calm_connectShape h
  | refine Calmly.mapM (fun _ => ?_) _ | refine Calmly.forM (fun _ => ?_) _ | refine Calmly.bind ?_ (fun _ => ?_) | refine Calmly.ite ?_ ?_ | split)

/-- Code that leaves the forces alone. -/
macro "calm" : tactic => `(tactic| ((try simp only); repeat' calm_step))

theorem calmly_ground {eig : Eig} {r : V3} {q : Quat} {d : ℝ} {m : String} : Calmly (create_ground eig r q d m) := by unfold create_ground; calm
theorem calmly_pillar {eig : Eig} {r : V3} {q : Quat} {a b c d : ℝ} {n : ℕ} {m : String} : Calmly (create_pillar eig r q a b c n d m) := by
  unfold create_pillar pillarStone; calm
theorem calmly_tower {eig : Eig} {r : V3} {q : Quat} {a b c d f : ℝ} {n k : ℕ} {x : Bool} {m : String} : Calmly (create_tower eig r q a b c n k x d m f) := by
  unfold create_tower; calm
theorem calmly_arch {eig : Eig} {r : V3} {q : Quat} {a b c d : ℝ} {n k : ℕ} {m : String} : Calmly (create_arch eig r q a b c n k d m) := by
  unfold create_arch; calm
theorem calmly_dome {eig : Eig} {r : V3} {q : Quat} {a b d : ℝ} {n k : ℕ} {m : String} : Calmly (create_dome eig r q a b n k d m) := by
  unfold create_dome; calm
theorem calmly_stack {eig : Eig} {a b c d : ℝ} {n : ℕ} {m : String} : Calmly (create_box_stack eig a b c n d m) := by unfold create_box_stack; calm
theorem calmly_chain {eig : Eig} {a d : ℝ} {n : ℕ} {m : String} : Calmly (create_cube_hinge_chain eig a n d m) := by
  unfold create_cube_hinge_chain chainLink linkHinge; calm
theorem calmly_mail {eig : Eig} {a b c d : ℝ} {n k : ℕ} {m : String} {p : Bool} : Calmly (create_chainmail eig a b n k c d m p) := by
  unfold create_chainmail mailRing mailPins; calm
theorem calmly_lattice {r : V3} {q : Quat} {N : List String} {a b c d : ℝ} {I J K : ℕ} {m : String} {x : Bool} {qb : Option Quat} {dr : ℕ → ℕ → ℕ → Quat} :
    Calmly (create_lattice r q N a b c I J K d m x qb dr) := by unfold create_lattice latticeBody; calm

theorem calmly_jacks {eig : Eig} {r : V3} {q : Quat} {a b c d : ℝ} {I J K : ℕ} {m : String} {x : Bool} {VT : List V3 × List Tri} {dr : ℕ → ℕ → ℕ → Quat} :
    Calmly (create_jack_lattice eig r q a b c I J K d m x VT dr) := by
  unfold create_jack_lattice; calm; exact calmly_lattice
theorem calmly_sandbox {eig : Eig} {a b c d : ℝ} {I J K : ℕ} {m : String} {g : ℕ → List V3 × List Tri} {dr : ℕ → ℕ → ℕ → Quat} :
    Calmly (create_sandbox eig a b c I J K d m g dr) := by
  unfold create_sandbox sandboxWalls newWall; calm; exact calmly_lattice
theorem calmly_funnel {eig : Eig} {a b c d e f : ℝ} {I J K : ℕ} {m : String} {x : Bool} {VT VT' : List V3 × List Tri} {dr : ℕ → ℕ → ℕ → Quat} :
    Calmly (create_funnel eig a b c d e I J K f m x VT VT' dr) := by
  unfold create_funnel; calm; exact calmly_lattice
theorem calmly_glasses {eig : Eig} {a b c d e f : ℝ} {I J K : ℕ} {m : String} {x : Bool} {VT : List V3 × List Tri} {dr : ℕ → ℕ → ℕ → Quat} :
    Calmly (create_glasses eig a b c d e I J K f m x VT dr) := by
  unfold create_glasses; calm; exact calmly_lattice
theorem calmly_poles {eig : Eig} {a b c d e f : ℝ} {I J K Ip Kp : ℕ} {m : String} {x : Bool} {L : List (List V3 × List Tri)} {dr : ℕ → ℕ → ℕ → Quat} :
    Calmly (create_poles eig a b Ip Kp c d e I J K f m x L dr) := by
  unfold create_poles poleBody; calm; exact calmly_lattice
theorem calmly_rocks {eig : Eig} {a b c d : ℝ} {I J K : ℕ} {m : String} {VT : List V3 × List Tri} {L : List (List V3 × List Tri)}
    {g : ℕ → List V3 × List Tri} {dr : ℕ → ℕ → ℕ → Quat} : Calmly (create_rock_slide eig a b c I J K d m VT L g dr) := by
  unfold create_rock_slide placeFile; calm; exact calmly_lattice
theorem calmly_colosseum {eig : Eig} {r : V3} {q : Quat} {a b c d f : ℝ} {n k : ℕ} {m : String} : Calmly (create_colosseum eig r q a b c n k d m f) := by
  unfold create_colosseum; calm
  · exact calmly_arch
  · exact calmly_tower
theorem calmly_pantheon {eig : Eig} {r : V3} {q : Quat} {a b c d f : ℝ} {n k : ℕ} {m : String} : Calmly (create_pantheon eig r q a b c n k d m f) := by
  unfold create_pantheon; calm
  · exact calmly_tower
  · exact calmly_dome
theorem calmly_temple {eig : Eig} {hull : List V3 → List V3 × List Tri} {I K n : ℕ} {w h d x : ℝ} {m : String} :
    Calmly (create_temple eig hull I K w h d n x m) := by
  unfold create_temple templeStep makeBodies; calm
  all_goals exact calmly_pillar
theorem calmly_placeGears {w : ℝ} {omega : ℕ → ℝ} : ∀ (L : List (Gear.Specs × String)) (i : ℕ) (a b c d : ℝ), Calmly (placeGears w omega i L a b c d)
  | [], _, _, _, _, _ => by unfold placeGears; calm
  | [_], _, _, _, _, _ => by unfold placeGears; calm
  | a :: b :: rest, i, x, y, z, t => by
    unfold placeGears
    calm
    exact calmly_placeGears _ _ _ _ _ _
theorem calmly_gears {eig : Eig} {Z : ℕ → Fin 4} {omega : ℕ → ℝ} {N : ℕ} {d : ℝ} {m : String} : Calmly (create_gear_train eig Z omega N d m) := by
  unfold create_gear_train newGear gearHinge; calm
  exact calmly_placeGears _ _ _ _ _ _

/-! ### The robot -/

open Urdf in
theorem calmly_addLink {eig : Eig} {R : Robot} {l : Link} : Calmly (addLink eig R l) := by
  unfold addLink
  split
  · exact .pure _
  split
  · exact .raise _
  refine .bind ?_ fun _ => .bind (.api fun _ _ h => calm_createBody h) fun _ => .bind (.api fun _ _ h => calm_connectShape h) fun _ =>
    .bind (.api fun _ _ h => calm_update (fun _ => by exact ⟨rfl, rfl⟩) h) fun _ => .pure _
  intro s a s' h
  simp only [bind, Except.bind] at h
  split at h
  · cases h
  split at h
  · cases h
  rename_i s1 h1
  cases h
  exact calm_shape h1

open Urdf in
theorem calmly_addJoint {R : Robot} {j : Joint} : Calmly (addJoint R j) := by
  unfold addJoint
  split
  · exact .pure _
  refine .bind (.api fun _ _ h => calm_createHinge h) fun _ => ?_
  intro s a s' h
  simp only [bind, Except.bind] at h
  split at h
  · cases h
  split at h
  · cases h
  cases h
  exact .refl _

open Urdf in
theorem calm_placeChild {p : String} {X : CoordSys} {st st' : List String × Robot × Scene} {c : String × String × CoordSys × V3}
    (h : placeChild p X st c = .ok st') : Calm st.2.2.eng st'.2.2.eng := by
  obtain ⟨stack, R, s⟩ := st
  obtain ⟨cn, jn, Xj, ax⟩ := c
  unfold placeChild at h
  simp only [bind, Except.bind] at h
  split at h
  · cases h
  split at h
  · cases h
  rename_i e1 h1
  split at h
  · cases h
  rename_i e2 h2
  split at h
  · cases h
  rename_i e3 h3
  cases h
  exact (calm_setPosition h1).trans ((calm_setOrientation h2).trans (calm_setHinge h3))

open Urdf in
theorem calm_children {p : String} {X : CoordSys} : ∀ (L : List (String × String × CoordSys × V3)) (st st' : List String × Robot × Scene),
    L.foldlM (placeChild p X) st = .ok st' → Calm st.2.2.eng st'.2.2.eng
  | [], st, st', h => by cases h; exact .refl _
  | c :: L, st, st', h => by
    rw [List.foldlM_cons] at h
    simp only [bind, Except.bind] at h
    split at h
    · cases h
    · rename_i st1 h1
      exact (calm_placeChild h1).trans (calm_children L _ _ h)

open Urdf in
theorem calm_visit {st st' : List String × Robot × Scene} (h : visit st = .ok (some st')) : Calm st.2.2.eng st'.2.2.eng := by
  unfold visit at h
  split at h
  · cases h
  simp only [bind, Except.bind] at h
  split at h
  · cases h
  split at h
  · cases h
  rename_i stack R s x pl hpl y st1 h1
  cases h
  exact calm_children _ (stack, R, s) _ h1

open Urdf in
theorem calm_loop {st : List String × Robot × Scene} {r : Except PyErr (List String × Robot × Scene)} (h : LoopEnds visit st r) :
    ∀ st', r = .ok st' → Calm st.2.2.eng st'.2.2.eng := by
  induction h with
  | done _ => intro st' e; cases e; exact .refl _
  | raised _ => intro st' e; cases e
  | next h1 _ ih => intro st' e; exact (calm_visit h1).trans (ih st' e)

open Urdf in
theorem calmly_build {eig : Eig} {L : List Link} {J : List Joint} : Calmly (build eig L J) := by
  unfold build
  refine .bind (.foldlM (fun _ _ => calmly_addLink) _ _) fun R => .bind (.foldlM (fun _ _ => calmly_addJoint) _ _) fun R' => ?_
  split
  · exact .raise _
  refine .bind (.api fun _ _ h => calm_setPosition h) fun _ => .bind (.api fun _ _ h => calm_setOrientation h) fun _ => ?_
  intro s a s' h
  simp only [bind, Except.bind] at h
  split at h
  · cases h
  rename_i st hst
  cases h
  generalize hst0 : (([_], R', s) : List String × Robot × Scene) = st0 at hst
  have e0 : s = st0.2.2 := by rw [← hst0]
  have hl : ∃ r, LoopEnds visit st0 r := by
    by_contra hc
    push Not at hc
    rw [whileLoop_diverges hc] at hst
    cases hst
  obtain ⟨r, hr⟩ := hl
  rw [whileLoop_eq hr] at hst
  rw [e0]
  exact calm_loop hr _ hst

theorem calmly_ur5 {O : Outside} : Calmly (ur5Scene O) := by
  unfold ur5Scene
  split
  · exact .raise _
  intro s a s' h
  unfold Urdf.read_urdf at h
  simp only [bind, Except.bind] at h
  split at h
  · cases h
  exact calmly_build s a s' h

theorem calmly_stage {O : Outside} {name : String} : Calmly (stage O name) := by
  unfold stage defaultGround
  calm
  all_goals with_reducible first
    | exact calmly_ground | exact calmly_pillar | exact calmly_arch | exact calmly_dome | exact calmly_tower | exact calmly_colosseum
    | exact calmly_pantheon | exact calmly_funnel | exact calmly_glasses | exact calmly_poles | exact calmly_temple | exact calmly_mail
    | exact calmly_jacks | exact calmly_gears | exact calmly_rocks | exact calmly_sandbox | exact calmly_stack | exact calmly_chain | exact calmly_ur5

end Verif
