import Verif.Props.GalileanRun
import Verif.Props.Resume
import Verif.Props.TranslationStart

/-! C133 with the package's own collision detection. -/

namespace Verif

open Rigid Collision Translation Resume Galilean

variable {N : ℕ}

namespace Galilean

/-- `whileLoop_forget` for loops that keep an invariant. -/
theorem whileLoop_forget_inv {σ τ : Type} (f : LoopStep σ) (g : LoopStep τ) (π : σ → τ) (I : σ → Prop) (hI : ∀ s s', I s → f s = .ok (some s') → I s')
    (hfg : ∀ s, I s → (f s).map (Option.map π) = g (π s)) (s : σ) (hs : I s) : (whileLoop f s).map π = whileLoop g (π s) := by
  have fwd : ∀ s r, LoopEnds f s r → I s → LoopEnds g (π s) (r.map π) := by
    intro s r h
    induction h with
    | done hs => exact fun hi => .done (by rw [← hfg _ hi, hs]; rfl)
    | raised hs => exact fun hi => .raised (by rw [← hfg _ hi, hs]; rfl)
    | next hs _ ih => exact fun hi => .next (by rw [← hfg _ hi, hs]; rfl) (ih (hI _ _ hi hs))
  have bwd : ∀ t r, LoopEnds g t r → ∀ s, I s → π s = t → ∃ r', LoopEnds f s r' := by
    intro t r h
    induction h with
    | @done t hs =>
      rintro s hi rfl
      rw [← hfg _ hi] at hs
      cases hf : f s with
      | error e => exact ⟨_, .raised hf⟩
      | ok o =>
        cases o with
        | none => exact ⟨_, .done hf⟩
        | some s' => rw [hf] at hs; cases Except.ok.inj hs
    | @raised t e hs =>
      rintro s hi rfl
      rw [← hfg _ hi] at hs
      cases hf : f s with
      | error e => exact ⟨_, .raised hf⟩
      | ok o => rw [hf] at hs; cases hs
    | @next t t' r hs _ ih =>
      rintro s hi rfl
      rw [← hfg _ hi] at hs
      cases hf : f s with
      | error e => exact ⟨_, .raised hf⟩
      | ok o =>
        cases o with
        | none => exact ⟨_, .done hf⟩
        | some s' =>
          rw [hf] at hs
          obtain ⟨r', hr'⟩ := ih s' (hI _ _ hi hf) (Option.some.inj (Except.ok.inj hs))
          exact ⟨r', .next hf hr'⟩
  by_cases hex : ∃ r, LoopEnds f s r
  · obtain ⟨r, hr⟩ := hex
    rw [whileLoop_eq hr, whileLoop_eq (fwd s r hr hs)]
  · rw [whileLoop_diverges (not_exists.1 hex), whileLoop_diverges]
    · rfl
    · intro r hr
      exact hex (bwd _ r hr s hs rfl)

/-- The contacts found with the hierarchies that `connect_shape` made. -/
noncomputable def cdOf (P : Collision.CDParams) (C : Fin N → Collider) : World N → Except PyErr (List (ContactPoint N)) :=
  fun w => (run_collision_detection P w.bodies C).map Prod.snd

theorem fullStep_fst (P : Collision.CDParams) (C : Fin N → Collider) (dt : ℝ) (w : World N) : (fullStep P dt (w, C)).map Prod.fst = step (cdOf P C) dt w := by
  unfold fullStep
  change Except.map Prod.fst (step (cdOf P C) dt w >>= _) = _
  cases h : step (cdOf P C) dt w with
  | error e => rfl
  | ok w' =>
    have h1 := (C48_frame h).1
    unfold cdOf at h1
    dsimp only [Bind.bind, Except.bind]
    cases hr : run_collision_detection P w.bodies C with
    | error e => rw [hr] at h1; cases h1
    | ok r => rfl

/-- The hierarchies left by earlier steps are not seen in the motion. -/
theorem fullSimulate_fst (P : Collision.CDParams) {C : Fin N → Collider} (hC : HierarchiesMade C) (w : World N) (T : ℝ) :
    (fullSimulate P (w, C) T).map Prod.fst = simulate (some (step (cdOf P C))) w T := by
  have hF : ∀ k, ∀ st ∈ (C k).bvh.chunks, Forward st := fun k st hst => by
    obtain ⟨K, M, env, h⟩ := hC k
    exact (make_bvh_fresh h st hst).1
  unfold fullSimulate simulate
  by_cases hT : T ≤ 0
  · rw [if_pos hT, if_pos hT]
    rfl
  · rw [if_neg hT, if_neg hT]
    have h := whileLoop_forget_inv (fullTrip P) (simTrip (step (cdOf P C))) (fun s : Sim N × ℝ => (s.1.1, s.2)) (fun s => ∀ k, Later (C k) (s.1.2 k)) (by
        rintro ⟨⟨w, D⟩, t⟩ s' hi hs k
        unfold fullTrip at hs
        dsimp only at hs hi
        by_cases ht : t = 0
        · rw [if_pos ht] at hs
          cases hs
        rw [if_neg ht] at hs
        cases hf : fullStep P (min t w.params.time_step) (w, D) with
        | error e => rw [hf] at hs; cases hs
        | ok x =>
          rw [hf] at hs
          cases hs
          exact (hi k).trans (fullStep_later hf k)) (by
        rintro ⟨⟨w, D⟩, t⟩ hi
        dsimp only at hi
        unfold fullTrip simTrip
        dsimp only
        split_ifs with ht
        · rfl
        · have h1 := fullStep_eq P (min t w.params.time_step) w w.contact_points hF hi
          have h2 := fullStep_fst P C (min t w.params.time_step) w
          have h3 : ({ w with contact_points := w.contact_points } : World N) = w := rfl
          rw [h3] at h1
          rw [h1, ← h2]
          cases fullStep P (min t w.params.time_step) (w, C) <;> rfl) ((w, C), T) (fun k => Later.refl _)
    dsimp only at h ⊢
    rw [← h]
    cases whileLoop (fullTrip P) ((w, C), T) <;> rfl

theorem run_boost (P : Collision.CDParams) (a : V3) (B : Fin N → RigidBody) (C : Fin N → Collider) :
    run_collision_detection P (fun k => RigidBody.boost a (B k)) C = run_collision_detection P B C := rfl

theorem cdOf_geometric (P : Collision.CDParams) {C : Fin N → Collider} (hC : HierarchiesMade C) : CDGeometric (cdOf P C) :=
  ⟨fun a w => congrArg (Except.map Prod.snd) (run_boost P a w.bodies C), fun c w => C131_contacts P c w.bodies hC, fun _ _ => rfl⟩

end Galilean

/-- **C133.** One step of the whole simulator, whatever the hierarchies are: it leaves the same hierarchies and contact points. -/
theorem C133_full_step (P : Collision.CDParams) (a : V3) (dt : ℝ) {w : World N} (hw : FreeWorld w) (C : Fin N → Collider) :
    fullStep P dt (World.boost a w, C) = (fullStep P dt (w, C)).map fun s =>
      ({ s.1 with bodies := fun k => { s.1.bodies k with v := (s.1.bodies k).v + a, r := (s.1.bodies k).r + dt • a } }, s.2) := by
  unfold fullStep
  have h := C133_step (cd := cdOf P C) (a := a) (fun w => congrArg (Except.map Prod.snd) (run_boost P a w.bodies C)) dt hw
  change (step (cdOf P C) dt (World.boost a w) >>= fun w' => run_collision_detection P w.bodies C >>= fun r => pure (w', r.1)) =
    Except.map _ (step (cdOf P C) dt w >>= fun w' => run_collision_detection P w.bodies C >>= fun r => pure (w', r.1))
  rw [h]
  cases step (cdOf P C) dt w with
  | error e => rfl
  | ok w' => cases run_collision_detection P w.bodies C <;> rfl

/-- **C133.** `simulate` of the whole simulator: for bodies with the hierarchies that `connect_shape` makes, none fixed and only gravity acting, a run in which every body
starts faster by `a` ends with the bodies moved by `T a` and faster by `a`, and otherwise the same. -/
theorem C133_full_simulate (P : Collision.CDParams) (a : V3) {w : World N} (hw : FreeWorld w) (hts : 0 < w.params.time_step) {C : Fin N → Collider} (hC : HierarchiesMade C)
    (T : ℝ) : ((fullSimulate P (World.boost a w, C) T).map Prod.fst).map (fun w' => w'.bodies) =
      ((fullSimulate P (w, C) T).map Prod.fst).map fun w' k => { w'.bodies k with v := (w'.bodies k).v + a, r := (w'.bodies k).r + T • a } := by
  have h := C133_simulate (cdOf_geometric P hC) a hw hts T
  rw [fullSimulate_fst P hC, fullSimulate_fst P hC]
  have h2 := congrArg (Except.map fun w' : World N => w'.bodies) h
  cases h3 : simulate (some (step (cdOf P C))) (World.boost a w) T <;> cases h4 : simulate (some (step (cdOf P C))) w T <;> rw [h3, h4] at h2 <;> exact h2

/-- Any number of bodies of the package's default state, falling under gravity: the hypothesis on the world can be met. -/
example : FreeWorld (N := N) ⟨fun _ => { RigidBody.init "b" with mass := 1, forces := [⟨"g", .gravity 9.81 ⟨0, 1, 0⟩⟩] }, [], [], [], SurfacesInteractionLibrary.init,
    Rigid.Params.init⟩ := by
  intro k
  refine ⟨rfl, fun f hf => ?_⟩
  rw [List.mem_singleton.1 hf]
  exact ⟨_, _, rfl⟩

end Verif
