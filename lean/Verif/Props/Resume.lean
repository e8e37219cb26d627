import Verif.Props.RefitFresh

/-! C132: a simulation can be stopped and resumed. -/

namespace Verif

open Rigid Collision BVH

variable {N : ℕ}

namespace Resume

open Translation

theorem whileLoop_unfold {σ : Type*} (f : LoopStep σ) (s : σ) : whileLoop f s = (match f s with
    | .error e => .error e
    | .ok none => .ok s
    | .ok (some s') => whileLoop f s') := by
  cases h : f s with
  | error e => exact whileLoop_eq (.raised h)
  | ok o =>
    cases o with
    | none => exact whileLoop_eq (.done h)
    | some s' =>
      dsimp only
      by_cases hx : ∃ r, LoopEnds f s' r
      · obtain ⟨r, hr⟩ := hx
        rw [whileLoop_eq hr, whileLoop_eq (.next h hr)]
      · push Not at hx
        rw [whileLoop_diverges hx, whileLoop_diverges]
        intro r hr
        cases hr with
        | done hs => rw [h] at hs; cases hs
        | raised hs => rw [h] at hs; cases hs
        | next hs hr =>
          rw [h] at hs
          cases hs
          exact hx r hr

theorem fullStep_ts {P : Collision.CDParams} {dt : ℝ} {s s' : Sim N} (h : fullStep P dt s = .ok s') : s'.1.params = s.1.params := by
  unfold fullStep at h
  rw [step_eq] at h
  cases h1 : copy_from_engine s.1.bodies with
  | error e => rw [h1] at h; cases h
  | ok t =>
    cases h2 : (run_collision_detection P s.1.bodies s.2).map Prod.snd with
    | error e => rw [h1, h2] at h; cases h
    | ok cps =>
      cases h3 : afterCD dt t { s.1 with contact_points := cps } with
      | error e =>
        rw [h1, h2] at h
        simp only [Bind.bind, Except.bind, h3] at h
        cases h
      | ok u =>
        rw [h1, h2] at h
        simp only [Bind.bind, Except.bind, h3, pure, Except.pure] at h
        cases h4 : run_collision_detection P s.1.bodies s.2 with
        | error e => rw [h4] at h; cases h
        | ok r =>
          rw [h4] at h
          cases h
          rfl

theorem trips (P : Collision.CDParams) {T : ℝ} (hT : 0 < T) (n : ℕ) : ∀ (s : Sim N), 0 < s.1.params.time_step →
    (whileLoop (fullTrip P) (s, n * s.1.params.time_step + T)).map Prod.fst =
      ((whileLoop (fullTrip P) (s, n * s.1.params.time_step)).map Prod.fst >>= fun s' => (whileLoop (fullTrip P) (s', T)).map Prod.fst) := by
  induction n with
  | zero =>
    intro s _
    rw [whileLoop_unfold _ (s, ((0 : ℕ) : ℝ) * s.1.params.time_step)]
    have : fullTrip P (s, ((0 : ℕ) : ℝ) * s.1.params.time_step) = .ok none := by
      unfold fullTrip
      rw [if_pos (by simp)]
    rw [this]
    simp [Except.map, Bind.bind, Except.bind]
  | succ n ih =>
    intro s hts
    have hn : (0 : ℝ) ≤ n * s.1.params.time_step := by positivity
    have h0 : ∀ {x : ℝ}, s.1.params.time_step ≤ x → fullTrip P (s, x) = (match fullStep P s.1.params.time_step s with
        | .error e => .error e
        | .ok w => .ok (some (w, x - s.1.params.time_step))) := by
      intro x hx
      unfold fullTrip
      rw [if_neg (by dsimp only; linarith)]
      dsimp only
      rw [min_eq_right hx]
      rfl
    have e1 : ((n + 1 : ℕ) : ℝ) * s.1.params.time_step = n * s.1.params.time_step + s.1.params.time_step := by push_cast; ring
    rw [e1, whileLoop_unfold _ (s, n * s.1.params.time_step + s.1.params.time_step + T), whileLoop_unfold _ (s, n * s.1.params.time_step + s.1.params.time_step),
      h0 (by linarith), h0 (by linarith)]
    cases hs : fullStep P s.1.params.time_step s with
    | error e => rfl
    | ok s' =>
      dsimp only
      have hp := fullStep_ts hs
      have := ih s' (by rw [hp]; exact hts)
      rw [hp] at this
      rw [show (n : ℝ) * s.1.params.time_step + s.1.params.time_step + T - s.1.params.time_step = n * s.1.params.time_step + T by ring,
        show (n : ℝ) * s.1.params.time_step + s.1.params.time_step - s.1.params.time_step = n * s.1.params.time_step by ring]
      exact this

/-- Same links; nothing else in unused places. -/
abbrev Kin (s s' : SubTree) : Prop := Agree s.size s s'

theorem Kin.trans {a b c : SubTree} (h : Kin a b) (h' : Kin b c) : Kin a c := by
  refine ⟨h'.1.trans h.1, h'.2.1.trans h.2.1, fun j => (h'.2.2.1 j).trans (h.2.2.1 j), fun j hj => ?_⟩
  rw [h'.2.2.2 j, h.2.2.2 j hj]
  rcases hj with hj | hj
  · exact .inl (by rw [h.1]; exact hj)
  · exact .inr (by rw [bare_undefined (h.2.2.1 j)]; exact hj)

theorem Kin.refl (a : SubTree) : Kin a a := ⟨rfl, rfl, fun _ => rfl, fun _ _ => rfl⟩

theorem refit_kin {V : List V3} {T : List (List ℕ)} {K : ℕ} {env : ℝ} {s r : SubTree} (h : refit_sub_tree V T s K env = .ok r) : Kin s r := by
  have : ∀ (L : List ℕ) (s : SubTree), (∀ i ∈ L, i < s.size) → L.foldlM (refitNode V T K env) s = .ok r → Kin s r := by
    intro L
    induction L with
    | nil => intro s _ h; cases h; exact Kin.refl _
    | cons i L ih =>
      intro s hL h
      rw [List.foldlM_cons] at h
      cases hr : refitNode V T K env s i with
      | error e => rw [hr] at h; cases h
      | ok t =>
        rw [hr] at h
        have hk : Kin s t := by
          rcases refitNode_put hr with ⟨rfl, -⟩ | ⟨v, rfl, hu⟩
          · exact Kin.refl _
          · refine ⟨rfl, rfl, bare_put s i v, fun j hj => ?_⟩
            have hji : j ≠ i := by
              rintro rfl
              rcases hj with hj | hj
              · exact absurd (hL j (by simp)) (not_lt.2 hj)
              · rw [hu] at hj; cases hj
            unfold put
            dsimp only
            rw [Function.update_of_ne hji]
        exact hk.trans (ih t (fun j hj => by rw [hk.1]; exact hL j (by simp [hj])) h)
  exact this _ s (fun i hi => by simpa using hi) h

theorem refit_eq_of_kin (V : List V3) (T : List (List ℕ)) (K : ℕ) (env : ℝ) {s s' : SubTree} (hF : Forward s) (h : Kin s s') :
    refit_sub_tree V T s' K env = refit_sub_tree V T s K env := by
  have := refit_agree V T K env s.size hF h
  unfold refit_sub_tree
  rw [h.1]
  exact this

/-- The collision geometry `D` is `C` after some steps. -/
structure Later (C D : Collider) : Prop where
  V : D.V = C.V
  T : D.T = C.T
  grid : D.grid = C.grid
  kin : List.Forall₂ Kin C.bvh.chunks D.bvh.chunks

theorem forall2_refl (L : List SubTree) : List.Forall₂ Kin L L := by
  induction L with
  | nil => exact .nil
  | cons a L ih => exact .cons (Kin.refl a) ih

theorem Later.refl (C : Collider) : Later C C := ⟨rfl, rfl, rfl, forall2_refl _⟩

theorem forall2_trans {A B D : List SubTree} (h : List.Forall₂ Kin A B) : List.Forall₂ Kin B D → List.Forall₂ Kin A D := by
  induction h generalizing D with
  | nil => exact fun h => h
  | cons h _ ih =>
    intro h'
    cases h' with
    | cons k h' => exact .cons (h.trans k) (ih h')

theorem Later.trans {A B D : Collider} (h : Later A B) (h' : Later B D) : Later A D :=
  ⟨h'.V.trans h.V, h'.T.trans h.T, h'.grid.trans h.grid, forall2_trans h.kin h'.kin⟩

theorem mapM_kin {V : List V3} {T : List (List ℕ)} {K : ℕ} {env : ℝ} {L R : List SubTree} (h : L.mapM (fun st => refit_sub_tree V T st K env) = .ok R) :
    List.Forall₂ Kin L R := by
  induction L generalizing R with
  | nil => cases h; exact .nil
  | cons a L ih =>
    rw [List.mapM_cons] at h
    cases ha : refit_sub_tree V T a K env with
    | error e => rw [ha] at h; cases h
    | ok x =>
      cases hL : L.mapM (fun st => refit_sub_tree V T st K env) with
      | error e => rw [ha, hL] at h; cases h
      | ok Y =>
        rw [ha, hL] at h
        cases h
        exact .cons (refit_kin ha) (ih hL)

theorem refitBody_later {P : Collision.CDParams} {b : RigidBody} {C D : Collider} (h : refitBody P b C = .ok D) : Later C D := by
  unfold refitBody at h
  cases hV : worldVertices b C.V with
  | error e => rw [hV] at h; cases h
  | ok V =>
    rw [hV] at h
    change (refit_bvh V (rows C.T) C.bvh P.K P.envelope >>= _) = _ at h
    cases ht : refit_bvh V (rows C.T) C.bvh P.K P.envelope with
    | error e => rw [ht] at h; cases h
    | ok t =>
      rw [ht] at h
      cases h
      refine ⟨rfl, rfl, rfl, ?_⟩
      unfold refit_bvh at ht
      cases hr : C.bvh.chunks.mapM (fun st => refit_sub_tree V (rows C.T) st P.K P.envelope) with
      | error e => rw [hr] at ht; cases ht
      | ok R =>
        rw [hr] at ht
        change (R.foldlM rootStep (KDOP.init P.K) >>= _) = _ at ht
        cases hroot : R.foldlM rootStep (KDOP.init P.K) with
        | error e => rw [hroot] at ht; cases ht
        | ok root =>
          rw [hroot] at ht
          cases ht
          exact mapM_kin hr

theorem update_later {P : Collision.CDParams} {B : Fin N → RigidBody} {C D : Fin N → Collider} (h : update_bvh P B C = .ok D) : ∀ k, Later (C k) (D k) := by
  unfold update_bvh at h
  revert h
  generalize List.finRange N = L
  intro h
  induction L generalizing C with
  | nil => cases h; exact fun k => Later.refl _
  | cons i L ih =>
    rw [List.foldlM_cons] at h
    cases hr : refitBody P (B i) (C i) with
    | error e => rw [hr] at h; cases h
    | ok E =>
      rw [hr] at h
      have h2 := ih (C := Function.update C i E) h
      intro k
      refine Later.trans ?_ (h2 k)
      by_cases hk : k = i
      · subst hk
        rw [Function.update_self]
        exact refitBody_later hr
      · rw [Function.update_of_ne hk]
        exact Later.refl _

theorem run_later {P : Collision.CDParams} {B : Fin N → RigidBody} {C : Fin N → Collider} {r : (Fin N → Collider) × List (ContactPoint N)}
    (h : run_collision_detection P B C = .ok r) : ∀ k, Later (C k) (r.1 k) := by
  unfold run_collision_detection at h
  cases h1 : update_bvh P B C with
  | error e => rw [h1] at h; cases h
  | ok D =>
    rw [h1] at h
    change (narrow_phase D >>= _) = _ at h
    cases h2 : narrow_phase D with
    | error e => rw [h2] at h; cases h
    | ok O =>
      rw [h2] at h
      change (contact_determination P B D O >>= _) = _ at h
      cases h3 : contact_determination P B D O with
      | error e => rw [h3] at h; cases h
      | ok L =>
        rw [h3] at h
        cases h
        exact update_later h1

theorem refitBody_eq (P : Collision.CDParams) (b : RigidBody) {C D : Collider} (hF : ∀ st ∈ C.bvh.chunks, Forward st) (h : Later C D) : refitBody P b D = refitBody P b C := by
  obtain ⟨V, T, g, t⟩ := C
  obtain ⟨V', T', g', t'⟩ := D
  obtain ⟨h1, h2, h3, h4⟩ := h
  dsimp only at h1 h2 h3 h4 hF
  subst h1 h2 h3
  have key : ∀ W, refit_bvh W (rows T') t' P.K P.envelope = refit_bvh W (rows T') t P.K P.envelope := by
    intro W
    unfold refit_bvh
    have hm : t'.chunks.mapM (fun st => refit_sub_tree W (rows T') st P.K P.envelope) = t.chunks.mapM (fun st => refit_sub_tree W (rows T') st P.K P.envelope) := by
      revert hF h4
      generalize t.chunks = A
      generalize t'.chunks = B
      intro hF h4
      induction h4 with
      | nil => rfl
      | @cons a b _ _ hab _ ih =>
        rw [List.mapM_cons, List.mapM_cons, ih (fun st hst => hF st (by simp [hst])), refit_eq_of_kin _ _ _ _ (hF a (by simp)) hab]
    rw [hm]
  unfold refitBody
  dsimp only
  simp only [key]

theorem update_eq (P : Collision.CDParams) (B : Fin N → RigidBody) {C D : Fin N → Collider} (hF : ∀ k, ∀ st ∈ (C k).bvh.chunks, Forward st) (h : ∀ k, Later (C k) (D k)) :
    update_bvh P B D = update_bvh P B C := by
  unfold update_bvh
  have : ∀ (L : List (Fin N)) (E E' : Fin N → Collider), L.Nodup → (∀ k ∈ L, Later (E k) (E' k) ∧ ∀ st ∈ (E k).bvh.chunks, Forward st) → (∀ k, k ∉ L → E' k = E k) →
      L.foldlM (fun C k => do
        let c ← refitBody P (B k) (C k)
        return Function.update C k c) E' = L.foldlM (fun C k => do
        let c ← refitBody P (B k) (C k)
        return Function.update C k c) E := by
    intro L
    induction L with
    | nil =>
      intro E E' _ _ h2
      rw [funext fun k => h2 k (by simp)]
    | cons k L ih =>
      intro E E' hn h1 h2
      rw [List.foldlM_cons, List.foldlM_cons, refitBody_eq P (B k) (h1 k (by simp)).2 (h1 k (by simp)).1]
      cases refitBody P (B k) (E k) with
      | error e => rfl
      | ok G =>
        refine ih (Function.update E k G) (Function.update E' k G) (List.nodup_cons.1 hn).2 (fun j hj => ?_) (fun j hj => ?_)
        · have hjk : j ≠ k := by
            rintro rfl
            exact (List.nodup_cons.1 hn).1 hj
          rw [Function.update_of_ne hjk, Function.update_of_ne hjk]
          exact h1 j (by simp [hj])
        · by_cases hjk : j = k
          · subst hjk
            rw [Function.update_self, Function.update_self]
          · rw [Function.update_of_ne hjk, Function.update_of_ne hjk]
            exact h2 j (by simp [hjk, hj])
  exact this _ C D (List.nodup_finRange N) (fun k _ => ⟨h k, hF k⟩) (fun k hk => absurd (List.mem_finRange k) hk)

theorem fullStep_eq (P : Collision.CDParams) (dt : ℝ) (w : World N) (L : List (ContactPoint N)) {C D : Fin N → Collider} (hF : ∀ k, ∀ st ∈ (C k).bvh.chunks, Forward st)
    (h : ∀ k, Later (C k) (D k)) : fullStep P dt (w, D) = fullStep P dt ({ w with contact_points := L }, C) := by
  have hr : ∀ B, run_collision_detection P B D = run_collision_detection P B C := by
    intro B
    unfold run_collision_detection
    rw [update_eq P B hF h]
  unfold fullStep
  dsimp only
  simp only [hr]
  rw [step_eq, step_eq]

theorem fullStep_later {P : Collision.CDParams} {dt : ℝ} {s s' : Sim N} (h : fullStep P dt s = .ok s') : ∀ k, Later (s.2 k) (s'.2 k) := by
  unfold fullStep at h
  cases h1 : step (fun w => (run_collision_detection P w.bodies s.2).map Prod.snd) dt s.1 with
  | error e => rw [h1] at h; cases h
  | ok w =>
    rw [h1] at h
    change (run_collision_detection P s.1.bodies s.2 >>= _) = _ at h
    cases h2 : run_collision_detection P s.1.bodies s.2 with
    | error e => rw [h2] at h; cases h
    | ok r =>
      rw [h2] at h
      cases h
      exact run_later h2

theorem simulate_later {P : Collision.CDParams} {T : ℝ} {s s' : Sim N} (h : fullSimulate P s T = .ok s') : ∀ k, Later (s.2 k) (s'.2 k) := by
  have key : ∀ (x : Sim N × ℝ) (r : Except PyErr (Sim N × ℝ)), LoopEnds (fullTrip P) x r → ∀ y, r = .ok y → ∀ k, Later (x.1.2 k) (y.1.2 k) := by
    intro x r hr
    induction hr with
    | done _ => rintro y h k; cases h; exact Later.refl _
    | raised _ => rintro y h; cases h
    | @next x x' r hx _ ih =>
      intro y hy k
      refine Later.trans ?_ (ih y hy k)
      unfold fullTrip at hx
      split_ifs at hx with h0
      · cases hx
      change (match fullStep P (min x.2 x.1.1.params.time_step) x.1 with
        | .error e => Except.error e
        | .ok w => Except.ok (some (w, x.2 - min x.2 x.1.1.params.time_step))) = _ at hx
      cases hf : fullStep P (min x.2 x.1.1.params.time_step) x.1 with
      | error e => rw [hf] at hx; cases hx
      | ok w =>
        rw [hf] at hx
        cases hx
        exact fullStep_later hf k
  unfold fullSimulate at h
  split_ifs at h
  by_cases hx : ∃ r, LoopEnds (fullTrip P) (s, T) r
  · obtain ⟨r, hr⟩ := hx
    rw [whileLoop_eq hr] at h
    cases r with
    | error e => cases h
    | ok y =>
      cases h
      exact key _ _ hr y rfl
  · push Not at hx
    rw [whileLoop_diverges hx] at h
    cases h

end Resume

open Resume Translation

/-- **C132.** Simulating a multiple of the time step and then T more is the same as simulating the sum in one call. -/
theorem C132_split (P : Collision.CDParams) (s : Sim N) (hts : 0 < s.1.params.time_step) (n : ℕ) (hn : 0 < n) {T : ℝ} (hT : 0 < T) :
    fullSimulate P s (n * s.1.params.time_step + T) = (fullSimulate P s (n * s.1.params.time_step) >>= fun s' => fullSimulate P s' T) := by
  have h1 : (0 : ℝ) < n * s.1.params.time_step := mul_pos (by exact_mod_cast hn) hts
  unfold fullSimulate
  rw [if_neg (not_le.2 (by linarith)), if_neg (not_le.2 h1)]
  simp only [if_neg (not_le.2 hT)]
  exact trips P hT n s hts

/-- **C132.** A run continues from the poses, velocities and settings alone: with any list of contact points left in the engine, and with the hierarchies as `connect_shape`
makes them instead of those the first run left, `simulate` does exactly the same. -/
theorem C132_resume {P : Collision.CDParams} {w w1 : World N} {C C1 : Fin N → Collider} (hC : HierarchiesMade C) {T1 : ℝ} (h : fullSimulate P (w, C) T1 = .ok (w1, C1))
    (L : List (ContactPoint N)) (T2 : ℝ) : fullSimulate P (w1, C1) T2 = fullSimulate P ({ w1 with contact_points := L }, C) T2 := by
  have hF : ∀ k, ∀ st ∈ (C k).bvh.chunks, Forward st := fun k st hst => by
    obtain ⟨K, M, env, h⟩ := hC k
    exact (make_bvh_fresh h st hst).1
  unfold fullSimulate
  split_ifs with hT
  · rfl
  · have ht : fullTrip P ((w1, C1), T2) = fullTrip P (({ w1 with contact_points := L }, C), T2) := by
      unfold fullTrip
      dsimp only
      rw [fullStep_eq P _ w1 L hF (simulate_later h)]
    rw [whileLoop_congr_first ht (by
      unfold fullTrip
      rw [if_neg (by dsimp only; linarith)]
      dsimp only
      intro h
      split at h <;> simp at h)]

/-- **C132.** Checkpoints: a run of n time steps, saved as poses and velocities, and continued for T in a freshly set up engine ends exactly as the run without interruption. -/
theorem C132_checkpoint {P : Collision.CDParams} {w w1 : World N} {C C1 : Fin N → Collider} (hC : HierarchiesMade C) (hts : 0 < w.params.time_step) {n : ℕ} (hn : 0 < n)
    (h : fullSimulate P (w, C) (n * w.params.time_step) = .ok (w1, C1)) (L : List (ContactPoint N)) {T : ℝ} (hT : 0 < T) :
    fullSimulate P (w, C) (n * w.params.time_step + T) = fullSimulate P ({ w1 with contact_points := L }, C) T := by
  have := C132_split P (w, C) hts n hn hT
  dsimp only at this
  rw [this, h]
  exact C132_resume hC h L T

end Verif
