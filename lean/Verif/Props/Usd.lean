import Verif.Spec.Usd
import Verif.Lemmas.Dict

/-! C117: the USD recorder, for every history of calls. -/

namespace Verif

open Usd

namespace Usd

variable {px : Pxr}

/-! ### the library -/

theorem entry_get? {υ : Type*} {d : Dict ℝ υ} (hn : d.keys.Nodup) {e : ℝ × υ} (he : e ∈ d.entries) : d.get? e.1 = some e.2 := by
  obtain ⟨i, hi, rfl⟩ := List.getElem_of_mem he
  exact Dict.get?_entry hn hi

theorem get?_mem {υ : Type*} {d : Dict ℝ υ} {t : ℝ} {v : υ} (h : d.get? t = some v) : (t, v) ∈ d.entries := by
  unfold Dict.get? at h
  obtain ⟨e, he, rfl⟩ := Option.map_eq_some_iff.1 h
  have h1 := List.mem_of_find?_eq_some he
  have h2 := List.find?_some he
  simp only [decide_eq_true_eq] at h2
  subst h2
  exact h1

theorem lower_none {t : ℝ} {L : List (ℝ × List V3)} : lower t L = none ↔ ∀ e ∈ L, t < e.1 := by
  induction L with
  | nil => simp [lower]
  | cons e L ih =>
    cases hL : lower t L with
    | none =>
      simp only [lower, hL, List.forall_mem_cons]
      have := ih.1 hL
      split_ifs with c
      · simpa using fun h => absurd h (not_lt.2 c)
      · simpa using ⟨not_le.1 c, fun a b => this (a, b)⟩
    | some b =>
      have : ¬ ∀ e ∈ L, t < e.1 := fun h => by simp [ih.2 h] at hL
      simp only [lower, hL, List.forall_mem_cons]
      constructor
      · intro h; split_ifs at h
      · intro h; exact absurd h.2 this

theorem lower_some {t : ℝ} {L : List (ℝ × List V3)} {b : ℝ × List V3} (h : lower t L = some b) : b ∈ L ∧ b.1 ≤ t ∧ ∀ e ∈ L, e.1 ≤ t → e.1 ≤ b.1 := by
  induction L generalizing b with
  | nil => simp [lower] at h
  | cons e L ih =>
    cases hL : lower t L with
    | none =>
      simp only [lower, hL] at h
      split_ifs at h with c
      obtain rfl := Option.some.inj h
      refine ⟨by simp, c, ?_⟩
      intro e' he' hle
      rcases List.mem_cons.1 he' with rfl | he'
      · exact le_refl _
      · linarith [lower_none.1 hL e' he']
    | some b' =>
      obtain ⟨h1, h2, h3⟩ := ih hL
      simp only [lower, hL] at h
      split_ifs at h with c <;> obtain rfl := Option.some.inj h
      · refine ⟨by simp, c.1, ?_⟩
        intro e' he' hle
        rcases List.mem_cons.1 he' with rfl | he'
        · exact le_refl _
        · linarith [h3 e' he' hle, c.2]
      · refine ⟨List.mem_cons_of_mem _ h1, h2, ?_⟩
        intro e' he' hle
        rcases List.mem_cons.1 he' with rfl | he'
        · by_contra c'
          exact c ⟨hle, by linarith⟩
        · exact h3 e' he' hle

theorem upper_none {t : ℝ} {L : List (ℝ × List V3)} : upper t L = none ↔ ∀ e ∈ L, e.1 < t := by
  induction L with
  | nil => simp [upper]
  | cons e L ih =>
    cases hL : upper t L with
    | none =>
      simp only [upper, hL, List.forall_mem_cons]
      have := ih.1 hL
      split_ifs with c
      · simpa using fun h => absurd h (not_lt.2 c)
      · simpa using ⟨not_le.1 c, fun a b => this (a, b)⟩
    | some b =>
      have : ¬ ∀ e ∈ L, e.1 < t := fun h => by simp [ih.2 h] at hL
      simp only [upper, hL, List.forall_mem_cons]
      constructor
      · intro h; split_ifs at h
      · intro h; exact absurd h.2 this

theorem upper_some {t : ℝ} {L : List (ℝ × List V3)} {b : ℝ × List V3} (h : upper t L = some b) : b ∈ L ∧ t ≤ b.1 ∧ ∀ e ∈ L, t ≤ e.1 → b.1 ≤ e.1 := by
  induction L generalizing b with
  | nil => simp [upper] at h
  | cons e L ih =>
    cases hL : upper t L with
    | none =>
      simp only [upper, hL] at h
      split_ifs at h with c
      obtain rfl := Option.some.inj h
      refine ⟨by simp, c, ?_⟩
      intro e' he' hle
      rcases List.mem_cons.1 he' with rfl | he'
      · exact le_refl _
      · linarith [upper_none.1 hL e' he']
    | some b' =>
      obtain ⟨h1, h2, h3⟩ := ih hL
      simp only [upper, hL] at h
      split_ifs at h with c <;> obtain rfl := Option.some.inj h
      · refine ⟨by simp, c.1, ?_⟩
        intro e' he' hle
        rcases List.mem_cons.1 he' with rfl | he'
        · exact le_refl _
        · linarith [h3 e' he' hle, c.2]
      · refine ⟨List.mem_cons_of_mem _ h1, h2, ?_⟩
        intro e' he' hle
        rcases List.mem_cons.1 he' with rfl | he'
        · by_contra c'
          exact c ⟨hle, by linarith⟩
        · exact h3 e' he' hle

section reading

variable {a : Attr} (hn : a.samples.keys.Nodup) {t t0 t1 : ℝ} {P Q : List V3}
include hn

theorem lower_eq (h0 : a.samples.get? t0 = some P) (ht : t0 ≤ t) (hg : ∀ s W, a.samples.get? s = some W → s ≤ t → s ≤ t0) :
    lower t a.samples.entries = some (t0, P) := by
  cases h : lower t a.samples.entries with
  | none => linarith [lower_none.1 h _ (get?_mem h0)]
  | some b =>
    obtain ⟨h1, h2, h3⟩ := lower_some h
    have e := entry_get? hn h1
    have : b.1 = t0 := le_antisymm (hg _ _ e h2) (h3 _ (get?_mem h0) ht)
    rw [this, h0] at e
    obtain ⟨b1, b2⟩ := b
    simp only [Option.some.injEq] at e this ⊢
    rw [this, e]

theorem upper_eq (h1 : a.samples.get? t1 = some Q) (ht : t ≤ t1) (hg : ∀ s W, a.samples.get? s = some W → t ≤ s → t1 ≤ s) :
    upper t a.samples.entries = some (t1, Q) := by
  cases h : upper t a.samples.entries with
  | none => linarith [upper_none.1 h _ (get?_mem h1)]
  | some b =>
    obtain ⟨e1, e2, e3⟩ := upper_some h
    have e := entry_get? hn e1
    have : b.1 = t1 := le_antisymm (e3 _ (get?_mem h1) ht) (hg _ _ e e2)
    rw [this, h1] at e
    obtain ⟨b1, b2⟩ := b
    simp only [Option.some.injEq] at e this ⊢
    rw [this, e]

theorem lower_eq_none (hg : ∀ s W, a.samples.get? s = some W → t < s) : lower t a.samples.entries = none :=
  lower_none.2 fun _ he => hg _ _ (entry_get? hn he)

theorem upper_eq_none (hg : ∀ s W, a.samples.get? s = some W → s < t) : upper t a.samples.entries = none :=
  upper_none.2 fun _ he => hg _ _ (entry_get? hn he)

theorem get_at (h0 : a.samples.get? t = some P) : a.get t = some P := by
  unfold Attr.get
  rw [lower_eq hn h0 (le_refl t) (fun _ _ _ h => h), upper_eq hn h0 (le_refl t) (fun _ _ _ h => h)]
  simp

theorem get_between (h0 : a.samples.get? t0 = some P) (h1 : a.samples.get? t1 = some Q) (ht0 : t0 < t) (ht1 : t < t1)
    (hg : ∀ s W, a.samples.get? s = some W → s ≤ t0 ∨ t1 ≤ s) :
    a.get t = some (if P.length = Q.length then List.zipWith (lerp ((t - t0) / (t1 - t0))) P Q else P) := by
  unfold Attr.get
  rw [lower_eq hn h0 ht0.le (fun s W h hs => (hg s W h).resolve_right (by linarith)),
    upper_eq hn h1 ht1.le (fun s W h hs => (hg s W h).resolve_left (by linarith))]
  have : t0 ≠ t1 := by linarith
  simp only [this, if_false]
  split_ifs <;> rfl

theorem get_before (h1 : a.samples.get? t1 = some Q) (ht1 : t < t1) (hg : ∀ s W, a.samples.get? s = some W → t1 ≤ s) : a.get t = some Q := by
  unfold Attr.get
  rw [lower_eq_none hn (fun s W h => by linarith [hg s W h]), upper_eq hn h1 ht1.le (fun s W h _ => hg s W h)]

theorem get_after (h0 : a.samples.get? t0 = some P) (ht0 : t0 < t) (hg : ∀ s W, a.samples.get? s = some W → s ≤ t0) : a.get t = some P := by
  unfold Attr.get
  rw [upper_eq_none hn (fun s W h => by linarith [hg s W h]), lower_eq hn h0 ht0.le (fun s W h _ => hg s W h)]

theorem get_default (hg : ∀ s, a.samples.get? s = none) : a.get t = a.dflt := by
  unfold Attr.get
  rw [lower_eq_none hn (fun s W h => by simp [hg s] at h), upper_eq_none hn (fun s W h => by simp [hg s] at h)]

/-- A read finds the default or what some sample says (as many points as some sample has). -/
theorem get_some (hd : a.samples.entries = [] → ∃ W, a.dflt = some W ∧ W ≠ []) (hs : ∀ s W, a.samples.get? s = some W → W ≠ []) :
    ∃ W, a.get t = some W ∧ W ≠ [] := by
  unfold Attr.get
  cases hl : lower t a.samples.entries with
  | none =>
    cases hu : upper t a.samples.entries with
    | none =>
      have e : a.samples.entries = [] := by
        by_contra hne
        obtain ⟨e, he⟩ := List.exists_mem_of_ne_nil _ hne
        have h1 := lower_none.1 hl e he
        have h2 := upper_none.1 hu e he
        linarith
      exact hd e
    | some b => exact ⟨_, rfl, hs _ _ (entry_get? hn (upper_some hu).1)⟩
  | some b =>
    have hb := hs _ _ (entry_get? hn (lower_some hl).1)
    cases hu : upper t a.samples.entries with
    | none => exact ⟨_, rfl, hb⟩
    | some c =>
      dsimp only
      split_ifs with c1 c2
      · exact ⟨_, rfl, hb⟩
      · refine ⟨_, rfl, ?_⟩
        intro h
        have := congrArg List.length h
        simp only [List.length_zipWith, ← c2, min_self, List.length_nil] at this
        exact hb (List.length_eq_zero_iff.1 this)
      · exact ⟨_, rfl, hb⟩

end reading

/-! ### what each call does to the prim and the handle of a name -/

theorem define_get? (s : Stage) (n m : String) :
    (s.define n).prims.get? m = if m = n then some ((s.prims.get? n).getD .fresh) else s.prims.get? m := by
  unfold Stage.define
  split_ifs with c e e
  · subst e
    obtain ⟨v, hv⟩ := Dict.mem_iff_get?.1 c
    simp [hv]
  · rfl
  · subst e
    have : s.prims.get? m = none := (Dict.get?_eq_none _ _).2 (by simpa using c)
    simp [Dict.get?_setItem_self, this]
  · simp [Dict.get?_setItem_ne _ _ e]

theorem edit_get? (s : Stage) (n m : String) (f : Prim → Prim) :
    (s.edit n f).prims.get? m = if m = n then (s.prims.get? n).map f else s.prims.get? m := by
  unfold Stage.edit
  cases h : s.prims.get? n with
  | none => split_ifs with e <;> simp [*]
  | some p => split_ifs with e <;> simp [*, Dict.get?_setItem_self, Dict.get?_setItem_ne]

/-- The prim of the name after the call. -/
noncomputable def primAfter (px : Pxr) (h : Option Handle) (p : Option Prim) (n : String) : Call → Option Prim
  | .addRigid m V T => if m = n ∧ h = none ∧ px.legal n = true then
      some { (p.getD .fresh) with points := { (p.getD .fresh).points with dflt := some (px.vec3f V) }
                                  indices := some (T.flatMap fun t => [t.1, t.2.1, t.2.2])
                                  counts := some (List.replicate T.length 3) } else p
  | .updateRigid m r q t => if m = n ∧ h = some .rigid ∧ r.length = 3 then
      p.map fun p => { p with ops := if q.length = 4 then setOp .orient q t (setOp .translate r t p.ops) else setOp .translate r t p.ops } else p
  | .addMesh m V T => if m = n ∧ px.legal n = true then
      some { (p.getD .fresh) with points := { (p.getD .fresh).points with dflt := some (px.vec3f V) }
                                  counts := some (T.map List.length)
                                  indices := if T = [] then (p.getD .fresh).indices else some T.flatten } else p
  | .setPositions m V t => if m = n ∧ h = some .mesh then
      p.map fun p => { p with points := { p.points with samples := p.points.samples.setItem t (px.vec3f V) } } else p
  | _ => p

/-- The handle of the name after the call. -/
def handleAfter (px : Pxr) (h : Option Handle) (n : String) : Call → Option Handle
  | .addRigid m _ _ => if m = n ∧ h = none ∧ px.legal n = true then some .rigid else h
  | .addMesh m _ T => if m = n ∧ px.legal n = true ∧ T ≠ [] then some .mesh else h
  | _ => h

theorem call_prim (u : USD) (c : Call) (n : String) :
    (call px u c).2.stage.prims.get? n = primAfter px (u.meshes.get? n) (u.stage.prims.get? n) n c := by
  cases c with
  | addRigid m V T =>
    simp only [call, add_rigid_body, primAfter]
    by_cases c1 : u.meshes.mem m = true
    · have : ¬ (m = n ∧ u.meshes.get? n = none ∧ px.legal n = true) := by
        rintro ⟨rfl, h, -⟩
        rw [Dict.get?_eq_none] at h
        simp [h] at c1
      simp [c1, this]
    · have h0 : u.meshes.get? m = none := (Dict.get?_eq_none _ _).2 (by simpa using c1)
      by_cases c2 : px.legal m = false
      · have : ¬ (m = n ∧ u.meshes.get? n = none ∧ px.legal n = true) := by
          rintro ⟨rfl, -, h⟩
          simp [h] at c2
        simp [c1, c2, this]
      · have c2' : px.legal m = true := by simpa using c2
        rw [if_neg c1, if_neg c2]
        simp only [edit_get?, define_get?]
        by_cases e : n = m
        · subst e
          simp [h0, c2']
        · simp [e, Ne.symm e]
  | updateRigid m r q t =>
    simp only [call, update_rigid_body, primAfter]
    cases hm : u.meshes.get? m with
    | none =>
      have : ¬ (m = n ∧ u.meshes.get? n = some .rigid ∧ r.length = 3) := by
        rintro ⟨rfl, h, -⟩
        simp [hm] at h
      simp [this]
    | some hh =>
      cases hh with
      | mesh =>
        have : ¬ (m = n ∧ u.meshes.get? n = some .rigid ∧ r.length = 3) := by
          rintro ⟨rfl, h, -⟩
          simp [hm] at h
        simp [this]
      | rigid =>
        by_cases c1 : r.length = 3
        · by_cases c2 : q.length = 4
          · simp only [set_translation, set_orientation, c1, c2, ne_eq, not_true_eq_false, if_false, edit_get?]
            by_cases e : n = m
            · subst e; simp [hm]; rfl
            · simp [e, Ne.symm e]
          · simp only [set_translation, set_orientation, c1, c2, ne_eq, not_true_eq_false, if_false, edit_get?]
            by_cases e : n = m
            · subst e; simp [hm, edit_get?]
            · simp [e, Ne.symm e, edit_get?]
        · simp [set_translation, c1]
  | addMesh m V T =>
    simp only [call, add_mesh, primAfter]
    by_cases c2 : px.legal m = false
    · have : ¬ (m = n ∧ px.legal n = true) := by
        rintro ⟨rfl, h⟩
        simp [h] at c2
      simp [c2, this]
    · have c2' : px.legal m = true := by simpa using c2
      rw [if_neg c2]
      by_cases cT : T = []
      · simp only [cT, if_true, edit_get?, define_get?]
        by_cases e : n = m
        · subst e; simp [c2']
        · simp [e, Ne.symm e]
      · simp only [cT, if_false, edit_get?, define_get?]
        by_cases e : n = m
        · subst e; simp [c2']
        · simp [e, Ne.symm e]
  | setPositions m V t =>
    simp only [call, set_mesh_positions, primAfter]
    cases hm : u.meshes.get? m with
    | none =>
      have : ¬ (m = n ∧ u.meshes.get? n = some .mesh) := by
        rintro ⟨rfl, h⟩
        simp [hm] at h
      simp [this]
    | some hh =>
      cases hh with
      | rigid =>
        have : ¬ (m = n ∧ u.meshes.get? n = some .mesh) := by
          rintro ⟨rfl, h⟩
          simp [hm] at h
        simp [this]
      | mesh =>
        simp only [edit_get?]
        by_cases e : n = m
        · subst e; simp [hm]
        · simp [e, Ne.symm e]
  | setTime d => rfl
  | setFps f => rfl
  | save => rfl

theorem call_handle (u : USD) (c : Call) (n : String) : (call px u c).2.meshes.get? n = handleAfter px (u.meshes.get? n) n c := by
  cases c with
  | addRigid m V T =>
    simp only [call, add_rigid_body, handleAfter]
    by_cases c1 : u.meshes.mem m = true
    · have : ¬ (m = n ∧ u.meshes.get? n = none ∧ px.legal n = true) := by
        rintro ⟨rfl, h, -⟩
        rw [Dict.get?_eq_none] at h
        simp [h] at c1
      simp [c1, this]
    · have h0 : u.meshes.get? m = none := (Dict.get?_eq_none _ _).2 (by simpa using c1)
      by_cases c2 : px.legal m = false
      · have : ¬ (m = n ∧ u.meshes.get? n = none ∧ px.legal n = true) := by
          rintro ⟨rfl, -, h⟩
          simp [h] at c2
        simp [c1, c2, this]
      · have c2' : px.legal m = true := by simpa using c2
        rw [if_neg c1, if_neg c2]
        by_cases e : n = m
        · subst e
          simp [h0, c2', Dict.get?_setItem_self]
        · simp [e, Ne.symm e, Dict.get?_setItem_ne]
  | updateRigid m r q t =>
    simp only [call, update_rigid_body, handleAfter]
    split
    · rfl
    · rfl
    · split
      · rfl
      · split <;> rfl
  | addMesh m V T =>
    simp only [call, add_mesh, handleAfter]
    by_cases c2 : px.legal m = false
    · have : ¬ (m = n ∧ px.legal n = true ∧ T ≠ []) := by
        rintro ⟨rfl, h, -⟩
        simp [h] at c2
      simp [c2, this]
    · have c2' : px.legal m = true := by simpa using c2
      rw [if_neg c2]
      by_cases cT : T = []
      · simp [cT]
      · by_cases e : n = m
        · subst e; simp [c2', cT, Dict.get?_setItem_self]
        · simp [e, Ne.symm e, cT, Dict.get?_setItem_ne]
  | setPositions m V t =>
    simp only [call, set_mesh_positions, handleAfter]
    split <;> rfl
  | setTime d => rfl
  | setFps f => rfl
  | save => rfl

theorem run_append (u : USD) (h h' : List Call) : run px u (h ++ h') = run px (run px u h) h' := List.foldl_append
theorem run_snoc (u : USD) (h : List Call) (c : Call) : run px u (h ++ [c]) = (call px (run px u h) c).2 := by rw [run_append]; rfl

/-! ### every history -/

/-- The transforms a prim can have. -/
def OpsShape (ops : List XOp) : Prop := ops = [] ∨ (∃ a, ops = [⟨.translate, a⟩]) ∨ ∃ a b, ops = [⟨.translate, a⟩, ⟨.orient, b⟩]

theorem shape_update {ops : List XOp} (h : OpsShape ops) (r q : List ℝ) (t : ℝ) :
    OpsShape (setOp .translate r t ops) ∧ OpsShape (setOp .orient q t (setOp .translate r t ops)) := by
  rcases h with rfl | ⟨a, rfl⟩ | ⟨a, b, rfl⟩ <;> simp [setOp, OpsShape]

/-- What holds of a name in every reachable state. -/
structure Sound (h : Option Handle) (p : Option Prim) : Prop where
  here : h ≠ none → ∃ q, p = some q ∧ q.points.dflt ≠ none
  nodup : ∀ q, p = some q → q.points.samples.keys.Nodup
  shape : ∀ q, p = some q → OpsShape q.ops

theorem sound_after {h : Option Handle} {p : Option Prim} (hs : Sound h p) (n : String) (c : Call) :
    Sound (handleAfter px h n c) (primAfter px h p n c) := by
  have hfresh : (p.getD .fresh).points.samples.keys.Nodup ∧ OpsShape (p.getD .fresh).ops := by
    cases p with
    | none => exact ⟨by simp [Prim.fresh, Dict.keys, Dict.empty], Or.inl rfl⟩
    | some q => exact ⟨hs.nodup q rfl, hs.shape q rfl⟩
  cases c with
  | addRigid m V T =>
    simp only [handleAfter, primAfter]
    split_ifs with c
    · refine ⟨fun _ => ⟨_, rfl, by simp⟩, ?_, ?_⟩
      · rintro q hq; obtain rfl := Option.some.inj hq; exact hfresh.1
      · rintro q hq; obtain rfl := Option.some.inj hq; exact hfresh.2
    · exact hs
  | updateRigid m r q t =>
    simp only [handleAfter, primAfter]
    split_ifs with c c2
    · obtain ⟨q, rfl, hd⟩ := hs.here (by simp [c.2.1])
      refine ⟨fun _ => ⟨_, rfl, hd⟩, ?_, ?_⟩
      · rintro q' hq; obtain rfl := Option.some.inj hq; exact hs.nodup q rfl
      · rintro q' hq; obtain rfl := Option.some.inj hq; exact (shape_update (hs.shape q rfl) _ _ _).2
    · obtain ⟨q, rfl, hd⟩ := hs.here (by simp [c.2.1])
      refine ⟨fun _ => ⟨_, rfl, hd⟩, ?_, ?_⟩
      · rintro q' hq; obtain rfl := Option.some.inj hq; exact hs.nodup q rfl
      · rintro q' hq; obtain rfl := Option.some.inj hq; exact (shape_update (hs.shape q rfl) _ [] _).1
    · exact hs
  | addMesh m V T =>
    simp only [handleAfter, primAfter]
    by_cases c : m = n ∧ px.legal n = true
    · rw [if_pos c]
      refine ⟨fun _ => ⟨_, rfl, by simp⟩, ?_, ?_⟩
      · rintro q hq; obtain rfl := Option.some.inj hq; exact hfresh.1
      · rintro q hq; obtain rfl := Option.some.inj hq; exact hfresh.2
    · rw [if_neg c, if_neg (fun h => c ⟨h.1, h.2.1⟩)]
      exact hs
  | setPositions m V t =>
    simp only [handleAfter, primAfter]
    split_ifs with c
    · obtain ⟨q, rfl, hd⟩ := hs.here (by simp [c.2])
      refine ⟨fun _ => ⟨_, rfl, hd⟩, ?_, ?_⟩
      · rintro q' hq; obtain rfl := Option.some.inj hq; exact Dict.nodup_setItem _ _ _ (hs.nodup q rfl)
      · rintro q' hq; obtain rfl := Option.some.inj hq; exact hs.shape q rfl
    · exact hs
  | setTime d => exact hs
  | setFps f => exact hs
  | save => exact hs

theorem sound (px : Pxr) (h : List Call) (n : String) : Sound ((run px new h).meshes.get? n) ((run px new h).stage.prims.get? n) := by
  induction h using List.reverseRecOn with
  | nil => exact ⟨fun h => absurd rfl h, fun q h => (by cases h), fun q h => (by cases h)⟩
  | append_singleton h c ih =>
    rw [run_snoc, call_prim, call_handle]
    exact sound_after ih n c

/-- A mesh stays a mesh. -/
theorem mesh_stays {u : USD} {n : String} (hm : u.meshes.get? n = some .mesh) (h : List Call) : (run px u h).meshes.get? n = some .mesh := by
  induction h using List.reverseRecOn with
  | nil => exact hm
  | append_singleton h c ih =>
    rw [run_snoc, call_handle, ih]
    cases c <;> simp [handleAfter]

/-- A name that is known stays known. -/
theorem handle_stays {u : USD} {n : String} (hm : u.meshes.get? n ≠ none) (h : List Call) : (run px u h).meshes.get? n ≠ none := by
  induction h using List.reverseRecOn with
  | nil => exact hm
  | append_singleton h c ih =>
    rw [run_snoc, call_handle]
    cases c <;> simp only [handleAfter] <;> first | exact ih | (split_ifs <;> first | exact ih | simp)

/-- The sample of the points of a prim at a time. -/
noncomputable def sampleAt (p : Option Prim) (t : ℝ) : Option (List V3) := p.bind fun q => q.points.samples.get? t

theorem sample_after {h : Option Handle} {p : Option Prim} (hs : Sound h p) (n : String) (c : Call) (t : ℝ) :
    sampleAt (primAfter px h p n c) t = match c with
      | .setPositions m V t' => if m = n ∧ h = some .mesh ∧ t' = t then some (px.vec3f V) else sampleAt p t
      | _ => sampleAt p t := by
  have hfresh : (p.getD .fresh).points.samples.get? t = sampleAt p t := by
    cases p <;> rfl
  cases c with
  | addRigid m V T => simp only [primAfter]; split_ifs <;> first | rfl | exact hfresh
  | updateRigid m r q t' => simp only [primAfter]; split_ifs <;> cases p <;> rfl
  | addMesh m V T => simp only [primAfter]; split_ifs <;> first | rfl | exact hfresh
  | setPositions m V t' =>
    simp only [primAfter]
    by_cases c : m = n ∧ h = some .mesh
    · obtain ⟨q, rfl, hd⟩ := hs.here (by simp [c.2])
      rw [if_pos c]
      simp only [sampleAt, Option.map_some, Option.bind_some, Dict.get?_setItem, c.1, c.2, true_and]
      by_cases e : t = t'
      · subst e; simp
      · simp [e, Ne.symm e]
    · rw [if_neg c, if_neg (fun h => c ⟨h.1, h.2.1⟩)]
  | setTime d => rfl
  | setFps f => rfl
  | save => rfl

theorem set_ok {u : USD} {n : String} {V : List V3} {t : ℝ} : (call px u (.setPositions n V t)).1 = .ok () ↔ u.meshes.get? n = some .mesh := by
  simp only [call, set_mesh_positions]
  split <;> simp_all

theorem Recorded.snoc {h : List Call} {n : String} {t : ℝ} {V : List V3} {c : Call} :
    Recorded px (h ++ [c]) n t V ↔ (c = .setPositions n V t ∧ (run px new h).meshes.get? n = some .mesh) ∨
      (Recorded px h n t V ∧ ∀ W, c ≠ .setPositions n W t) := by
  constructor
  · rintro ⟨h1, h2, e, ok, later⟩
    rcases List.eq_nil_or_concat h2 with rfl | ⟨h2', c', rfl⟩
    · obtain ⟨rfl, e'⟩ := List.append_inj' e rfl
      obtain rfl := (List.cons.inj e').1
      exact Or.inl ⟨rfl, set_ok.1 ok⟩
    · rw [List.concat_eq_append, ← List.cons_append, ← List.append_assoc] at e
      obtain ⟨rfl, e'⟩ := List.append_inj' e rfl
      obtain rfl := (List.cons.inj e').1
      refine Or.inr ⟨⟨h1, h2', rfl, ok, fun W hW => later W (by simp [hW])⟩, fun W hW => later W (by simp [hW])⟩
  · rintro (⟨rfl, hm⟩ | ⟨⟨h1, h2, rfl, ok, later⟩, hc⟩)
    · exact ⟨h, [], rfl, set_ok.2 hm, by simp⟩
    · refine ⟨h1, h2 ++ [c], by simp, ok, fun W hW => ?_⟩
      rcases List.mem_append.1 hW with hW | hW
      · exact later W hW
      · exact hc W (by simpa using (List.mem_singleton.1 hW).symm)

/-- The samples in the stage are what the history recorded. -/
theorem sample_iff (px : Pxr) (h : List Call) (n : String) (t : ℝ) (X : List V3) :
    sampleAt ((run px new h).stage.prims.get? n) t = some X ↔ ∃ V, Recorded px h n t V ∧ X = px.vec3f V := by
  induction h using List.reverseRecOn generalizing X with
  | nil =>
    constructor
    · intro h; cases h
    · rintro ⟨V, ⟨h1, h2, e, -, -⟩, -⟩; simp at e
  | append_singleton h c ih =>
    rw [run_snoc, call_prim, sample_after (sound px h n)]
    simp only [Recorded.snoc]
    cases c with
    | setPositions m W s =>
      dsimp only
      by_cases c : m = n ∧ (run px new h).meshes.get? n = some .mesh ∧ s = t
      · obtain ⟨rfl, hm, rfl⟩ := c
        rw [if_pos ⟨rfl, hm, rfl⟩]
        constructor
        · intro e
          exact ⟨W, Or.inl ⟨rfl, hm⟩, (Option.some.inj e).symm⟩
        · rintro ⟨V, ⟨e, -⟩ | ⟨-, e⟩, rfl⟩
          · cases e; rfl
          · exact absurd rfl (e W)
      · rw [if_neg c, ih]
        constructor
        · rintro ⟨V, hV, rfl⟩
          refine ⟨V, Or.inr ⟨hV, ?_⟩, rfl⟩
          rintro W' e
          cases e
          obtain ⟨h1, h2, rfl, ok, -⟩ := hV
          refine c ⟨rfl, ?_, rfl⟩
          rw [run_append]
          exact mesh_stays (set_ok.1 ok) _
        · rintro ⟨V, ⟨e, hm⟩ | ⟨hV, -⟩, rfl⟩
          · cases e; exact absurd ⟨rfl, hm, rfl⟩ c
          · exact ⟨V, hV, rfl⟩
    | _ =>
      dsimp only
      rw [ih]
      simp

theorem Recorded.mesh {h : List Call} {n : String} {t : ℝ} {V : List V3} (hV : Recorded px h n t V) : (run px new h).meshes.get? n = some .mesh := by
  obtain ⟨h1, h2, rfl, ok, -⟩ := hV
  rw [run_append]
  exact mesh_stays (set_ok.1 ok) _

theorem vec3f_length (V : List V3) : (px.vec3f V).length = V.length := by simp [Pxr.vec3f]
theorem vec3f_ne {V : List V3} (h : V ≠ []) : px.vec3f V ≠ [] := by simpa [Pxr.vec3f] using h

/-- What a read of a mesh returns, from what is read in the prim. -/
theorem get_positions {u : USD} {n : String} {t : ℝ} {W : List V3} {p : Prim} (hm : u.meshes.get? n = some .mesh) (hp : u.stage.prims.get? n = some p)
    (hW : p.points.get t = some W) (hne : W ≠ []) : get_mesh_positions u n t = .ok W := by
  cases W with
  | nil => exact absurd rfl hne
  | cons a L => simp only [get_mesh_positions, hm, hp, Option.bind_some, hW]

end Usd

open Usd in
/-- The positions recorded last for a mesh and a time are read back, whatever was recorded for other times and meshes before and after, even if the mesh
was added again in between: then its old animation goes on. -/
theorem C117_last_write {px : Pxr} {h : List Call} {name : String} {t : ℝ} {V : List V3} (hV : Recorded px h name t V) (hne : V ≠ []) :
    get_mesh_positions (run px new h) name t = .ok (px.vec3f V) := by
  have hs := sound px h name
  obtain ⟨p, hp, -⟩ := hs.here (by simp [hV.mesh])
  have h1 := (sample_iff px h name t _).2 ⟨V, hV, rfl⟩
  rw [hp] at h1
  exact get_positions hV.mesh hp (get_at (hs.nodup p hp) h1) (vec3f_ne hne)

open Usd in
/-- At a time between two recorded times the positions are interpolated linearly (if the two have as many points; else the earlier ones hold). -/
theorem C117_between {px : Pxr} {h : List Call} {name : String} {t t0 t1 : ℝ} {P Q : List V3} (hP : Recorded px h name t0 P)
    (hQ : Recorded px h name t1 Q) (ht0 : t0 < t) (ht1 : t < t1) (hnone : ∀ s W, Recorded px h name s W → s ≤ t0 ∨ t1 ≤ s) (hne : P ≠ []) :
    get_mesh_positions (run px new h) name t =
      .ok (if P.length = Q.length then List.zipWith (lerp ((t - t0) / (t1 - t0))) (px.vec3f P) (px.vec3f Q) else px.vec3f P) := by
  have hs := sound px h name
  obtain ⟨p, hp, -⟩ := hs.here (by simp [hP.mesh])
  have h0 := (sample_iff px h name t0 _).2 ⟨P, hP, rfl⟩
  have h1 := (sample_iff px h name t1 _).2 ⟨Q, hQ, rfl⟩
  have hg : ∀ s W, p.points.samples.get? s = some W → s ≤ t0 ∨ t1 ≤ s := by
    intro s W hW
    obtain ⟨V, hV, -⟩ := (sample_iff px h name s W).1 (by rw [hp]; exact hW)
    exact hnone s V hV
  rw [hp] at h0 h1
  have := get_between (hs.nodup p hp) h0 h1 ht0 ht1 hg
  simp only [vec3f_length] at this
  refine get_positions hP.mesh hp this ?_
  split_ifs with c
  · intro e
    have := congrArg List.length e
    simp only [List.length_zipWith, vec3f_length, ← c, min_self, List.length_nil] at this
    exact hne (List.length_eq_zero_iff.1 this)
  · exact vec3f_ne hne

open Usd in
/-- Before the first recorded time the first positions hold, after the last the last. -/
theorem C117_outside {px : Pxr} {h : List Call} {name : String} {t t0 : ℝ} {P : List V3} (hP : Recorded px h name t0 P) (hne : P ≠ [])
    (hout : (t < t0 ∧ ∀ s W, Recorded px h name s W → t0 ≤ s) ∨ (t0 < t ∧ ∀ s W, Recorded px h name s W → s ≤ t0)) :
    get_mesh_positions (run px new h) name t = .ok (px.vec3f P) := by
  have hs := sound px h name
  obtain ⟨p, hp, -⟩ := hs.here (by simp [hP.mesh])
  have h0 := (sample_iff px h name t0 _).2 ⟨P, hP, rfl⟩
  have hrec : ∀ s W, p.points.samples.get? s = some W → ∃ V, Recorded px h name s V := by
    intro s W hW
    obtain ⟨V, hV, -⟩ := (sample_iff px h name s W).1 (by rw [hp]; exact hW)
    exact ⟨V, hV⟩
  rw [hp] at h0
  rcases hout with ⟨ht, hall⟩ | ⟨ht, hall⟩
  · refine get_positions hP.mesh hp (get_before (hs.nodup p hp) h0 ht fun s W hW => ?_) (vec3f_ne hne)
    obtain ⟨V, hV⟩ := hrec s W hW
    exact hall s V hV
  · refine get_positions hP.mesh hp (get_after (hs.nodup p hp) h0 ht fun s W hW => ?_) (vec3f_ne hne)
    obtain ⟨V, hV⟩ := hrec s W hW
    exact hall s V hV

namespace Usd

variable {px : Pxr}

/-- The default positions change only by an `add`. -/
theorem dflt_stays {u : USD} {n : String} {p : Prim} (hm : u.meshes.get? n ≠ none) (hp : u.stage.prims.get? n = some p) {h : List Call}
    (hno : ∀ W T, Call.addMesh n W T ∉ h) : ∃ p', (run px u h).stage.prims.get? n = some p' ∧ p'.points.dflt = p.points.dflt := by
  induction h using List.reverseRecOn with
  | nil => exact ⟨p, hp, rfl⟩
  | append_singleton h c ih =>
    obtain ⟨p', e1, e2⟩ := ih fun W T hW => hno W T (by simp [hW])
    rw [run_snoc, call_prim, e1]
    have hk := handle_stays (px := px) hm h
    cases c with
    | addRigid m V T => simp only [primAfter]; rw [if_neg (fun c => hk c.2.1)]; exact ⟨p', rfl, e2⟩
    | updateRigid m r q t => simp only [primAfter]; split_ifs <;> exact ⟨_, rfl, e2⟩
    | addMesh m V T =>
      have : ¬ (m = n ∧ px.legal n = true) := by rintro ⟨rfl, -⟩; exact hno V T (by simp)
      simp only [primAfter]; rw [if_neg this]; exact ⟨p', rfl, e2⟩
    | setPositions m V t => simp only [primAfter]; split_ifs <;> exact ⟨_, rfl, e2⟩
    | setTime d => exact ⟨p', rfl, e2⟩
    | setFps f => exact ⟨p', rfl, e2⟩
    | save => exact ⟨p', rfl, e2⟩

theorem add_ok {u : USD} {n : String} {V : List V3} {T : List (List ℕ)} :
    (call px u (.addMesh n V T)).1 = .ok () ↔ px.legal n = true ∧ T ≠ [] := by
  simp only [call, add_mesh]
  split_ifs with c1 c2 <;> simp_all

theorem Added.state {h : List Call} {n : String} {V : List V3} (hV : Added px h n V) : (run px new h).meshes.get? n = some .mesh ∧
    ∃ p, (run px new h).stage.prims.get? n = some p ∧ p.points.dflt = some (px.vec3f V) := by
  obtain ⟨h1, h2, T, rfl, ok, later⟩ := hV
  obtain ⟨k1, k2⟩ := add_ok.1 ok
  have hm : (call px (run px new h1) (.addMesh n V T)).2.meshes.get? n = some .mesh := by
    rw [call_handle]; simp [handleAfter, k1, k2]
  have hp := call_prim (px := px) (run px new h1) (.addMesh n V T) n
  simp only [primAfter, k1, and_self, if_true] at hp
  rw [run_append]
  refine ⟨mesh_stays hm h2, ?_⟩
  obtain ⟨p', e1, e2⟩ := dflt_stays (px := px) (by simp [hm]) hp later
  exact ⟨p', e1, e2⟩

theorem keys_nil {υ : Type*} {d : Dict ℝ υ} (h : ∀ t, d.get? t = none) : d.entries = [] := by
  by_contra hne
  obtain ⟨e, he⟩ := List.exists_mem_of_ne_nil _ hne
  have := h e.1
  rw [Dict.get?_eq_none] at this
  have h2 : d.mem e.1 = true := by
    unfold Dict.mem
    exact List.any_eq_true.2 ⟨e, he, by simp⟩
  simp [this] at h2

end Usd

open Usd in
/-- A mesh for which nothing was recorded stands at every time where it was added. -/
theorem C117_default {px : Pxr} {h : List Call} {name : String} {V : List V3} (hV : Added px h name V) (hne : V ≠ [])
    (hnone : ∀ s W, ¬ Recorded px h name s W) (t : ℝ) : get_mesh_positions (run px new h) name t = .ok (px.vec3f V) := by
  have hs := sound px h name
  obtain ⟨hm, p, hp, hd⟩ := hV.state
  refine get_positions hm hp ?_ (vec3f_ne hne)
  rw [get_default (hs.nodup p hp), hd]
  intro s
  cases hW : p.points.samples.get? s with
  | none => rfl
  | some W =>
    obtain ⟨V', hV', -⟩ := (sample_iff px h name s W).1 (by rw [hp]; exact hW)
    exact absurd hV' (hnone s V')

open Usd in
/-- The documentation promises a `ValueError` for a time at which nothing was recorded.  No history gives one: a mesh that was added, and never with an
empty list of positions, has positions at every time. -/
theorem C117_never_unset {px : Pxr} {h : List Call} {name : String} {V : List V3} (hV : Added px h name V) (hne : V ≠ [])
    (hW : ∀ s W, Recorded px h name s W → W ≠ []) (t : ℝ) : ∃ W, W ≠ [] ∧ get_mesh_positions (run px new h) name t = .ok W := by
  have hs := sound px h name
  obtain ⟨hm, p, hp, hd⟩ := hV.state
  have hsome := get_some (t := t) (hs.nodup p hp) (fun _ => ⟨_, hd, vec3f_ne hne⟩) (by
    intro s W e
    obtain ⟨V', hV', rfl⟩ := (sample_iff px h name s W).1 (by rw [hp]; exact e)
    exact vec3f_ne (hW s V' hV'))
  obtain ⟨W, e, hne'⟩ := hsome
  exact ⟨W, hne', get_positions hm hp e hne'⟩

open Usd in
/-- Calls for other names do not touch a mesh or rigid body. -/
theorem C117_others (px : Pxr) (u : USD) (name : String) (c : Call)
    (hc : match c with
      | .addRigid m _ _ => m ≠ name
      | .updateRigid m _ _ _ => m ≠ name
      | .addMesh m _ _ => m ≠ name
      | .setPositions m _ _ => m ≠ name
      | _ => True) :
    (call px u c).2.stage.prims.get? name = u.stage.prims.get? name ∧ (call px u c).2.meshes.get? name = u.meshes.get? name := by
  rw [call_prim, call_handle]
  cases c <;> simp_all [primAfter, handleAfter]

open Usd in
/-- What each call raises, exactly. -/
theorem C117_errors (px : Pxr) (u : USD) (name : String) :
    (∀ V T, (add_rigid_body px u name V T).1 =
      if u.meshes.get? name ≠ none then .error .valueError else if px.legal name then .ok () else .error .runtimeError) ∧
    (∀ V T, (add_mesh px u name V T).1 =
      if px.legal name = false then .error .runtimeError else if T = [] then .error .valueError else .ok ()) ∧
    (∀ r q t, (update_rigid_body u name r q t).1 =
      if u.meshes.get? name = none then .error .valueError else if u.meshes.get? name = some .mesh then .error .typeError
      else if r.length = 3 ∧ q.length = 4 then .ok () else .error .valueError) ∧
    (∀ V t, (set_mesh_positions px u name V t).1 =
      if u.meshes.get? name = none then .error .valueError else if u.meshes.get? name = some .rigid then .error .attributeError else .ok ()) := by
  refine ⟨fun V T => ?_, fun V T => ?_, fun r q t => ?_, fun V t => ?_⟩
  · unfold add_rigid_body
    by_cases c : u.meshes.mem name = true
    · have : u.meshes.get? name ≠ none := by
        intro h; rw [Dict.get?_eq_none] at h; simp [h] at c
      simp [c, this]
    · have : u.meshes.get? name = none := (Dict.get?_eq_none _ _).2 (by simpa using c)
      cases h : px.legal name <;> simp [c, this]
  · unfold add_mesh
    split_ifs <;> rfl
  · unfold update_rigid_body set_translation set_orientation
    cases h : u.meshes.get? name with
    | none => simp
    | some hh =>
      cases hh with
      | mesh => simp
      | rigid =>
        by_cases c1 : r.length = 3
        · by_cases c2 : q.length = 4 <;> simp [c1, c2]
        · simp [c1]
  · unfold set_mesh_positions
    cases h : u.meshes.get? name with
    | none => simp
    | some hh => cases hh <;> simp

open Usd in
/-- A call that raises changes nothing, except for two: `update_rigid_body` with a sound translation and an orientation that has not four numbers, and
`add_mesh` without faces. -/
theorem C117_atomic_partial (px : Pxr) (u : USD) (c : Call) (e : PyErr) (he : (call px u c).1 = .error e)
    (h1 : ∀ n r q t, c = .updateRigid n r q t → r.length = 3 → q.length = 4) (h2 : ∀ n V T, c = .addMesh n V T → T ≠ []) : (call px u c).2 = u := by
  cases c with
  | addRigid m V T =>
    simp only [call, add_rigid_body] at he ⊢
    split_ifs at he ⊢ <;> first | rfl | (simp at he)
  | updateRigid m r q t =>
    simp only [call, update_rigid_body, set_translation, set_orientation] at he ⊢
    cases h : u.meshes.get? m with
    | none => rfl
    | some hh =>
      cases hh with
      | mesh => rfl
      | rigid =>
        by_cases c1 : r.length = 3
        · simp [h, c1, h1 _ _ _ _ rfl c1] at he
        · simp [c1]
  | addMesh m V T =>
    simp only [call, add_mesh, h2 _ _ _ rfl, if_false] at he ⊢
    split_ifs at he ⊢ <;> first | rfl | (simp at he)
  | setPositions m V t =>
    simp only [call, set_mesh_positions] at he ⊢
    cases h : u.meshes.get? m with
    | none => rfl
    | some hh => cases hh <;> simp_all
  | setTime d => simp [call] at he
  | setFps f => simp [call] at he
  | save => simp [call] at he

open Usd in
/-- The two exceptions: the call raises and yet the body is moved for that time, or the mesh gets new vertices. -/
theorem C117_not_atomic (px : Pxr) (hl : px.legal "body" = true) :
    (∃ u c e, (∃ h, u = run px new h) ∧ (call px u c).1 = .error e ∧
      (u.stage.prims.get? "body").map (fun p => p.ops.length) = some 0 ∧ ((call px u c).2.stage.prims.get? "body").map (fun p => p.ops.length) = some 1) ∧
    ∃ u c e, (∃ h, u = run px new h) ∧ (call px u c).1 = .error e ∧ get_mesh_positions u "body" 0 = .ok (px.vec3f [⟨1, 2, 3⟩]) ∧
      get_mesh_positions (call px u c).2 "body" 0 = .ok (px.vec3f [⟨7, 8, 9⟩]) := by
  constructor
  · refine ⟨run px new [.addRigid "body" [⟨1, 2, 3⟩] []], .updateRigid "body" [1, 2, 3] [] 0, .valueError, ⟨_, rfl⟩, ?_, ?_, ?_⟩
    · have hm : (run px new [.addRigid "body" [⟨1, 2, 3⟩] []]).meshes.get? "body" = some .rigid := by
        show (call px new _).2.meshes.get? _ = _
        rw [call_handle]
        simp [handleAfter, hl, new]
      simp [call, update_rigid_body, hm, set_translation, set_orientation]
    · show ((call px new _).2.stage.prims.get? _).map _ = _
      rw [call_prim]
      simp [primAfter, hl, new, Prim.fresh]
    · rw [call_prim]
      show (primAfter px ((call px new _).2.meshes.get? _) ((call px new _).2.stage.prims.get? _) _ _).map _ = _
      rw [call_prim, call_handle]
      simp [primAfter, handleAfter, hl, new, Prim.fresh, setOp]
  · have read : ∀ (u : USD) (p : Prim) (V : List V3), u.meshes.get? "body" = some .mesh → u.stage.prims.get? "body" = some p →
        p.points.samples = .empty → p.points.dflt = some V → V ≠ [] → get_mesh_positions u "body" 0 = .ok V := by
      intro u p V hm hp hs hd hne
      refine get_positions hm hp ?_ hne
      rw [get_default (by simp [hs, Dict.keys, Dict.empty]) (by simp [hs]), hd]
    have hm : (call px new (.addMesh "body" [⟨1, 2, 3⟩] [[0]])).2.meshes.get? "body" = some .mesh := by
      rw [call_handle]
      simp [handleAfter, hl]
    have hp := call_prim (px := px) new (.addMesh "body" [⟨1, 2, 3⟩] [[0]]) "body"
    simp only [primAfter, hl, and_self, if_true] at hp
    have hm' : (call px (run px new [.addMesh "body" [⟨1, 2, 3⟩] [[0]]]) (.addMesh "body" [⟨7, 8, 9⟩] [])).2.meshes.get? "body" = some .mesh := by
      rw [call_handle]
      simp only [handleAfter]
      rw [if_neg (by simp)]
      exact hm
    have hp' := call_prim (px := px) (run px new [.addMesh "body" [⟨1, 2, 3⟩] [[0]]]) (.addMesh "body" [⟨7, 8, 9⟩] []) "body"
    have e : (run px new [.addMesh "body" [⟨1, 2, 3⟩] [[0]]]).stage.prims.get? "body" = _ := hp
    rw [e] at hp'
    simp only [primAfter, hl, and_self, if_true, Option.getD_some] at hp'
    refine ⟨run px new [.addMesh "body" [⟨1, 2, 3⟩] [[0]]], .addMesh "body" [⟨7, 8, 9⟩] [], .valueError, ⟨_, rfl⟩, ?_, ?_, ?_⟩
    · simp [call, add_mesh, hl]
    · exact read _ _ _ hm hp (by simp [new, Prim.fresh]) rfl (vec3f_ne (by simp))
    · exact read _ _ _ hm' hp' (by simp [new, Prim.fresh]) rfl (vec3f_ne (by simp))

namespace Usd

/-- What the transforms of a prim say at a time. -/
def PoseAt (p : Option Prim) (t : ℝ) (r q : List ℝ) : Prop :=
  ∃ pr a b, p = some pr ∧ pr.ops = [⟨.translate, a⟩, ⟨.orient, b⟩] ∧ a.get? t = some r ∧ b.get? t = some q

theorem pose_stays {h : Option Handle} {p : Option Prim} {n : String} {t : ℝ} {r q : List ℝ} (hp : PoseAt p t r q) {c : Call}
    (hc : ∀ r' q', c ≠ .updateRigid n r' q' t) : PoseAt (primAfter px h p n c) t r q := by
  obtain ⟨pr, a, b, rfl, ho, ha, hb⟩ := hp
  cases c with
  | addRigid m V T => simp only [primAfter]; split_ifs <;> exact ⟨_, a, b, rfl, ho, ha, hb⟩
  | updateRigid m r' q' t' =>
    simp only [primAfter]
    split_ifs with c c2
    · have hne : t ≠ t' := by rintro rfl; obtain ⟨rfl, -⟩ := c; exact hc _ _ rfl
      exact ⟨_, a.setItem t' r', b.setItem t' q', rfl, by simp [ho, setOp], by rw [Dict.get?_setItem_ne _ _ hne]; exact ha,
        by rw [Dict.get?_setItem_ne _ _ hne]; exact hb⟩
    · have hne : t ≠ t' := by rintro rfl; obtain ⟨rfl, -⟩ := c; exact hc _ _ rfl
      exact ⟨_, a.setItem t' r', b, rfl, by simp [ho, setOp], by rw [Dict.get?_setItem_ne _ _ hne]; exact ha, hb⟩
    · exact ⟨_, a, b, rfl, ho, ha, hb⟩
  | addMesh m V T => simp only [primAfter]; split_ifs <;> exact ⟨_, a, b, rfl, ho, ha, hb⟩
  | setPositions m V t' => simp only [primAfter]; split_ifs <;> exact ⟨_, a, b, rfl, ho, ha, hb⟩
  | setTime d => exact ⟨_, a, b, rfl, ho, ha, hb⟩
  | setFps f => exact ⟨_, a, b, rfl, ho, ha, hb⟩
  | save => exact ⟨_, a, b, rfl, ho, ha, hb⟩

theorem pose_run {u : USD} {n : String} {t : ℝ} {r q : List ℝ} (hp : PoseAt (u.stage.prims.get? n) t r q) {h : List Call}
    (hc : ∀ r' q', Call.updateRigid n r' q' t ∉ h) : PoseAt ((run px u h).stage.prims.get? n) t r q := by
  induction h using List.reverseRecOn with
  | nil => exact hp
  | append_singleton h c ih =>
    rw [run_snoc, call_prim]
    refine pose_stays (ih fun r' q' hm => hc r' q' (by simp [hm])) fun r' q' e => hc r' q' (by simp [e])

theorem update_ok {u : USD} {n : String} {r q : List ℝ} {t : ℝ} (hr : r.length = 3) (hq : q.length = 4) :
    (call px u (.updateRigid n r q t)).1 = .ok () ↔ u.meshes.get? n = some .rigid := by
  rw [call, (C117_errors px u n).2.2.1]
  cases h : u.meshes.get? n with
  | none => simp
  | some hh => cases hh <;> simp [hr, hq]

theorem pose_after {p : Option Prim} (hs : Sound (some .rigid) p) (n : String) {r q : List ℝ} (t : ℝ) (hr : r.length = 3) (hq : q.length = 4) :
    PoseAt (primAfter px (some .rigid) p n (.updateRigid n r q t)) t r q := by
  obtain ⟨pr, rfl, -⟩ := hs.here (by simp)
  simp only [primAfter, hr, hq, and_self, if_true, Option.map_some]
  rcases hs.shape pr rfl with ho | ⟨a, ho⟩ | ⟨a, b, ho⟩
  · exact ⟨_, Dict.empty.setItem t r, Dict.empty.setItem t q, rfl, by simp [ho, setOp], Dict.get?_setItem_self _ _ _, Dict.get?_setItem_self _ _ _⟩
  · exact ⟨_, a.setItem t r, Dict.empty.setItem t q, rfl, by simp [ho, setOp], Dict.get?_setItem_self _ _ _, Dict.get?_setItem_self _ _ _⟩
  · exact ⟨_, a.setItem t r, b.setItem t q, rfl, by simp [ho, setOp], Dict.get?_setItem_self _ _ _, Dict.get?_setItem_self _ _ _⟩

theorem PoseAt.placed {s : Stage} {n : String} {t : ℝ} {r : V3} {q : Quat} (h : PoseAt (s.prims.get? n) t [r.x, r.y, r.z] [q.s, q.x, q.y, q.z]) (p : V3) :
    placed s n t p = some (Quat.rotate q p + r) := by
  obtain ⟨pr, a, b, e, ho, ha, hb⟩ := h
  simp [Usd.placed, e, ho, XOp.place, ha, hb]

theorem PoseRecorded.pose {h : List Call} {n : String} {t : ℝ} {r : V3} {q : Quat} (hr : PoseRecorded px h n t r q) :
    PoseAt ((run px new h).stage.prims.get? n) t [r.x, r.y, r.z] [q.s, q.x, q.y, q.z] := by
  obtain ⟨h1, h2, rfl, ok, later⟩ := hr
  rw [run_append]
  show PoseAt ((run px (call px (run px new h1) _).2 h2).stage.prims.get? n) _ _ _
  refine pose_run ?_ later
  have hm := (update_ok rfl rfl).1 ok
  have hs := sound px h1 n
  rw [hm] at hs
  rw [call_prim, hm]
  exact pose_after hs n t rfl rfl

end Usd

open Usd in
/-- At a time for which the pose (r, q) of a rigid body was recorded last, a viewer shows each point p of the body at q·p + r: first turned, then moved. -/
theorem C117_pose {px : Pxr} {h : List Call} {name : String} {t : ℝ} {r : V3} {q : Quat} (hr : PoseRecorded px h name t r q) (p : V3) :
    placed (run px new h).stage name t p = some (Quat.rotate q p + r) := hr.pose.placed p

open Usd in
/-- The file holds the stage as it was at the last `save`; what is recorded later is not in it. -/
theorem C117_save (px : Pxr) (h h' : List Call) (hno : Call.save ∉ h') :
    (run px new (h ++ Call.save :: h')).file = some (run px new h).stage ∧ (Call.save ∉ h → (run px new h).file = none) := by
  have step : ∀ (u : USD) (c : Call), c ≠ .save → (call px u c).2.file = u.file := by
    intro u c hc
    cases c with
    | addRigid m V T => simp only [call, add_rigid_body]; split_ifs <;> rfl
    | updateRigid m r q t =>
      simp only [call, update_rigid_body]
      split
      · rfl
      · rfl
      · split
        · rfl
        · split <;> rfl
    | addMesh m V T => simp only [call, add_mesh]; split_ifs <;> rfl
    | setPositions m V t => simp only [call, set_mesh_positions]; split <;> rfl
    | setTime d => rfl
    | setFps f => rfl
    | save => exact absurd rfl hc
  have keep : ∀ (u : USD) (L : List Call), Call.save ∉ L → (run px u L).file = u.file := by
    intro u L hL
    induction L using List.reverseRecOn with
    | nil => rfl
    | append_singleton L c ih =>
      rw [run_snoc, step _ _ (fun e => hL (by simp [e]))]
      exact ih fun hm => hL (by simp [hm])
  constructor
  · rw [run_append]
    show (run px (save (run px new h)) h').file = _
    rw [keep _ _ hno]
    rfl
  · intro hh
    rw [keep _ _ hh]
    rfl

open Usd in
/-- A point recorded at 0 and at 2 stands half way at 1. -/
example : get_mesh_positions (run ⟨fun _ => true, id⟩ new
    [.addMesh "m" [⟨9, 9, 9⟩] [[0]], .setPositions "m" [⟨0, 0, 0⟩] 0, .setPositions "other" [] 1, .setPositions "m" [⟨4, 6, 8⟩] 2]) "m" 1 = .ok [⟨2, 3, 4⟩] := by
  have r0 : Recorded ⟨fun _ => true, id⟩ [.addMesh "m" [⟨9, 9, 9⟩] [[0]], .setPositions "m" [⟨0, 0, 0⟩] 0, .setPositions "other" [] 1,
      .setPositions "m" [⟨4, 6, 8⟩] 2] "m" 0 [⟨0, 0, 0⟩] := by
    refine ⟨[.addMesh "m" [⟨9, 9, 9⟩] [[0]]], [.setPositions "other" [] 1, .setPositions "m" [⟨4, 6, 8⟩] 2], rfl, ?_, by simp⟩
    rw [set_ok]
    show (call _ new _).2.meshes.get? _ = _
    rw [call_handle]
    simp [handleAfter]
  have r2 : Recorded ⟨fun _ => true, id⟩ [.addMesh "m" [⟨9, 9, 9⟩] [[0]], .setPositions "m" [⟨0, 0, 0⟩] 0, .setPositions "other" [] 1,
      .setPositions "m" [⟨4, 6, 8⟩] 2] "m" 2 [⟨4, 6, 8⟩] := by
    refine ⟨[.addMesh "m" [⟨9, 9, 9⟩] [[0]], .setPositions "m" [⟨0, 0, 0⟩] 0, .setPositions "other" [] 1], [], rfl, ?_, by simp⟩
    rw [set_ok]
    refine mesh_stays (u := (call _ new (.addMesh "m" [⟨9, 9, 9⟩] [[0]])).2) ?_ [.setPositions "m" [⟨0, 0, 0⟩] 0, .setPositions "other" [] 1]
    rw [call_handle]
    simp [handleAfter]
  rw [C117_between r0 r2 (by norm_num) (by norm_num) ?_ (by simp)]
  · norm_num [Pxr.vec3f, lerp]
  · rintro s W ⟨h1, h2, e, -, -⟩
    have hm : Call.setPositions "m" W s ∈ h1 ++ Call.setPositions "m" W s :: h2 := by simp
    rw [← e] at hm
    simp only [List.mem_cons, reduceCtorEq, Call.setPositions.injEq, String.reduceEq, false_and, List.not_mem_nil, or_false, false_or, true_and] at hm
    rcases hm with ⟨-, rfl⟩ | ⟨-, rfl⟩
    · exact Or.inl (le_refl _)
    · exact Or.inr (le_refl _)

end Verif
