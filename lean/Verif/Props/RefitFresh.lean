import Verif.Props.Translation
import Verif.Model.FullSim
import Verif.Props.BVH

/-! Refitting a hierarchy does not depend on the volumes stored in it. -/

namespace Verif

open Rigid Collision BVH

variable {N : ℕ}

namespace Translation

/-- Links go to later nodes. -/
def Forward (st : SubTree) : Prop := ∀ i, is_undefined (st.nodes i) = false → is_leaf (st.nodes i) = false → (i : ℤ) < (st.nodes i).start ∧ (i : ℤ) < (st.nodes i).end

/-- The node without its volume. -/
def bare (n : Node) : Node := { n with volume := none }

/-- Same links; same volumes from `k` on and in unused nodes. -/
def Agree (k : ℕ) (s s' : SubTree) : Prop := s'.size = s.size ∧ s'.height = s.height ∧
  (∀ j, bare (s'.nodes j) = bare (s.nodes j)) ∧ ∀ j, (k ≤ j ∨ is_undefined (s.nodes j) = true) → s'.nodes j = s.nodes j

theorem bare_undefined {n m : Node} (h : bare n = bare m) : is_undefined n = is_undefined m := by
  obtain ⟨_, _, _, _⟩ := n
  obtain ⟨_, _, _, _⟩ := m
  simp only [bare, Node.mk.injEq, true_and] at h
  obtain ⟨rfl, rfl, rfl⟩ := h
  rfl

theorem bare_leaf {n m : Node} (h : bare n = bare m) : is_leaf n = is_leaf m := by
  obtain ⟨_, _, _, _⟩ := n
  obtain ⟨_, _, _, _⟩ := m
  simp only [bare, Node.mk.injEq, true_and] at h
  obtain ⟨rfl, rfl, rfl⟩ := h
  rfl

theorem bare_start {n m : Node} (h : bare n = bare m) : n.start = m.start := by
  obtain ⟨_, _, _, _⟩ := n
  obtain ⟨_, _, _, _⟩ := m
  simp only [bare, Node.mk.injEq, true_and] at h
  exact h.2.1

theorem bare_end {n m : Node} (h : bare n = bare m) : n.end = m.end := by
  obtain ⟨_, _, _, _⟩ := n
  obtain ⟨_, _, _, _⟩ := m
  simp only [bare, Node.mk.injEq, true_and] at h
  exact h.2.2

theorem bare_set {n m : Node} (h : bare n = bare m) (v : Option KDOP) : ({ n with volume := v } : Node) = { m with volume := v } := by
  obtain ⟨_, _, _, _⟩ := n
  obtain ⟨_, _, _, _⟩ := m
  simp only [bare, Node.mk.injEq, true_and] at h
  obtain ⟨rfl, rfl, rfl⟩ := h
  rfl

/-- The node array after a volume was written. -/
def put (s : SubTree) (i : ℕ) (v : KDOP) : SubTree := { s with nodes := Function.update s.nodes i { s.nodes i with volume := some v } }

theorem bare_put (s : SubTree) (i : ℕ) (v : KDOP) (j : ℕ) : bare ((put s i v).nodes j) = bare (s.nodes j) := by
  unfold put
  dsimp only
  by_cases h : j = i
  · subst h
    rw [Function.update_self]
    rfl
  · rw [Function.update_of_ne h]

theorem Forward.of_bare {s s' : SubTree} (h : Forward s) (hb : ∀ j, bare (s'.nodes j) = bare (s.nodes j)) : Forward s' := by
  intro i h1 h2
  rw [bare_undefined (hb i)] at h1
  rw [bare_leaf (hb i)] at h2
  rw [bare_start (hb i), bare_end (hb i)]
  exact h i h1 h2

/-- A trip of the loop writes at most the volume of its node, and not of an unused one. -/
theorem refitNode_put {V : List V3} {T : List (List ℕ)} {K : ℕ} {env : ℝ} {s r : SubTree} {i : ℕ} (h : refitNode V T K env s i = .ok r) :
    r = s ∧ is_undefined (s.nodes i) = true ∨ ∃ v, r = put s i v ∧ is_undefined (s.nodes i) = false := by
  unfold refitNode at h
  dsimp only at h
  by_cases hu : is_undefined (s.nodes i) = true
  · rw [if_pos hu] at h
    exact .inl ⟨(Except.ok.inj h).symm, hu⟩
  · have hu' : is_undefined (s.nodes i) = false := by simpa using hu
    rw [if_neg hu] at h
    have hm : ∀ v, s.modify i (fun n => { n with volume := some v }) = .ok r → r = put s i v := by
      intro v hv
      unfold SubTree.modify at hv
      split_ifs at hv
      exact (Except.ok.inj hv).symm
    right
    split_ifs at h with hl
    · cases hg : gather V T (s.nodes i).start with
      | error e => rw [hg] at h; cases h
      | ok P =>
        rw [hg] at h
        change (KDOP.make K P env >>= _) = _ at h
        cases hk : KDOP.make K P env with
        | error e => rw [hk] at h; cases h
        | ok v =>
          rw [hk] at h
          exact ⟨v, hm v h, hu'⟩
    · cases ha : s.get (s.nodes i).start with
      | error e => rw [ha] at h; cases h
      | ok a =>
        cases hb : s.get (s.nodes i).end with
        | error e => rw [ha, hb] at h; cases h
        | ok b =>
          rw [ha, hb] at h
          obtain ⟨va, _, _, _⟩ := a
          obtain ⟨vb, _, _, _⟩ := b
          cases va with
          | none => cases h
          | some va =>
            cases vb with
            | none => cases h
            | some vb =>
              change (KDOP.union va vb >>= _) = _ at h
              cases hk : KDOP.union va vb with
              | error e => rw [hk] at h; cases h
              | ok v =>
                rw [hk] at h
                exact ⟨v, hm v h, hu'⟩

theorem Agree.put {k : ℕ} {s s' : SubTree} (h : Agree (k + 1) s s') (v : KDOP) : Agree k (put s k v) (put s' k v) := by
  obtain ⟨h1, h2, h3, h4⟩ := h
  refine ⟨h1, h2, fun j => by rw [bare_put, bare_put, h3], fun j hj => ?_⟩
  by_cases hjk : j = k
  · subst hjk
    unfold Translation.put
    dsimp only
    rw [Function.update_self, Function.update_self]
    exact bare_set (h3 j) _
  · unfold Translation.put
    dsimp only
    rw [Function.update_of_ne hjk, Function.update_of_ne hjk]
    refine h4 j ?_
    rcases hj with hj | hj
    · exact .inl (by omega)
    · rw [bare_undefined (bare_put s k v j)] at hj
      exact .inr hj

theorem Agree.get {k : ℕ} {s s' : SubTree} (h : Agree (k + 1) s s') {i : ℤ} (hi : (k : ℤ) < i) : s'.get i = s.get i := by
  unfold SubTree.get
  rw [h.1]
  split_ifs with hb
  · rw [h.2.2.2 _ (.inl (by omega))]
  · rfl

/-- One trip from two states that agree. -/
theorem refitNode_agree (V : List V3) (T : List (List ℕ)) (K : ℕ) (env : ℝ) {k : ℕ} {s s' : SubTree} (hF : Forward s) (h : Agree (k + 1) s s') :
    (∃ e, refitNode V T K env s k = .error e ∧ refitNode V T K env s' k = .error e) ∨
      ∃ r r', refitNode V T K env s k = .ok r ∧ refitNode V T K env s' k = .ok r' ∧ Agree k r r' ∧ Forward r := by
  have hb := h.2.2.1 k
  have hmod : ∀ v, (∃ e, s.modify k (fun n => { n with volume := some v }) = .error e ∧ s'.modify k (fun n => { n with volume := some v }) = .error e) ∨
      ∃ r r', s.modify k (fun n => { n with volume := some v }) = .ok r ∧ s'.modify k (fun n => { n with volume := some v }) = .ok r' ∧ Agree k r r' ∧ Forward r := by
    intro v
    unfold SubTree.modify
    by_cases hk : k < s.size
    · rw [if_pos hk, if_pos (by rw [h.1]; exact hk)]
      exact .inr ⟨_, _, rfl, rfl, h.put v, hF.of_bare (bare_put s k v)⟩
    · rw [if_neg hk, if_neg (by rw [h.1]; exact hk)]
      exact .inl ⟨_, rfl, rfl⟩
  unfold refitNode
  dsimp only
  rw [bare_undefined hb, bare_leaf hb, bare_start hb, bare_end hb]
  by_cases hu : is_undefined (s.nodes k) = true
  · rw [if_pos hu, if_pos hu]
    refine .inr ⟨_, _, rfl, rfl, ⟨h.1, h.2.1, h.2.2.1, fun j hj => ?_⟩, hF⟩
    rcases hj with hj | hj
    · rcases Nat.lt_or_ge k j with hk | hk
      · exact h.2.2.2 j (.inl hk)
      · have : j = k := by omega
        subst this
        exact h.2.2.2 j (.inr hu)
    · exact h.2.2.2 j (.inr hj)
  · have hu' : is_undefined (s.nodes k) = false := by simpa using hu
    rw [if_neg hu, if_neg hu]
    by_cases hl : is_leaf (s.nodes k) = true
    · rw [if_pos hl, if_pos hl]
      cases gather V T (s.nodes k).start with
      | error e => exact .inl ⟨e, rfl, rfl⟩
      | ok P =>
        simp only [Bind.bind, Except.bind]
        cases KDOP.make K P env with
        | error e => exact .inl ⟨e, rfl, rfl⟩
        | ok v => exact hmod v
    · have hl' : is_leaf (s.nodes k) = false := by simpa using hl
      obtain ⟨f1, f2⟩ := hF k hu' hl'
      rw [if_neg hl, if_neg hl, h.get f1, h.get f2]
      cases s.get (s.nodes k).start with
      | error e => exact .inl ⟨e, rfl, rfl⟩
      | ok a =>
        cases s.get (s.nodes k).end with
        | error e => exact .inl ⟨e, rfl, rfl⟩
        | ok b =>
          obtain ⟨va, _, _, _⟩ := a
          obtain ⟨vb, _, _, _⟩ := b
          cases va with
          | none => exact .inl ⟨_, rfl, rfl⟩
          | some va =>
            cases vb with
            | none => exact .inl ⟨_, rfl, rfl⟩
            | some vb =>
              simp only [Bind.bind, Except.bind]
              cases KDOP.union va vb with
              | error e => exact .inl ⟨e, rfl, rfl⟩
              | ok v => exact hmod v

theorem Agree.eq {s s' : SubTree} (h : Agree 0 s s') : s' = s := by
  obtain ⟨n, a, b⟩ := s
  obtain ⟨n', a', b'⟩ := s'
  obtain ⟨h1, h2, -, h4⟩ := h
  dsimp only at h1 h2 h4
  subst h1
  subst h2
  have : a' = a := funext fun j => h4 j (.inl (Nat.zero_le _))
  rw [this]

theorem refit_agree (V : List V3) (T : List (List ℕ)) (K : ℕ) (env : ℝ) (k : ℕ) : ∀ {s s' : SubTree}, Forward s → Agree k s s' →
    (List.range k).reverse.foldlM (refitNode V T K env) s' = (List.range k).reverse.foldlM (refitNode V T K env) s := by
  induction k with
  | zero =>
    intro s s' _ h
    rw [h.eq]
  | succ k ih =>
    intro s s' hF h
    rw [List.range_succ, List.reverse_append]
    simp only [List.reverse_cons, List.reverse_nil, List.nil_append, List.singleton_append, List.foldlM_cons]
    rcases refitNode_agree V T K env hF h with ⟨e, h1, h2⟩ | ⟨r, r', h1, h2, h3, h4⟩
    · rw [h1, h2]
    · rw [h1, h2]
      exact ih h4 h3

/-- Links go to later nodes, unused nodes hold no volume. -/
def Fresh (st : SubTree) : Prop := Forward st ∧ ∀ i, (is_undefined (st.nodes i) = true ∨ st.size ≤ i) → (st.nodes i).volume = none

theorem refitNode_fresh {V : List V3} {T : List (List ℕ)} {K : ℕ} {env : ℝ} {s r : SubTree} {i : ℕ} (hi : i < s.size) (hs : Fresh s) (h : refitNode V T K env s i = .ok r) :
    Fresh r ∧ r.size = s.size := by
  rcases refitNode_put h with ⟨rfl, -⟩ | ⟨v, rfl, hu⟩
  · exact ⟨hs, rfl⟩
  · refine ⟨⟨hs.1.of_bare (bare_put s i v), fun j hj => ?_⟩, rfl⟩
    rw [bare_undefined (bare_put s i v j)] at hj
    have hji : j ≠ i := by
      rintro rfl
      rcases hj with hj | hj
      · rw [hu] at hj; cases hj
      · exact absurd hi (not_lt.2 hj)
    unfold put
    dsimp only
    rw [Function.update_of_ne hji]
    exact hs.2 j hj

theorem refit_sub_tree_fresh {V : List V3} {T : List (List ℕ)} {K : ℕ} {env : ℝ} {s r : SubTree} (hs : Fresh s) (h : refit_sub_tree V T s K env = .ok r) : Fresh r := by
  have : ∀ (L : List ℕ) (s : SubTree), (∀ i ∈ L, i < s.size) → Fresh s → L.foldlM (refitNode V T K env) s = .ok r → Fresh r := by
    intro L
    induction L with
    | nil => intro s _ hs h; cases h; exact hs
    | cons i L ih =>
      intro s hL hs h
      rw [List.foldlM_cons] at h
      cases hr : refitNode V T K env s i with
      | error e => rw [hr] at h; cases h
      | ok t =>
        rw [hr] at h
        obtain ⟨h1, h2⟩ := refitNode_fresh (hL i (by simp)) hs hr
        exact ih t (fun j hj => by rw [h2]; exact hL j (by simp [hj])) h1 h
  exact this _ s (fun i hi => by simpa using hi) hs h

theorem ChunkOK.forward {st : SubTree} {t : BT} (h : ChunkOK st t) : Forward st := by
  intro i hu hl
  by_cases hi : i ∈ t.indices
  · obtain ⟨s, hs, rfl⟩ := exists_subtree_of_index hi
    have hst := stores_sub h.1 hs
    cases s with
    | leaf j e =>
      change is_leaf (st.nodes j) = false at hl
      rw [(stores_leaf_flags hst).1] at hl
      cases hl
    | node j l r =>
      obtain ⟨-, h1, h2, h3, h4, -⟩ := hst
      simp only [BT.idx]
      rw [h1, h2, h3]
      omega
  · rw [h.2.2.2.2 i hi] at hu
    cases hu

theorem mem_mapM {α β : Type} {f : α → Except PyErr β} {L : List α} {R : List β} (h : L.mapM f = .ok R) : ∀ b ∈ R, ∃ a ∈ L, f a = .ok b := by
  induction L generalizing R with
  | nil => cases h; intro b hb; cases hb
  | cons a L ih =>
    rw [List.mapM_cons] at h
    cases ha : f a with
    | error e => rw [ha] at h; cases h
    | ok x =>
      cases hL : L.mapM f with
      | error e => rw [ha, hL] at h; cases h
      | ok Y =>
        rw [ha, hL] at h
        cases h
        intro b hb
        rcases List.mem_cons.1 hb with rfl | hb
        · exact ⟨a, by simp, ha⟩
        · obtain ⟨a', h1, h2⟩ := ih hL b hb
          exact ⟨a', by simp [h1], h2⟩

/-- What `make_bvh` makes. -/
theorem make_bvh_fresh {X : List V3} {T : List (List ℕ)} {K M : ℕ} {env : ℝ} {t : Tree} (h : make_bvh X T K M env = .ok t) : ∀ st ∈ t.chunks, Fresh st := by
  unfold make_bvh at h
  dsimp only at h
  by_cases hL : (M + 1) / 2 = 0
  · rw [if_pos hL] at h
    cases h
  rw [if_neg hL] at h
  change ((List.range ((T.length + (M + 1) / 2 - 1) / ((M + 1) / 2))).mapM (make_chunk M ((M + 1) / 2) T.length) >>= _) = _ at h
  cases hc : (List.range ((T.length + (M + 1) / 2 - 1) / ((M + 1) / 2))).mapM (make_chunk M ((M + 1) / 2) T.length) with
  | error e => rw [hc] at h; cases h
  | ok chunks =>
    rw [hc] at h
    change refit_bvh X T ⟨none, chunks⟩ K env = _ at h
    have hfr : ∀ st ∈ chunks, Fresh st := by
      intro st hst
      obtain ⟨c, hcC, hcst⟩ := mem_mapM hc st hst
      rw [List.mem_range] at hcC
      have hcM : c * ((M + 1) / 2) < T.length := by
        have h1 : (c + 1) * ((M + 1) / 2) ≤ (T.length + (M + 1) / 2 - 1) / ((M + 1) / 2) * ((M + 1) / 2) := Nat.mul_le_mul_right _ hcC
        have h2 : (T.length + (M + 1) / 2 - 1) / ((M + 1) / 2) * ((M + 1) / 2) ≤ T.length + (M + 1) / 2 - 1 := Nat.div_mul_le_self _ _
        have h3 : (c + 1) * ((M + 1) / 2) = c * ((M + 1) / 2) + (M + 1) / 2 := by ring
        omega
      obtain ⟨st', b, e1, e2, -, -, -, -, -, e8⟩ := make_chunk_spec M ((M + 1) / 2) T.length c rfl hL hcM
      rw [e1] at hcst
      cases hcst
      exact ⟨ChunkOK.forward e2, fun i _ => e8 i⟩
    unfold refit_bvh at h
    dsimp only at h
    cases hr : chunks.mapM (fun st => refit_sub_tree X T st K env) with
    | error e => rw [hr] at h; cases h
    | ok R =>
      rw [hr] at h
      change (R.foldlM rootStep (KDOP.init K) >>= _) = _ at h
      cases hroot : R.foldlM rootStep (KDOP.init K) with
      | error e => rw [hroot] at h; cases h
      | ok root =>
        rw [hroot] at h
        cases h
        intro st hst
        obtain ⟨s, hs, hsr⟩ := mem_mapM hr st hst
        exact refit_sub_tree_fresh (hfr s hs) hsr

theorem whileLoop_congr_first {σ : Type*} {f : LoopStep σ} {s s' : σ} (h : f s = f s') (hn : f s ≠ .ok none) : whileLoop f s = whileLoop f s' := by
  have key : ∀ {a b : σ}, f a = f b → f a ≠ .ok none → ∀ r, LoopEnds f a r → LoopEnds f b r := by
    intro a b hab ha r hr
    cases hr with
    | done hs => exact absurd hs ha
    | raised hs => exact .raised (hab ▸ hs)
    | next hs hr => exact .next (hab ▸ hs) hr
  by_cases hx : ∃ r, LoopEnds f s r
  · obtain ⟨r, hr⟩ := hx
    rw [whileLoop_eq hr, whileLoop_eq (key h hn r hr)]
  · push Not at hx
    rw [whileLoop_diverges hx, whileLoop_diverges fun r hr => hx r (key h.symm (h ▸ hn) r hr)]

end Translation

/-- The hierarchy of every body was made by `make_bvh` from its mesh, with whatever parameters. -/
def HierarchiesMade (C : Fin N → Collider) : Prop := ∀ k, ∃ K M env, make_bvh (C k).V (rows (C k).T) K M env = .ok (C k).bvh

end Verif
