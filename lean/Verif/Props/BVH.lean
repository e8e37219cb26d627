import Verif.Props.BVHBuild
import Verif.Props.KDOP

/-! C18-C20: BVH construction, refit and traversal. -/

namespace Verif
open BVH

/-- Specification: element e of the mesh (X, T) has the bounding volume A. -/
def LeafDop (X : List V3) (T : List (List ℕ)) (K : ℕ) (envelope : ℝ) (e : ℕ) (A : KDOP) : Prop :=
  ∃ vs, gather X T e = .ok vs ∧ KDOP.make K vs envelope = .ok A

/-- Specification: the corner points of element e. -/
def ElementPoints (X : List V3) (T : List (List ℕ)) (e : ℕ) : Set V3 :=
  {p | ∃ idx, T[e]? = some idx ∧ ∃ i ∈ idx, X[i]? = some p}

/-- Specification: every vertex index of every element exists. -/
def MeshOK (X : List V3) (T : List (List ℕ)) : Prop := ∀ idx ∈ T, ∀ i ∈ idx, i < X.length

theorem mapM_get (X : List V3) (idx : List ℕ) (h : ∀ i ∈ idx, i < X.length) :
    ∃ vs, idx.mapM (lookup X) = .ok vs ∧ ∀ p, p ∈ vs ↔ ∃ i ∈ idx, X[i]? = some p := by
  obtain ⟨vs, h1, h2⟩ := mapM_except (f := lookup X) (L := idx) (P := fun i p => X[i]? = some p) (by
    intro i hi
    have := h i hi
    refine ⟨X[i], ?_, List.getElem?_eq_getElem this⟩
    unfold lookup; rw [List.getElem?_eq_getElem this])
  refine ⟨vs, h1, ?_⟩
  clear h1 h
  intro p
  induction h2 with
  | nil => simp
  | cons hab _ ih =>
    simp only [List.mem_cons, ih, exists_eq_or_imp, hab]
    constructor
    · rintro (rfl | h)
      · exact Or.inl rfl
      · exact Or.inr h
    · rintro (h | h)
      · injection h with h; exact Or.inl h.symm
      · exact Or.inr h

theorem leafDop_exists {X : List V3} {T : List (List ℕ)} (hM : MeshOK X T) {K : ℕ}
    (hK : K = 3 ∨ K = 4) (envelope : ℝ) {e : ℕ} (he : e < T.length) :
    ∃ A, LeafDop X T K envelope e A := by
  have hT : T[e]? = some T[e] := List.getElem?_eq_getElem he
  obtain ⟨vs, hvs, -⟩ := mapM_get X T[e] (hM _ (List.getElem_mem he))
  obtain ⟨A, hA, -⟩ := C17_make K hK vs envelope
  refine ⟨A, vs, ?_, hA⟩
  unfold gather
  simp only [Int.natCast_nonneg, if_true, Int.toNat_natCast, hT]
  exact hvs

theorem leafDop_unique {X : List V3} {T : List (List ℕ)} {K : ℕ} {envelope : ℝ} {e : ℕ}
    {A B : KDOP} (hA : LeafDop X T K envelope e A) (hB : LeafDop X T K envelope e B) : A = B := by
  obtain ⟨vs, h1, h2⟩ := hA
  obtain ⟨ws, h3, h4⟩ := hB
  rw [h1] at h3; cases h3
  rw [h2] at h4; cases h4; rfl

theorem leafDop_K {X : List V3} {T : List (List ℕ)} {K : ℕ} {envelope : ℝ} {e : ℕ}
    {A : KDOP} (hA : LeafDop X T K envelope e A) : A.K = K := by
  obtain ⟨vs, -, h⟩ := hA
  unfold KDOP.make at h
  split at h
  · cases h
  · cases h; rfl

theorem leafDop_contains {X : List V3} {T : List (List ℕ)} (hM : MeshOK X T) {K : ℕ}
    (hK : K = 3 ∨ K = 4) {envelope : ℝ} (he0 : 0 ≤ envelope) {e : ℕ}
    {A : KDOP} (hA : LeafDop X T K envelope e A) {p : V3}
    (hp : p ∈ convexHull ℝ (ElementPoints X T e)) : InDop A p := by
  obtain ⟨vs, h1, h2⟩ := hA
  refine C17_make_contains_hull K hK vs envelope he0 A h2 p ?_
  refine convexHull_mono ?_ hp
  rintro q ⟨idx, hidx, i, hi, hq⟩
  obtain ⟨ws, hws, hmem⟩ := mapM_get X idx (hM _ (List.mem_of_getElem? hidx))
  unfold gather at h1
  simp only [Int.natCast_nonneg, if_true, Int.toNat_natCast, hidx] at h1
  rw [hws] at h1
  cases h1
  exact (hmem q).mpr ⟨i, hi, hq⟩

/-- The volumes stored in a chunk: leaves hold their element's k-DOP, internal nodes the union of
their children's volumes. -/
def VolOK (X : List V3) (T : List (List ℕ)) (K : ℕ) (env : ℝ) (st : SubTree) : BT → Prop
  | .leaf i e => ∃ A, LeafDop X T K env e A ∧ (st.nodes i).volume = some A
  | .node i l r => ∃ a b u, (st.nodes l.idx).volume = some a ∧ (st.nodes r.idx).volume = some b ∧
      KDOP.union a b = .ok u ∧ (st.nodes i).volume = some u ∧
      VolOK X T K env st l ∧ VolOK X T K env st r

section
variable {X : List V3} {T : List (List ℕ)} {K : ℕ} {env : ℝ}

theorem union_K {A B U : KDOP} (h : KDOP.union A B = .ok U) : A.K = B.K ∧ U.K = A.K := by
  unfold KDOP.union at h
  split_ifs at h with hk
  · push Not at hk
    cases h; exact ⟨hk, rfl⟩

theorem volOK_spec {st : SubTree} {t : BT} (h : VolOK X T K env st t) :
    ∃ A, (st.nodes t.idx).volume = some A ∧ A.K = K ∧
      (∀ e ∈ t.leaves, ∃ D, LeafDop X T K env e D ∧ DopLe D A) ∧
      (∀ C, (∀ e ∈ t.leaves, ∀ D, LeafDop X T K env e D → DopLe D C) → DopLe A C) := by
  induction t with
  | leaf i e =>
    obtain ⟨A, h1, h2⟩ := h
    refine ⟨A, h2, leafDop_K h1, ?_, ?_⟩
    · intro e' he'
      simp [BT.leaves] at he'; subst he'
      exact ⟨A, h1, DopLe.refl A⟩
    · intro C hC
      exact hC e (by simp [BT.leaves]) A h1
  | node i l r ihl ihr =>
    obtain ⟨a, b, u, h1, h2, h3, h4, h5, h6⟩ := h
    obtain ⟨a', a1, a2, a3, a4⟩ := ihl h5
    obtain ⟨b', b1, b2, b3, b4⟩ := ihr h6
    rw [h1] at a1; cases a1
    rw [h2] at b1; cases b1
    obtain ⟨u', u1, u2, u3, -, u5⟩ := (C17_union a b).1 (by rw [a2, b2])
    rw [h3] at u1; cases u1
    refine ⟨u, h4, by rw [(union_K h3).2, a2], ?_, ?_⟩
    · intro e he
      simp only [BT.leaves, List.mem_append] at he
      rcases he with he | he
      · obtain ⟨D, d1, d2⟩ := a3 e he; exact ⟨D, d1, d2.trans u2⟩
      · obtain ⟨D, d1, d2⟩ := b3 e he; exact ⟨D, d1, d2.trans u3⟩
    · intro C hC
      exact u5 C (a4 C (fun e he => hC e (by simp [BT.leaves, he])))
        (b4 C (fun e he => hC e (by simp [BT.leaves, he])))

theorem volOK_sub {st : SubTree} {t s : BT} (h : VolOK X T K env st t) (hs : s ∈ t.subtrees) :
    VolOK X T K env st s := by
  induction t with
  | leaf i e => simp [BT.subtrees] at hs; subst hs; exact h
  | node i l r ihl ihr =>
    simp only [BT.subtrees, List.mem_cons, List.mem_append] at hs
    obtain ⟨a, b, u, h1, h2, h3, h4, h5, h6⟩ := h
    rcases hs with rfl | hs | hs
    · exact ⟨a, b, u, h1, h2, h3, h4, h5, h6⟩
    · exact ihl h5 hs
    · exact ihr h6 hs

theorem stores_sub {st : SubTree} {t s : BT} (h : Stores st t) (hs : s ∈ t.subtrees) :
    Stores st s := by
  induction t with
  | leaf i e => simp [BT.subtrees] at hs; subst hs; exact h
  | node i l r ihl ihr =>
    simp only [BT.subtrees, List.mem_cons, List.mem_append] at hs
    rcases hs with rfl | hs | hs
    · exact h
    · exact ihl h.2.2.2.2.2.2.2.1 hs
    · exact ihr h.2.2.2.2.2.2.2.2 hs

theorem subtrees_trans {t s : BT} (hs : s ∈ t.subtrees) : ∀ u ∈ s.subtrees, u ∈ t.subtrees := by
  induction t with
  | leaf i e => simp [BT.subtrees] at hs; subst hs; exact fun u hu => hu
  | node i l r ihl ihr =>
    simp only [BT.subtrees, List.mem_cons, List.mem_append] at hs
    intro u hu
    rcases hs with rfl | hs | hs
    · exact hu
    · simp [BT.subtrees, ihl hs u hu]
    · simp [BT.subtrees, ihr hs u hu]

theorem self_mem_subtrees (t : BT) : t ∈ t.subtrees := by cases t <;> simp [BT.subtrees]

theorem idx_mem_of_subtree {t s : BT} (hs : s ∈ t.subtrees) : s.idx ∈ t.indices := by
  induction t with
  | leaf i e => simp [BT.subtrees] at hs; subst hs; simp [BT.idx, BT.indices]
  | node i l r ihl ihr =>
    simp only [BT.subtrees, List.mem_cons, List.mem_append] at hs
    rcases hs with rfl | hs | hs
    · simp [BT.idx, BT.indices]
    · simp [BT.indices, ihl hs]
    · simp [BT.indices, ihr hs]

theorem exists_subtree_of_index {t : BT} {i : ℕ} (hi : i ∈ t.indices) :
    ∃ s ∈ t.subtrees, s.idx = i := by
  induction t with
  | leaf j e => simp [BT.indices] at hi; subst hi; exact ⟨_, self_mem_subtrees _, rfl⟩
  | node j l r ihl ihr =>
    simp only [BT.indices, List.mem_cons, List.mem_append] at hi
    rcases hi with rfl | hi | hi
    · exact ⟨_, self_mem_subtrees _, rfl⟩
    · obtain ⟨s, h1, h2⟩ := ihl hi; exact ⟨s, by simp [BT.subtrees, h1], h2⟩
    · obtain ⟨s, h1, h2⟩ := ihr hi; exact ⟨s, by simp [BT.subtrees, h1], h2⟩

theorem leaves_sub {t s : BT} (hs : s ∈ t.subtrees) : ∀ e ∈ s.leaves, e ∈ t.leaves := by
  induction t with
  | leaf i e => simp [BT.subtrees] at hs; subst hs; exact fun _ h => h
  | node i l r ihl ihr =>
    simp only [BT.subtrees, List.mem_cons, List.mem_append] at hs
    intro e he
    rcases hs with rfl | hs | hs
    · exact he
    · simp [BT.leaves, ihl hs e he]
    · simp [BT.leaves, ihr hs e he]

theorem stores_lt {st : SubTree} {t : BT} (h : Stores st t) : t.idx < st.size := by
  cases t with
  | leaf i e => exact h.1
  | node i l r => exact h.1

theorem stores_idx_le {st : SubTree} {t : BT} (h : Stores st t) : ∀ i ∈ t.indices, t.idx ≤ i := by
  induction t with
  | leaf i e => intro j hj; simp [BT.indices] at hj; simp [BT.idx, hj]
  | node i l r ihl ihr =>
    obtain ⟨h0, h1, h2, h3, h4, h5, h6, h7, h8⟩ := h
    intro j hj
    simp only [BT.indices, List.mem_cons, List.mem_append] at hj
    simp only [BT.idx]
    rcases hj with rfl | hj | hj
    · exact le_refl _
    · have := ihl h7 j hj; omega
    · have := ihr h8 j hj; omega

theorem volOK_frame {st st' : SubTree} {t : BT}
    (h : ∀ i ∈ t.indices, (st'.nodes i).volume = (st.nodes i).volume)
    (hv : VolOK X T K env st t) : VolOK X T K env st' t := by
  induction t with
  | leaf i e =>
    obtain ⟨A, h1, h2⟩ := hv
    exact ⟨A, h1, by rw [h i (by simp [BT.indices]), h2]⟩
  | node i l r ihl ihr =>
    obtain ⟨a, b, u, h1, h2, h3, h4, h5, h6⟩ := hv
    exact ⟨a, b, u, by rw [h _ (by simp [BT.indices, l.idx_mem]), h1],
      by rw [h _ (by simp [BT.indices, r.idx_mem]), h2], h3,
      by rw [h i (by simp [BT.indices]), h4],
      ihl (fun j hj => h j (by simp [BT.indices, hj])) h5,
      ihr (fun j hj => h j (by simp [BT.indices, hj])) h6⟩

/-- Same links everywhere (volumes may differ). -/
def SameLinks (st st' : SubTree) : Prop := st'.size = st.size ∧ st'.height = st.height ∧ ∀ i,
  (st'.nodes i).start = (st.nodes i).start ∧ (st'.nodes i).end = (st.nodes i).end ∧
  (st'.nodes i).parent = (st.nodes i).parent

theorem SameLinks.chunkOK {st st' : SubTree} (h : SameLinks st st') {t : BT} (hc : ChunkOK st t) :
    ChunkOK st' t := by
  obtain ⟨h1, h2, h3, h4, h5⟩ := hc
  refine ⟨Stores.frame t h.1 (fun i _ => ⟨(h.2.2 i).1, (h.2.2 i).2.1, fun _ => (h.2.2 i).2.2⟩) h4 h1,
    h2, by rw [(h.2.2 0).2.2, h3], h4, ?_⟩
  intro i hi
  have := h5 i hi
  unfold is_undefined at *
  rw [(h.2.2 i).1, (h.2.2 i).2.1, (h.2.2 i).2.2]
  exact this

theorem SameLinks.modify {st : SubTree} (i : ℕ) (v : KDOP) :
    SameLinks st { st with nodes := Function.update st.nodes i { (st.nodes i) with volume := some v } } := by
  refine ⟨rfl, rfl, fun j => ?_⟩
  simp only [Function.update_apply]
  split_ifs with h
  · subst h; exact ⟨rfl, rfl, rfl⟩
  · exact ⟨rfl, rfl, rfl⟩

theorem SameLinks.trans {a b c : SubTree} (h : SameLinks a b) (h' : SameLinks b c) : SameLinks a c :=
  ⟨h'.1.trans h.1, h'.2.1.trans h.2.1, fun i => ⟨(h'.2.2 i).1.trans (h.2.2 i).1,
    (h'.2.2 i).2.1.trans (h.2.2 i).2.1, (h'.2.2 i).2.2.trans (h.2.2 i).2.2⟩⟩

theorem get_ok {st : SubTree} {i : ℕ} (h : i < st.size) : st.get (i : ℤ) = .ok (st.nodes i) := by
  unfold SubTree.get
  rw [if_pos ⟨by omega, by omega⟩, Int.toNat_natCast]

theorem stores_leaf_flags {st : SubTree} {i e : ℕ} (h : Stores st (.leaf i e)) :
    is_leaf (st.nodes i) = true ∧ is_undefined (st.nodes i) = false := by
  obtain ⟨h0, h1, h2⟩ := h
  simp only [is_leaf, is_undefined, h1, h2, decide_eq_true_eq, decide_eq_false_iff_not]
  refine ⟨⟨by omega, trivial⟩, by omega⟩

theorem stores_node_flags {st : SubTree} {i : ℕ} {l r : BT} (h : Stores st (.node i l r)) :
    is_leaf (st.nodes i) = false ∧ is_undefined (st.nodes i) = false := by
  obtain ⟨h0, h1, h2, h3, -⟩ := h
  simp only [is_leaf, is_undefined, h1, h2, h3, decide_eq_false_iff_not]
  constructor <;> push_cast <;> omega

theorem refit_loop (hM : MeshOK X T) (hK : K = 3 ∨ K = 4) {t : BT}
    (hle : ∀ e ∈ t.leaves, e < T.length) (k : ℕ) :
    ∀ st : SubTree, ChunkOK st t → k ≤ st.size →
      (∀ s ∈ t.subtrees, k ≤ s.idx → VolOK X T K env st s) →
      ∃ st', (List.range k).reverse.foldlM (refitNode X T K env) st = .ok st' ∧ SameLinks st st' ∧
        ∀ s ∈ t.subtrees, VolOK X T K env st' s := by
  induction k with
  | zero =>
    intro st hc _ hv
    exact ⟨st, rfl, ⟨rfl, rfl, fun i => ⟨rfl, rfl, rfl⟩⟩, fun s hs => hv s hs (Nat.zero_le _)⟩
  | succ k ih =>
    intro st hc hk hv
    rw [List.range_succ, List.reverse_append]
    simp only [List.reverse_cons, List.reverse_nil, List.nil_append, List.singleton_append,
      List.foldlM_cons]
    -- one node
    have key : ∃ st1, refitNode X T K env st k = .ok st1 ∧ SameLinks st st1 ∧
        ∀ s ∈ t.subtrees, k ≤ s.idx → VolOK X T K env st1 s := by
      by_cases hin : k ∈ t.indices
      · obtain ⟨s0, hs0, hi0⟩ := exists_subtree_of_index hin
        have hst0 := stores_sub hc.1 hs0
        -- whatever volume u is written: the frame
        have frame : ∀ u : KDOP, ∀ s ∈ t.subtrees, k + 1 ≤ s.idx → VolOK X T K env
            { st with nodes := Function.update st.nodes k { (st.nodes k) with volume := some u } } s := by
          intro u s hs hsk
          refine volOK_frame ?_ (hv s hs hsk)
          intro i hi
          have := stores_idx_le (stores_sub hc.1 hs) i hi
          simp only [Function.update_apply]
          rw [if_neg (by omega)]
        cases s0 with
        | leaf i e =>
          simp only [BT.idx] at hi0; subst hi0
          obtain ⟨fl, fu⟩ := stores_leaf_flags hst0
          have hee := hle e (leaves_sub hs0 e (by simp [BT.leaves]))
          obtain ⟨A, hA⟩ := leafDop_exists hM hK env hee
          obtain ⟨vs, g1, g2⟩ := hA
          refine ⟨_, ?_, SameLinks.modify i A, ?_⟩
          · have e1 : refitNode X T K env st i = st.modify i (fun n => { n with volume := some A }) := by
              unfold refitNode
              simp only [fu, fl, hst0.2.1, g1, g2, bind, Except.bind]
              simp only [Bool.false_eq_true, if_false, if_true]
            refine e1.trans ?_
            exact modify_ok (st := st) (i := i) hst0.1 (fun n => { n with volume := some A })
          · intro s hs hsk
            rcases hsk.lt_or_eq with h | h
            · exact frame A s hs h
            · -- any subtree stored at the same slot
              cases s with
              | leaf j e' =>
                simp only [BT.idx] at h; subst h
                have := (stores_sub hc.1 hs).2.1
                rw [hst0.2.1] at this
                have he : e = e' := by exact_mod_cast this
                subst he
                exact ⟨A, ⟨vs, g1, g2⟩, by simp⟩
              | node j l r =>
                simp only [BT.idx] at h; subst h
                have := (stores_node_flags (stores_sub hc.1 hs)).1
                rw [fl] at this; simp at this
        | node i l r =>
          simp only [BT.idx] at hi0; subst hi0
          obtain ⟨fl, fu⟩ := stores_node_flags hst0
          obtain ⟨h0, h1, h2, h3, h4, h5, h6, h7, h8⟩ := hst0
          have hl : l ∈ t.subtrees := subtrees_trans hs0 l (by simp [BT.subtrees, self_mem_subtrees])
          have hr : r ∈ t.subtrees := subtrees_trans hs0 r (by simp [BT.subtrees, self_mem_subtrees])
          have vl := hv l hl (by omega)
          have vr := hv r hr (by omega)
          obtain ⟨a, a1, a2, -⟩ := volOK_spec vl
          obtain ⟨b, b1, b2, -⟩ := volOK_spec vr
          obtain ⟨u, u1, -⟩ := (C17_union a b).1 (by rw [a2, b2])
          refine ⟨_, ?_, SameLinks.modify i u, ?_⟩
          · have e1 : refitNode X T K env st i = st.modify i (fun n => { n with volume := some u }) := by
              unfold refitNode
              simp only [fu, fl, h1, h2, get_ok (stores_lt h7), get_ok (stores_lt h8), a1, b1, u1, bind, Except.bind]
              simp only [Bool.false_eq_true, if_false]
            refine e1.trans ?_
            exact modify_ok (st := st) (i := i) h0 (fun n => { n with volume := some u })
          · intro s hs hsk
            rcases hsk.lt_or_eq with h | h
            · exact frame u s hs h
            · cases s with
              | leaf j e' =>
                simp only [BT.idx] at h; subst h
                have := (stores_leaf_flags (stores_sub hc.1 hs)).1
                rw [fl] at this; simp at this
              | node j l' r' =>
                simp only [BT.idx] at h; subst h
                have hst := stores_sub hc.1 hs
                obtain ⟨k0, k1, k2, k3, k4, k5, k6, k7, k8⟩ := hst
                have e1 : l'.idx = l.idx := by have := k1.symm.trans h1; exact_mod_cast this
                have e2 : r'.idx = r.idx := by have := k2.symm.trans h2; exact_mod_cast this
                have hl' : l' ∈ t.subtrees := subtrees_trans hs l' (by simp [BT.subtrees, self_mem_subtrees])
                have hr' : r' ∈ t.subtrees := subtrees_trans hs r' (by simp [BT.subtrees, self_mem_subtrees])
                refine ⟨a, b, u, ?_, ?_, u1, by simp, frame u l' hl' (by omega), frame u r' hr' (by omega)⟩
                · simp only [Function.update_apply]
                  rw [if_neg (by omega), e1, a1]
                · simp only [Function.update_apply]
                  rw [if_neg (by omega), e2, b1]
      · refine ⟨st, ?_, ⟨rfl, rfl, fun i => ⟨rfl, rfl, rfl⟩⟩, ?_⟩
        · unfold refitNode
          simp only [hc.2.2.2.2 k hin, if_true]
        · intro s hs hsk
          have : s.idx ≠ k := fun e => hin (e ▸ idx_mem_of_subtree hs)
          exact hv s hs (by omega)
    obtain ⟨st1, e1, l1, v1⟩ := key
    rw [e1]
    simp only [bind, Except.bind]
    obtain ⟨st2, e2, l2, v2⟩ := ih st1 (l1.chunkOK hc) (by rw [l1.1]; omega) v1
    exact ⟨st2, e2, l1.trans l2, v2⟩

theorem refit_sub_tree_spec (hM : MeshOK X T) (hK : K = 3 ∨ K = 4) {t : BT}
    (hle : ∀ e ∈ t.leaves, e < T.length) (st : SubTree) (hc : ChunkOK st t) :
    ∃ st', refit_sub_tree X T st K env = .ok st' ∧ SameLinks st st' ∧ ChunkOK st' t ∧
      VolOK X T K env st' t := by
  obtain ⟨st', h1, h2, h3⟩ := refit_loop (env := env) hM hK hle st.size st hc (le_refl _) (by
    intro s hs hk
    have := stores_lt (stores_sub hc.1 hs)
    omega)
  exact ⟨st', h1, h2, h2.chunkOK hc, h3 t (self_mem_subtrees t)⟩

/-- Specification of a whole BVH over the mesh (X, T): the chunks store trees whose leaves are
exactly the elements, in order and once each; all volumes are right; the root volume covers all
chunks. -/
def TreeOK (X : List V3) (T : List (List ℕ)) (K : ℕ) (env : ℝ) (tree : Tree) (trees : List BT) : Prop :=
  List.Forall₂ (fun st t => ChunkOK st t ∧ VolOK X T K env st t) tree.chunks trees ∧
  trees.flatMap BT.leaves = List.range T.length ∧
  ∃ R, tree.root = some R ∧ R.K = K ∧
    (∀ t ∈ trees, ∀ e ∈ t.leaves, ∀ D, LeafDop X T K env e D → DopLe D R) ∧
    (∀ C, C.K = K → (∀ t ∈ trees, ∀ e ∈ t.leaves, ∀ D, LeafDop X T K env e D → DopLe D C) → DopLe R C)

/-- links only: a tree as left by an earlier make or refit with other coordinates -/
def LinksOK (T : List (List ℕ)) (chunks : List SubTree) (trees : List BT) : Prop :=
  List.Forall₂ ChunkOK chunks trees ∧ trees.flatMap BT.leaves = List.range T.length

theorem mapM_refit (hM : MeshOK X T) (hK : K = 3 ∨ K = 4) (chunks : List SubTree) (trees : List BT)
    (hF : List.Forall₂ ChunkOK chunks trees)
    (hle : ∀ t ∈ trees, ∀ e ∈ t.leaves, e < T.length) :
    ∃ R, chunks.mapM (fun st => refit_sub_tree X T st K env) = .ok R ∧
      List.Forall₂ (fun st t => ChunkOK st t ∧ VolOK X T K env st t) R trees ∧
      List.Forall₂ SameLinks chunks R := by
  induction hF with
  | nil => exact ⟨[], rfl, .nil, .nil⟩
  | cons h _ ih =>
    obtain ⟨R, r1, r2, r3⟩ := ih (fun t ht => hle t (by simp [ht]))
    obtain ⟨st', s1, s2, s3, s4⟩ := refit_sub_tree_spec (env := env) hM hK (hle _ (by simp)) _ h
    refine ⟨st' :: R, ?_, .cons ⟨s3, s4⟩ r2, .cons s2 r3⟩
    rw [List.mapM_cons, s1, r1]; rfl

theorem root_fold (chunks : List SubTree) (trees : List BT)
    (hF : List.Forall₂ (fun st t => ChunkOK st t ∧ VolOK X T K env st t) chunks trees) :
    ∀ R0 : KDOP, R0.K = K → ∃ R, chunks.foldlM rootStep R0 = .ok R ∧ R.K = K ∧ DopLe R0 R ∧
      (∀ t ∈ trees, ∀ e ∈ t.leaves, ∀ D, LeafDop X T K env e D → DopLe D R) ∧
      (∀ C, C.K = K → DopLe R0 C →
        (∀ t ∈ trees, ∀ e ∈ t.leaves, ∀ D, LeafDop X T K env e D → DopLe D C) → DopLe R C) := by
  induction hF with
  | nil => intro R0 h; exact ⟨R0, rfl, h, DopLe.refl _, by simp, fun C _ h _ => h⟩
  | @cons st t chunks trees h _ ih =>
    intro R0 hR0
    obtain ⟨⟨c1, c2, -⟩, hv⟩ := h
    obtain ⟨A, a1, a2, a3, a4⟩ := volOK_spec hv
    obtain ⟨U, u1, u2, u3, -, u5⟩ := (C17_union R0 A).1 (by rw [hR0, a2])
    obtain ⟨R, r1, r2, r3, r4, r5⟩ := ih U (by rw [(union_K u1).2, hR0])
    have hget : st.get 0 = .ok (st.nodes 0) := by
      have := stores_lt c1
      rw [c2] at this
      exact get_ok this
    refine ⟨R, ?_, r2, u2.trans r3, ?_, ?_⟩
    · have hs : rootStep R0 st = .ok U := by
        unfold rootStep
        rw [hget]
        simp only [bind, Except.bind]
        rw [c2] at a1
        simp only [a1, u1]
      rw [List.foldlM_cons, hs]
      exact r1
    · intro s hs e he D hD
      rcases List.mem_cons.mp hs with rfl | hs
      · obtain ⟨D', d1, d2⟩ := a3 e he
        rw [leafDop_unique hD d1]
        exact (d2.trans u3).trans r3
      · exact r4 s hs e he D hD
    · intro C hC h0 hall
      exact r5 C hC (u5 C h0 (a4 C (fun e he D hD => hall t (by simp) e he D hD)))
        (fun s hs => hall s (by simp [hs]))

theorem refit_bvh_spec (hM : MeshOK X T) (hK : K = 3 ∨ K = 4) (tree : Tree) (trees : List BT)
    (hL : LinksOK T tree.chunks trees) :
    ∃ tree', refit_bvh X T tree K env = .ok tree' ∧ TreeOK X T K env tree' trees ∧
      List.Forall₂ SameLinks tree.chunks tree'.chunks := by
  obtain ⟨hF, hl⟩ := hL
  obtain ⟨R, r1, r2, r3⟩ := mapM_refit (env := env) hM hK _ _ hF (by
    intro t ht e he
    have : e ∈ trees.flatMap BT.leaves := List.mem_flatMap.mpr ⟨t, ht, he⟩
    rw [hl] at this
    exact List.mem_range.mp this)
  obtain ⟨root, q1, q2, q3, q4, q5⟩ := root_fold R trees r2 (KDOP.init K) rfl
  refine ⟨⟨some root, R⟩, ?_, ⟨r2, hl, root, rfl, q2, q4, ?_⟩, r3⟩
  · unfold refit_bvh
    rw [r1]
    simp only [bind, Except.bind]
    rw [q1]
  · intro C hC hall
    refine q5 C hC ⟨hC.symm, ?_⟩ hall
    intro k _
    exact ⟨le_top, bot_le⟩

/-- C18: for every mesh with valid indices, K in {3, 4} and chunk size N ≥ 1, `make_bvh` succeeds
(no index error) and every chunk is an array that stores a binary tree rooted at 0, with no slot used
twice and all links inside the array; the leaves of all chunks together, left to right, are exactly
0, 1, ..., len(T)-1; every internal node has two children stored after it; and the height of each
chunk's tree (as recorded in `height`) is at most ⌈log2(number of its leaves)⌉. -/
theorem C18_make_bvh (X : List V3) (T : List (List ℕ)) (K N : ℕ) (env : ℝ) (hM : MeshOK X T)
    (hK : K = 3 ∨ K = 4) (hN : 1 ≤ N) :
    ∃ tree trees, make_bvh X T K N env = .ok tree ∧
      List.Forall₂ (fun st t => ChunkOK st t ∧ st.size = N ∧ st.height.1 = t.height ∧
        t.height ≤ Nat.clog 2 t.leaves.length ∧ t.leaves.length ≤ (N + 1) / 2) tree.chunks trees ∧
      trees.flatMap BT.leaves = List.range T.length ∧ TreeOK X T K env tree trees := by
  obtain ⟨chunks, trees, h1, h2, h3⟩ := make_chunks_spec N T.length hN
  have hF : List.Forall₂ ChunkOK chunks trees := h2.imp (fun _ _ h => h.1)
  obtain ⟨tree', t1, t2, t3⟩ := refit_bvh_spec (env := env) hM hK ⟨none, chunks⟩ trees ⟨hF, h3⟩
  refine ⟨tree', trees, ?_, ?_, h3, t2⟩
  · unfold make_bvh
    simp only [bind, Except.bind]
    rw [if_neg (by omega), h1]
    exact t1
  · simp only at t3
    clear t1 t2 h1 h3 hF
    generalize tree'.chunks = R at t3
    induction h2 generalizing R with
    | nil => cases t3; exact .nil
    | cons h _ ih =>
      cases t3 with
      | cons s t3 =>
        refine .cons ⟨s.chunkOK h.1, by rw [s.1, h.2.1], by rw [s.2.1, h.2.2.2.1], h.2.2.1, h.2.2.2.2⟩ (ih _ t3)

theorem C18_zero_chunk_size (X : List V3) (T : List (List ℕ)) (K : ℕ) (env : ℝ) :
    make_bvh X T K 0 env = .error .zeroDivision := by
  simp [make_bvh, bind, Except.bind]

/-- C19: a BVH built by `make_bvh`, and then refitted with `refit_bvh` to any new coordinates (any
number of vertices that covers the elements, any K and envelope), has in every node a volume that
contains every point of every element below that node, and a root that contains the whole mesh; and
the refit leaves the tree structure as it was. -/
theorem C19_refit (X X' : List V3) (T : List (List ℕ)) (K K' N : ℕ) (env env' : ℝ) (hM : MeshOK X T)
    (hM' : MeshOK X' T) (hK : K = 3 ∨ K = 4) (hK' : K' = 3 ∨ K' = 4) (hN : 1 ≤ N)
    (henv : 0 ≤ env') (tree : Tree) (hmk : make_bvh X T K N env = .ok tree) :
    ∃ tree' trees, refit_bvh X' T tree K' env' = .ok tree' ∧
      List.Forall₂ SameLinks tree.chunks tree'.chunks ∧
      List.Forall₂ (fun st t => ChunkOK st t ∧ ∀ s ∈ t.subtrees, ∃ A,
        (st.nodes s.idx).volume = some A ∧ ∀ e ∈ s.leaves,
          ∀ p ∈ convexHull ℝ (ElementPoints X' T e), InDop A p) tree'.chunks trees ∧
      trees.flatMap BT.leaves = List.range T.length ∧
      ∃ R, tree'.root = some R ∧ ∀ e < T.length,
        ∀ p ∈ convexHull ℝ (ElementPoints X' T e), InDop R p := by
  obtain ⟨tree0, trees, m1, -, m3, m4⟩ := C18_make_bvh X T K N env hM hK hN
  rw [hmk] at m1; cases m1
  have hL : LinksOK T tree.chunks trees := ⟨m4.1.imp (fun _ _ h => h.1), m3⟩
  obtain ⟨tree', t1, t2, t3⟩ := refit_bvh_spec (env := env') hM' hK' tree trees hL
  obtain ⟨w1, w2, R, w3, w4, w5, w6⟩ := t2
  refine ⟨tree', trees, t1, t3, ?_, m3, R, w3, ?_⟩
  · refine w1.imp ?_
    rintro st t ⟨hc, hv⟩
    refine ⟨hc, ?_⟩
    intro s hs
    obtain ⟨A, a1, a2, a3, -⟩ := volOK_spec (volOK_sub hv hs)
    refine ⟨A, a1, ?_⟩
    intro e he p hp
    obtain ⟨D, d1, d2⟩ := a3 e he
    exact d2.inDop (leafDop_contains hM' hK' henv d1 hp)
  · intro e he p hp
    have : e ∈ trees.flatMap BT.leaves := by rw [w2]; exact List.mem_range.mpr he
    obtain ⟨t, ht, het⟩ := List.mem_flatMap.mp this
    obtain ⟨D, hD⟩ := leafDop_exists hM' hK' env' he
    exact (w5 t ht e het D hD).inDop (leafDop_contains hM' hK' henv hD hp)

/-! ## Traversal -/

end

section
variable {XA XB : List V3} {TA TB : List (List ℕ)} {K : ℕ} {eA eB : ℝ}

open Classical in
/-- the overlapping leaf pairs of two trees -/
noncomputable def expectedPairs (XA XB : List V3) (TA TB : List (List ℕ)) (K : ℕ) (eA eB : ℝ)
    (a b : BT) : List (ℤ × ℤ) :=
  a.leaves.flatMap fun i => (b.leaves.filter fun j => decide (∃ D E, LeafDop XA TA K eA i D ∧
    LeafDop XB TB K eB j E ∧ KDOP.overlap D E = .ok true)).map fun (j : ℕ) => ((i : ℤ), (j : ℤ))

theorem expected_node_left (i : ℕ) (l r b : BT) :
    expectedPairs XA XB TA TB K eA eB (.node i l r) b =
      expectedPairs XA XB TA TB K eA eB l b ++ expectedPairs XA XB TA TB K eA eB r b := by
  simp [expectedPairs, BT.leaves]

theorem expected_node_right (i : ℕ) (a l r : BT) :
    (expectedPairs XA XB TA TB K eA eB a (.node i l r)).Perm
      (expectedPairs XA XB TA TB K eA eB a l ++ expectedPairs XA XB TA TB K eA eB a r) := by
  simp only [expectedPairs, BT.leaves, List.filter_append, List.map_append]
  exact (List.flatMap_append_perm _ _ _).symm

theorem expected_empty {SA SB : SubTree} {a b : BT} (ha : VolOK XA TA K eA SA a)
    (hb : VolOK XB TB K eB SB b) {A B : KDOP} (hA : (SA.nodes a.idx).volume = some A)
    (hB : (SB.nodes b.idx).volume = some B) (ho : KDOP.overlap A B ≠ .ok true) :
    expectedPairs XA XB TA TB K eA eB a b = [] := by
  obtain ⟨A', a1, a2, a3, -⟩ := volOK_spec ha
  obtain ⟨B', b1, b2, b3, -⟩ := volOK_spec hb
  rw [hA] at a1; cases a1
  rw [hB] at b1; cases b1
  unfold expectedPairs
  rw [List.flatMap_eq_nil_iff]
  intro i hi
  rw [List.map_eq_nil_iff, List.filter_eq_nil_iff]
  intro j hj
  simp only [decide_eq_true_eq]
  rintro ⟨D, E, hD, hE, hDE⟩
  obtain ⟨D', d1, d2⟩ := a3 i hi
  obtain ⟨E', e1, e2⟩ := b3 j hj
  rw [leafDop_unique hD d1, leafDop_unique hE e1] at hDE
  exact ho ((C17_overlap D' E').2.2 A B d2 e2 hDE)

theorem childRange_node {st : SubTree} {i : ℕ} {l r : BT} (h : Stores st (.node i l r)) :
    childRange (st.nodes i) = [(l.idx : ℤ), (r.idx : ℤ)] := by
  obtain ⟨h0, h1, h2, h3, -⟩ := h
  unfold childRange
  rw [h1, h2, h3]
  have : ((l.idx + 1 : ℕ) : ℤ) + 1 - (l.idx : ℤ) = 2 := by push_cast; ring
  rw [this]
  simp [List.range_succ]

theorem BT.count_pos (t : BT) : 0 < t.count := by cases t <;> simp [count]

/-- weight of a queue, in terms of the trees it refers to -/
def weight (S : List (BT × BT)) : ℕ := (S.map fun s => s.1.count * s.2.count).sum

theorem traversal_loop {SA SB : SubTree} (n : ℕ) : ∀ (Q : List (ℤ × ℤ)) (res : List (ℤ × ℤ))
    (S : List (BT × BT)),
    List.Forall₂ (fun q (s : BT × BT) => q = ((s.1.idx : ℤ), (s.2.idx : ℤ)) ∧ Stores SA s.1 ∧
      Stores SB s.2 ∧ VolOK XA TA K eA SA s.1 ∧ VolOK XB TB K eB SB s.2) Q S →
    weight S = n →
    ∃ res', LoopEnds (travStep SA SB) (Q, res) (.ok ([], res')) ∧
      res'.Perm (res ++ S.flatMap fun s => expectedPairs XA XB TA TB K eA eB s.1 s.2) := by
  induction n using Nat.strong_induction_on with
  | _ n ih =>
    intro Q res S hF hw
    cases hF with
    | nil =>
      exact ⟨res, .done rfl, by simp⟩
    | @cons q s Q S h hF =>
      obtain ⟨a, b⟩ := s
      obtain ⟨rfl, sa, sb, va, vb⟩ := h
      simp only at sa sb va vb
      obtain ⟨A, a1, a2, -⟩ := volOK_spec va
      obtain ⟨B, b1, b2, -⟩ := volOK_spec vb
      obtain ⟨o, o1, -⟩ := overlap_iff A B (by rw [a2, b2])
      have ga := get_ok (stores_lt sa)
      have gb := get_ok (stores_lt sb)
      have ca := a.count_pos
      have cb := b.count_pos
      have hwt : weight S + a.count * b.count = n := by
        rw [← hw]; simp [weight]; ring
      have hpos : 0 < a.count * b.count := Nat.mul_pos ca cb
      have step : travStep SA SB (((a.idx : ℤ), (b.idx : ℤ)) :: Q, res) =
          (if ¬ o then .ok (some (Q, res))
          else if is_leaf (SA.nodes a.idx) ∧ is_leaf (SB.nodes b.idx) then
            .ok (some (Q, res ++ [((SA.nodes a.idx).start, (SB.nodes b.idx).start)]))
          else if ¬ is_leaf (SA.nodes a.idx) ∧ ¬ is_leaf (SB.nodes b.idx) then
            .ok (some (Q ++ (childRange (SA.nodes a.idx)).flatMap (fun i =>
              (childRange (SB.nodes b.idx)).map fun j => (i, j)), res))
          else if ¬ is_leaf (SA.nodes a.idx) then
            .ok (some (Q ++ (childRange (SA.nodes a.idx)).map (fun i => (i, (b.idx : ℤ))), res))
          else
            .ok (some (Q ++ (childRange (SB.nodes b.idx)).map (fun j => ((a.idx : ℤ), j)), res))) := by
        simp only [travStep, ga, gb, bind, Except.bind, a1, b1, o1]
      simp only
      cases ho : o with
      | false =>
        subst ho
        rw [if_pos (by simp)] at step
        have hemp : expectedPairs XA XB TA TB K eA eB a b = [] :=
          expected_empty va vb a1 b1 (by rw [o1]; simp)
        obtain ⟨res', h1, h2⟩ := ih (weight S) (by omega) Q res S hF rfl
        refine ⟨res', .next step h1, ?_⟩
        simpa [hemp] using h2
      | true =>
        subst ho
        rw [if_neg (by simp)] at step
        cases a with
        | leaf ia ea =>
          have fa := (stores_leaf_flags sa).1
          cases b with
          | leaf ib eb =>
            have fb := (stores_leaf_flags sb).1
            simp only [BT.idx] at step a1 b1
            simp only [fa, fb, Bool.false_eq_true, and_self, and_false, false_and, not_true_eq_false, not_false_eq_true, and_true, true_and, if_true, if_false, ite_true, ite_false] at step
            rw [sa.2.1, sb.2.1] at step
            obtain ⟨res', h1, h2⟩ := ih (weight S) (by omega) Q (res ++ [((ea : ℤ), (eb : ℤ))]) S hF rfl
            refine ⟨res', .next step h1, ?_⟩
            have hexp : expectedPairs XA XB TA TB K eA eB (.leaf ia ea) (.leaf ib eb) = [((ea : ℤ), (eb : ℤ))] := by
              obtain ⟨D, d1, d2⟩ := va
              obtain ⟨E, e1, e2⟩ := vb
              rw [a1] at d2; cases d2
              rw [b1] at e2; cases e2
              have : ∃ D E, LeafDop XA TA K eA ea D ∧ LeafDop XB TB K eB eb E ∧ KDOP.overlap D E = .ok true :=
                ⟨A, B, d1, e1, o1⟩
              simp only [expectedPairs, BT.leaves, List.flatMap_cons, List.flatMap_nil, List.append_nil,
                List.filter_cons, List.filter_nil, this, decide_true, if_true, List.map_cons, List.map_nil]
            simpa [hexp] using h2
          | node ib l r =>
            have fb := (stores_node_flags sb).1
            simp only [BT.idx] at step
            simp only [fa, fb, Bool.false_eq_true, and_self, and_false, false_and, not_true_eq_false, not_false_eq_true, and_true, true_and, if_true, if_false, ite_true, ite_false] at step
            rw [childRange_node sb] at step
            simp only [List.map_cons, List.map_nil] at step
            obtain ⟨-, -, -, -, -, -, -, sl, sr⟩ := sb
            obtain ⟨_, _, _, _, _, _, _, vl, vr⟩ := vb
            obtain ⟨res', h1, h2⟩ := ih (weight (S ++ [(.leaf ia ea, l), (.leaf ia ea, r)])) (by
                simp only [weight, List.map_append, List.sum_append, List.map_cons, List.map_nil,
                  List.sum_cons, List.sum_nil, BT.count] at hwt ⊢
                omega) (Q ++ [((ia : ℤ), (l.idx : ℤ)), ((ia : ℤ), (r.idx : ℤ))]) res
                (S ++ [(.leaf ia ea, l), (.leaf ia ea, r)])
                (List.rel_append hF (.cons ⟨rfl, sa, sl, va, vl⟩ (.cons ⟨rfl, sa, sr, va, vr⟩ .nil))) rfl
            refine ⟨res', .next step h1, h2.trans ?_⟩
            simp only [List.flatMap_append, List.flatMap_cons, List.flatMap_nil, List.append_nil]
            apply List.Perm.append_left
            refine List.perm_append_comm.trans ?_
            apply List.Perm.append_right
            exact (expected_node_right ib _ l r).symm
        | node ia l r =>
          have fa := (stores_node_flags sa).1
          have sa' := sa
          obtain ⟨-, -, -, -, -, -, -, sl, sr⟩ := sa'
          obtain ⟨_, _, _, _, _, _, _, vl, vr⟩ := va
          cases b with
          | leaf ib eb =>
            have fb := (stores_leaf_flags sb).1
            simp only [BT.idx] at step
            simp only [fa, fb, Bool.false_eq_true, and_self, and_false, false_and, not_true_eq_false, not_false_eq_true, and_true, true_and, if_true, if_false, ite_true, ite_false] at step
            rw [childRange_node sa] at step
            simp only [List.map_cons, List.map_nil] at step
            obtain ⟨res', h1, h2⟩ := ih (weight (S ++ [(l, .leaf ib eb), (r, .leaf ib eb)])) (by
                simp only [weight, List.map_append, List.sum_append, List.map_cons, List.map_nil,
                  List.sum_cons, List.sum_nil, BT.count] at hwt ⊢
                omega) (Q ++ [((l.idx : ℤ), (ib : ℤ)), ((r.idx : ℤ), (ib : ℤ))]) res
                (S ++ [(l, .leaf ib eb), (r, .leaf ib eb)])
                (List.rel_append hF (.cons ⟨rfl, sl, sb, vl, vb⟩ (.cons ⟨rfl, sr, sb, vr, vb⟩ .nil))) rfl
            refine ⟨res', .next step h1, h2.trans ?_⟩
            simp only [List.flatMap_append, List.flatMap_cons, List.flatMap_nil, List.append_nil]
            apply List.Perm.append_left
            refine List.perm_append_comm.trans ?_
            apply List.Perm.append_right
            rw [expected_node_left]
          | node ib l' r' =>
            have fb := (stores_node_flags sb).1
            simp only [BT.idx] at step
            simp only [fa, fb, Bool.false_eq_true, and_self, and_false, false_and, not_true_eq_false, not_false_eq_true, and_true, true_and, if_true, if_false, ite_true, ite_false] at step
            rw [childRange_node sa, childRange_node sb] at step
            simp only [List.map_cons, List.map_nil, List.flatMap_cons, List.flatMap_nil, List.append_nil,
              List.cons_append, List.nil_append] at step
            obtain ⟨-, -, -, -, -, -, -, sl', sr'⟩ := sb
            obtain ⟨_, _, _, _, _, _, _, vl', vr'⟩ := vb
            obtain ⟨res', h1, h2⟩ := ih (weight (S ++ [(l, l'), (l, r'), (r, l'), (r, r')])) (by
                simp only [weight, List.map_append, List.sum_append, List.map_cons, List.map_nil,
                  List.sum_cons, List.sum_nil, BT.count] at hwt ⊢
                nlinarith) (Q ++ [((l.idx : ℤ), (l'.idx : ℤ)), ((l.idx : ℤ), (r'.idx : ℤ)),
                  ((r.idx : ℤ), (l'.idx : ℤ)), ((r.idx : ℤ), (r'.idx : ℤ))]) res
                (S ++ [(l, l'), (l, r'), (r, l'), (r, r')])
                (List.rel_append hF (.cons ⟨rfl, sl, sl', vl, vl'⟩ (.cons ⟨rfl, sl, sr', vl, vr'⟩
                  (.cons ⟨rfl, sr, sl', vr, vl'⟩ (.cons ⟨rfl, sr, sr', vr, vr'⟩ .nil))))) rfl
            refine ⟨res', .next step h1, h2.trans ?_⟩
            simp only [List.flatMap_append, List.flatMap_cons, List.flatMap_nil, List.append_nil]
            apply List.Perm.append_left
            refine List.perm_append_comm.trans ?_
            apply List.Perm.append_right
            rw [expected_node_left]
            refine List.Perm.trans ?_ (List.Perm.append (expected_node_right ib l l' r').symm
              (expected_node_right ib r l' r').symm)
            simp only [List.append_assoc]
            exact List.Perm.refl _

theorem sub_traversal_spec {SA SB : SubTree} {a b : BT} (ha : ChunkOK SA a) (hb : ChunkOK SB b)
    (va : VolOK XA TA K eA SA a) (vb : VolOK XB TB K eB SB b) (res : List (ℤ × ℤ)) :
    ∃ res', iterative_sub_tree_traversal SA SB res = .ok res' ∧
      res'.Perm (res ++ expectedPairs XA XB TA TB K eA eB a b) := by
  obtain ⟨res', h1, h2⟩ := traversal_loop (XA := XA) (XB := XB) (TA := TA) (TB := TB) (K := K) (eA := eA) (eB := eB)
    (SA := SA) (SB := SB) _ [(0, 0)] res [(a, b)]
    (.cons ⟨by simp [ha.2.1, hb.2.1], ha.1, hb.1, va, vb⟩ .nil) rfl
  refine ⟨res', ?_, by simpa using h2⟩
  unfold iterative_sub_tree_traversal
  rw [whileLoop_eq h1]; rfl

theorem foldlM_perm {α β : Type} {f : List (ℤ × ℤ) → α → Except PyErr (List (ℤ × ℤ))}
    {R : α → β → Prop} {ex : β → List (ℤ × ℤ)}
    (hf : ∀ a b, R a b → ∀ res, ∃ res', f res a = .ok res' ∧ res'.Perm (res ++ ex b))
    {L : List α} {M : List β} (hF : List.Forall₂ R L M) : ∀ res, ∃ res', L.foldlM f res = .ok res' ∧
      res'.Perm (res ++ M.flatMap ex) := by
  induction hF with
  | nil => intro res; exact ⟨res, rfl, by simp⟩
  | cons h _ ih =>
    intro res
    obtain ⟨r1, h1, h2⟩ := hf _ _ h res
    obtain ⟨r2, h3, h4⟩ := ih r1
    refine ⟨r2, ?_, h4.trans ?_⟩
    · rw [List.foldlM_cons, h1]; exact h3
    · simp only [List.flatMap_cons, ← List.append_assoc]
      exact List.Perm.append_right _ h2

/-- C20: for two BVHs as `make_bvh`/`refit_bvh` produce them (same K), `traversal` terminates without
error and reports each pair of elements whose leaf volumes overlap exactly once, and nothing else. -/
theorem C20_traversal (treeA treeB : Tree) (tsA tsB : List BT)
    (hA : TreeOK XA TA K eA treeA tsA) (hB : TreeOK XB TB K eB treeB tsB) :
    ∃ res, traversal treeA treeB = .ok res ∧ res.Nodup ∧
      ∀ i j : ℤ, (i, j) ∈ res ↔ ∃ m n : ℕ, i = m ∧ j = n ∧ m < TA.length ∧ n < TB.length ∧
        ∃ D E, LeafDop XA TA K eA m D ∧ LeafDop XB TB K eB n E ∧ KDOP.overlap D E = .ok true := by
  classical
  obtain ⟨fA, lA, RA, rA1, rA2, rA3, -⟩ := hA
  obtain ⟨fB, lB, RB, rB1, rB2, rB3, -⟩ := hB
  obtain ⟨o, o1, -⟩ := overlap_iff RA RB (by rw [rA2, rB2])
  have memA : ∀ m, m < TA.length → ∃ t ∈ tsA, m ∈ t.leaves := by
    intro m hm
    have : m ∈ tsA.flatMap BT.leaves := by rw [lA]; exact List.mem_range.mpr hm
    simpa [List.mem_flatMap] using this
  have memB : ∀ m, m < TB.length → ∃ t ∈ tsB, m ∈ t.leaves := by
    intro m hm
    have : m ∈ tsB.flatMap BT.leaves := by rw [lB]; exact List.mem_range.mpr hm
    simpa [List.mem_flatMap] using this
  cases o with
  | false =>
    refine ⟨[], ?_, List.nodup_nil, ?_⟩
    · simp [traversal, rA1, rB1, o1, bind, Except.bind]
    · intro i j
      simp only [List.not_mem_nil, false_iff]
      rintro ⟨m, n, -, -, hm, hn, D, E, hD, hE, hDE⟩
      obtain ⟨t, ht, htm⟩ := memA m hm
      obtain ⟨u, hu, hun⟩ := memB n hn
      have := (C17_overlap D E).2.2 RA RB (rA3 t ht m htm D hD) (rB3 u hu n hun E hE) hDE
      rw [o1] at this; cases this
  | true =>
    obtain ⟨res, h1, h2⟩ := foldlM_perm (f := fun results sub_A =>
        treeB.chunks.foldlM (fun results sub_B => iterative_sub_tree_traversal sub_A sub_B results) results)
      (R := fun st t => ChunkOK st t ∧ VolOK XA TA K eA st t)
      (ex := fun a => tsB.flatMap fun b => expectedPairs XA XB TA TB K eA eB a b)
      (by
        rintro SA a ⟨ca, va⟩ res
        exact foldlM_perm (R := fun st t => ChunkOK st t ∧ VolOK XB TB K eB st t)
          (fun SB b hb res => sub_traversal_spec ca hb.1 va hb.2 res) fB res) fA []
    refine ⟨res, ?_, ?_, ?_⟩
    · simp only [traversal, rA1, rB1, o1, bind, Except.bind]
      rw [if_neg (by simp)]
      exact h1
    all_goals
      set ov : ℕ → ℕ → Prop := fun m n => ∃ D E, LeafDop XA TA K eA m D ∧
        LeafDop XB TB K eB n E ∧ KDOP.overlap D E = .ok true with hov
      have hperm : res.Perm ((List.range TA.length).flatMap fun i =>
          ((List.range TB.length).filter fun j => decide (ov i j)).map fun (j : ℕ) => ((i : ℤ), (j : ℤ))) := by
        refine h2.trans ?_
        rw [List.nil_append, ← lA, ← lB, List.flatMap_assoc]
        apply List.Perm.flatMap_left
        intro a _
        unfold expectedPairs
        -- swap the two loops
        have swap : ∀ (L : List ℕ) (M : List BT),
            (M.flatMap fun b => L.flatMap fun i => (b.leaves.filter fun j => decide (ov i j)).map fun (j : ℕ) => ((i : ℤ), (j : ℤ))).Perm
            (L.flatMap fun i => ((M.flatMap BT.leaves).filter fun j => decide (ov i j)).map fun (j : ℕ) => ((i : ℤ), (j : ℤ))) := by
          intro L M
          induction M with
          | nil => simp
          | cons b M ih =>
            simp only [List.flatMap_cons, List.filter_append, List.map_append]
            exact (List.Perm.append_left _ ih).trans (List.flatMap_append_perm _ _ _)
        exact swap _ _
    · rw [hperm.nodup_iff, List.nodup_flatMap]
      constructor
      · intro i _
        apply List.Nodup.map _ (List.nodup_range.filter _)
        intro x y hxy
        simpa using hxy
      · apply List.Pairwise.imp_of_mem _ List.nodup_range
        intro i i' _ _ hii
        simp only [Function.onFun, List.disjoint_left, List.mem_map, not_exists, not_and]
        rintro ⟨x, y⟩ ⟨j, _, hj⟩ j' _ hj'
        simp only [Prod.mk.injEq] at hj hj'
        apply hii
        have := hj.1.trans hj'.1.symm
        exact_mod_cast this
    · intro i j
      rw [hperm.mem_iff]
      simp only [List.mem_flatMap, List.mem_range, List.mem_map, List.mem_filter, decide_eq_true_eq,
        Prod.mk.injEq]
      constructor
      · rintro ⟨m, hm, n, ⟨hn, hov⟩, rfl, rfl⟩
        exact ⟨m, n, rfl, rfl, hm, hn, hov⟩
      · rintro ⟨m, n, rfl, rfl, hm, hn, h⟩
        exact ⟨m, hm, n, ⟨hn, h⟩, rfl, rfl⟩

/-- C20: end to end. For two meshes with BVHs built by `make_bvh` with the same K (and any chunk
sizes, non-negative envelopes), every pair of elements that intersect is reported. -/
theorem C20_no_missed_pair (NA NB : ℕ) (hMA : MeshOK XA TA) (hMB : MeshOK XB TB)
    (hK : K = 3 ∨ K = 4) (hNA : 1 ≤ NA) (hNB : 1 ≤ NB) (heA : 0 ≤ eA) (heB : 0 ≤ eB) (treeA treeB : Tree)
    (hA : make_bvh XA TA K NA eA = .ok treeA) (hB : make_bvh XB TB K NB eB = .ok treeB) :
    ∃ res, traversal treeA treeB = .ok res ∧ res.Nodup ∧
      ∀ m < TA.length, ∀ n < TB.length,
        (∃ p, p ∈ convexHull ℝ (ElementPoints XA TA m) ∧ p ∈ convexHull ℝ (ElementPoints XB TB n)) →
        ((m : ℤ), (n : ℤ)) ∈ res := by
  obtain ⟨tA, tsA, a1, -, -, a2⟩ := C18_make_bvh XA TA K NA eA hMA hK hNA
  obtain ⟨tB, tsB, b1, -, -, b2⟩ := C18_make_bvh XB TB K NB eB hMB hK hNB
  rw [hA] at a1; cases a1
  rw [hB] at b1; cases b1
  obtain ⟨res, r1, r2, r3⟩ := C20_traversal treeA treeB tsA tsB a2 b2
  refine ⟨res, r1, r2, ?_⟩
  rintro m hm n hn ⟨p, hpA, hpB⟩
  rw [r3]
  obtain ⟨D, hD⟩ := leafDop_exists hMA hK eA hm
  obtain ⟨E, hE⟩ := leafDop_exists hMB hK eB hn
  refine ⟨m, n, rfl, rfl, hm, hn, D, E, hD, hE, ?_⟩
  exact (C17_overlap D E).2.1 p (by rw [leafDop_K hD]; exact hK) (by rw [leafDop_K hD, leafDop_K hE])
    (leafDop_contains hMA hK heA hD hpA) (leafDop_contains hMB hK heB hE hpB)

/-- C20: BVHs with different K are rejected. -/
theorem C20_mismatch (treeA treeB : Tree) (RA RB : KDOP) (hA : treeA.root = some RA)
    (hB : treeB.root = some RB) (h : RA.K ≠ RB.K) : traversal treeA treeB = .error .runtimeError := by
  simp [traversal, hA, hB, ((C17_union RA RB).2 h).2, bind, Except.bind]

/-- A concrete mesh of three triangles meets the hypotheses. -/
example : MeshOK [⟨0,0,0⟩, ⟨1,0,0⟩, ⟨0,1,0⟩, ⟨0,0,1⟩] [[0,1,2], [0,2,3], [1,2,3]] := by
  simp [MeshOK]

end
end Verif
