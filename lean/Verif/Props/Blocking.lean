import Verif.Model.Blocking
import Mathlib.Data.List.Pairwise
import Mathlib.Data.List.Sort
import Mathlib.Data.List.Nodup

/-! C39: the contact graph and its colourings. -/

namespace Verif

open Blocking

/-! ### The graph -/

theorem adj_iff_edge (G : Graph) (u v : ℕ) : G.adj u v = true ↔ (u, v) ∈ G.edges ∨ (v, u) ∈ G.edges := by
  unfold Graph.adj
  rw [List.any_eq_true]
  constructor
  · rintro ⟨⟨a, b⟩, he, h⟩
    simp only [Bool.or_eq_true, Bool.and_eq_true, beq_iff_eq] at h
    rcases h with ⟨rfl, rfl⟩ | ⟨rfl, rfl⟩
    · exact Or.inl he
    · exact Or.inr he
  · rintro (h | h)
    · exact ⟨_, h, by simp⟩
    · exact ⟨_, h, by simp⟩

theorem adj_comm (G : Graph) (u v : ℕ) : G.adj u v = G.adj v u := by
  rw [Bool.eq_iff_iff, adj_iff_edge, adj_iff_edge, or_comm]

theorem mem_buildGraph {γ : Type} (share : γ → γ → Bool) (cps : List γ) (k i : ℕ) :
    (k, i) ∈ (buildGraph share cps).edges ↔ k < i ∧ ∃ c1 c2, cps[k]? = some c1 ∧ cps[i]? = some c2 ∧ share c1 c2 = true := by
  unfold buildGraph
  simp only [List.mem_flatMap, List.mem_range, List.mem_filterMap, List.mem_filter, decide_eq_true_eq]
  constructor
  · rintro ⟨k', hk', i', ⟨hi', hlt⟩, h⟩
    cases h1 : cps[k']? with
    | none => rw [h1] at h; simp at h
    | some c1 =>
      cases h2 : cps[i']? with
      | none => rw [h1, h2] at h; simp at h
      | some c2 =>
        rw [h1, h2] at h
        simp only [Option.ite_none_right_eq_some, Option.some.injEq, Prod.mk.injEq] at h
        obtain ⟨hs, rfl, rfl⟩ := h
        exact ⟨hlt, c1, c2, h1, h2, hs⟩
  · rintro ⟨hlt, c1, c2, h1, h2, hs⟩
    refine ⟨k, (List.getElem?_eq_some_iff.1 h1).1, i, ⟨(List.getElem?_eq_some_iff.1 h2).1, hlt⟩, ?_⟩
    rw [h1, h2]
    simp [hs]

theorem adj_buildGraph {γ : Type} (share : γ → γ → Bool) (hsym : ∀ a b, share a b = share b a) (cps : List γ) (u v : ℕ) :
    (buildGraph share cps).adj u v = true ↔
      u ≠ v ∧ ∃ c1 c2, cps[u]? = some c1 ∧ cps[v]? = some c2 ∧ share c1 c2 = true := by
  rw [adj_iff_edge, mem_buildGraph, mem_buildGraph]
  constructor
  · rintro (⟨h, c1, c2, h1, h2, hs⟩ | ⟨h, c1, c2, h1, h2, hs⟩)
    · exact ⟨h.ne, c1, c2, h1, h2, hs⟩
    · exact ⟨h.ne', c2, c1, h2, h1, by rw [hsym]; exact hs⟩
  · rintro ⟨h, c1, c2, h1, h2, hs⟩
    rcases lt_or_gt_of_ne h with h | h
    · exact Or.inl ⟨h, c1, c2, h1, h2, hs⟩
    · exact Or.inr ⟨h, c2, c1, h2, h1, by rw [hsym]; exact hs⟩

/-- Rigid bodies: two contacts are linked exactly when they are different and some body takes part in both. -/
theorem C39_rigid_graph (cps : List RigidContact) (u v : ℕ) :
    (build_contact_graph_rigid cps).adj u v = true ↔
      u ≠ v ∧ ∃ c1 c2 b, cps[u]? = some c1 ∧ cps[v]? = some c2 ∧ (b = c1.bodyA ∨ b = c1.bodyB) ∧
        (b = c2.bodyA ∨ b = c2.bodyB) := by
  unfold build_contact_graph_rigid
  rw [adj_buildGraph]
  · constructor
    · rintro ⟨h, c1, c2, h1, h2, hs⟩
      refine ⟨h, c1, c2, ?_⟩
      simp only [shareBody, Bool.or_eq_true, beq_iff_eq] at hs
      rcases hs with ((e | e) | e) | e
      · exact ⟨c1.bodyA, h1, h2, Or.inl rfl, Or.inl e⟩
      · exact ⟨c1.bodyA, h1, h2, Or.inl rfl, Or.inr e⟩
      · exact ⟨c1.bodyB, h1, h2, Or.inr rfl, Or.inl e⟩
      · exact ⟨c1.bodyB, h1, h2, Or.inr rfl, Or.inr e⟩
    · rintro ⟨h, c1, c2, b, h1, h2, hb1, hb2⟩
      refine ⟨h, c1, c2, h1, h2, ?_⟩
      simp only [shareBody, Bool.or_eq_true, beq_iff_eq]
      rcases hb1 with rfl | rfl <;> rcases hb2 with h | h <;> simp [h]
  · intro a b
    rw [Bool.eq_iff_iff]
    simp only [shareBody, Bool.or_eq_true, beq_iff_eq]
    constructor <;> (rintro (((h | h) | h) | h) <;> simp [h])

/-- Soft bodies: two contacts are linked exactly when they are different and their tetrahedra have a common node. -/
theorem C39_soft_graph (cps : List SoftContact) (u v : ℕ) :
    (build_contact_graph_soft cps).adj u v = true ↔
      u ≠ v ∧ ∃ c1 c2 node, cps[u]? = some c1 ∧ cps[v]? = some c2 ∧
        (node ∈ c1.tetA.map (· + c1.offsetA) ∨ node ∈ c1.tetB.map (· + c1.offsetB)) ∧
        (node ∈ c2.tetA.map (· + c2.offsetA) ∨ node ∈ c2.tetB.map (· + c2.offsetB)) := by
  unfold build_contact_graph_soft
  rw [adj_buildGraph]
  · have hkey : ∀ c1 c2, shareNode c1 c2 = true ↔ ∃ node, (node ∈ c1.tetA.map (· + c1.offsetA) ∨
        node ∈ c1.tetB.map (· + c1.offsetB)) ∧
        (node ∈ c2.tetA.map (· + c2.offsetA) ∨ node ∈ c2.tetB.map (· + c2.offsetB)) := by
      intro c1 c2
      unfold shareNode
      rw [decide_eq_true_eq, Finset.card_pos]
      constructor
      · rintro ⟨x, hx⟩
        rw [Finset.mem_inter] at hx
        simp only [nodeSet, List.mem_toFinset, List.mem_append] at hx
        exact ⟨x, hx⟩
      · rintro ⟨x, hx⟩
        refine ⟨x, ?_⟩
        rw [Finset.mem_inter]
        simpa only [nodeSet, List.mem_toFinset, List.mem_append] using hx
    constructor
    · rintro ⟨h, c1, c2, h1, h2, hs⟩
      obtain ⟨x, hx⟩ := (hkey c1 c2).1 hs
      exact ⟨h, c1, c2, x, h1, h2, hx⟩
    · rintro ⟨h, c1, c2, x, h1, h2, hx⟩
      exact ⟨h, c1, c2, h1, h2, (hkey c1 c2).2 ⟨x, hx⟩⟩
  · intro a b
    simp only [shareNode, Finset.inter_comm]

/-- Any other body type is refused as soon as there is a contact. -/
theorem C39_other_type {γ : Type} (c : γ) (cps : List γ) :
    build_contact_graph_other (c :: cps) = .error .valueError := rfl

theorem graph_nodes {γ : Type} (share : γ → γ → Bool) (cps : List γ) : (buildGraph share cps).n = cps.length := rfl

/-! ### Grouping by colour -/

theorem entries_find {κ υ : Type} [DecidableEq κ] (d : Dict κ υ) (hn : d.keys.Nodup) (k : κ) (v : υ)
    (h : (k, v) ∈ d.entries) : d.get? k = some v := by
  unfold Dict.get?
  unfold Dict.keys at hn
  generalize d.entries = L at *
  induction L with
  | nil => simp at h
  | cons e L ih =>
    obtain ⟨a, b⟩ := e
    rw [List.map_cons, List.nodup_cons] at hn
    rcases List.mem_cons.1 h with h | h
    · injection h with h1 h2
      subst h1; subst h2
      simp
    · have : a ≠ k := by
        rintro rfl
        exact hn.1 (List.mem_map.2 ⟨_, h, rfl⟩)
      rw [List.find?_cons_of_neg (by simpa using this)]
      exact ih hn.2 h

theorem flatten_setItem {γ : Type} (d : Dict ℕ (List γ)) (hn : d.keys.Nodup) (k : ℕ) (a : γ) :
    (d.setItem k ((d.get? k).getD [] ++ [a])).values.flatten.Perm (d.values.flatten ++ [a]) := by
  by_cases hm : d.mem k = true
  · have hs : (d.get? k).isSome = true := by rw [Dict.get?_isSome]; exact hm
    obtain ⟨v, hv⟩ := Option.isSome_iff_exists.1 hs
    unfold Dict.setItem
    rw [if_pos hm, hv]
    unfold Dict.get? at hv
    unfold Dict.values
    unfold Dict.keys at hn
    simp only [Option.getD_some]
    clear hm hs
    generalize d.entries = L at *
    induction L with
    | nil => simp at hv
    | cons e L ih =>
      obtain ⟨c, b⟩ := e
      rw [List.map_cons, List.nodup_cons] at hn
      by_cases hc : c = k
      · subst hc
        simp only [decide_true, List.find?_cons_of_pos, Option.map_some, Option.some.injEq] at hv
        subst hv
        have hrest : L.map (fun e => if e.1 = c then (e.1, b ++ [a]) else e) = L := by
          conv_rhs => rw [← List.map_id L]
          apply List.map_congr_left
          intro e he
          rw [if_neg]
          · rfl
          · rintro rfl
            exact hn.1 (List.mem_map.2 ⟨_, he, rfl⟩)
        simp only [List.map_cons, if_true, List.flatten_cons, hrest]
        rw [List.append_assoc, List.append_assoc]
        exact List.Perm.append_left b List.perm_append_comm
      · rw [List.find?_cons_of_neg (by simpa using hc)] at hv
        simp only [List.map_cons, if_neg hc, List.flatten_cons]
        rw [List.append_assoc]
        exact List.Perm.append_left b (ih hn.2 hv)
  · have hnone : d.get? k = none := by
      rw [Dict.get?_eq_none]; simpa using hm
    unfold Dict.setItem
    rw [if_neg hm, hnone]
    simp [Dict.values]

theorem groupByColor_spec {γ : Type} (L : List (ℕ × γ)) :
    (groupByColor L).keys.Nodup ∧
    (∀ c, (groupByColor L).get? c =
      if L.filter (fun e => e.1 = c) = [] then none else some ((L.filter fun e => e.1 = c).map Prod.snd)) ∧
    (groupByColor L).values.flatten.Perm (L.map Prod.snd) := by
  induction L using List.reverseRecOn with
  | nil => exact ⟨by simp [groupByColor, Dict.empty, Dict.keys], by intro c; simp [groupByColor], by
      simp [groupByColor, Dict.empty, Dict.values]⟩
  | append_singleton L e ih =>
    obtain ⟨h1, h2, h3⟩ := ih
    have hg : groupByColor (L ++ [e]) =
        (groupByColor L).setItem e.1 (((groupByColor L).get? e.1).getD [] ++ [e.2]) := by
      unfold groupByColor
      rw [List.foldl_append]
      rfl
    rw [hg]
    refine ⟨Dict.nodup_setItem _ _ _ h1, ?_, ?_⟩
    · intro c
      rw [Dict.get?_setItem]
      by_cases hc : c = e.1
      · subst hc
        rw [if_pos rfl, h2]
        rw [List.filter_append]
        simp only [decide_true, List.filter_cons_of_pos, List.filter_nil, List.append_eq_nil_iff, List.cons_ne_nil,
          and_false, if_false, List.map_append, List.map_cons, List.map_nil]
        by_cases he : L.filter (fun a => decide (a.1 = e.1)) = []
        · rw [if_pos he, he]; rfl
        · rw [if_neg he]; rfl
      · rw [if_neg hc, h2, List.filter_append]
        have : List.filter (fun a => decide (a.1 = c)) [e] = [] := by
          simp; exact fun h => hc h.symm
        rw [this, List.append_nil]
    · refine (flatten_setItem _ h1 _ _).trans ?_
      rw [List.map_append]
      exact List.Perm.append_right _ h3

theorem mem_groups {γ : Type} (L : List (ℕ × γ)) (g : List γ) (hg : g ∈ (groupByColor L).values) :
    ∃ c, g = (L.filter fun e => e.1 = c).map Prod.snd ∧ g ≠ [] := by
  obtain ⟨h1, h2, -⟩ := groupByColor_spec L
  unfold Dict.values at hg
  obtain ⟨⟨c, g'⟩, he, rfl⟩ := List.mem_map.1 hg
  have h := entries_find _ h1 c g' he
  rw [h2] at h
  split at h
  · cases h
  · rename_i hne
    injection h with h
    refine ⟨c, h.symm, ?_⟩
    rw [← h]
    simpa using hne

/-! ### Greedy colouring -/

theorem firstFree_notMem (used : List ℕ) : firstFree used ∉ used := by
  unfold firstFree
  cases h : (List.range (used.length + 1)).find? (fun c => decide (c ∉ used)) with
  | none =>
    exfalso
    rw [List.find?_eq_none] at h
    have hsub : Finset.range (used.length + 1) ⊆ used.toFinset := by
      intro c hc
      have := h c (List.mem_range.2 (Finset.mem_range.1 hc))
      simpa using this
    have h1 := Finset.card_le_card hsub
    rw [Finset.card_range] at h1
    have h2 := List.toFinset_card_le used
    omega
  | some c =>
    have := List.find?_some h
    simpa using this

theorem greedy_color_spec (G : Graph) (order : List ℕ) (hn : order.Nodup) (hlt : ∀ v ∈ order, v < G.n)
    (hirr : ∀ v, G.adj v v = false) :
    (greedy_color G order).keys = order ∧
    ∀ u v cu cv, (greedy_color G order).get? u = some cu → (greedy_color G order).get? v = some cv →
      G.adj u v = true → cu ≠ cv := by
  induction order using List.reverseRecOn with
  | nil => exact ⟨rfl, by intro u v cu cv h; simp [greedy_color] at h⟩
  | append_singleton L w ih =>
    obtain ⟨h1, h2⟩ := ih (List.Nodup.of_append_left hn) (fun v hv => hlt v (List.mem_append_left _ hv))
    have hw : w ∉ L := by
      rw [List.nodup_append] at hn
      intro h
      exact hn.2.2 w h w (by simp) rfl
    have hg : greedy_color G (L ++ [w]) = (greedy_color G L).setItem w
        (firstFree ((G.neighbors w).filterMap (greedy_color G L).get?)) := by
      unfold greedy_color
      rw [List.foldl_append]
      rfl
    have hmem : ∀ v c, (greedy_color G L).get? v = some c → v ∈ L := by
      intro v c h
      have : (greedy_color G L).mem v = true := by rw [← Dict.get?_isSome, h]; rfl
      rw [Dict.mem_iff_keys, h1] at this
      exact this
    have hfree : ∀ v c, (greedy_color G L).get? v = some c → G.adj w v = true →
        firstFree ((G.neighbors w).filterMap (greedy_color G L).get?) ≠ c := by
      intro v c h hadj he
      apply firstFree_notMem ((G.neighbors w).filterMap (greedy_color G L).get?)
      rw [he, List.mem_filterMap]
      refine ⟨v, ?_, h⟩
      unfold Graph.neighbors
      rw [List.mem_filter, List.mem_range]
      exact ⟨hlt v (List.mem_append_left _ (hmem v c h)), hadj⟩
    rw [hg]
    constructor
    · rw [Dict.keys_setItem, if_neg, h1]
      rw [Dict.mem_iff_keys, h1]
      exact hw
    · intro u v cu cv hu hv hadj
      rw [Dict.get?_setItem] at hu hv
      by_cases huw : u = w
      · rw [if_pos huw] at hu
        by_cases hvw : v = w
        · rw [huw, hvw, hirr] at hadj
          cases hadj
        · rw [if_neg hvw] at hv
          injection hu with hu
          rw [← hu]
          exact hfree v cv hv (huw ▸ hadj)
      · rw [if_neg huw] at hu
        by_cases hvw : v = w
        · rw [if_pos hvw] at hv
          injection hv with hv
          rw [← hv]
          refine (hfree u cu hu ?_).symm
          rw [adj_comm, ← hvw]
          exact hadj
        · rw [if_neg hvw] at hv
          exact h2 u v cu cv hu hv hadj

/-- `greedy_graph_coloring`: every contact's block (4k, 4k+4) is in exactly one group, exactly once; no group is empty;
within a group blocks are in increasing order and no two of them belong to linked contacts. -/
theorem C39_greedy_groups (G : Graph) (hirr : ∀ v, G.adj v v = false) :
    (greedy_graph_coloring G).values.flatten.Perm ((List.range G.n).map fun k => (4 * k, 4 * k + 4)) ∧
    ∀ g ∈ (greedy_graph_coloring G).values, g ≠ [] ∧ g.Pairwise (fun a b => a.1 < b.1) ∧
      ∀ a ∈ g, ∀ b ∈ g, ∀ u v, a = (4 * u, 4 * u + 4) → b = (4 * v, 4 * v + 4) → G.adj u v = false := by
  unfold greedy_graph_coloring
  simp only []
  have hperm : (largest_first G).Perm (List.range G.n) := List.mergeSort_perm _ _
  obtain ⟨hkeys, hprop⟩ := greedy_color_spec G (largest_first G) (hperm.nodup_iff.2 List.nodup_range)
    (fun v hv => List.mem_range.1 (hperm.mem_iff.1 hv)) hirr
  generalize greedy_color G (largest_first G) = C at *
  set S := C.entries.mergeSort (fun a b => decide (a.1 ≤ b.1)) with hS
  have hSperm : S.Perm C.entries := List.mergeSort_perm _ _
  have hfst : (S.map Prod.fst).Perm (List.range G.n) := by
    refine (hSperm.map Prod.fst).trans ?_
    change C.keys.Perm _
    rw [hkeys]
    exact hperm
  have hsorted : S.Pairwise (fun a b => a.1 < b.1) := by
    have h1 : S.Pairwise (fun a b => decide (a.1 ≤ b.1) = true) := by
      apply List.pairwise_mergeSort
      · intro a b c h1 h2
        simp only [decide_eq_true_eq] at *
        omega
      · intro a b
        simp only [Bool.or_eq_true, decide_eq_true_eq]
        omega
    have h2 : S.Pairwise (fun a b => a.1 ≠ b.1) := by
      have : (S.map Prod.fst).Nodup := hfst.nodup_iff.2 List.nodup_range
      exact List.pairwise_map.1 this
    refine (h1.and h2).imp ?_
    intro a b h
    simp only [decide_eq_true_eq] at h
    omega
  have hCn : C.keys.Nodup := by rw [hkeys]; exact hperm.nodup_iff.2 List.nodup_range
  obtain ⟨-, -, h3⟩ := groupByColor_spec (S.map fun e => (e.2, (4 * e.1, 4 * e.1 + 4)))
  constructor
  · refine h3.trans ?_
    rw [List.map_map]
    have : S.map (Prod.snd ∘ fun e => (e.2, (4 * e.1, 4 * e.1 + 4))) =
        (S.map Prod.fst).map fun k => (4 * k, 4 * k + 4) := by
      rw [List.map_map]; rfl
    rw [this]
    exact hfst.map _
  · intro g hg
    obtain ⟨c, hgc, hne⟩ := mem_groups _ g hg
    refine ⟨hne, ?_, ?_⟩
    · rw [hgc, List.pairwise_map]
      refine List.Pairwise.filter _ ?_
      rw [List.pairwise_map]
      refine hsorted.imp ?_
      intro a b h
      simp only
      omega
    · intro a ha b hb u v hau hbv
      have key : ∀ a ∈ g, ∀ u, a = (4 * u, 4 * u + 4) → C.get? u = some c := by
        intro a ha u hau
        rw [hgc] at ha
        obtain ⟨e, he, rfl⟩ := List.mem_map.1 ha
        rw [List.mem_filter] at he
        obtain ⟨e', he', rfl⟩ := List.mem_map.1 he.1
        simp only [decide_eq_true_eq] at he
        simp only [Prod.mk.injEq] at hau
        have hu : e'.1 = u := by omega
        apply entries_find C hCn
        rw [← hu, ← he.2]
        exact hSperm.mem_iff.1 he'
      by_contra hadj
      rw [Bool.not_eq_false] at hadj
      exact hprop u v c c (key a ha u hau) (key b hb v hbv) hadj rfl

/-! ### Random colouring -/

theorem nextColor_gt (n : ℕ) (C : ℕ → Option ℕ) (v c : ℕ) (hv : v < n) (h : C v = some c) : c < nextColor n C := by
  unfold nextColor
  have hmem : c ∈ (List.range n).filterMap C := by
    rw [List.mem_filterMap]
    exact ⟨v, List.mem_range.2 hv, h⟩
  generalize (List.range n).filterMap C = L at *
  have hmono : ∀ (L : List ℕ) (m : ℕ), m ≤ L.foldl (fun m c => max m (c + 1)) m := by
    intro L
    induction L with
    | nil => intro m; exact le_rfl
    | cons a L ih => intro m; exact le_trans (le_max_left _ _) (ih _)
  suffices h : ∀ m, c < L.foldl (fun m c => max m (c + 1)) m from h 0
  induction L with
  | nil => simp at hmem
  | cons a L ih =>
    intro m
    rw [List.foldl_cons]
    rcases List.mem_cons.1 hmem with rfl | h
    · exact lt_of_lt_of_le (lt_of_lt_of_le (Nat.lt_succ_self c) (le_max_right m (c + 1))) (hmono L _)
    · exact ih h _

theorem refill_spec (vs : List ℕ) (start : ℕ) (pal : ℕ → Finset ℕ) :
    (∀ u, (refill start vs pal).2 u = pal u ∨ ∃ f, start ≤ f ∧ (refill start vs pal).2 u = {f}) ∧
    (∀ u ∈ vs, (refill start vs pal).2 u ≠ ∅) ∧ (∀ u, pal u ≠ ∅ → (refill start vs pal).2 u ≠ ∅) := by
  induction vs generalizing start pal with
  | nil => exact ⟨fun u => Or.inl rfl, by simp, fun u h => h⟩
  | cons v vs ih =>
    unfold refill
    rw [List.foldl_cons]
    by_cases hv : pal v = ∅
    · simp only [hv, if_true]
      obtain ⟨h1, h2, h3⟩ := ih (start + 1) (Function.update pal v {start})
      unfold refill at h1 h2 h3
      have hne : ∀ u, pal u ≠ ∅ → Function.update pal v {start} u ≠ ∅ := by
        intro u hu
        by_cases huv : u = v
        · subst huv; exact absurd hv hu
        · rw [Function.update_of_ne huv]; exact hu
      refine ⟨?_, ?_, fun u hu => h3 u (hne u hu)⟩
      · intro u
        rcases h1 u with h | ⟨f, hf, h⟩
        · by_cases huv : u = v
          · subst huv
            right
            exact ⟨start, le_rfl, by rw [h, Function.update_self]⟩
          · left
            rw [h, Function.update_of_ne huv]
        · right; exact ⟨f, by omega, h⟩
      · intro u hu
        rcases List.mem_cons.1 hu with rfl | hu
        · apply h3
          rw [Function.update_self]
          exact Finset.singleton_ne_empty _
        · exact h2 u hu
    · simp only [if_neg hv]
      obtain ⟨h1, h2, h3⟩ := ih start pal
      unfold refill at h1 h2 h3
      refine ⟨h1, ?_, h3⟩
      intro u hu
      rcases List.mem_cons.1 hu with rfl | hu
      · exact h3 u hv
      · exact h2 u hu

/-- What the environment may do: a random choice picks an element of the palette, an enumeration lists each element of
the set once. -/
structure OracleOK (o : Oracle) : Prop where
  choose : ∀ i v P, P ≠ ∅ → o.choose i v P ∈ P
  order : ∀ i L, (o.order i L).Perm L

structure RInv (G : Graph) (s : RState) : Prop where
  lt : ∀ v ∈ s.U, v < G.n
  nodup : s.U.Nodup
  done : ∀ v, v < G.n → v ∉ s.U → s.C v ≠ none
  proper : ∀ u v cu cv, u < G.n → v < G.n → u ∉ s.U → v ∉ s.U → s.C u = some cu → s.C v = some cv → G.adj u v = true →
    cu ≠ cv
  sep : ∀ u v c, v < G.n → v ∉ s.U → u ∈ s.U → s.C v = some c → G.adj v u = true → c ∉ s.palette u
  palette : ∀ u ∈ s.U, s.palette u ≠ ∅ ∨ G.neighbors u = []

theorem mem_neighbors (G : Graph) (u v : ℕ) : u ∈ G.neighbors v ↔ u < G.n ∧ G.adj v u = true := by
  unfold Graph.neighbors
  rw [List.mem_filter, List.mem_range]

theorem round_inv (G : Graph) (o : Oracle) (ho : OracleOK o) (i : ℕ) (s : RState) (hs : RInv G s) :
    RInv G (Blocking.round G o i s) := by
  unfold Blocking.round
  simp only []
  have hcolU : ∀ v ∈ s.U, ∃ c, chooseColors o i s v = some c := by
    intro v hv
    unfold chooseColors
    rw [if_pos hv]
    split
    · exact ⟨_, rfl⟩
    · exact ⟨_, rfl⟩
  have hcolO : ∀ v, v ∉ s.U → chooseColors o i s v = s.C v := by
    intro v hv
    unfold chooseColors
    rw [if_neg hv]
  have hcolP : ∀ v ∈ s.U, ∀ c, chooseColors o i s v = some c → G.neighbors v ≠ [] → c ∈ s.palette v := by
    intro v hv c h hnb
    have hne : s.palette v ≠ ∅ := (hs.palette v hv).resolve_right hnb
    unfold chooseColors at h
    rw [if_pos hv, if_pos hne] at h
    injection h with h
    rw [← h]
    exact ho.choose _ _ _ hne
  generalize chooseColors o i s = col at *
  have hacc : ∀ v ∈ accepted G s col, v ∈ s.U ∧ ∀ u, u < G.n → u ∈ s.U → G.adj v u = true →
      (col u).getD 0 ≠ (col v).getD 0 := by
    intro v hv
    unfold accepted at hv
    rw [List.mem_filter, decide_eq_true_eq] at hv
    exact ⟨hv.1, fun u hu hU hadj => hv.2 u ((mem_neighbors G u v).2 ⟨hu, hadj⟩) hU⟩
  have hU' : ∀ v, v ∈ s.U.filter (fun v => decide (v ∉ accepted G s col)) ↔ v ∈ s.U ∧ v ∉ accepted G s col := by
    intro v
    rw [List.mem_filter, decide_eq_true_eq]
  have hgetD : ∀ v c, col v = some c → (col v).getD 0 = c := by
    intro v c h; rw [h]; rfl
  obtain ⟨r1, r2, -⟩ := refill_spec (o.order i (s.U.filter fun v => decide (v ∉ accepted G s col))) (nextColor G.n col)
    (discardColors G s col (accepted G s col))
  generalize (refill (nextColor G.n col) (o.order i (s.U.filter fun v => decide (v ∉ accepted G s col)))
    (discardColors G s col (accepted G s col))).2 = pal at *
  refine ⟨?_, ?_, ?_, ?_, ?_, ?_⟩
  · intro v hv
    exact hs.lt v ((hU' v).1 hv).1
  · exact hs.nodup.filter _
  · intro v hvn hv
    by_cases h : v ∈ s.U
    · obtain ⟨c, hc⟩ := hcolU v h
      simp [hc]
    · simp only
      rw [hcolO v h]
      exact hs.done v hvn h
  · intro u v cu cv hun hvn hu hv hcu hcv hadj
    simp only at hu hv hcu hcv
    rw [hU'] at hu hv
    by_cases hu1 : u ∈ s.U
    · have hua : u ∈ accepted G s col := by by_contra h; exact hu ⟨hu1, h⟩
      by_cases hv1 : v ∈ s.U
      · have := (hacc u hua).2 v hvn hv1 hadj
        rw [hgetD u cu hcu, hgetD v cv hcv] at this
        exact this.symm
      · -- v was done before, u is accepted now
        have hnb : G.neighbors u ≠ [] := by
          intro h
          have : v ∈ G.neighbors u := (mem_neighbors G v u).2 ⟨hvn, hadj⟩
          rw [h] at this
          simp at this
        have h1 := hcolP u hu1 cu hcu hnb
        have h2 := hs.sep u v cv hvn hv1 hu1 (by rw [← hcolO v hv1]; exact hcv) (by rw [adj_comm]; exact hadj)
        rintro rfl
        exact h2 h1
    · by_cases hv1 : v ∈ s.U
      · have hnb : G.neighbors v ≠ [] := by
          intro h
          have : u ∈ G.neighbors v := (mem_neighbors G u v).2 ⟨hun, by rw [adj_comm]; exact hadj⟩
          rw [h] at this
          simp at this
        have h1 := hcolP v hv1 cv hcv hnb
        have h2 := hs.sep v u cu hun hu1 hv1 (by rw [← hcolO u hu1]; exact hcu) hadj
        rintro rfl
        exact h2 h1
      · rw [hcolO u hu1] at hcu
        rw [hcolO v hv1] at hcv
        exact hs.proper u v cu cv hun hvn hu1 hv1 hcu hcv hadj
  · intro u v c hvn hv hu hcv hadj
    simp only at hv hu hcv ⊢
    rw [hU'] at hv hu
    rcases r1 u with h | ⟨f, hf, h⟩
    · rw [h]
      unfold discardColors
      rw [Finset.mem_filter]
      rintro ⟨hcp, hno⟩
      by_cases hv1 : v ∈ s.U
      · have hva : v ∈ accepted G s col := by by_contra h; exact hv ⟨hv1, h⟩
        apply hno
        exact ⟨hu.1, v, hva, (mem_neighbors G u v).2 ⟨hs.lt u hu.1, hadj⟩, hgetD v c hcv⟩
      · rw [hcolO v hv1] at hcv
        exact hs.sep u v c hvn hv1 hu.1 hcv hadj hcp
    · rw [h, Finset.mem_singleton]
      rintro rfl
      exact absurd (nextColor_gt G.n col v c hvn hcv) (by omega)
  · intro u hu
    left
    exact r2 u ((ho.order i _).mem_iff.2 hu)

theorem rounds_inv (G : Graph) (o : Oracle) (ho : OracleOK o) (n i : ℕ) (s : RState) (hs : RInv G s) :
    RInv G (rounds G o n i s) := by
  induction n generalizing i s with
  | zero => exact hs
  | succ n ih =>
    unfold rounds
    split
    · exact hs
    · exact ih _ _ (round_inv G o ho i s hs)

theorem finish_spec (vs : List ℕ) (hn : vs.Nodup) (start : ℕ) (C : ℕ → Option ℕ) :
    let C' := (vs.foldl (fun (st : ℕ × (ℕ → Option ℕ)) v => (st.1 + 1, Function.update st.2 v (some st.1))) (start, C)).2
    (∀ v, v ∉ vs → C' v = C v) ∧ (∀ v ∈ vs, ∃ f, start ≤ f ∧ C' v = some f) ∧
    (∀ u ∈ vs, ∀ v ∈ vs, u ≠ v → C' u ≠ C' v) := by
  induction vs generalizing start C with
  | nil => exact ⟨fun v _ => rfl, by simp, by simp⟩
  | cons w vs ih =>
    rw [List.nodup_cons] at hn
    simp only [List.foldl_cons]
    obtain ⟨h1, h2, h3⟩ := ih hn.2 (start + 1) (Function.update C w (some start))
    have hw := h1 w hn.1
    rw [Function.update_self] at hw
    refine ⟨?_, ?_, ?_⟩
    · intro v hv
      rw [List.mem_cons, not_or] at hv
      rw [h1 v hv.2, Function.update_of_ne hv.1]
    · intro v hv
      rcases List.mem_cons.1 hv with rfl | hv
      · exact ⟨start, le_rfl, hw⟩
      · obtain ⟨f, hf, h⟩ := h2 v hv
        exact ⟨f, by omega, h⟩
    · intro u hu v hv huv
      by_cases hu1 : u = w
      · by_cases hv1 : v = w
        · exact absurd (hu1.trans hv1.symm) huv
        · obtain ⟨f, hf, h⟩ := h2 v ((List.mem_cons.1 hv).resolve_left hv1)
          rw [hu1, hw, h]
          intro he
          injection he with he
          omega
      · have hu2 := (List.mem_cons.1 hu).resolve_left hu1
        by_cases hv1 : v = w
        · obtain ⟨f, hf, h⟩ := h2 u hu2
          rw [hv1, hw, h]
          intro he
          injection he with he
          omega
        · exact h3 u hu2 v ((List.mem_cons.1 hv).resolve_left hv1) huv

/-- `random_graph_coloring`, for every outcome of the random choices, every enumeration order of sets and every
iteration limit: every contact is in exactly one group, exactly once; no group is empty; a group lists its contacts in
increasing order and no two of them are linked. -/
theorem C39_random_groups (G : Graph) (hirr : ∀ v, G.adj v v = false) (o : Oracle) (ho : OracleOK o) (max_iter : ℕ) :
    (random_graph_coloring G o max_iter).values.flatten.Perm (List.range G.n) ∧
    ∀ g ∈ (random_graph_coloring G o max_iter).values, g ≠ [] ∧ g.Pairwise (· < ·) ∧
      ∀ u ∈ g, ∀ v ∈ g, G.adj u v = false := by
  unfold random_graph_coloring
  simp only []
  set s0 : RState := { C := fun _ => none, U := List.range G.n,
                       palette := fun v => Finset.range (G.neighbors v).length } with hs0
  have h0 : RInv G s0 := by
    refine ⟨?_, List.nodup_range, ?_, ?_, ?_, ?_⟩
    · intro v hv; exact List.mem_range.1 hv
    · intro v hv h; exact absurd (List.mem_range.2 hv) h
    · intro u v cu cv hu _ h; exact absurd (List.mem_range.2 hu) h
    · intro u v c hv h; exact absurd (List.mem_range.2 hv) h
    · intro u _
      by_cases h : G.neighbors u = []
      · right; exact h
      · left
        rw [hs0]
        simp only
        rw [Ne, Finset.range_eq_empty_iff, List.length_eq_zero_iff]
        exact h
  have hr := rounds_inv G o ho max_iter 0 s0 h0
  generalize rounds G o max_iter 0 s0 = s at *
  have hperm := ho.order max_iter s.U
  obtain ⟨f1, f2, f3⟩ := finish_spec (o.order max_iter s.U) (hperm.nodup_iff.2 hr.nodup) (nextColor G.n s.C) s.C
  change (∀ v, v ∉ o.order max_iter s.U → finish G o max_iter s v = s.C v) at f1
  change (∀ v ∈ o.order max_iter s.U, ∃ f, nextColor G.n s.C ≤ f ∧ finish G o max_iter s v = some f) at f2
  change (∀ u ∈ o.order max_iter s.U, ∀ v ∈ o.order max_iter s.U, u ≠ v →
    finish G o max_iter s u ≠ finish G o max_iter s v) at f3
  simp only [hperm.mem_iff] at f1 f2 f3
  generalize finish G o max_iter s = C at *
  have hsome : ∀ v, v < G.n → ∃ c, C v = some c := by
    intro v hv
    by_cases h : v ∈ s.U
    · obtain ⟨f, -, h⟩ := f2 v h
      exact ⟨f, h⟩
    · rw [f1 v h]
      exact Option.ne_none_iff_exists'.1 (hr.done v hv h)
  have hproper : ∀ u v, u < G.n → v < G.n → G.adj u v = true → C u ≠ C v := by
    intro u v hu hv hadj
    by_cases h1 : u ∈ s.U
    · by_cases h2 : v ∈ s.U
      · refine f3 u h1 v h2 ?_
        rintro rfl
        rw [hirr] at hadj
        cases hadj
      · obtain ⟨f, hf, hc⟩ := f2 u h1
        obtain ⟨c, hc2⟩ := Option.ne_none_iff_exists'.1 (hr.done v hv h2)
        have := nextColor_gt G.n s.C v c hv hc2
        rw [f1 v h2, hc, hc2]
        intro he
        injection he with he
        omega
    · obtain ⟨c, hc⟩ := Option.ne_none_iff_exists'.1 (hr.done u hu h1)
      by_cases h2 : v ∈ s.U
      · obtain ⟨f, hf, hc2⟩ := f2 v h2
        have := nextColor_gt G.n s.C u c hu hc
        rw [f1 u h1, hc, hc2]
        intro he
        injection he with he
        omega
      · obtain ⟨c2, hc2⟩ := Option.ne_none_iff_exists'.1 (hr.done v hv h2)
        rw [f1 u h1, f1 v h2, hc, hc2]
        intro he
        injection he with he
        exact hr.proper u v c c2 hu hv h1 h2 hc hc2 hadj he
  obtain ⟨-, -, h3⟩ := groupByColor_spec ((List.range G.n).filterMap fun v => (C v).map fun c => (c, v))
  have hsnd : ((List.range G.n).filterMap fun v => (C v).map fun c => (c, v)).map Prod.snd = List.range G.n := by
    rw [List.map_filterMap]
    conv_rhs => rw [← List.filterMap_some (l := List.range G.n)]
    apply List.filterMap_congr
    intro v hv
    obtain ⟨c, hc⟩ := hsome v (List.mem_range.1 hv)
    rw [hc]; rfl
  constructor
  · rw [hsnd] at h3
    exact h3
  · intro g hg
    obtain ⟨c, hgc, hne⟩ := mem_groups _ g hg
    have hmem : ∀ u ∈ g, u < G.n ∧ C u = some c := by
      intro u hu
      rw [hgc] at hu
      obtain ⟨e, he, rfl⟩ := List.mem_map.1 hu
      rw [List.mem_filter, List.mem_filterMap] at he
      obtain ⟨⟨v, hv, hve⟩, hc⟩ := he
      rw [Option.map_eq_some_iff] at hve
      obtain ⟨c', hc', rfl⟩ := hve
      simp only [decide_eq_true_eq] at hc
      subst hc
      exact ⟨List.mem_range.1 hv, hc'⟩
    refine ⟨hne, ?_, ?_⟩
    · have hsub : g.Sublist (List.range G.n) := by
        rw [hgc]
        conv_rhs => rw [← hsnd]
        exact List.Sublist.map _ List.filter_sublist
      exact List.Pairwise.sublist hsub List.pairwise_lt_range
    · intro u hu v hv
      obtain ⟨hun, huc⟩ := hmem u hu
      obtain ⟨hvn, hvc⟩ := hmem v hv
      by_contra h
      rw [Bool.not_eq_false] at h
      exact hproper u v hun hvn h (huc.trans hvc.symm)

/-- Contact graphs have no loops, so the theorems above apply to them. -/
theorem C39_graphs_loopless (rcps : List RigidContact) (scps : List SoftContact) :
    (∀ v, (build_contact_graph_rigid rcps).adj v v = false) ∧ (∀ v, (build_contact_graph_soft scps).adj v v = false) := by
  constructor <;> intro v <;> rw [← Bool.not_eq_true]
  · rw [C39_rigid_graph]; simp
  · rw [C39_soft_graph]; simp

/-- Three contacts in a row: the middle one is linked to both others, which are not linked. -/
example : (build_contact_graph_rigid [⟨0, 1⟩, ⟨1, 2⟩, ⟨2, 3⟩]).adj 0 1 = true ∧
    (build_contact_graph_rigid [⟨0, 1⟩, ⟨1, 2⟩, ⟨2, 3⟩]).adj 0 2 = false := by decide

/-- Its greedy groups, in the order the solver processes them: contacts 0 and 2 first, then contact 1. -/
theorem C39_chain_groups : (greedy_graph_coloring (build_contact_graph_rigid [⟨0, 1⟩, ⟨1, 2⟩, ⟨2, 3⟩])).values =
    [[(0, 4), (8, 12)], [(4, 8)]] := by
  have h1 : largest_first (build_contact_graph_rigid [⟨0, 1⟩, ⟨1, 2⟩, ⟨2, 3⟩]) = [1, 0, 2] := by
    unfold largest_first
    have e : List.range (build_contact_graph_rigid [⟨0, 1⟩, ⟨1, 2⟩, ⟨2, 3⟩]).n = [0, 1, 2] := by decide
    have d0 : ((build_contact_graph_rigid [⟨0, 1⟩, ⟨1, 2⟩, ⟨2, 3⟩]).neighbors 0).length = 1 := by decide
    have d1 : ((build_contact_graph_rigid [⟨0, 1⟩, ⟨1, 2⟩, ⟨2, 3⟩]).neighbors 1).length = 2 := by decide
    have d2 : ((build_contact_graph_rigid [⟨0, 1⟩, ⟨1, 2⟩, ⟨2, 3⟩]).neighbors 2).length = 1 := by decide
    rw [e]
    simp [List.mergeSort, List.MergeSort.Internal.splitInTwo, List.merge, d0, d1, d2]
  have h2 : greedy_color (build_contact_graph_rigid [⟨0, 1⟩, ⟨1, 2⟩, ⟨2, 3⟩]) [1, 0, 2] =
      ⟨[(1, 0), (0, 1), (2, 1)]⟩ := by
    have : ∀ a b : Dict ℕ ℕ, a.entries = b.entries → a = b := by
      rintro ⟨a⟩ ⟨b⟩ h; exact congrArg _ h
    apply this
    decide
  unfold greedy_graph_coloring
  rw [h1, h2]
  simp only []
  have h3 : [(1, 0), (0, 1), (2, 1)].mergeSort (fun a b : ℕ × ℕ => decide (a.1 ≤ b.1)) = [(0, 1), (1, 0), (2, 1)] := by
    simp [List.mergeSort, List.MergeSort.Internal.splitInTwo, List.merge]
  rw [h3]
  decide

end Verif
