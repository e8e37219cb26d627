import Verif.Props.GearPair

/-! C107: the mesh of a gear is a closed surface. -/

namespace Verif

open Gear SMesh
open VMesh (Tri)

/-- vertices of the mesh: on the lower and upper profile, the middles of the teeth, the middles of the faces -/
inductive GV
  | b (i : ℕ)
  | t (i : ℕ)
  | cb (c : ℕ)
  | ct (c : ℕ)
  | ab
  | at
  deriving DecidableEq

inductive GTag
  | lo (i : ℕ)
  | hi (i : ℕ)
  | capB (c m : ℕ)
  | capT (c m : ℕ)
  | chB (c : ℕ)
  | chT (c : ℕ)
  | rtB (c n : ℕ)
  | rtT (c n : ℕ)
  deriving DecidableEq

/-- vertex m of the outline of tooth c -/
def loopAt (K c m : ℕ) : ℕ := if m = 0 then (if c = 0 then 34 * K - 1 else 34 * c - 1) else 34 * c + m - 1

def gearTri (K : ℕ) : GTag → GV × GV × GV
  | .lo i => (.b i, .b ((i + 1) % (34 * K)), .t ((i + 1) % (34 * K)))
  | .hi i => (.b i, .t ((i + 1) % (34 * K)), .t i)
  | .capB c m => (.cb c, .b (loopAt K c ((m + 1) % 30)), .b (loopAt K c m))
  | .capT c m => (.ct c, .t (loopAt K c m), .t (loopAt K c ((m + 1) % 30)))
  | .chB c => (.ab, .b (34 * c + 28), .b (loopAt K c 0))
  | .chT c => (.at, .t (loopAt K c 0), .t (34 * c + 28))
  | .rtB c n => (.ab, .b (34 * c + 28 + n + 1), .b (34 * c + 28 + n))
  | .rtT c n => (.at, .t (34 * c + 28 + n), .t (34 * c + 28 + n + 1))

def gearIdx (K : ℕ) : GV → ℕ
  | .b i => i
  | .t i => 34 * K + i
  | .cb c => 68 * K + 2 * c
  | .ct c => 68 * K + 2 * c + 1
  | .ab => 70 * K
  | .at => 70 * K + 1

def GV.ok (K : ℕ) : GV → Prop
  | .b i => i < 34 * K
  | .t i => i < 34 * K
  | .cb c => c < K
  | .ct c => c < K
  | .ab => True
  | .at => True

def GTag.ok (K : ℕ) : GTag → Prop
  | .lo i => i < 34 * K
  | .hi i => i < 34 * K
  | .capB c m => c < K ∧ m < 30
  | .capT c m => c < K ∧ m < 30
  | .chB c => c < K
  | .chT c => c < K
  | .rtB c n => c < K ∧ n < 5
  | .rtT c n => c < K ∧ n < 5

def gearTags (K : ℕ) : List GTag :=
  (List.range (34 * K)).flatMap (fun i => [.lo i, .hi i]) ++
  (List.range K).flatMap (fun c => (List.range 30).map (.capB c) ++ (List.range 30).map (.capT c)) ++
  (List.range K).flatMap (fun c => [.chB c, .chT c]) ++
  (List.range K).flatMap (fun c => (List.range 5).map (.rtB c) ++ (List.range 5).map (.rtT c))

theorem mem_gearTags {K : ℕ} {t : GTag} : t ∈ gearTags K ↔ t.ok K := by
  cases t <;> simp [gearTags, GTag.ok]

theorem gearTags_nodup (K : ℕ) : (gearTags K).Nodup := by
  have hinj : ∀ {α : Type} {n : ℕ} {f : ℕ → α}, (∀ a b, f a = f b → a = b) → ((List.range n).map f).Nodup := fun h =>
    List.nodup_range.map (fun a b e => h a b e)
  unfold gearTags
  rw [List.nodup_append, List.nodup_append, List.nodup_append]
  refine ⟨⟨⟨?_, ?_, ?_⟩, ?_, ?_⟩, ?_, ?_⟩
  · rw [List.nodup_flatMap]
    refine ⟨by intro j _; simp, (List.pairwise_lt_range).imp ?_⟩
    intro a b hab x hx hy
    simp only [List.mem_cons, List.not_mem_nil, or_false] at hx hy
    rcases hx with rfl | rfl <;> simp at hy <;> omega
  · rw [List.nodup_flatMap]
    refine ⟨?_, (List.pairwise_lt_range).imp ?_⟩
    · intro c _
      rw [List.nodup_append]
      refine ⟨hinj (by intro a b e; cases e; rfl), hinj (by intro a b e; cases e; rfl), ?_⟩
      intro x hx y hy e
      simp only [List.mem_map] at hx hy
      obtain ⟨_, _, rfl⟩ := hx
      obtain ⟨_, _, rfl⟩ := hy
      cases e
    · intro a b hab x hx hy
      simp only [List.mem_append, List.mem_map] at hx hy
      rcases hx with ⟨_, _, rfl⟩ | ⟨_, _, rfl⟩ <;> simp at hy <;> omega
  · intro x hx y hy e
    subst e
    simp only [List.mem_flatMap, List.mem_cons, List.not_mem_nil, or_false, List.mem_append, List.mem_map] at hx hy
    obtain ⟨i, _, rfl | rfl⟩ := hx <;> simp at hy
  · rw [List.nodup_flatMap]
    refine ⟨by intro j _; simp, (List.pairwise_lt_range).imp ?_⟩
    intro a b hab x hx hy
    simp only [List.mem_cons, List.not_mem_nil, or_false] at hx hy
    rcases hx with rfl | rfl <;> simp at hy <;> omega
  · intro x hx y hy e
    subst e
    simp only [List.mem_flatMap, List.mem_cons, List.not_mem_nil, or_false, List.mem_append, List.mem_map] at hx hy
    obtain ⟨i, _, rfl | rfl⟩ := hy <;> simp at hx
  · rw [List.nodup_flatMap]
    refine ⟨?_, (List.pairwise_lt_range).imp ?_⟩
    · intro c _
      rw [List.nodup_append]
      refine ⟨hinj (by intro a b e; cases e; rfl), hinj (by intro a b e; cases e; rfl), ?_⟩
      intro x hx y hy e
      simp only [List.mem_map] at hx hy
      obtain ⟨_, _, rfl⟩ := hx
      obtain ⟨_, _, rfl⟩ := hy
      cases e
    · intro a b hab x hx hy
      simp only [List.mem_append, List.mem_map] at hx hy
      rcases hx with ⟨_, _, rfl⟩ | ⟨_, _, rfl⟩ <;> simp at hy <;> omega
  · intro x hx y hy e
    subst e
    simp only [List.mem_flatMap, List.mem_cons, List.not_mem_nil, or_false, List.mem_append, List.mem_map] at hx hy
    obtain ⟨i, _, ⟨_, _, rfl⟩ | ⟨_, _, rfl⟩⟩ := hy <;> simp at hx

theorem loopAt_spec {K c m : ℕ} (hc : c < K) : (m = 0 ∧ c = 0 ∧ loopAt K c m + 1 = 34 * K) ∨ (m = 0 ∧ 0 < c ∧ loopAt K c m + 1 = 34 * c) ∨
    (0 < m ∧ loopAt K c m + 1 = 34 * c + m) := by
  unfold loopAt
  split_ifs <;> omega

theorem gearIdx_inj {K : ℕ} (a b : GV) (ha : a.ok K) (hb : b.ok K) (h : gearIdx K a = gearIdx K b) : a = b := by
  cases a <;> cases b <;> simp only [gearIdx, GV.ok, GV.b.injEq, GV.t.injEq, GV.cb.injEq, GV.ct.injEq, reduceCtorEq] at * <;> omega

theorem gearTri_ok {K : ℕ} (t : GTag) (ht : t.ok K) : (gearTri K t).1.ok K ∧ (gearTri K t).2.1.ok K ∧ (gearTri K t).2.2.ok K := by
  cases t with
  | lo i => have := next_spec (show i < 34 * K from ht); simp only [gearTri, GV.ok, GTag.ok, true_and] at *; omega
  | hi i => have := next_spec (show i < 34 * K from ht); simp only [gearTri, GV.ok, GTag.ok, true_and] at *; omega
  | capB c m =>
    have := next_spec ht.2
    have h1 := loopAt_spec (m := m) ht.1
    have h2 := loopAt_spec (m := (m + 1) % 30) ht.1
    simp only [gearTri, GV.ok, GTag.ok, true_and] at *; omega
  | capT c m =>
    have := next_spec ht.2
    have h1 := loopAt_spec (m := m) ht.1
    have h2 := loopAt_spec (m := (m + 1) % 30) ht.1
    simp only [gearTri, GV.ok, GTag.ok, true_and] at *; omega
  | chB c => have h1 := loopAt_spec (m := 0) (show c < K from ht); simp only [gearTri, GV.ok, GTag.ok, true_and] at *; omega
  | chT c => have h1 := loopAt_spec (m := 0) (show c < K from ht); simp only [gearTri, GV.ok, GTag.ok, true_and] at *; omega
  | rtB c n => simp only [gearTri, GV.ok, GTag.ok, true_and] at *; omega
  | rtT c n => simp only [gearTri, GV.ok, GTag.ok, true_and] at *; omega

theorem gear_self {K : ℕ} (t : GTag) (ht : t.ok K) : (edges3 (gearTri K t)).Nodup := by
  cases t with
  | lo i => have := next_spec (show i < 34 * K from ht); simp [gearTri, edges3]
  | hi i => have := next_spec (show i < 34 * K from ht); simp [gearTri, edges3]
  | capB c m => simp [gearTri, edges3]
  | capT c m => simp [gearTri, edges3]
  | chB c => simp [gearTri, edges3]
  | chT c => simp [gearTri, edges3]
  | rtB c n => simp [gearTri, edges3]
  | rtT c n => simp [gearTri, edges3]

/-- facts about the indices in a triangle, for the arithmetic -/
def GTag.facts (K : ℕ) : GTag → Prop
  | .lo i => ((i + 1) % (34 * K) = i + 1 ∧ i + 1 < 34 * K) ∨ ((i + 1) % (34 * K) = 0 ∧ i + 1 = 34 * K)
  | .hi i => ((i + 1) % (34 * K) = i + 1 ∧ i + 1 < 34 * K) ∨ ((i + 1) % (34 * K) = 0 ∧ i + 1 = 34 * K)
  | .capB c m => (m = 29 ∧ loopAt K c m = 34 * c + 28 ∧ ((c = 0 ∧ loopAt K c ((m + 1) % 30) + 1 = 34 * K) ∨ (0 < c ∧ loopAt K c ((m + 1) % 30) + 1 = 34 * c))) ∨
      (m < 29 ∧ loopAt K c ((m + 1) % 30) = 34 * c + m ∧ ((m = 0 ∧ c = 0 ∧ loopAt K c m + 1 = 34 * K) ∨ (m = 0 ∧ 0 < c ∧ loopAt K c m + 1 = 34 * c) ∨
        (0 < m ∧ loopAt K c m + 1 = 34 * c + m)))
  | .capT c m => (m = 29 ∧ loopAt K c m = 34 * c + 28 ∧ ((c = 0 ∧ loopAt K c ((m + 1) % 30) + 1 = 34 * K) ∨ (0 < c ∧ loopAt K c ((m + 1) % 30) + 1 = 34 * c))) ∨
      (m < 29 ∧ loopAt K c ((m + 1) % 30) = 34 * c + m ∧ ((m = 0 ∧ c = 0 ∧ loopAt K c m + 1 = 34 * K) ∨ (m = 0 ∧ 0 < c ∧ loopAt K c m + 1 = 34 * c) ∨
        (0 < m ∧ loopAt K c m + 1 = 34 * c + m)))
  | .chB c => (c = 0 ∧ loopAt K c 0 + 1 = 34 * K) ∨ (0 < c ∧ loopAt K c 0 + 1 = 34 * c)
  | .chT c => (c = 0 ∧ loopAt K c 0 + 1 = 34 * K) ∨ (0 < c ∧ loopAt K c 0 + 1 = 34 * c)
  | _ => True

theorem GTag.facts_of_ok {K : ℕ} (t : GTag) (ht : t.ok K) : t.facts K := by
  cases t with
  | lo i => exact next_spec ht
  | hi i => exact next_spec ht
  | capB c m =>
    have := next_spec ht.2
    have h1 := loopAt_spec (m := m) ht.1
    have h2 := loopAt_spec (m := (m + 1) % 30) ht.1
    simp only [facts]; omega
  | capT c m =>
    have := next_spec ht.2
    have h1 := loopAt_spec (m := m) ht.1
    have h2 := loopAt_spec (m := (m + 1) % 30) ht.1
    simp only [facts]; omega
  | chB c => have h1 := loopAt_spec (m := 0) (show c < K from ht); simp only [facts]; omega
  | chT c => have h1 := loopAt_spec (m := 0) (show c < K from ht); simp only [facts]; omega
  | rtB c n => trivial
  | rtT c n => trivial

theorem gear_disjoint {K : ℕ} (s t : GTag) (hs : s.ok K) (ht : t.ok K) (e : GV × GV) (h1 : e ∈ edges3 (gearTri K s)) (h2 : e ∈ edges3 (gearTri K t)) : s = t := by
  have fs := s.facts_of_ok hs
  have ft := t.facts_of_ok ht
  cases s <;> cases t <;> simp only [edges3, gearTri, List.mem_cons, List.not_mem_nil, or_false] at h1 h2 <;> rcases h1 with rfl | rfl | rfl <;>
    simp only [Prod.mk.injEq, GV.b.injEq, GV.t.injEq, GV.cb.injEq, GV.ct.injEq, reduceCtorEq, false_and, and_false, or_false, false_or, and_true, true_and] at h2 <;>
    simp only [GTag.ok, GTag.facts, GTag.lo.injEq, GTag.hi.injEq, GTag.capB.injEq, GTag.capT.injEq, GTag.chB.injEq, GTag.chT.injEq, GTag.rtB.injEq, GTag.rtT.injEq, reduceCtorEq] at * <;> omega

theorem gear_rev {K : ℕ} (s : GTag) (hs : s.ok K) (e : GV × GV) (he : e ∈ edges3 (gearTri K s)) : ∃ t : GTag, t.ok K ∧ e.swap ∈ edges3 (gearTri K t) := by
  have key : ∀ t : GTag, t.ok K → e.swap ∈ edges3 (gearTri K t) → ∃ t : GTag, t.ok K ∧ e.swap ∈ edges3 (gearTri K t) := fun t h1 h2 => ⟨t, h1, h2⟩
  -- the edge from i to its successor on the lower and on the upper face
  have down : ∀ i, i < 34 * K → ∃ t : GTag, t.ok K ∧ (GV.b ((i + 1) % (34 * K)), GV.b i) ∈ edges3 (gearTri K t) := by
    intro i hi
    have hn := next_spec hi
    by_cases h33 : i % 34 = 33
    · refine ⟨.capB ((i / 34 + 1) % K) 0, ⟨Nat.mod_lt _ (by omega), by omega⟩, ?_⟩
      have hn2 := next_spec (show i / 34 < K by omega)
      have h1 := loopAt_spec (K := K) (m := 0) (c := (i / 34 + 1) % K) (by omega)
      have h2 := loopAt_spec (K := K) (m := 1) (c := (i / 34 + 1) % K) (by omega)
      simp only [edges3, gearTri, List.mem_cons, List.not_mem_nil, or_false, Prod.mk.injEq, GV.b.injEq, reduceCtorEq, false_and, and_false, false_or]
      rw [show (0 + 1) % 30 = 1 from rfl]
      omega
    by_cases h28 : i % 34 ≤ 27
    · refine ⟨.capB (i / 34) (i % 34 + 1), ⟨by omega, by omega⟩, ?_⟩
      have h1 := loopAt_spec (K := K) (m := i % 34 + 1) (c := i / 34) (by omega)
      have h2 := loopAt_spec (K := K) (m := i % 34 + 2) (c := i / 34) (by omega)
      simp only [edges3, gearTri, List.mem_cons, List.not_mem_nil, or_false, Prod.mk.injEq, GV.b.injEq, reduceCtorEq, false_and, and_false, false_or]
      rw [show (i % 34 + 1 + 1) % 30 = i % 34 + 2 by omega]
      omega
    · refine ⟨.rtB (i / 34) (i % 34 - 28), ⟨by omega, by omega⟩, ?_⟩
      simp only [edges3, gearTri, List.mem_cons, List.not_mem_nil, or_false, Prod.mk.injEq, GV.b.injEq, reduceCtorEq, false_and, and_false, false_or]
      omega
  have up : ∀ i, i < 34 * K → ∃ t : GTag, t.ok K ∧ (GV.t i, GV.t ((i + 1) % (34 * K))) ∈ edges3 (gearTri K t) := by
    intro i hi
    have hn := next_spec hi
    by_cases h33 : i % 34 = 33
    · refine ⟨.capT ((i / 34 + 1) % K) 0, ⟨Nat.mod_lt _ (by omega), by omega⟩, ?_⟩
      have hn2 := next_spec (show i / 34 < K by omega)
      have h1 := loopAt_spec (K := K) (m := 0) (c := (i / 34 + 1) % K) (by omega)
      have h2 := loopAt_spec (K := K) (m := 1) (c := (i / 34 + 1) % K) (by omega)
      simp only [edges3, gearTri, List.mem_cons, List.not_mem_nil, or_false, Prod.mk.injEq, GV.t.injEq, reduceCtorEq, false_and, and_false, false_or]
      rw [show (0 + 1) % 30 = 1 from rfl]
      omega
    by_cases h28 : i % 34 ≤ 27
    · refine ⟨.capT (i / 34) (i % 34 + 1), ⟨by omega, by omega⟩, ?_⟩
      have h1 := loopAt_spec (K := K) (m := i % 34 + 1) (c := i / 34) (by omega)
      have h2 := loopAt_spec (K := K) (m := i % 34 + 2) (c := i / 34) (by omega)
      simp only [edges3, gearTri, List.mem_cons, List.not_mem_nil, or_false, Prod.mk.injEq, GV.t.injEq, reduceCtorEq, false_and, and_false, false_or]
      rw [show (i % 34 + 1 + 1) % 30 = i % 34 + 2 by omega]
      omega
    · refine ⟨.rtT (i / 34) (i % 34 - 28), ⟨by omega, by omega⟩, ?_⟩
      simp only [edges3, gearTri, List.mem_cons, List.not_mem_nil, or_false, Prod.mk.injEq, GV.t.injEq, reduceCtorEq, false_and, and_false, false_or]
      omega
  have fs := s.facts_of_ok hs
  cases s with
  | lo i =>
    have hi : i < 34 * K := hs
    simp only [edges3, gearTri, List.mem_cons, List.not_mem_nil, or_false] at he
    rcases he with rfl | rfl | rfl
    · exact down i hi
    · have hn := next_spec hi
      exact key (.hi ((i + 1) % (34 * K))) (by simp only [GTag.ok]; omega) (by simp [edges3, gearTri])
    · exact key (.hi i) hi (by simp [edges3, gearTri])
  | hi i =>
    have hi : i < 34 * K := hs
    simp only [edges3, gearTri, List.mem_cons, List.not_mem_nil, or_false] at he
    rcases he with rfl | rfl | rfl
    · exact key (.lo i) hi (by simp [edges3, gearTri])
    · exact up i hi
    · obtain ⟨k, hk, hki⟩ := exists_prev hi
      exact key (.lo k) hk (by simp [edges3, gearTri, hki])
  | capB c m =>
    obtain ⟨hc, hm⟩ := hs
    simp only [edges3, gearTri, List.mem_cons, List.not_mem_nil, or_false] at he
    rcases he with rfl | rfl | rfl
    · exact key (.capB c ((m + 1) % 30)) ⟨hc, by omega⟩ (by simp [edges3, gearTri])
    · simp only [GTag.facts] at fs
      rcases fs with ⟨h1, h2, h3⟩ | ⟨h1, h2, h3⟩
      · refine key (.chB c) hc ?_
        subst h1
        simp only [edges3, gearTri, Prod.swap, List.mem_cons, Prod.mk.injEq, GV.b.injEq, h2, reduceCtorEq, false_and, and_false, false_or, true_and, and_true]
        left; trivial
      · have hl : loopAt K c m < 34 * K := by omega
        have hn := next_spec hl
        refine key (.lo (loopAt K c m)) hl ?_
        simp only [edges3, gearTri, Prod.swap, List.mem_cons, Prod.mk.injEq, GV.b.injEq, true_and]
        left; omega
    · obtain ⟨k, hk, hkm⟩ := exists_prev hm
      exact key (.capB c k) ⟨hc, hk⟩ (by simp [edges3, gearTri, hkm])
  | capT c m =>
    obtain ⟨hc, hm⟩ := hs
    simp only [edges3, gearTri, List.mem_cons, List.not_mem_nil, or_false] at he
    rcases he with rfl | rfl | rfl
    · obtain ⟨k, hk, hkm⟩ := exists_prev hm
      exact key (.capT c k) ⟨hc, hk⟩ (by simp [edges3, gearTri, hkm])
    · simp only [GTag.facts] at fs
      rcases fs with ⟨h1, h2, h3⟩ | ⟨h1, h2, h3⟩
      · refine key (.chT c) hc ?_
        subst h1
        simp only [edges3, gearTri, Prod.swap, List.mem_cons, Prod.mk.injEq, GV.t.injEq, h2, reduceCtorEq, false_and, and_false, false_or, true_and, and_true]
        left; trivial
      · have hl : loopAt K c m < 34 * K := by omega
        have hn := next_spec hl
        refine key (.hi (loopAt K c m)) hl ?_
        simp only [edges3, gearTri, Prod.swap, List.mem_cons, Prod.mk.injEq, GV.t.injEq, and_true, reduceCtorEq, false_and, and_false, false_or]
        left; omega
    · exact key (.capT c ((m + 1) % 30)) ⟨hc, by omega⟩ (by simp [edges3, gearTri])
  | chB c =>
    have hc : c < K := hs
    simp only [edges3, gearTri, List.mem_cons, List.not_mem_nil, or_false] at he
    have h0 : loopAt K c 29 = 34 * c + 28 := by have := loopAt_spec (m := 29) hc; omega
    rcases he with rfl | rfl | rfl
    · exact key (.rtB c 0) ⟨hc, by omega⟩ (by simp [edges3, gearTri])
    · exact key (.capB c 29) ⟨hc, by omega⟩ (by simp [edges3, gearTri, h0])
    · obtain ⟨k, hk, hkc⟩ := exists_prev hc
      have hn := next_spec hk
      refine key (.rtB k 4) ⟨hk, by omega⟩ ?_
      simp only [GTag.facts] at fs
      simp only [edges3, gearTri, Prod.swap, List.mem_cons, Prod.mk.injEq, GV.b.injEq, true_and]
      left; omega
  | chT c =>
    have hc : c < K := hs
    simp only [edges3, gearTri, List.mem_cons, List.not_mem_nil, or_false] at he
    have h0 : loopAt K c 29 = 34 * c + 28 := by have := loopAt_spec (m := 29) hc; omega
    rcases he with rfl | rfl | rfl
    · obtain ⟨k, hk, hkc⟩ := exists_prev hc
      have hn := next_spec hk
      refine key (.rtT k 4) ⟨hk, by omega⟩ ?_
      simp only [GTag.facts] at fs
      simp only [edges3, gearTri, Prod.swap, List.mem_cons, Prod.mk.injEq, GV.t.injEq, and_true, reduceCtorEq, false_and, and_false, false_or, or_false, List.not_mem_nil]
      omega
    · exact key (.capT c 29) ⟨hc, by omega⟩ (by simp [edges3, gearTri, h0])
    · exact key (.rtT c 0) ⟨hc, by omega⟩ (by simp [edges3, gearTri])
  | rtB c n =>
    obtain ⟨hc, hn⟩ := hs
    simp only [edges3, gearTri, List.mem_cons, List.not_mem_nil, or_false] at he
    rcases he with rfl | rfl | rfl
    · by_cases h4 : n = 4
      · subst h4
        have hn2 := next_spec hc
        have hl := loopAt_spec (K := K) (m := 0) (c := (c + 1) % K) (by omega)
        refine key (.chB ((c + 1) % K)) (by simp only [GTag.ok]; omega) ?_
        simp only [edges3, gearTri, Prod.swap, List.mem_cons, Prod.mk.injEq, GV.b.injEq, and_true, reduceCtorEq, false_and, and_false, false_or, or_false, List.not_mem_nil]
        omega
      · exact key (.rtB c (n + 1)) ⟨hc, by omega⟩ (by simp [edges3, gearTri, Nat.add_assoc])
    · have hl : 34 * c + 28 + n < 34 * K := by omega
      have hn2 := next_spec hl
      refine key (.lo (34 * c + 28 + n)) hl ?_
      simp only [edges3, gearTri, Prod.swap, List.mem_cons, Prod.mk.injEq, GV.b.injEq, true_and]
      left; omega
    · by_cases h0 : n = 0
      · subst h0; exact key (.chB c) hc (by simp [edges3, gearTri])
      · refine key (.rtB c (n - 1)) ⟨hc, by omega⟩ ?_
        simp only [edges3, gearTri, Prod.swap, List.mem_cons, Prod.mk.injEq, GV.b.injEq, true_and]
        left; omega
  | rtT c n =>
    obtain ⟨hc, hn⟩ := hs
    simp only [edges3, gearTri, List.mem_cons, List.not_mem_nil, or_false] at he
    rcases he with rfl | rfl | rfl
    · by_cases h0 : n = 0
      · subst h0; exact key (.chT c) hc (by simp [edges3, gearTri])
      · refine key (.rtT c (n - 1)) ⟨hc, by omega⟩ ?_
        simp only [edges3, gearTri, Prod.swap, List.mem_cons, Prod.mk.injEq, GV.t.injEq, and_true, reduceCtorEq, false_and, and_false, false_or, or_false, List.not_mem_nil]
        omega
    · have hl : 34 * c + 28 + n < 34 * K := by omega
      have hn2 := next_spec hl
      refine key (.hi (34 * c + 28 + n)) hl ?_
      simp only [edges3, gearTri, Prod.swap, List.mem_cons, Prod.mk.injEq, GV.t.injEq, and_true, reduceCtorEq, false_and, and_false, false_or]
      left; omega
    · by_cases h4 : n = 4
      · subst h4
        have hn2 := next_spec hc
        have hl := loopAt_spec (K := K) (m := 0) (c := (c + 1) % K) (by omega)
        refine key (.chT ((c + 1) % K)) (by simp only [GTag.ok]; omega) ?_
        simp only [edges3, gearTri, Prod.swap, List.mem_cons, Prod.mk.injEq, GV.t.injEq, true_and, reduceCtorEq, false_and, and_false, false_or, or_false, List.not_mem_nil]
        omega
      · exact key (.rtT c (n + 1)) ⟨hc, by omega⟩ (by simp [edges3, gearTri, Nat.add_assoc])

/-! ### The mesh in closed form -/

def tagT (K : ℕ) (t : GTag) : Tri := ⟨gearIdx K (gearTri K t).1, gearIdx K (gearTri K t).2.1, gearIdx K (gearTri K t).2.2⟩

def loopIdx (K c : ℕ) : List ℕ := (List.range 30).map (loopAt K c)

theorem loop_eq {K c : ℕ} (hc : c < K) : ((List.range ((34 * (c : ℤ) + 28) + 1 - (34 * (c : ℤ) - 1)).toNat).map fun (n : ℕ) => wrap (34 * K) ((34 * (c : ℤ) - 1) + n)) =
    loopIdx K c := by
  rw [show ((34 * (c : ℤ) + 28) + 1 - (34 * (c : ℤ) - 1)).toNat = 30 by omega]
  refine List.map_congr_left fun n _ => ?_
  unfold wrap loopAt
  split_ifs <;> omega

/-- the middles of tooth c on the two faces -/
noncomputable def middles (K : ℕ) (V0 : List V3) (c : ℕ) : List V3 :=
  [mean ((loopIdx K c).map fun i => V0.getD i 0), mean (((loopIdx K c).map (· + 34 * K)).map fun i => V0.getD i 0)]

theorem loopAt_lt {K c m : ℕ} (hc : c < K) (hm : m < 30) : loopAt K c m < 34 * K := by
  have := loopAt_spec (m := m) hc; omega

theorem fan_down {K c : ℕ} (x : ℕ) : fan x (loopIdx K c) true = (List.range 30).map fun m => ⟨x, loopAt K c ((m + 1) % 30), loopAt K c m⟩ := by
  unfold fan
  rw [show (loopIdx K c).length = 30 by simp [loopIdx]]
  refine List.map_congr_left fun m hm => ?_
  rw [List.mem_range] at hm
  simp only [if_true]
  congr 1 <;> unfold loopIdx
  · rw [List.getD_eq_getElem?_getD, List.getElem?_map, List.getElem?_range (by omega)]; rfl
  · rw [List.getD_eq_getElem?_getD, List.getElem?_map, List.getElem?_range (by omega)]; rfl

theorem fan_up {K c : ℕ} (x N : ℕ) : fan x ((loopIdx K c).map (· + N)) false =
    (List.range 30).map fun m => ⟨x, N + loopAt K c m, N + loopAt K c ((m + 1) % 30)⟩ := by
  unfold fan
  rw [show ((loopIdx K c).map (· + N)).length = 30 by simp [loopIdx]]
  refine List.map_congr_left fun m hm => ?_
  rw [List.mem_range] at hm
  simp only [Bool.false_eq_true, if_false]
  congr 1 <;> unfold loopIdx
  · rw [List.getD_eq_getElem?_getD, List.getElem?_map, List.getElem?_map, List.getElem?_range (by omega)]; simp [Nat.add_comm]
  · rw [List.getD_eq_getElem?_getD, List.getElem?_map, List.getElem?_map, List.getElem?_range (by omega)]; simp [Nat.add_comm]

theorem caps_fold {K : ℕ} {V0 : List V3} (hV : V0.length = 68 * K) (T0 : List Tri) : ∀ k ≤ K,
    ((List.range k).map fun (z : ℕ) => (34 * (z : ℤ) - 1, 34 * (z : ℤ) + 28)).foldl (toothCaps (34 * K)) (V0, T0) =
      (V0 ++ (List.range k).flatMap (middles K V0), T0 ++ (List.range k).flatMap fun c => (List.range 30).map (fun m => tagT K (.capB c m)) ++
        (List.range 30).map (fun m => tagT K (.capT c m)))
  | 0, _ => by simp
  | k + 1, hk => by
    have hM : ((List.range k).flatMap (middles K V0)).length = 2 * k := by
      simp [List.length_flatMap, middles, Nat.mul_comm]
    rw [List.range_succ, List.map_append, List.foldl_append, caps_fold hV T0 k (by omega)]
    simp only [List.map_cons, List.map_nil, List.foldl_cons, List.foldl_nil, toothCaps, loop_eq (show k < K by omega), List.flatMap_append,
      List.flatMap_cons, List.flatMap_nil, List.append_nil]
    have e1 : ∀ W : List V3, ((loopIdx K k).map fun i => (V0 ++ W).getD i 0) = (loopIdx K k).map fun i => V0.getD i 0 := by
      intro W
      refine List.map_congr_left fun i hi => ?_
      unfold loopIdx at hi
      obtain ⟨m, hm, rfl⟩ := List.mem_map.1 hi
      exact List.getD_append _ _ _ _ (by have := loopAt_lt (show k < K by omega) (List.mem_range.1 hm); omega)
    have e2 : ∀ W : List V3, (((loopIdx K k).map (· + 34 * K)).map fun i => (V0 ++ W).getD i 0) = ((loopIdx K k).map (· + 34 * K)).map fun i => V0.getD i 0 := by
      intro W
      refine List.map_congr_left fun i hi => ?_
      obtain ⟨j, hj, rfl⟩ := List.mem_map.1 hi
      unfold loopIdx at hj
      obtain ⟨m, hm, rfl⟩ := List.mem_map.1 hj
      exact List.getD_append _ _ _ _ (by have := loopAt_lt (show k < K by omega) (List.mem_range.1 hm); omega)
    rw [List.append_assoc V0, e1, e2, fan_down, fan_up]
    refine Prod.ext ?_ ?_
    · simp [middles, List.append_assoc]
    · simp only [List.append_assoc, List.length_append, hV, hM, List.length_cons, List.length_nil]
      congr 2

theorem chordT_eq (K : ℕ) : chordT (34 * K) (70 * K) (70 * K + 1) ((List.range K).map fun (z : ℕ) => (34 * (z : ℤ) - 1, 34 * (z : ℤ) + 28)) =
    (List.range K).flatMap fun c => [tagT K (.chB c), tagT K (.chT c)] := by
  unfold chordT
  rw [List.flatMap_map]
  refine List.flatMap_congr fun c hc => ?_
  rw [List.mem_range] at hc
  have e1 : wrap (34 * K) (34 * (c : ℤ) + 28) = 34 * c + 28 := by unfold wrap; split_ifs <;> omega
  have e2 : wrap (34 * K) (34 * (c : ℤ) - 1) = loopAt K c 0 := by unfold wrap loopAt; split_ifs <;> omega
  simp only [e1, e2, tagT, gearTri, gearIdx, Nat.add_comm]

theorem rootT_eq (K : ℕ) : rootT (34 * K) (70 * K) (70 * K + 1) ((List.range K).map fun (z : ℕ) => (34 * (z : ℤ) - 1, 34 * (z : ℤ) + 28)) =
    (List.range K).flatMap fun c => (List.range 5).map (fun n => tagT K (.rtB c n)) ++ (List.range 5).map (fun n => tagT K (.rtT c n)) := by
  unfold rootT
  rw [List.length_map, List.length_range]
  refine List.flatMap_congr fun c hc => ?_
  rw [List.mem_range] at hc
  have hn := next_spec hc
  have g1 : (((List.range K).map fun (z : ℕ) => (34 * (z : ℤ) - 1, 34 * (z : ℤ) + 28)).getD c (0, 0)) = (34 * (c : ℤ) - 1, 34 * (c : ℤ) + 28) := by
    rw [List.getD_eq_getElem?_getD, List.getElem?_map, List.getElem?_range hc]; rfl
  have g2 : (((List.range K).map fun (z : ℕ) => (34 * (z : ℤ) - 1, 34 * (z : ℤ) + 28)).getD ((c + 1) % K) (0, 0)) =
      (34 * (((c + 1) % K : ℕ) : ℤ) - 1, 34 * (((c + 1) % K : ℕ) : ℤ) + 28) := by
    rw [List.getD_eq_getElem?_getD, List.getElem?_map, List.getElem?_range (by omega)]; rfl
  have e1 : wrap (34 * K) (34 * (c : ℤ) + 28) = 34 * c + 28 := by unfold wrap; split_ifs <;> omega
  have e2 : wrap (34 * K) (34 * (((c + 1) % K : ℕ) : ℤ) - 1) = 34 * c + 33 := by unfold wrap; split_ifs <;> omega
  simp only [g1, g2, e1, e2, show 34 * c + 33 - (34 * c + 28) = 5 by omega]
  congr 1
  refine List.map_congr_left fun n _ => ?_
  simp only [tagT, gearTri, gearIdx]
  congr 1 <;> omega

theorem wallT_eq (K : ℕ) : wallT (34 * K) = (List.range (34 * K)).flatMap fun i => [tagT K (.lo i), tagT K (.hi i)] := rfl

theorem gearTags_map (K : ℕ) : (gearTags K).map (tagT K) =
    ((List.range (34 * K)).flatMap fun i => [tagT K (.lo i), tagT K (.hi i)]) ++
    ((List.range K).flatMap fun c => (List.range 30).map (fun m => tagT K (.capB c m)) ++ (List.range 30).map (fun m => tagT K (.capT c m))) ++
    ((List.range K).flatMap fun c => [tagT K (.chB c), tagT K (.chT c)]) ++
    ((List.range K).flatMap fun c => (List.range 5).map (fun n => tagT K (.rtB c n)) ++ (List.range 5).map (fun n => tagT K (.rtT c n))) := by
  unfold gearTags
  simp only [List.map_append, List.map_flatMap, List.map_cons, List.map_nil, List.map_map]
  rfl

theorem faceV_length (xy : List (ℝ × ℝ)) (z : ℝ) : (faceV xy z).length = 2 * xy.length := by simp [faceV]; ring

/-- the vertices and triangles of the mesh of a gear -/
theorem gearMesh_eq (m : ℝ) (Z : ℕ) (alpha w : ℝ) : let g := make_gear_specs m Z alpha
    make_gear_mesh g w = (faceV g.xy (w / 2) ++ (List.range Z).flatMap (middles Z (faceV g.xy (w / 2))) ++
      [⟨(g.xy.map Prod.fst).sum / ((34 * Z : ℕ) : ℝ), (g.xy.map Prod.snd).sum / ((34 * Z : ℕ) : ℝ), -w / 2⟩,
        ⟨(g.xy.map Prod.fst).sum / ((34 * Z : ℕ) : ℝ), (g.xy.map Prod.snd).sum / ((34 * Z : ℕ) : ℝ), w / 2⟩], (gearTags Z).map (tagT Z)) := by
  intro g
  have hl : g.xy.length = 34 * Z := specs_length m Z alpha
  have hc : g.corners = _ := (specs_xy m Z alpha).2
  have hV : (faceV g.xy (w / 2)).length = 68 * Z := by rw [faceV_length, hl]; ring
  have hM : ((List.range Z).flatMap (middles Z (faceV g.xy (w / 2)))).length = 2 * Z := by
    simp [List.length_flatMap, middles, Nat.mul_comm]
  unfold make_gear_mesh
  simp only [hl, hc]
  rw [caps_fold hV _ Z le_rfl]
  simp only [List.length_append, hV, hM, List.length_cons, List.length_nil]
  rw [show 68 * Z + 2 * Z + (0 + 1 + 1) - 2 = 70 * Z by omega, show 68 * Z + 2 * Z + (0 + 1 + 1) - 1 = 70 * Z + 1 by omega, chordT_eq, rootT_eq, wallT_eq, gearTags_map]

/-- **C107.** The mesh of every gear is a closed, consistently oriented surface that refers to existing vertices only. -/
theorem C107_mesh_closed (m : ℝ) (Z : ℕ) (alpha w : ℝ) : let VT := make_gear_mesh (make_gear_specs m Z alpha) w
    IndicesBelow VT.2 VT.1.length ∧ ClosedOriented VT.2 ∧ VT.1.length = 70 * Z + 2 ∧ VT.2.length = 140 * Z := by
  intro VT
  have hM : ((List.range Z).flatMap (middles Z (faceV (make_gear_specs m Z alpha).xy (w / 2)))).length = 2 * Z := by
    simp [List.length_flatMap, middles, Nat.mul_comm]
  have hlen : VT.1.length = 70 * Z + 2 := by
    unfold VT
    rw [gearMesh_eq]
    simp only [List.length_append, faceV_length, specs_length, hM, List.length_cons, List.length_nil]
    omega
  have hT : VT.2 = (gearTags Z).map (tagT Z) := by unfold VT; rw [gearMesh_eq]
  refine ⟨?_, ?_, hlen, ?_⟩
  · rw [hT, hlen]
    intro t ht
    obtain ⟨s, hs, rfl⟩ := List.mem_map.1 ht
    obtain ⟨h1, h2, h3⟩ := gearTri_ok s (mem_gearTags.1 hs)
    have key : ∀ v : GV, v.ok Z → gearIdx Z v < 70 * Z + 2 := by
      intro v hv
      cases v <;> simp only [GV.ok, gearIdx] at * <;> omega
    exact ⟨key _ h1, key _ h2, key _ h3⟩
  · rw [hT]
    exact closedOriented_of_tags (gearTags Z) (gearTri Z) (gearIdx Z) (GV.ok Z) gearIdx_inj (fun t ht => gearTri_ok t (mem_gearTags.1 ht))
      (gearTags_nodup Z) (fun t ht => gear_self t (mem_gearTags.1 ht))
      (fun s hs t ht e h1 h2 => gear_disjoint s t (mem_gearTags.1 hs) (mem_gearTags.1 ht) e h1 h2)
      (fun s hs e he => by
        obtain ⟨t, h1, h2⟩ := gear_rev s (mem_gearTags.1 hs) e he
        exact ⟨t, mem_gearTags.2 h1, h2⟩)
  · rw [hT, List.length_map]
    unfold gearTags
    simp [List.length_flatMap]
    omega

end Verif
