import Verif.Props.SceneTemple3

/-! C109: the temple. -/

namespace Verif

open Rigid Rigid.SceneM SMesh
open VMesh (Tri)

/-- Parts together with cells around them. -/
def Sep (a b : Part × Cell) : Prop := a.2.Apart b.2 ∨ PartsApart a.1 b.1

theorem sep_pairwise {L : List (Part × Cell)} (hw : ∀ a ∈ L, Within a.1 a.2) (h : L.Pairwise Sep) : (L.map Prod.fst).Pairwise PartsApart := by
  rw [List.pairwise_map]
  refine h.imp_of_mem fun ha hb hs => ?_
  rcases hs with hs | hs
  · exact hs.parts (hw _ ha) (hw _ hb)
  · exact hs

def boxed (c : Cell) : Part × Cell := (c.box, c)

theorem within_boxed {c : Cell} (hx : c.x0 ≤ c.x1) (hy : c.y0 ≤ c.y1) (hz : c.z0 ≤ c.z1) : Within (boxed c).1 (boxed c).2 := by
  intro p hp
  unfold boxed Cell.box upright at *
  simp only [List.flatMap_cons, List.flatMap_nil, List.cons_append, List.nil_append, List.append_nil, List.mem_cons, List.not_mem_nil, or_false] at hp
  rcases hp with rfl | rfl | rfl | rfl | rfl | rfl | rfl | rfl <;> simp only <;> omega

def stepBoth (I n : ℕ) : List (Part × Cell) :=
  [boxed ⟨-12, 8 * I + 8, 0, 2, -12, 24 * n + 16⟩, boxed ⟨-8, 8 * I + 4, 2, 4, -8, 24 * n + 12⟩, boxed ⟨-4, 8 * I, 4, 6, -4, 24 * n + 8⟩,
   boxed ⟨5, 8 * I - 9, 6, 8, 5, 24 * n - 1⟩]

def pillarBoth (I n : ℕ) : List (Part × Cell) := (outerCells I n ++ innerCells I n).map boxed

def brickBoth (I n : ℕ) : List (Part × Cell) :=
  ((List.range (n + 1)).flatMap fun (m : ℕ) => (List.range (I - 3)).map fun (i : ℕ) =>
    boxed ⟨8 * i + 10, 8 * i + 18, 26, 30, 24 * m, 24 * m + 4⟩) ++
  ((List.range n).flatMap fun (m : ℕ) =>
    [boxed ⟨8 * I - 8, 8 * I - 4, 26, 30, 24 * m + 10, 24 * m + 18⟩, boxed ⟨0, 4, 26, 30, 24 * m + 10, 24 * m + 18⟩])

def cornerBoth (I n : ℕ) : List (Part × Cell) :=
  let R : ℤ := 8 * I - 4
  let F : ℤ := 24 * n + 4
  [(upright [(0, F), (10, F), (10, F - 4), (4, F - 4)] 26 30, ⟨0, 10, 26, 30, F - 4, F⟩),
   (upright [(R, F), (R - 10, F), (R - 10, F - 4), (R - 4, F - 4)] 26 30, ⟨R - 10, R, 26, 30, F - 4, F⟩),
   (upright [(0, 0), (10, 0), (10, 4), (4, 4)] 26 30, ⟨0, 10, 26, 30, 0, 4⟩),
   (upright [(R, 0), (R - 10, 0), (R - 10, 4), (R - 4, 4)] 26 30, ⟨R - 10, R, 26, 30, 0, 4⟩),
   (upright [(R, F), (R, F - 10), (R - 4, F - 10), (R - 4, F - 4)] 26 30, ⟨R - 4, R, 26, 30, F - 10, F⟩),
   (upright [(0, F), (0, F - 10), (4, F - 10), (4, F - 4)] 26 30, ⟨0, 4, 26, 30, F - 10, F⟩),
   (upright [(0, 0), (0, 10), (4, 10), (4, 4)] 26 30, ⟨0, 4, 26, 30, 0, 10⟩),
   (upright [(R, 0), (R, 10), (R - 4, 10), (R - 4, 4)] 26 30, ⟨R - 4, R, 26, 30, 0, 10⟩)]

def wedgeBoth (I n : ℕ) : List (Part × Cell) :=
  let R : ℤ := 8 * I - 4
  (List.range (n - 1)).flatMap fun (m : ℕ) =>
    let z : ℤ := 24 * m + 26
    [(upright [(4, z + 2), (10, z + 2), (10, z - 2), (4, z - 2), (0, z)] 26 30, ⟨0, 10, 26, 30, z - 2, z + 2⟩),
     (upright [(R - 4, z - 2), (R - 10, z - 2), (R - 10, z + 2), (R - 4, z + 2), (R, z)] 26 30, ⟨R - 10, R, 26, 30, z - 2, z + 2⟩)]

def junctionBoth (I n : ℕ) : List (Part × Cell) :=
  let R : ℤ := 8 * I - 4
  (List.range (n - 1)).flatMap fun (m : ℕ) =>
    let z : ℤ := 24 * m + 26
    [(upright [(0, z + 8), (4, z + 8), (4, z + 2), (0, z)] 26 30, ⟨0, 4, 26, 30, z, z + 8⟩),
     (upright [(0, z - 8), (4, z - 8), (4, z - 2), (0, z)] 26 30, ⟨0, 4, 26, 30, z - 8, z⟩),
     (upright [(R, z + 8), (R - 4, z + 8), (R - 4, z + 2), (R, z)] 26 30, ⟨R - 4, R, 26, 30, z, z + 8⟩),
     (upright [(R, z - 8), (R - 4, z - 8), (R - 4, z - 2), (R, z)] 26 30, ⟨R - 4, R, 26, 30, z - 8, z⟩)]

def gableBoth (I n : ℕ) : List (Part × Cell) :=
  (List.range (n + 1)).flatMap fun (m : ℕ) => (List.range (I - 1)).flatMap fun (j : ℕ) => (List.range (I - j)).map fun (i : ℕ) =>
    let x : ℤ := 8 * i + 4 * j + 2
    let y : ℤ := 30 + 2 * j
    let z : ℤ := 24 * m + 1
    (if i = 0 then along [(x, y), (x + 4, y), (x + 4, y + 2)] z (z + 2)
      else if i = I - j - 1 then along [(x, y), (x - 4, y), (x - 4, y + 2)] z (z + 2)
      else along [(x - 4, y), (x + 4, y), (x + 4, y + 2), (x - 4, y + 2)] z (z + 2),
     ⟨if i = 0 then x else x - 4, if i = I - j - 1 then x else x + 4, y, y + 2, z, z + 2⟩)

def plankBoth (I n : ℕ) : List (Part × Cell) :=
  let R : ℤ := 8 * I - 4
  (List.range n).flatMap fun (m : ℕ) => (List.range (I - 1)).flatMap fun (i : ℕ) =>
    let front : ℤ := if m = 0 then 24 * n + 4 else 24 * n + 2 - 24 * m
    let back : ℤ := if m = 0 ∨ m = n - 1 then front - 26 else front - 24
    let x : ℤ := 4 * i
    let y : ℤ := 30 + 2 * i
    [(along [(x, y), (x + 2, y), (x + 6, y + 2), (x + 4, y + 2)] back front, ⟨x, x + 6, y, y + 2, back, front⟩),
     (along [(R - x - 2, y), (R - x, y), (R - x - 4, y + 2), (R - x - 6, y + 2)] back front, ⟨R - x - 6, R - x, y, y + 2, back, front⟩)]

def ridgeBoth (I n : ℕ) : List (Part × Cell) :=
  (List.range (6 * n + 1)).map fun (k : ℕ) =>
    (along [(4 * I - 4, 28 + 2 * I), (4 * I, 28 + 2 * I), (4 * I - 2, 29 + 2 * I)] (24 * n - 4 * k) (24 * n + 4 - 4 * k),
     ⟨4 * I - 4, 4 * I, 28 + 2 * I, 29 + 2 * I, 24 * n - 4 * k, 24 * n + 4 - 4 * k⟩)

theorem both_fst (I n : ℕ) : (stepBoth I n).map Prod.fst = stepParts I n ∧ (brickBoth I n).map Prod.fst = brickParts I n ∧
    (cornerBoth I n).map Prod.fst = cornerParts I n ∧ (wedgeBoth I n).map Prod.fst = wedgeParts I n ∧
    (junctionBoth I n).map Prod.fst = junctionParts I n ∧ (gableBoth I n).map Prod.fst = gableParts I n ∧
    (plankBoth I n).map Prod.fst = plankParts I n ∧ (ridgeBoth I n).map Prod.fst = ridgeParts I n := by
  refine ⟨rfl, ?_, rfl, ?_, ?_, ?_, ?_, ?_⟩
  · unfold brickBoth brickParts
    simp only [List.map_append, List.map_flatMap, List.map_map, Function.comp_def, List.map_cons, List.map_nil]
    rfl
  · unfold wedgeBoth wedgeParts
    simp only [List.map_flatMap, List.map_cons, List.map_nil]
  · unfold junctionBoth junctionParts
    simp only [List.map_flatMap, List.map_cons, List.map_nil]
  · unfold gableBoth gableParts
    simp only [List.map_flatMap, List.map_map, Function.comp_def]
  · unfold plankBoth plankParts
    simp only [List.map_flatMap, List.map_cons, List.map_nil]
  · unfold ridgeBoth ridgeParts
    simp only [List.map_map, Function.comp_def]

/-- Checks that the corners of a prism are in a cell. -/
macro "temple_within" : tactic => `(tactic| (
  intro p hp
  simp only [upright, along, List.flatMap_cons, List.flatMap_nil, List.cons_append, List.nil_append, List.append_nil, List.mem_cons, List.not_mem_nil, or_false] at hp
  rcases hp with h | h | h | h | h | h | h | h <;> subst h <;> refine ⟨?_, ?_, ?_, ?_, ?_, ?_⟩ <;> dsimp only <;> omega))

macro "temple_within6" : tactic => `(tactic| (
  intro p hp
  simp only [upright, along, List.flatMap_cons, List.flatMap_nil, List.cons_append, List.nil_append, List.append_nil, List.mem_cons, List.not_mem_nil, or_false] at hp
  rcases hp with h | h | h | h | h | h <;> subst h <;> refine ⟨?_, ?_, ?_, ?_, ?_, ?_⟩ <;> dsimp only <;> omega))

macro "temple_within10" : tactic => `(tactic| (
  intro p hp
  simp only [upright, along, List.flatMap_cons, List.flatMap_nil, List.cons_append, List.nil_append, List.append_nil, List.mem_cons, List.not_mem_nil, or_false] at hp
  rcases hp with h | h | h | h | h | h | h | h | h | h <;> subst h <;> refine ⟨?_, ?_, ?_, ?_, ?_, ?_⟩ <;> dsimp only <;> omega))

theorem within_steps {I n : ℕ} (hI : 3 ≤ I) (hn : 1 ≤ n) : ∀ a ∈ stepBoth I n, Within a.1 a.2 := by
  intro a ha
  unfold stepBoth at ha
  simp only [List.mem_cons, List.not_mem_nil, or_false] at ha
  rcases ha with rfl | rfl | rfl | rfl <;> refine within_boxed ?_ ?_ ?_ <;> simp only <;> omega

theorem mem_pillarBoth {I n : ℕ} {a : Part × Cell} (ha : a ∈ pillarBoth I n) : ∃ c, (c ∈ outerCells I n ∨ c ∈ innerCells I n) ∧ a = boxed c := by
  unfold pillarBoth at ha
  obtain ⟨c, hc, rfl⟩ := List.mem_map.1 ha
  exact ⟨c, List.mem_append.1 hc, rfl⟩

theorem cells_square {I n : ℕ} {c : Cell} (hc : c ∈ outerCells I n ++ innerCells I n) : c.x1 = c.x0 + 4 ∧ c.y1 = 26 ∧ 6 ≤ c.y0 ∧ c.y0 ≤ 8 ∧ c.z1 = c.z0 + 4 := by
  unfold outerCells innerCells at hc
  simp only [List.mem_append, List.mem_flatMap, List.mem_map, List.mem_range, List.mem_cons, List.not_mem_nil, or_false] at hc
  rcases hc with (⟨i, hi, rfl | rfl⟩ | ⟨i, hi, rfl | rfl⟩) | ⟨m, hm, i, hi, rfl⟩ <;> refine ⟨?_, ?_, ?_, ?_, ?_⟩ <;> dsimp only <;> omega

theorem within_pillars {I n : ℕ} : ∀ a ∈ pillarBoth I n, Within a.1 a.2 := by
  intro a ha
  obtain ⟨c, hc, rfl⟩ := mem_pillarBoth ha
  have := cells_square (List.mem_append.2 hc)
  refine within_boxed ?_ ?_ ?_ <;> omega

theorem within_bricks {I n : ℕ} : ∀ a ∈ brickBoth I n, Within a.1 a.2 := by
  intro a ha
  unfold brickBoth at ha
  simp only [List.mem_append, List.mem_flatMap, List.mem_map, List.mem_range, List.mem_cons, List.not_mem_nil, or_false] at ha
  rcases ha with ⟨m, hm, i, hi, rfl⟩ | ⟨m, hm, rfl | rfl⟩ <;> refine within_boxed ?_ ?_ ?_ <;> simp only <;> omega

theorem within_corners {I n : ℕ} : ∀ a ∈ cornerBoth I n, Within a.1 a.2 := by
  intro a ha
  unfold cornerBoth at ha
  simp only [List.mem_cons, List.not_mem_nil, or_false] at ha
  rcases ha with rfl | rfl | rfl | rfl | rfl | rfl | rfl | rfl <;> temple_within

theorem within_wedges {I n : ℕ} : ∀ a ∈ wedgeBoth I n, Within a.1 a.2 := by
  intro a ha
  unfold wedgeBoth at ha
  simp only [List.mem_flatMap, List.mem_range, List.mem_cons, List.not_mem_nil, or_false] at ha
  rcases ha with ⟨m, hm, rfl | rfl⟩ <;> temple_within10

theorem within_junctions {I n : ℕ} : ∀ a ∈ junctionBoth I n, Within a.1 a.2 := by
  intro a ha
  unfold junctionBoth at ha
  simp only [List.mem_flatMap, List.mem_range, List.mem_cons, List.not_mem_nil, or_false] at ha
  rcases ha with ⟨m, hm, rfl | rfl | rfl | rfl⟩ <;> temple_within

theorem within_gables {I n : ℕ} : ∀ a ∈ gableBoth I n, Within a.1 a.2 := by
  intro a ha
  unfold gableBoth at ha
  simp only [List.mem_flatMap, List.mem_map, List.mem_range] at ha
  obtain ⟨m, hm, j, hj, i, hi, rfl⟩ := ha
  by_cases h0 : i = 0
  · have h1 : ¬ i = I - j - 1 := by omega
    simp only [if_pos h0, if_neg h1]
    temple_within6
  by_cases h1 : i = I - j - 1
  · simp only [if_neg h0, if_pos h1]
    temple_within6
  · simp only [if_neg h0, if_neg h1]
    temple_within

theorem within_planks {I n : ℕ} : ∀ a ∈ plankBoth I n, Within a.1 a.2 := by
  intro a ha
  unfold plankBoth at ha
  simp only [List.mem_flatMap, List.mem_range, List.mem_cons, List.not_mem_nil, or_false] at ha
  obtain ⟨m, hm, i, hi, ha⟩ := ha
  generalize hf : (if m = 0 then (24 * (n : ℤ) + 4) else 24 * n + 2 - 24 * m) = front at ha
  generalize hb : (if m = 0 ∨ m = n - 1 then front - 26 else front - 24) = back at ha
  have : back ≤ front := by rw [← hb]; split_ifs <;> omega
  clear hf hb
  rcases ha with rfl | rfl <;> temple_within

theorem within_ridge {I n : ℕ} : ∀ a ∈ ridgeBoth I n, Within a.1 a.2 := by
  intro a ha
  unfold ridgeBoth at ha
  simp only [List.mem_map, List.mem_range] at ha
  obtain ⟨k, hk, rfl⟩ := ha
  temple_within6

/-! ### Pairs -/

theorem Sep.symm {a b : Part × Cell} (h : Sep a b) : Sep b a := by
  rcases h with h | h
  · left; unfold Cell.Apart at *; omega
  · exact Or.inr h.symm

theorem pairwise_range {α : Type*} {R : α → α → Prop} {N : ℕ} {f : ℕ → List α} (h : ∀ i < N, (f i).Pairwise R)
    (h2 : ∀ i j, i < j → j < N → ∀ a ∈ f i, ∀ b ∈ f j, R a b) : ((List.range N).flatMap f).Pairwise R := by
  rw [List.pairwise_flatMap]
  refine ⟨fun i hi => h i (List.mem_range.1 hi), ?_⟩
  refine List.pairwise_lt_range.imp_of_mem fun {i j} hi hj hij => h2 i j hij (List.mem_range.1 hj)

theorem pairwise_range_map {α : Type*} {R : α → α → Prop} {N : ℕ} {f : ℕ → α}
    (h2 : ∀ i j, i < j → j < N → R (f i) (f j)) : ((List.range N).map f).Pairwise R := by
  rw [List.pairwise_map]
  exact List.pairwise_lt_range.imp_of_mem fun {i j} hi hj hij => h2 i j hij (List.mem_range.1 hj)

theorem pairwise_pair {α : Type*} {R : α → α → Prop} {a b : α} (h : R a b) : [a, b].Pairwise R := by simpa using h

/-- Cells apart, by arithmetic. -/
macro "temple_cells" : tactic => `(tactic| (left; simp only [boxed, Cell.Apart]; omega))

theorem sep_steps (I n : ℕ) : (stepBoth I n).Pairwise Sep := by
  unfold stepBoth
  simp only [List.pairwise_cons, List.mem_cons, List.not_mem_nil, or_false, forall_eq_or_imp, forall_eq, IsEmpty.forall_iff,
      implies_true, List.Pairwise.nil, and_true]
  refine ⟨⟨?_, ?_, ?_⟩, ⟨?_, ?_⟩, ?_⟩ <;> temple_cells

theorem sep_pillars {I n : ℕ} (hI : 3 ≤ I) (hn : 1 ≤ n) : (pillarBoth I n).Pairwise Sep := by
  unfold pillarBoth
  rw [List.pairwise_map, List.pairwise_append]
  unfold outerCells innerCells
  rw [List.pairwise_append]
  refine ⟨⟨?_, ?_, ?_⟩, ?_, ?_⟩
  · refine pairwise_range (fun i _ => pairwise_pair ?_) fun i j hij hj a ha b hb => ?_
    · temple_cells
    · simp only [List.mem_cons, List.not_mem_nil, or_false] at ha hb
      rcases ha with rfl | rfl <;> rcases hb with rfl | rfl <;> temple_cells
  · refine pairwise_range (fun i _ => pairwise_pair ?_) fun i j hij hj a ha b hb => ?_
    · temple_cells
    · simp only [List.mem_cons, List.not_mem_nil, or_false] at ha hb
      rcases ha with rfl | rfl <;> rcases hb with rfl | rfl <;> temple_cells
  · intro a ha b hb
    simp only [List.mem_flatMap, List.mem_range, List.mem_cons, List.not_mem_nil, or_false] at ha hb
    obtain ⟨i, hi, ha⟩ := ha
    obtain ⟨k, hk, hb⟩ := hb
    rcases ha with rfl | rfl <;> rcases hb with rfl | rfl <;> temple_cells
  · refine pairwise_range (fun m _ => pairwise_range_map fun i j hij _ => ?_) fun i j hij hj a ha b hb => ?_
    · temple_cells
    · simp only [List.mem_map, List.mem_range] at ha hb
      obtain ⟨i', hi', rfl⟩ := ha
      obtain ⟨j', hj', rfl⟩ := hb
      temple_cells
  · intro a ha b hb
    simp only [List.mem_append, List.mem_flatMap, List.mem_map, List.mem_range, List.mem_cons, List.not_mem_nil, or_false] at ha hb
    obtain ⟨m, hm, i', hi', rfl⟩ := hb
    rcases ha with ⟨i, hi, rfl | rfl⟩ | ⟨k, hk, rfl | rfl⟩ <;> temple_cells

theorem sep_steps_pillars {I n : ℕ} : ∀ a ∈ stepBoth I n, ∀ b ∈ pillarBoth I n, Sep a b := by
  intro a ha b hb
  obtain ⟨c, hc, rfl⟩ := mem_pillarBoth hb
  unfold stepBoth at ha
  unfold outerCells innerCells at hc
  simp only [List.mem_append, List.mem_flatMap, List.mem_map, List.mem_range, List.mem_cons, List.not_mem_nil, or_false] at ha hc
  rcases ha with rfl | rfl | rfl | rfl <;> rcases hc with (⟨i, hi, rfl | rfl⟩ | ⟨k, hk, rfl | rfl⟩) | ⟨m, hm, i, hi, rfl⟩ <;> temple_cells

theorem sep_bricks {I n : ℕ} (hI : 3 ≤ I) : (brickBoth I n).Pairwise Sep := by
  unfold brickBoth
  rw [List.pairwise_append]
  refine ⟨?_, ?_, ?_⟩
  · refine pairwise_range (fun m _ => pairwise_range_map fun i j hij _ => ?_) fun i j hij hj a ha b hb => ?_
    · temple_cells
    · simp only [List.mem_map, List.mem_range] at ha hb
      obtain ⟨i', hi', rfl⟩ := ha
      obtain ⟨j', hj', rfl⟩ := hb
      temple_cells
  · refine pairwise_range (fun i _ => pairwise_pair ?_) fun i j hij hj a ha b hb => ?_
    · temple_cells
    · simp only [List.mem_cons, List.not_mem_nil, or_false] at ha hb
      rcases ha with rfl | rfl <;> rcases hb with rfl | rfl <;> temple_cells
  · intro a ha b hb
    simp only [List.mem_flatMap, List.mem_map, List.mem_range, List.mem_cons, List.not_mem_nil, or_false] at ha hb
    obtain ⟨m, hm, i', hi', rfl⟩ := ha
    obtain ⟨k, hk, hb⟩ := hb
    rcases hb with rfl | rfl <;> temple_cells

/-- A plane between two prisms, by arithmetic at the corners. -/
theorem upright_apart {A B : List (ℤ × ℤ)} {y0 y1 y0' y1' : ℤ} (a c e : ℤ) (h0 : a ≠ 0) (hA : ∀ p ∈ A, a * p.1 + c * p.2 ≤ e)
    (hB : ∀ p ∈ B, e ≤ a * p.1 + c * p.2) : PartsApart (upright A y0 y1) (upright B y0' y1') := by
  refine ⟨a, 0, c, e, Or.inl h0, fun p hp => ?_, fun p hp => ?_⟩ <;> unfold upright at hp <;> obtain ⟨q, hq, h⟩ := List.mem_flatMap.1 hp <;>
    simp only [List.mem_cons, List.not_mem_nil, or_false] at h
  · have := hA q hq
    rcases h with rfl | rfl <;> simp only <;> linarith
  · have := hB q hq
    rcases h with rfl | rfl <;> simp only <;> linarith

theorem along_apart {A B : List (ℤ × ℤ)} {y0 y1 y0' y1' : ℤ} (a c e : ℤ) (h0 : a ≠ 0) (hA : ∀ p ∈ A, a * p.1 + c * p.2 ≤ e)
    (hB : ∀ p ∈ B, e ≤ a * p.1 + c * p.2) : PartsApart (along A y0 y1) (along B y0' y1') := by
  refine ⟨a, c, 0, e, Or.inl h0, fun p hp => ?_, fun p hp => ?_⟩ <;> unfold along at hp <;> obtain ⟨q, hq, h⟩ := List.mem_flatMap.1 hp <;>
    simp only [List.mem_cons, List.not_mem_nil, or_false] at h
  · have := hA q hq
    rcases h with rfl | rfl <;> simp only <;> linarith
  · have := hB q hq
    rcases h with rfl | rfl <;> simp only <;> linarith

/-- A plane between two prisms with given corners. -/
macro "temple_plane" : tactic => `(tactic| (
  simp only [List.forall_mem_cons, List.not_mem_nil, IsEmpty.forall_iff, implies_true, and_true]
  omega))

theorem sep_corners {I n : ℕ} (hI : 3 ≤ I) (hn : 1 ≤ n) : (cornerBoth I n).Pairwise Sep := by
  unfold cornerBoth
  simp only [List.pairwise_cons, List.mem_cons, List.not_mem_nil, or_false, forall_eq_or_imp, forall_eq, IsEmpty.forall_iff,
      implies_true, List.Pairwise.nil, and_true]
  refine ⟨⟨?_, ?_, ?_, ?_, ?_, ?_, ?_⟩, ⟨?_, ?_, ?_, ?_, ?_, ?_⟩, ⟨?_, ?_, ?_, ?_, ?_⟩, ⟨?_, ?_, ?_, ?_⟩, ⟨?_, ?_, ?_⟩, ⟨?_, ?_⟩, ?_⟩
  all_goals first
    | temple_cells
    | (right; refine upright_apart 1 1 (24 * n + 4) (by omega) ?_ ?_ <;> temple_plane)
    | (right; refine upright_apart (-1) (-1) (-(24 * n + 4)) (by omega) ?_ ?_ <;> temple_plane)
    | (right; refine upright_apart 1 (-1) (8 * I - 4 - (24 * n + 4)) (by omega) ?_ ?_ <;> temple_plane)
    | (right; refine upright_apart (-1) 1 (-(8 * I - 4 - (24 * n + 4))) (by omega) ?_ ?_ <;> temple_plane)
    | (right; refine upright_apart 1 (-1) 0 (by omega) ?_ ?_ <;> temple_plane)
    | (right; refine upright_apart (-1) 1 0 (by omega) ?_ ?_ <;> temple_plane)
    | (right; refine upright_apart 1 1 (8 * I - 4) (by omega) ?_ ?_ <;> temple_plane)
    | (right; refine upright_apart (-1) (-1) (-(8 * I - 4)) (by omega) ?_ ?_ <;> temple_plane)

theorem sep_wedges {I n : ℕ} (hI : 3 ≤ I) : (wedgeBoth I n).Pairwise Sep := by
  unfold wedgeBoth
  refine pairwise_range (fun i _ => pairwise_pair ?_) fun i j hij hj a ha b hb => ?_
  · temple_cells
  · simp only [List.mem_cons, List.not_mem_nil, or_false] at ha hb
    rcases ha with rfl | rfl <;> rcases hb with rfl | rfl <;> temple_cells

theorem sep_junctions {I n : ℕ} (hI : 3 ≤ I) : (junctionBoth I n).Pairwise Sep := by
  unfold junctionBoth
  refine pairwise_range (fun i _ => ?_) fun i j hij hj a ha b hb => ?_
  · simp only [List.pairwise_cons, List.mem_cons, List.not_mem_nil, or_false, forall_eq_or_imp, forall_eq, IsEmpty.forall_iff,
      implies_true, List.Pairwise.nil, and_true]
    refine ⟨⟨?_, ?_, ?_⟩, ⟨?_, ?_⟩, ?_⟩ <;> temple_cells
  · simp only [List.mem_cons, List.not_mem_nil, or_false] at ha hb
    rcases ha with rfl | rfl | rfl | rfl <;> rcases hb with rfl | rfl | rfl | rfl <;> temple_cells

theorem sep_bricks_corners {I n : ℕ} (hI : 3 ≤ I) : ∀ a ∈ brickBoth I n, ∀ b ∈ cornerBoth I n, Sep a b := by
  intro a ha b hb
  unfold brickBoth at ha
  unfold cornerBoth at hb
  simp only [List.mem_append, List.mem_flatMap, List.mem_map, List.mem_range, List.mem_cons, List.not_mem_nil, or_false] at ha hb
  rcases ha with ⟨m, hm, i, hi, rfl⟩ | ⟨m, hm, rfl | rfl⟩ <;> rcases hb with rfl | rfl | rfl | rfl | rfl | rfl | rfl | rfl <;> temple_cells

theorem sep_bricks_wedges {I n : ℕ} (hI : 3 ≤ I) : ∀ a ∈ brickBoth I n, ∀ b ∈ wedgeBoth I n, Sep a b := by
  intro a ha b hb
  unfold brickBoth at ha
  unfold wedgeBoth at hb
  simp only [List.mem_append, List.mem_flatMap, List.mem_map, List.mem_range, List.mem_cons, List.not_mem_nil, or_false] at ha hb
  rcases ha with ⟨m, hm, i, hi, rfl⟩ | ⟨m, hm, rfl | rfl⟩ <;> rcases hb with ⟨k, hk, rfl | rfl⟩ <;> temple_cells

theorem sep_bricks_junctions {I n : ℕ} (hI : 3 ≤ I) : ∀ a ∈ brickBoth I n, ∀ b ∈ junctionBoth I n, Sep a b := by
  intro a ha b hb
  unfold brickBoth at ha
  unfold junctionBoth at hb
  simp only [List.mem_append, List.mem_flatMap, List.mem_map, List.mem_range, List.mem_cons, List.not_mem_nil, or_false] at ha hb
  rcases ha with ⟨m, hm, i, hi, rfl⟩ | ⟨m, hm, rfl | rfl⟩ <;> rcases hb with ⟨k, hk, rfl | rfl | rfl | rfl⟩ <;> temple_cells

theorem sep_corners_wedges {I n : ℕ} (hI : 3 ≤ I) : ∀ a ∈ cornerBoth I n, ∀ b ∈ wedgeBoth I n, Sep a b := by
  intro a ha b hb
  unfold cornerBoth at ha
  unfold wedgeBoth at hb
  simp only [List.mem_flatMap, List.mem_range, List.mem_cons, List.not_mem_nil, or_false] at ha hb
  rcases ha with rfl | rfl | rfl | rfl | rfl | rfl | rfl | rfl <;> rcases hb with ⟨k, hk, rfl | rfl⟩ <;> temple_cells

theorem sep_corners_junctions {I n : ℕ} (hI : 3 ≤ I) : ∀ a ∈ cornerBoth I n, ∀ b ∈ junctionBoth I n, Sep a b := by
  intro a ha b hb
  unfold cornerBoth at ha
  unfold junctionBoth at hb
  simp only [List.mem_flatMap, List.mem_range, List.mem_cons, List.not_mem_nil, or_false] at ha hb
  rcases ha with rfl | rfl | rfl | rfl | rfl | rfl | rfl | rfl <;> rcases hb with ⟨k, hk, rfl | rfl | rfl | rfl⟩ <;> temple_cells

theorem sep_wedges_junctions {I n : ℕ} (hI : 3 ≤ I) : ∀ a ∈ wedgeBoth I n, ∀ b ∈ junctionBoth I n, Sep a b := by
  intro a ha b hb
  unfold wedgeBoth at ha
  unfold junctionBoth at hb
  simp only [List.mem_flatMap, List.mem_range, List.mem_cons, List.not_mem_nil, or_false] at ha hb
  obtain ⟨m, hm, ha⟩ := ha
  obtain ⟨k, hk, hb⟩ := hb
  by_cases hmk : m = k
  · subst hmk
    rcases ha with rfl | rfl <;> rcases hb with rfl | rfl | rfl | rfl
    all_goals first
      | temple_cells
      | (right; refine upright_apart (-1) 2 (2 * (24 * m + 26)) (by omega) ?_ ?_ <;> temple_plane)
      | (right; refine upright_apart (-1) (-2) (-(2 * (24 * m + 26))) (by omega) ?_ ?_ <;> temple_plane)
      | (right; refine upright_apart 1 2 (8 * I - 4 + 2 * (24 * m + 26)) (by omega) ?_ ?_ <;> temple_plane)
      | (right; refine upright_apart 1 (-2) (8 * I - 4 - 2 * (24 * m + 26)) (by omega) ?_ ?_ <;> temple_plane)
  · rcases ha with rfl | rfl <;> rcases hb with rfl | rfl | rfl | rfl <;> temple_cells

end Verif
