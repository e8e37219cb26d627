import Verif.Model.Collision
import Verif.Props.BVH
import Verif.Props.Grid3
import Verif.Props.Quaternion
import Verif.Props.ClosedMesh

/-! C50, C51, C69: collision detection of rigid bodies. -/

namespace Verif

open VMesh (Tri)
open Collision Rigid

/-! ### Contact reduction -/

/-- `reduced` represents `L`: a sub-list in the original order, without two equivalent entries, and for every entry of L the
first equivalent entry of L is kept. -/
def Represents {α : Type*} (same : α → α → Prop) (L reduced : List α) : Prop :=
  reduced.Sublist L ∧ reduced.Pairwise (fun a b => ¬ same a b) ∧
    ∀ c ∈ L, ∃ pre f post, L = pre ++ f :: post ∧ same c f ∧ (∀ d ∈ pre, ¬ same c d) ∧ f ∈ reduced

theorem reduceBy_spec {α : Type*} (same : α → α → Bool) (hr : ∀ a, same a a = true) (hs : ∀ a b, same a b = true → same b a = true)
    (ht : ∀ a b c, same a b = true → same b c = true → same a c = true) (L : List α) :
    Represents (fun a b => same a b = true) L (reduceBy same L) := by
  induction L using List.reverseRecOn with
  | nil => exact ⟨List.Sublist.refl _, List.Pairwise.nil, by simp⟩
  | append_singleton L x ih =>
    obtain ⟨h1, h2, h3⟩ := ih
    have hstep : reduceBy same (L ++ [x]) =
        if (reduceBy same L).any (fun c => same x c) then reduceBy same L else reduceBy same L ++ [x] := by
      unfold reduceBy; rw [List.foldl_append]; rfl
    rw [hstep]
    have old : ∀ R : List α, (∀ f ∈ reduceBy same L, f ∈ R) → ∀ c ∈ L, ∃ pre f post, L ++ [x] = pre ++ f :: post ∧
        same c f = true ∧ (∀ d ∈ pre, ¬ same c d = true) ∧ f ∈ R := by
      intro R hR c hc
      obtain ⟨pre, f, post, e, e1, e2, e3⟩ := h3 c hc
      exact ⟨pre, f, post ++ [x], by rw [e]; simp, e1, e2, hR f e3⟩
    by_cases hx : (reduceBy same L).any (fun c => same x c) = true
    · rw [if_pos hx]
      refine ⟨h1.trans (List.sublist_append_left _ _), h2, ?_⟩
      intro c hc
      rcases List.mem_append.1 hc with hc | hc
      · exact old _ (fun f h => h) c hc
      · simp only [List.mem_singleton] at hc
        subst hc
        obtain ⟨y, hy, hxy⟩ := List.any_eq_true.1 hx
        obtain ⟨pre, f, post, e, e1, e2, e3⟩ := old _ (fun f h => h) y (h1.subset hy)
        refine ⟨pre, f, post, e, ht _ _ _ hxy e1, ?_, e3⟩
        intro d hd hcd
        exact e2 d hd (ht _ _ _ (hs _ _ hxy) hcd)
    · rw [if_neg hx]
      have hno : ∀ y ∈ reduceBy same L, ¬ same x y = true := by
        intro y hy h
        exact hx (List.any_eq_true.2 ⟨y, hy, h⟩)
      refine ⟨h1.append (List.Sublist.refl _), ?_, ?_⟩
      · rw [List.pairwise_append]
        refine ⟨h2, List.pairwise_singleton _ _, ?_⟩
        intro a ha b hb hab
        simp only [List.mem_singleton] at hb
        subst hb
        exact hno a ha (hs _ _ hab)
      · intro c hc
        rcases List.mem_append.1 hc with hc | hc
        · exact old _ (fun f h => List.mem_append_left _ h) c hc
        · simp only [List.mem_singleton] at hc
          subst hc
          refine ⟨L, c, [], rfl, hr c, ?_, by simp⟩
          intro d hd hcd
          obtain ⟨pre, f, post, e, e1, e2, e3⟩ := h3 d hd
          exact hno f e3 (ht _ _ _ hcd e1)

theorem reduceBy_idem {α : Type*} (same : α → α → Bool) (L : List α) (h : L.Pairwise (fun a b => ¬ same b a = true)) :
    reduceBy same L = L := by
  induction L using List.reverseRecOn with
  | nil => rfl
  | append_singleton L x ih =>
    rw [List.pairwise_append] at h
    have hstep : reduceBy same (L ++ [x]) =
        if (reduceBy same L).any (fun c => same x c) then reduceBy same L else reduceBy same L ++ [x] := by
      unfold reduceBy; rw [List.foldl_append]; rfl
    rw [hstep, ih h.1, if_neg]
    intro hx
    obtain ⟨y, hy, hxy⟩ := List.any_eq_true.1 hx
    exact h.2.2 y hy x (by simp) hxy

section
variable {N : ℕ}

/-- Two contacts are redundant: between the same two bodies, in either order, at the same position. -/
def SameContact (c d : ContactPoint N) : Prop :=
  ((c.bodyA = d.bodyA ∧ c.bodyB = d.bodyB) ∨ (c.bodyA = d.bodyB ∧ c.bodyB = d.bodyA)) ∧ c.p = d.p

theorem redundant_iff (c d : ContactPoint N) : redundant c d = true ↔ SameContact c d := by
  unfold redundant SameContact
  simp only [decide_eq_true_eq]
  constructor
  · rintro ⟨h, hp⟩
    refine ⟨?_, hp⟩
    have h1 : c.bodyA ∈ ({d.bodyA, d.bodyB} : Finset (Fin N)) := by rw [← h]; simp
    have h2 : c.bodyB ∈ ({d.bodyA, d.bodyB} : Finset (Fin N)) := by rw [← h]; simp
    have h3 : d.bodyA ∈ ({c.bodyA, c.bodyB} : Finset (Fin N)) := by rw [h]; simp
    have h4 : d.bodyB ∈ ({c.bodyA, c.bodyB} : Finset (Fin N)) := by rw [h]; simp
    simp only [Finset.mem_insert, Finset.mem_singleton] at h1 h2 h3 h4
    grind
  · rintro ⟨⟨h1, h2⟩ | ⟨h1, h2⟩, hp⟩
    · exact ⟨by rw [h1, h2], hp⟩
    · exact ⟨by rw [h1, h2, Finset.pair_comm], hp⟩

/-- **C50.** Contact reduction. -/
theorem C50_reduction (L : List (ContactPoint N)) : Represents SameContact L (contact_reduction L) := by
  have h := reduceBy_spec (redundant (N := N)) (fun a => by rw [redundant_iff]; simp [SameContact])
    (fun a b h => by rw [redundant_iff] at *; unfold SameContact at *; grind)
    (fun a b c h1 h2 => by rw [redundant_iff] at *; unfold SameContact at *; grind) L
  simp only [redundant_iff] at h
  exact h

/-- **C50.** Reducing twice changes nothing. -/
theorem C50_idempotent (L : List (ContactPoint N)) : contact_reduction (contact_reduction L) = contact_reduction L := by
  apply reduceBy_idem
  refine (C50_reduction L).2.1.imp ?_
  intro a b h h'
  apply h
  rw [redundant_iff] at h'
  unfold SameContact at *
  grind

/-! ### Frank-Wolfe -/

/-- p is a point of the triangle a, b, c. -/
def OnTriangle (p a b c : V3) : Prop := ∃ u v w : ℝ, 0 ≤ u ∧ 0 ≤ v ∧ 0 ≤ w ∧ u + v + w = 1 ∧ p = u • a + v • b + w • c

theorem inTriangle_corner (p : Fin 3 → V3) (m : Fin 3) : OnTriangle (p m) (p 0) (p 1) (p 2) := by
  obtain rfl | rfl | rfl : m = 0 ∨ m = 1 ∨ m = 2 := by decide +revert
  · exact ⟨1, 0, 0, by simp⟩
  · exact ⟨0, 1, 0, by simp⟩
  · exact ⟨0, 0, 1, by simp⟩

theorem inTriangle_move {x y a b c : V3} (hx : OnTriangle x a b c) (hy : OnTriangle y a b c) (t : ℝ) (h0 : 0 ≤ t) (h1 : t ≤ 1) :
    OnTriangle (x + t • (y - x)) a b c := by
  obtain ⟨u, v, w, hu, hv, hw, hs, rfl⟩ := hx
  obtain ⟨u', v', w', hu', hv', hw', hs', rfl⟩ := hy
  refine ⟨(1 - t) * u + t * u', (1 - t) * v + t * v', (1 - t) * w + t * w', ?_, ?_, ?_, ?_, ?_⟩
  · have := sub_nonneg.2 h1; positivity
  · have := sub_nonneg.2 h1; positivity
  · have := sub_nonneg.2 h1; positivity
  · linear_combination (1 - t) * hs + t * hs'
  · ext <;> simp <;> ring

/-- **C51.** Every update of the search stays in the triangle. -/
theorem C51_step {g : Grid} {p : Fin 3 → V3} {i : ℕ} {x : V3} {r : V3 × ℝ} (hx : OnTriangle x (p 0) (p 1) (p 2))
    (h : fwStep g p i x = .ok r) : OnTriangle r.1 (p 0) (p 1) (p 2) := by
  unfold fwStep at h
  cases hd : g.get_gradient x with
  | error e => rw [hd] at h; cases h
  | ok d =>
    rw [hd] at h
    simp only [bind, Except.bind, pure, Except.pure, Except.ok.injEq] at h
    subst h
    refine inTriangle_move hx (inTriangle_corner p _) _ (by positivity) ?_
    rw [div_le_one (by positivity)]
    have : (0:ℝ) ≤ i := by positivity
    linarith

theorem fwLoop_inTriangle {g : Grid} {p : Fin 3 → V3} {tol : ℝ} (fuel i : ℕ) (x y : V3) (hx : OnTriangle x (p 0) (p 1) (p 2))
    (h : fwLoop g p tol fuel i x = .ok y) : OnTriangle y (p 0) (p 1) (p 2) := by
  induction fuel generalizing i x with
  | zero => unfold fwLoop at h; cases h; exact hx
  | succ fuel ih =>
    unfold fwLoop at h
    cases hr : fwStep g p i x with
    | error e => rw [hr] at h; cases h
    | ok r =>
      rw [hr] at h
      simp only [bind, Except.bind] at h
      split_ifs at h with ht
      · cases h; exact C51_step hx hr
      · exact ih _ _ (C51_step hx hr) h

/-- **C51.** The point found is a point of the triangle, for every field, number of iterations and tolerance. -/
theorem C51_in_triangle {P : CDParams} {g : Grid} {p : Fin 3 → V3} {x : V3} (h : frankWolfe P g p = .ok x) :
    OnTriangle x (p 0) (p 1) (p 2) := by
  unfold frankWolfe at h
  cases hs : fwStart g p with
  | error e => rw [hs] at h; cases h
  | ok s =>
    rw [hs] at h
    simp only [bind, Except.bind] at h
    refine fwLoop_inTriangle _ _ _ _ ?_ h
    unfold fwStart at hs
    cases h0 : g.get_gradient (p 0) with
    | error e => rw [h0] at hs; cases hs
    | ok g0 =>
    cases h1 : g.get_gradient (p 1) with
    | error e => rw [h0, h1] at hs; cases hs
    | ok g1 =>
    cases h2 : g.get_gradient (p 2) with
    | error e => rw [h0, h1, h2] at hs; cases hs
    | ok g2 =>
      rw [h0, h1, h2] at hs
      simp only [bind, Except.bind, pure, Except.pure, Except.ok.injEq] at hs
      subst hs
      exact inTriangle_corner p _

/-! ### The pipeline -/

theorem mapM_ok {α β : Type*} {f : α → Except PyErr β} {L : List α} {R : List β} (h : L.mapM f = .ok R) :
    List.Forall₂ (fun a b => f a = .ok b) L R := by
  induction L generalizing R with
  | nil => cases h; exact .nil
  | cons a L ih =>
    rw [List.mapM_cons] at h
    cases ha : f a with
    | error e => rw [ha] at h; cases h
    | ok b =>
      cases hL : L.mapM f with
      | error e => rw [ha, hL] at h; cases h
      | ok R' =>
        rw [ha, hL] at h
        cases h
        exact .cons ha (ih hL)

theorem forall₂_mem_right {α β : Type*} {P : α → β → Prop} {L : List α} {R : List β} (h : List.Forall₂ P L R) :
    ∀ b ∈ R, ∃ a ∈ L, P a b := by
  induction h with
  | nil => simp
  | cons hab _ ih =>
    intro b hb
    rcases List.mem_cons.1 hb with rfl | hb
    · exact ⟨_, List.mem_cons_self .., hab⟩
    · obtain ⟨a, ha, h⟩ := ih b hb
      exact ⟨a, List.mem_cons_of_mem _ ha, h⟩

theorem forall₂_mem_left {α β : Type*} {P : α → β → Prop} {L : List α} {R : List β} (h : List.Forall₂ P L R) :
    ∀ a ∈ L, ∃ b ∈ R, P a b := by
  induction h with
  | nil => simp
  | cons hab _ ih =>
    intro b hb
    rcases List.mem_cons.1 hb with rfl | hb
    · exact ⟨_, List.mem_cons_self .., hab⟩
    · obtain ⟨a, ha, h⟩ := ih b hb
      exact ⟨a, List.mem_cons_of_mem _ ha, h⟩

/-- World position of a point given in the frame of the body. -/
def toWorld (b : RigidBody) (x : V3) : V3 := Quat.rotate b.q x + b.r
/-- Position in the frame of the body of a point given in the world. -/
def toBody (b : RigidBody) (p : V3) : V3 := Quat.rotate (Quat.conjugate b.q) (p - b.r)

theorem toBody_toWorld {b : RigidBody} (hb : IsUnitQ b.q) (x : V3) : toBody b (toWorld b x) = x ∧ toWorld b (toBody b x) = x := by
  unfold toBody toWorld
  constructor
  · rw [add_sub_cancel_right, (C02_rotate_conjugate hb x).1]
  · rw [(C02_rotate_conjugate hb _).2, sub_add_cancel]

theorem rotate_comb (q : Quat) (a b c : V3) (u v w : ℝ) :
    Quat.rotate q (u • a + v • b + w • c) = u • Quat.rotate q a + v • Quat.rotate q b + w • Quat.rotate q c := by
  rw [(C02_rotate_linear q 1 _ _).1, (C02_rotate_linear q 1 _ _).1, (C02_rotate_linear q u a a).2, (C02_rotate_linear q v b b).2,
    (C02_rotate_linear q w c c).2]

theorem inTriangle_toWorld (b : RigidBody) {x a1 a2 a3 : V3} (h : OnTriangle x a1 a2 a3) :
    OnTriangle (toWorld b x) (toWorld b a1) (toWorld b a2) (toWorld b a3) := by
  obtain ⟨u, v, w, hu, hv, hw, hs, rfl⟩ := h
  refine ⟨u, v, w, hu, hv, hw, hs, ?_⟩
  unfold toWorld
  rw [rotate_comb]
  refine V3.ext ?_ ?_ ?_ <;> simp
  · linear_combination (-b.r.x) * hs
  · linear_combination (-b.r.y) * hs
  · linear_combination (-b.r.z) * hs

/-- The corners of triangle t of body b, in the world. -/
def worldCorner (b : RigidBody) (V : List V3) (i : ℕ) : V3 := toWorld b (V.getD i 0)

theorem worldVertices_ok (b : RigidBody) (V : List V3) : worldVertices b V = .ok (V.map (toWorld b)) := by
  unfold worldVertices
  rw [C05_rotate_array]
  simp only [bind, Except.bind, pure, Except.pure, List.map_map]
  rfl

theorem verticesInFrame_ok (a b : RigidBody) (V : List V3) :
    verticesInFrame a b V = .ok (V.map fun v => toBody b (toWorld a v)) := by
  unfold verticesInFrame
  rw [worldVertices_ok]
  simp only [bind, Except.bind]
  rw [C05_rotate_array, List.map_map, List.map_map]
  rfl

/-- Specification of a contact: it involves two different bodies; its position is a point of a triangle of the second body; at that
position, seen in the frame of the first body, that body's distance field has the reported gap as value, which does not exceed the
envelope, and the normal is the unit gradient turned into the world; the point lies in the field's box, half a unit away from its sides. -/
def IsContact (P : CDParams) (bodies : Fin N → RigidBody) (C : Fin N → Collider) (c : ContactPoint N) : Prop :=
  c.bodyA ≠ c.bodyB ∧ V3.dot c.n c.n = 1 ∧ c.g ≤ P.envelope ∧
  (∃ t ∈ (C c.bodyB).T, OnTriangle c.p (worldCorner (bodies c.bodyB) (C c.bodyB).V t.a)
    (worldCorner (bodies c.bodyB) (C c.bodyB).V t.b) (worldCorner (bodies c.bodyB) (C c.bodyB).V t.c)) ∧
  ∃ x, toWorld (bodies c.bodyA) x = c.p ∧ x = toBody (bodies c.bodyA) c.p ∧
    (C c.bodyA).grid.get_value x = .ok c.g ∧
    (∃ d, (C c.bodyA).grid.get_gradient x = .ok d ∧ c.n = V3.unit (Quat.rotate (bodies c.bodyA).q d)) ∧
    ((C c.bodyA).grid.min_coord.x + 1 / 2 ≤ x.x ∧ x.x ≤ (C c.bodyA).grid.max_coord.x - 1 / 2) ∧
    ((C c.bodyA).grid.min_coord.y + 1 / 2 ≤ x.y ∧ x.y ≤ (C c.bodyA).grid.max_coord.y - 1 / 2) ∧
    ((C c.bodyA).grid.min_coord.z + 1 / 2 ≤ x.z ∧ x.z ≤ (C c.bodyA).grid.max_coord.z - 1 / 2)

/-- What `contactAt` reports. -/
theorem contactAt_some {P : CDParams} {kA kB : Fin N} {bodyB : RigidBody} {g : Grid} {x : V3} {c : ContactPoint N}
    (h : contactAt P kA kB bodyB g x = .ok (some c)) :
    c.bodyA = kB ∧ c.bodyB = kA ∧ c.p = toWorld bodyB x ∧ c.g ≤ P.envelope ∧ g.get_value x = .ok c.g ∧
      (∃ d, g.get_gradient x = .ok d ∧ 0 < V3.norm (Quat.rotate bodyB.q d) ∧ c.n = V3.unit (Quat.rotate bodyB.q d)) ∧ g.is_inside x = .ok true := by
  unfold contactAt at h
  simp only [bind, Except.bind, pure, Except.pure] at h
  cases hin : g.is_inside x with
  | error e => rw [hin] at h; cases h
  | ok b =>
    rw [hin] at h
    cases b with
    | false => simp at h
    | true =>
      simp only [if_true] at h
      cases hv : g.get_value x with
      | error e => rw [hv] at h; cases h
      | ok phi =>
        rw [hv] at h
        simp only [] at h
        by_cases he : phi ≤ P.envelope
        swap
        · rw [if_neg he] at h; cases h
        · rw [if_pos he] at h
          cases hd : g.get_gradient x with
          | error e => rw [hd] at h; cases h
          | ok d =>
            rw [hd] at h
            simp only [] at h
            by_cases hn : 0 < V3.norm (Quat.rotate bodyB.q d)
            swap
            · rw [if_neg hn] at h; cases h
            · rw [if_pos hn] at h
              unfold ContactPoint.init at h
              split_ifs at h with hb
              simp only [Except.ok.injEq, Option.some.injEq] at h
              subst h
              exact ⟨rfl, rfl, rfl, he, rfl, ⟨d, rfl, hn, rfl⟩, rfl⟩

theorem corners_ok {V : List V3} {T : List Tri} {t_a : ℤ} {p : Fin 3 → V3} (h : corners V T t_a = .ok p) :
    ∃ t ∈ T, V[t.a]? = some (p 0) ∧ V[t.b]? = some (p 1) ∧ V[t.c]? = some (p 2) := by
  unfold corners at h
  split at h
  · cases h
  · rename_i t ht
    split_ifs at ht
    refine ⟨t, List.mem_of_getElem? ht, ?_⟩
    unfold BVH.lookup at h
    cases ha : V[t.a]? with
    | none => rw [ha] at h; cases h
    | some a =>
    cases hb : V[t.b]? with
    | none => rw [ha, hb] at h; cases h
    | some b =>
    cases hc : V[t.c]? with
    | none => rw [ha, hb, hc] at h; cases h
    | some c =>
      rw [ha, hb, hc] at h
      cases h
      exact ⟨rfl, rfl, rfl⟩

theorem getElem?_map_getD {V : List V3} {f : V3 → V3} {i : ℕ} {y : V3} (h : (V.map f)[i]? = some y) : y = f (V.getD i 0) := by
  rw [List.getElem?_map] at h
  cases hv : V[i]? with
  | none => rw [hv] at h; cases h
  | some v =>
    rw [hv] at h
    simp only [Option.map_some, Option.some.injEq] at h
    rw [List.getD_eq_getElem?_getD, hv]
    exact h.symm

/-- soundness of the search on one triangle -/
theorem triangleContact_sound {P : CDParams} {bodies : Fin N → RigidBody} (hq : ∀ k, IsUnitQ (bodies k).q) {C : Fin N → Collider}
    {kA kB : Fin N} (hne : kA ≠ kB) {t_a : ℤ} {c : ContactPoint N}
    (h : triangleContact P kA kB (bodies kB) (C kB).grid ((C kA).V.map fun v => toBody (bodies kB) (toWorld (bodies kA) v)) (C kA).T t_a =
      .ok (some c)) : IsContact P bodies C c ∧ c.bodyA = kB ∧ c.bodyB = kA := by
  unfold triangleContact at h
  simp only [bind, Except.bind] at h
  cases hp : corners ((C kA).V.map fun v => toBody (bodies kB) (toWorld (bodies kA) v)) (C kA).T t_a with
  | error e => rw [hp] at h; cases h
  | ok p =>
    rw [hp] at h
    simp only [] at h
    cases hx : frankWolfe P (C kB).grid p with
    | error e => rw [hx] at h; cases h
    | ok x =>
      rw [hx] at h
      simp only [] at h
      obtain ⟨e1, e2, e3, e4, e5, ⟨d, e6, e7, e8⟩, e9⟩ := contactAt_some h
      obtain ⟨t, ht, c0, c1, c2⟩ := corners_ok hp
      have htri := C51_in_triangle hx
      rw [getElem?_map_getD c0, getElem?_map_getD c1, getElem?_map_getD c2] at htri
      have htri' := inTriangle_toWorld (bodies kB) htri
      simp only [(toBody_toWorld (hq kB) _).2] at htri'
      obtain ⟨r, hr1, hr2⟩ := (C24_is_inside (C kB).grid x (1 / 2)).1 (by norm_num)
      rw [e9] at hr1
      cases hr1
      have hin := hr2.1 rfl
      subst e1 e2
      refine ⟨⟨hne.symm, ?_, e4, ⟨t, ht, ?_⟩, x, e3.symm, ?_, e5, ⟨d, e6, e8⟩, hin⟩, rfl, rfl⟩
      · rw [e8]
        apply V3.unit_dot
        intro h0
        rw [h0] at e7
        simp [V3.norm, V3.dot] at e7
      · rw [e3]; exact htri'
      · rw [e3, (toBody_toWorld (hq c.bodyA) x).1]

theorem mem_combinations {i j : Fin N} : (i, j) ∈ combinations N ↔ i < j := by
  unfold combinations
  simp

/-- refitting leaves everything but the hierarchy alone -/
theorem refitBody_frame {P : CDParams} {b : RigidBody} {c c' : Collider} (h : refitBody P b c = .ok c') :
    c'.V = c.V ∧ c'.T = c.T ∧ c'.grid = c.grid := by
  unfold refitBody at h
  rw [worldVertices_ok] at h
  simp only [bind, Except.bind] at h
  cases ht : BVH.refit_bvh (c.V.map (toWorld b)) (rows c.T) c.bvh P.K P.envelope with
  | error e => rw [ht] at h; cases h
  | ok t => rw [ht] at h; cases h; exact ⟨rfl, rfl, rfl⟩

theorem update_fold_frame {P : CDParams} {bodies : Fin N → RigidBody} (L : List (Fin N)) (hL : L.Nodup) {C C' : Fin N → Collider}
    (h : L.foldlM (fun C k => do
      let c ← refitBody P (bodies k) (C k)
      return Function.update C k c) C = (.ok C' : Except PyErr _)) :
    (∀ k ∈ L, refitBody P (bodies k) (C k) = .ok (C' k)) ∧ ∀ k ∉ L, C' k = C k := by
  induction L generalizing C with
  | nil => cases h; simp
  | cons a L ih =>
    rw [List.foldlM_cons] at h
    rw [List.nodup_cons] at hL
    simp only [bind, Except.bind] at h
    cases ha : refitBody P (bodies a) (C a) with
    | error e => rw [ha] at h; cases h
    | ok c =>
      rw [ha] at h
      simp only [pure, Except.pure] at h
      obtain ⟨h1, h2⟩ := ih hL.2 h
      refine ⟨?_, ?_⟩
      · intro k hk
        rcases List.mem_cons.1 hk with rfl | hk'
        · rw [h2 k hL.1, Function.update_self, ha]
        · rw [← h1 k hk', Function.update_of_ne]
          rintro rfl
          exact hL.1 hk'
      · intro k hk
        rw [List.mem_cons, not_or] at hk
        rw [h2 k hk.2, Function.update_of_ne hk.1]

theorem update_bvh_ok {P : CDParams} {bodies : Fin N → RigidBody} {C C' : Fin N → Collider} (h : update_bvh P bodies C = .ok C') (k : Fin N) :
    refitBody P (bodies k) (C k) = .ok (C' k) :=
  (update_fold_frame _ (List.nodup_finRange N) h).1 k (List.mem_finRange k)

theorem compute_contacts_mem {P : CDParams} {bodies : Fin N → RigidBody} {C : Fin N → Collider} {kA kB : Fin N} {tris : List ℤ}
    {L : List (ContactPoint N)} (h : compute_contacts P bodies C kA kB tris = .ok L) (c : ContactPoint N) :
    c ∈ L ↔ ∃ t ∈ tris, triangleContact P kA kB (bodies kB) (C kB).grid
      ((C kA).V.map fun v => toBody (bodies kB) (toWorld (bodies kA) v)) (C kA).T t = .ok (some c) := by
  unfold compute_contacts at h
  rw [verticesInFrame_ok] at h
  simp only [bind, Except.bind] at h
  cases hm : tris.mapM (triangleContact P kA kB (bodies kB) (C kB).grid
      ((C kA).V.map fun v => toBody (bodies kB) (toWorld (bodies kA) v)) (C kA).T) with
  | error e => rw [hm] at h; cases h
  | ok R =>
    rw [hm] at h
    simp only [pure, Except.pure, Except.ok.injEq] at h
    subst h
    have hF := mapM_ok hm
    rw [List.mem_filterMap]
    constructor
    · rintro ⟨o, ho, e⟩
      obtain ⟨t, ht, hto⟩ := forall₂_mem_right hF o ho
      refine ⟨t, ht, ?_⟩
      rw [hto]; simp only [id] at e; rw [e]
    · rintro ⟨t, ht, e⟩
      obtain ⟨o, ho, hto⟩ := forall₂_mem_left hF t ht
      rw [e] at hto
      cases hto
      exact ⟨some c, ho, rfl⟩

theorem mem_unique {L : List ℤ} {t : ℤ} : t ∈ unique L ↔ t ∈ L := by
  unfold unique
  rw [Finset.mem_sort, List.mem_toFinset]

/-- **C69.** Everything a collision detection run reports is a contact in the sense of the specification; no two reported contacts
are redundant; shapes and distance fields are not changed. -/
theorem C69_sound {P : CDParams} {bodies : Fin N → RigidBody} (hq : ∀ k, IsUnitQ (bodies k).q) {C C' : Fin N → Collider}
    {cps : List (ContactPoint N)} (h : run_collision_detection P bodies C = .ok (C', cps)) :
    (∀ c ∈ cps, IsContact P bodies C c) ∧ cps.Pairwise (fun c d => ¬ SameContact c d) ∧
      ∀ k, (C' k).V = (C k).V ∧ (C' k).T = (C k).T ∧ (C' k).grid = (C k).grid := by
  unfold run_collision_detection at h
  simp only [bind, Except.bind] at h
  cases hu : update_bvh P bodies C with
  | error e => rw [hu] at h; cases h
  | ok C1 =>
    rw [hu] at h
    simp only [] at h
    have hfr : ∀ k, (C1 k).V = (C k).V ∧ (C1 k).T = (C k).T ∧ (C1 k).grid = (C k).grid :=
      fun k => refitBody_frame (update_bvh_ok hu k)
    cases hn : narrow_phase C1 with
    | error e => rw [hn] at h; cases h
    | ok ov =>
      rw [hn] at h
      simp only [] at h
      cases hd : contact_determination P bodies C1 ov with
      | error e => rw [hd] at h; cases h
      | ok L =>
        rw [hd] at h
        simp only [pure, Except.pure, Except.ok.injEq, Prod.mk.injEq] at h
        obtain ⟨rfl, rfl⟩ := h
        obtain ⟨r1, r2, r3⟩ := C50_reduction L
        refine ⟨?_, r2, hfr⟩
        intro c hc
        have hcL := r1.subset hc
        -- where does it come from
        unfold contact_determination at hd
        simp only [bind, Except.bind] at hd
        cases hm : ov.mapM (pairContacts P bodies C1) with
        | error e => rw [hm] at hd; cases hd
        | ok R =>
          rw [hm] at hd
          simp only [pure, Except.pure, Except.ok.injEq] at hd
          subst hd
          obtain ⟨l, hl, hcl⟩ := List.mem_flatten.1 hcL
          obtain ⟨⟨⟨i, j⟩, res⟩, ho, hpc⟩ := forall₂_mem_right (mapM_ok hm) l hl
          have hij : i < j := by
            unfold narrow_phase at hn
            simp only [bind, Except.bind] at hn
            cases hnm : (combinations N).mapM (narrowPair C1) with
            | error e => rw [hnm] at hn; cases hn
            | ok R' =>
              rw [hnm] at hn
              simp only [pure, Except.pure, Except.ok.injEq] at hn
              subst hn
              obtain ⟨o, ho1, ho2⟩ := List.mem_filterMap.1 ho
              simp only [id] at ho2
              subst ho2
              obtain ⟨⟨a, b⟩, hab, hnp⟩ := forall₂_mem_right (mapM_ok hnm) _ ho1
              unfold narrowPair at hnp
              simp only [bind, Except.bind] at hnp
              split at hnp
              · cases hnp
              · simp only [pure, Except.pure, Except.ok.injEq] at hnp
                split_ifs at hnp
                simp only [Option.some.injEq, Prod.mk.injEq] at hnp
                obtain ⟨⟨rfl, rfl⟩, -⟩ := hnp
                exact mem_combinations.1 hab
          have transfer : IsContact P bodies C1 c → IsContact P bodies C c := by
            unfold IsContact
            rw [(hfr c.bodyA).2.2, (hfr c.bodyB).1, (hfr c.bodyB).2.1]
            exact id
          apply transfer
          unfold pairContacts at hpc
          simp only [bind, Except.bind] at hpc
          cases ha : compute_contacts P bodies C1 i j (unique (res.map (·.1))) with
          | error e => rw [ha] at hpc; cases hpc
          | ok la =>
          cases hb : compute_contacts P bodies C1 j i (unique (res.map (·.2))) with
          | error e => rw [ha, hb] at hpc; cases hpc
          | ok lb =>
            rw [ha, hb] at hpc
            simp only [pure, Except.pure, Except.ok.injEq] at hpc
            subst hpc
            rcases List.mem_append.1 hcl with hcl | hcl
            · obtain ⟨t, -, ht⟩ := (compute_contacts_mem ha c).1 hcl
              exact (triangleContact_sound hq hij.ne ht).1
            · obtain ⟨t, -, ht⟩ := (compute_contacts_mem hb c).1 hcl
              exact (triangleContact_sound hq hij.ne' ht).1

/-- **C69.** The field of a body whose box is less than one length unit wide in some direction is never used: the test keeps half a
unit from the sides of the box, so such a body never appears as the first body of a contact. -/
theorem C69_small_box {P : CDParams} {bodies : Fin N → RigidBody} (hq : ∀ k, IsUnitQ (bodies k).q) {C C' : Fin N → Collider}
    {cps : List (ContactPoint N)} (h : run_collision_detection P bodies C = .ok (C', cps)) (k : Fin N)
    (hk : (C k).grid.max_coord.x - (C k).grid.min_coord.x < 1 ∨ (C k).grid.max_coord.y - (C k).grid.min_coord.y < 1 ∨
      (C k).grid.max_coord.z - (C k).grid.min_coord.z < 1) : ∀ c ∈ cps, c.bodyA ≠ k := by
  intro c hc hck
  obtain ⟨-, -, -, -, x, -, -, -, -, h1, h2, h3⟩ := (C69_sound hq h).1 c hc
  subst hck
  rcases hk with hk | hk | hk <;> linarith [h1.1, h1.2, h2.1, h2.2, h3.1, h3.2]

end

end Verif
