import Verif.Props.SpatialHash

/-! C22: the spatial hashing narrow phase. -/

namespace Verif
open SpatialHash

/-- Specification: every object stored in the grid is a triangle of one of the bodies; `shape` lists
the number of triangles of each body. -/
def GridRefers (shape : List ℕ) (g : HashGrid Obj) : Prop :=
  ∀ hv cell, g.hash_table.get? hv = some cell → ∀ o ∈ cell.object_list,
    ∃ n, shape[o.body]? = some n ∧ o.tri < n

/-- Specification: body indices are positions, as `create_soft_body` assigns them. -/
def IndexedBodies (bodies : List SBody) : Prop := ∀ (n : ℕ) b, bodies[n]? = some b → b.idx = n

/-- number of triangles per body -/
def shapeOf (bodies : List SBody) : List ℕ := bodies.map fun b => b.tris.length

/-- one insertion of the narrow phase -/
structure Event where
  bidx : ℕ
  tidx : ℕ
  tri : Tri
  c : ℤ × ℤ × ℤ

/-- the stored object of an insertion -/
noncomputable def Event.obj (e : Event) : Obj := ⟨e.tidx, e.bidx, triAABB e.tri⟩

/-- the insertions for one body -/
noncomputable def bodyEvents (cs : ℝ) (b : SBody) : List Event :=
  b.tris.zipIdx.flatMap fun t => (cellsOf cs (triAABB t.1)).map fun c => ⟨b.idx, t.2, t.1, c⟩

/-- all insertions of a run -/
noncomputable def events (cs : ℝ) (bodies : List SBody) : List Event := bodies.flatMap (bodyEvents cs)

/-- one insertion with its checks -/
noncomputable def eventStep (eps : ℝ) (bodies : List SBody) (ts : ℤ) (s : HashGrid Obj × List Pair)
    (e : Event) : Except PyErr (HashGrid Obj × List Pair) :=
  visitCell eps bodies ts e.bidx e.tidx e.tri s e.c

theorem foldlM_flatMap' {α β σ : Type} (f : α → List β) (step : σ → β → Except PyErr σ) (L : List α) :
    ∀ s, (L.flatMap f).foldlM step s = L.foldlM (fun s x => (f x).foldlM step s) s := by
  induction L with
  | nil => intro s; rfl
  | cons a L ih =>
    intro s
    rw [List.flatMap_cons, List.foldlM_append, List.foldlM_cons]
    congr 1
    funext s'
    exact ih s'

theorem foldlM_map' {α β σ : Type} (f : α → β) (step : σ → β → Except PyErr σ) (L : List α) :
    ∀ s, (L.map f).foldlM step s = L.foldlM (fun s x => step s (f x)) s := by
  induction L with
  | nil => intro s; rfl
  | cons a L ih =>
    intro s
    rw [List.map_cons, List.foldlM_cons, List.foldlM_cons]
    congr 1
    funext s'
    exact ih s'

theorem narrow_phase_eq (eps : ℝ) (g : HashGrid Obj) (bodies : List SBody) (ts : ℤ)
    (h : 0 < g.cell_size) : narrow_phase eps g bodies ts =
      (events g.cell_size bodies).foldlM (eventStep eps bodies ts) (g, []) := by
  unfold narrow_phase
  rw [if_neg (by linarith)]
  unfold events
  rw [foldlM_flatMap']
  congr 1
  funext s b
  unfold visitBody bodyEvents
  rw [foldlM_flatMap']
  congr 1
  funext s t
  unfold visitTri
  rw [foldlM_map']
  rfl

/-- When is an object found in the cell reported. -/
def Cand (eps : ℝ) (bodies : List SBody) (bidx : ℕ) (tri : Tri) (o : Obj) : Prop :=
  if o.body = bidx then ∃ ob tri2, bodies[o.body]? = some ob ∧ ob.tris[o.tri]? = some tri2 ∧
    is_self_collision eps tri tri2 (triAABB tri) o.aabb
  else AABB.is_overlap (triAABB tri) o.aabb

theorem check_fold (eps : ℝ) (bodies : List SBody) (bidx tidx : ℕ) (tri : Tri) (L : List Obj)
    (hL : ∀ o ∈ L, ∃ n, (shapeOf bodies)[o.body]? = some n ∧ o.tri < n) :
    ∀ res, ∃ res', L.foldlM (checkOverlap eps bodies bidx tidx tri (triAABB tri)) res = .ok res' ∧
      ∀ p, p ∈ res' ↔ p ∈ res ∨ ∃ o ∈ L, Cand eps bodies bidx tri o ∧ p = (bidx, o.body, tidx, o.tri) := by
  induction L with
  | nil => intro res; exact ⟨res, rfl, by simp⟩
  | cons o L ih =>
    intro res
    have step : ∃ r1, checkOverlap eps bodies bidx tidx tri (triAABB tri) res o = .ok r1 ∧
        ∀ p, p ∈ r1 ↔ p ∈ res ∨ (Cand eps bodies bidx tri o ∧ p = (bidx, o.body, tidx, o.tri)) := by
      obtain ⟨n, h1, h2⟩ := hL o (by simp)
      simp only [shapeOf, List.getElem?_map, Option.map_eq_some_iff] at h1
      obtain ⟨ob, hob, hn⟩ := h1
      have htri : ob.tris[o.tri]? = some (ob.tris[o.tri]'(by omega)) := List.getElem?_eq_getElem _
      unfold checkOverlap Cand
      rw [hob]
      simp only
      by_cases hb : o.body = bidx
      · rw [if_pos hb, if_pos hb, htri]
        simp only
        by_cases hc : is_self_collision eps tri (ob.tris[o.tri]'(by omega)) (triAABB tri) o.aabb
        · rw [if_pos hc]
          refine ⟨_, rfl, ?_⟩
          intro p
          simp only [List.mem_append, List.mem_singleton]
          constructor
          · rintro (h | h)
            · exact Or.inl h
            · exact Or.inr ⟨⟨ob, _, rfl, htri, hc⟩, h⟩
          · rintro (h | h)
            · exact Or.inl h
            · exact Or.inr h.2
        · rw [if_neg hc]
          refine ⟨_, rfl, ?_⟩
          intro p
          constructor
          · exact Or.inl
          · rintro (h | ⟨⟨ob', t', e1, e2, h⟩, -⟩)
            · exact h
            · cases e1
              rw [htri] at e2; cases e2
              exact absurd h hc
      · rw [if_neg hb, if_neg hb]
        by_cases hc : AABB.is_overlap (triAABB tri) o.aabb
        · rw [if_pos hc]
          refine ⟨_, rfl, ?_⟩
          intro p
          simp [hc]
        · rw [if_neg hc]
          exact ⟨_, rfl, by simp [hc]⟩
    obtain ⟨r1, e1, m1⟩ := step
    obtain ⟨r2, e2, m2⟩ := ih (fun o ho => hL o (by simp [ho])) r1
    refine ⟨r2, ?_, ?_⟩
    · rw [List.foldlM_cons, e1]; exact e2
    · intro p
      rw [m2, m1]
      constructor
      · rintro ((h | h) | ⟨o', h, h'⟩)
        · exact Or.inl h
        · exact Or.inr ⟨o, by simp, h⟩
        · exact Or.inr ⟨o', by simp [h], h'⟩
      · rintro (h | ⟨o', h, h'⟩)
        · exact Or.inl (Or.inl h)
        · rcases List.mem_cons.mp h with rfl | h
          · exact Or.inl (Or.inr h')
          · exact Or.inr ⟨o', h, h'⟩

/-- object o is in the cell c, in a way that inserts at time ts will not clear -/
def Has (g : HashGrid Obj) (ts : ℤ) (c : ℤ × ℤ × ℤ) (o : Obj) : Prop :=
  ∃ cell, g.hash_table.get? (g.get_hash_value c.1 c.2.1 c.2.2) = some cell ∧ ts ≤ cell.time_stamp ∧
    o ∈ cell.object_list

theorem add_spec {α : Type*} (cell : HashCell α) (o : α) (ts : ℤ) :
    ts ≤ (cell.add o ts).time_stamp ∧ o ∈ (cell.add o ts).object_list ∧
    (∀ x, ts ≤ cell.time_stamp → x ∈ cell.object_list → x ∈ (cell.add o ts).object_list) ∧
    (∀ x ∈ (cell.add o ts).object_list, x = o ∨ x ∈ cell.object_list) := by
  unfold HashCell.add
  by_cases h : cell.time_stamp < ts
  · simp [h]
  · simp only [h, if_false]
    refine ⟨by omega, by simp, fun x _ hx => by simp [hx], fun x hx => ?_⟩
    simpa [or_comm] using hx

theorem insert_has (g : HashGrid Obj) (c : ℤ × ℤ × ℤ) (o : Obj) (ts : ℤ) :
    Has (g.insert c.1 c.2.1 c.2.2 o ts).1 ts c o ∧
    (∀ c' o', Has g ts c' o' → Has (g.insert c.1 c.2.1 c.2.2 o ts).1 ts c' o') ∧
    (∀ o', Has g ts c o' → o' ∈ (g.insert c.1 c.2.1 c.2.2 o ts).2) := by
  refine ⟨?_, ?_, ?_⟩
  · unfold Has
    rw [insert_hash, insert_table, if_pos rfl]
    exact ⟨_, rfl, (add_spec _ o ts).1, (add_spec _ o ts).2.1⟩
  · rintro c' o' ⟨cell, h1, h2, h3⟩
    unfold Has
    rw [insert_hash, insert_table]
    by_cases h : g.get_hash_value c.1 c.2.1 c.2.2 = g.get_hash_value c'.1 c'.2.1 c'.2.2
    · rw [if_pos h, h1]
      exact ⟨_, rfl, (add_spec _ o ts).1, (add_spec cell o ts).2.2.1 o' h2 h3⟩
    · rw [if_neg h]
      exact ⟨cell, h1, h2, h3⟩
  · rintro o' ⟨cell, h1, h2, h3⟩
    unfold HashGrid.insert
    simp only [h1]
    rw [if_neg (by omega)]
    exact (add_spec cell o ts).2.2.1 o' h2 h3

/-- all objects of the grid satisfy P -/
def AllObj (P : Obj → Prop) (g : HashGrid Obj) : Prop :=
  ∀ hv cell, g.hash_table.get? hv = some cell → ∀ o ∈ cell.object_list, P o

theorem insert_all {P : Obj → Prop} {g : HashGrid Obj} (hg : AllObj P g) (c : ℤ × ℤ × ℤ) {o : Obj}
    (ho : P o) (ts : ℤ) : AllObj P (g.insert c.1 c.2.1 c.2.2 o ts).1 ∧
      ∀ x ∈ (g.insert c.1 c.2.1 c.2.2 o ts).2, P x := by
  have hadd : ∀ cell : HashCell Obj, (∀ x ∈ cell.object_list, P x) → ∀ x ∈ (cell.add o ts).object_list, P x := by
    intro cell hc x hx
    rcases (add_spec cell o ts).2.2.2 x hx with rfl | h
    · exact ho
    · exact hc x h
  constructor
  · intro hv cell hcell
    rw [insert_table] at hcell
    split_ifs at hcell with h
    · cases hcell
      apply hadd
      cases hq : g.hash_table.get? hv with
      | none => simp [HashCell.init]
      | some q => exact hg hv q hq
    · exact hg hv cell hcell
  · unfold HashGrid.insert
    simp only
    cases hq : g.hash_table.get? (g.get_hash_value c.1 c.2.1 c.2.2) with
    | none => simp
    | some q =>
      simp only
      split_ifs
      · exact hg _ q hq
      · exact hadd q (hg _ q hq)

theorem insert_cell_size (g : HashGrid Obj) (c : ℤ × ℤ × ℤ) (o : Obj) (ts : ℤ) :
    (g.insert c.1 c.2.1 c.2.2 o ts).1.cell_size = g.cell_size ∧
    (g.insert c.1 c.2.1 c.2.2 o ts).1.hash_table_size = g.hash_table_size := by
  unfold HashGrid.insert
  simp only
  split <;> exact ⟨rfl, rfl⟩

/-- The main loop, over any list of insertions. -/
theorem events_run (eps : ℝ) (bodies : List SBody) (ts : ℤ) (S : Obj → Prop) (E : List Event)
    (hE : ∀ e ∈ E, ∃ n, (shapeOf bodies)[e.bidx]? = some n ∧ e.tidx < n)
    (hS : ∀ o, S o → ∃ n, (shapeOf bodies)[o.body]? = some n ∧ o.tri < n) :
    ∀ g : HashGrid Obj, AllObj S g → ∃ g' res,
      E.foldlM (eventStep eps bodies ts) (g, []) = .ok (g', res) ∧
      g'.cell_size = g.cell_size ∧
      AllObj (fun o => S o ∨ ∃ e ∈ E, o = e.obj) g' ∧
      (∀ e ∈ E, Has g' ts e.c e.obj) ∧
      (∀ P1 e2 P2 e1, E = P1 ++ e2 :: P2 → e1 ∈ P1 → e1.c = e2.c →
        Cand eps bodies e2.bidx e2.tri e1.obj → (e2.bidx, e1.bidx, e2.tidx, e1.tidx) ∈ res) ∧
      (∀ p ∈ res, ∃ e2 ∈ E, ∃ o, (S o ∨ ∃ e ∈ E, o = e.obj) ∧ Cand eps bodies e2.bidx e2.tri o ∧
        p = (e2.bidx, o.body, e2.tidx, o.tri)) := by
  intro g hg
  induction E using List.reverseRecOn with
  | nil =>
    refine ⟨g, [], rfl, rfl, ?_, by simp, ?_, by simp⟩
    · intro hv cell hc o ho; exact Or.inl (hg hv cell hc o ho)
    · intro P1 e2 P2 e1 h; simp at h
  | append_singleton E e ih =>
    obtain ⟨g1, r1, a1, a2, a3, a4, a5, a6⟩ := ih (fun x hx => hE x (by simp [hx]))
    have hall : AllObj (fun o => S o ∨ ∃ x ∈ E ++ [e], o = x.obj) g1 := by
      intro hv cell hc o ho
      rcases a3 hv cell hc o ho with h | ⟨x, hx, h⟩
      · exact Or.inl h
      · exact Or.inr ⟨x, by simp [hx], h⟩
    obtain ⟨b1, b2⟩ := insert_all hall e.c (o := e.obj) (Or.inr ⟨e, by simp, rfl⟩) ts
    obtain ⟨c1, c2, c3⟩ := insert_has g1 e.c e.obj ts
    obtain ⟨r2, d1, d2⟩ := check_fold eps bodies e.bidx e.tidx e.tri
      (g1.insert e.c.1 e.c.2.1 e.c.2.2 e.obj ts).2 (by
        intro o ho
        rcases b2 o ho with h | ⟨x, hx, rfl⟩
        · exact hS o h
        · exact hE x hx) r1
    refine ⟨(g1.insert e.c.1 e.c.2.1 e.c.2.2 e.obj ts).1, r2, ?_, ?_, b1, ?_, ?_, ?_⟩
    · rw [List.foldlM_append, a1]
      simp only [List.foldlM_cons, List.foldlM_nil, bind, Except.bind]
      unfold eventStep visitCell
      simp only [bind, Except.bind]
      have d1' := d1
      unfold Event.obj at d1'
      rw [d1']
      rfl
    · rw [(insert_cell_size _ _ _ _).1, a2]
    · intro x hx
      rcases List.mem_append.mp hx with h | h
      · exact c2 _ _ (a4 x h)
      · simp at h; subst h; exact c1
    · intro P1 e2 P2 e1 hsp he1 hc hcand
      rw [d2]
      rcases List.eq_nil_or_concat P2 with rfl | ⟨P2', y, rfl⟩
      · obtain ⟨rfl, he⟩ := List.append_inj' hsp rfl
        simp at he; subst he
        refine Or.inr ⟨e1.obj, c3 _ ?_, hcand, rfl⟩
        have := a4 e1 he1
        rw [hc] at this
        exact this
      · left
        have hsp' : E ++ [e] = (P1 ++ e2 :: P2') ++ [y] := by rw [hsp]; simp
        obtain ⟨rfl, -⟩ := List.append_inj' hsp' rfl
        exact a5 P1 e2 P2' e1 rfl he1 hc hcand
    · intro p hp
      rw [d2] at hp
      rcases hp with hp | ⟨o, ho, hcand, rfl⟩
      · obtain ⟨e2, he2, o, ho, h1, h2⟩ := a6 p hp
        refine ⟨e2, by simp [he2], o, ?_, h1, h2⟩
        rcases ho with h | ⟨x, hx, h⟩
        · exact Or.inl h
        · exact Or.inr ⟨x, by simp [hx], h⟩
      · exact ⟨e, by simp, o, b2 o ho, hcand, rfl⟩

theorem trunc_mono {x y : ℝ} (h : x ≤ y) : trunc x ≤ trunc y := by
  unfold trunc
  split_ifs with h1 h2 h2
  · exact Int.floor_le_floor h
  · linarith
  · have : ⌈x⌉ ≤ 0 := Int.ceil_le.mpr (by push_cast; linarith)
    have : 0 ≤ ⌊y⌋ := Int.floor_nonneg.mpr h2
    omega
  · exact Int.ceil_le_ceil h

theorem mem_intRange (lo hi x : ℤ) : x ∈ intRange lo hi ↔ lo ≤ x ∧ x < hi := by
  unfold intRange
  rw [List.mem_map]
  constructor
  · rintro ⟨n, hn, rfl⟩
    rw [List.mem_range] at hn
    omega
  · rintro ⟨h1, h2⟩
    exact ⟨(x - lo).toNat, by rw [List.mem_range]; omega, by omega⟩

theorem common_cell {cs : ℝ} (hcs : 0 < cs) (A B : AABB)
    (hA : A.min_point.x ≤ A.max_point.x ∧ A.min_point.y ≤ A.max_point.y ∧ A.min_point.z ≤ A.max_point.z)
    (hB : B.min_point.x ≤ B.max_point.x ∧ B.min_point.y ≤ B.max_point.y ∧ B.min_point.z ≤ B.max_point.z)
    (h : AABB.is_overlap A B) : ∃ c, c ∈ cellsOf cs A ∧ c ∈ cellsOf cs B := by
  have h' : ¬ (AABB.anyLt A.max_point B.min_point ∨ AABB.anyLt B.max_point A.min_point) := by
    simpa [AABB.is_overlap] using h
  unfold AABB.anyLt at h'
  push Not at h'
  obtain ⟨⟨x1, y1, z1⟩, ⟨x2, y2, z2⟩⟩ := h'
  obtain ⟨ax, ay, az⟩ := hA
  obtain ⟨bx, by', bz⟩ := hB
  have key : ∀ a b c d : ℝ, a ≤ b → c ≤ d → a ≤ d → c ≤ b → ∃ n : ℤ,
      (trunc (a / cs) ≤ n ∧ n < trunc (b / cs) + 1) ∧ (trunc (c / cs) ≤ n ∧ n < trunc (d / cs) + 1) := by
    intro a b c d hab hcd had hcb
    have m := fun {x y : ℝ} (h : x ≤ y) => trunc_mono (div_le_div_of_nonneg_right h hcs.le)
    refine ⟨max (trunc (a / cs)) (trunc (c / cs)), ⟨le_max_left _ _, ?_⟩, ⟨le_max_right _ _, ?_⟩⟩
    · have := m hab; have := m hcb; omega
    · have := m hcd; have := m had; omega
  obtain ⟨i, hi1, hi2⟩ := key _ _ _ _ ax bx x2 x1
  obtain ⟨j, hj1, hj2⟩ := key _ _ _ _ ay by' y2 y1
  obtain ⟨k, hk1, hk2⟩ := key _ _ _ _ az bz z2 z1
  refine ⟨(i, j, k), ?_, ?_⟩
  · unfold cellsOf
    simp only [List.mem_flatMap, List.mem_map, mem_intRange, Prod.mk.injEq]
    exact ⟨i, hi1, j, hj1, k, hk1, rfl, rfl, rfl⟩
  · unfold cellsOf
    simp only [List.mem_flatMap, List.mem_map, mem_intRange, Prod.mk.injEq]
    exact ⟨i, hi2, j, hj2, k, hk2, rfl, rfl, rfl⟩

theorem triAABB_le (t : Tri) : (triAABB t).min_point.x ≤ (triAABB t).max_point.x ∧
    (triAABB t).min_point.y ≤ (triAABB t).max_point.y ∧ (triAABB t).min_point.z ≤ (triAABB t).max_point.z := by
  unfold triAABB AABB.vmin AABB.vmax
  simp only
  refine ⟨?_, ?_, ?_⟩ <;> exact (min_le_right _ _).trans (le_max_right _ _)

theorem overlap_comm (A B : AABB) : AABB.is_overlap A B ↔ AABB.is_overlap B A := by
  simp [AABB.is_overlap, or_comm]

theorem mem_zipIdx_iff {α : Type*} (L : List α) (x : α) (n : ℕ) : (x, n) ∈ L.zipIdx ↔ L[n]? = some x := by
  rw [List.mem_zipIdx_iff_getElem?]

theorem mem_bodyEvents {cs : ℝ} {b : SBody} {e : Event} : e ∈ bodyEvents cs b ↔
    e.bidx = b.idx ∧ b.tris[e.tidx]? = some e.tri ∧ e.c ∈ cellsOf cs (triAABB e.tri) := by
  unfold bodyEvents
  rw [List.mem_flatMap]
  constructor
  · rintro ⟨⟨t, n⟩, ht, he⟩
    obtain ⟨c, hc, rfl⟩ := List.mem_map.mp he
    exact ⟨rfl, (mem_zipIdx_iff _ _ _).mp ht, hc⟩
  · rintro ⟨h1, h2, h3⟩
    refine ⟨(e.tri, e.tidx), (mem_zipIdx_iff _ _ _).mpr h2, List.mem_map.mpr ⟨e.c, h3, ?_⟩⟩
    cases e; simp_all

theorem split_at {α : Type*} {L : List α} {n : ℕ} {x : α} (h : L[n]? = some x) :
    ∃ L1 L2, L = L1 ++ x :: L2 ∧ L1.length = n ∧ ∀ (m : ℕ) y, m < n → L[m]? = some y → y ∈ L1 := by
  obtain ⟨hn, rfl⟩ := List.getElem?_eq_some_iff.mp h
  refine ⟨L.take n, L.drop (n + 1), ?_, by simp; omega, ?_⟩
  · rw [← List.drop_eq_getElem_cons hn, List.take_append_drop]
  · intro m y hm hy
    obtain ⟨hm', rfl⟩ := List.getElem?_eq_some_iff.mp hy
    exact List.mem_take_iff_getElem.mpr ⟨m, by omega, rfl⟩

/-- C22: the narrow phase never raises and misses no pair. For every list of bodies, every grid with
positive cell size (any table size, any random offset table, any hash collisions) that holds only
triangles of these bodies from earlier runs with any time stamps, and every time stamp: two triangles
of different bodies with overlapping bounding boxes are reported (as a pair keyed by the later body
first), and so are two triangles of one body that pass the self-collision test; every reported pair names existing bodies and
triangles. -/
theorem C22_no_missed_pair (eps : ℝ) (g : HashGrid Obj) (bodies : List SBody) (ts : ℤ)
    (hcs : 0 < g.cell_size) (hidx : IndexedBodies bodies) (hg : GridRefers (shapeOf bodies) g) :
    ∃ g' res, narrow_phase eps g bodies ts = .ok (g', res) ∧ g'.cell_size = g.cell_size ∧
      GridRefers (shapeOf bodies) g' ∧
      (∀ (a b : ℕ) A B (ta tb : ℕ) sA sB, a < b → bodies[a]? = some A → bodies[b]? = some B →
        A.tris[ta]? = some sA → B.tris[tb]? = some sB →
        AABB.is_overlap (triAABB sA) (triAABB sB) → (b, a, tb, ta) ∈ res) ∧
      (∀ (a : ℕ) A (t u : ℕ) s1 s2, bodies[a]? = some A → t < u → A.tris[t]? = some s1 →
        A.tris[u]? = some s2 → is_self_collision eps s2 s1 (triAABB s2) (triAABB s1) →
        (a, a, u, t) ∈ res) ∧
      ∀ b a u t, (b, a, u, t) ∈ res → ∃ n m, (shapeOf bodies)[b]? = some n ∧ u < n ∧ (shapeOf bodies)[a]? = some m ∧ t < m := by
  have hE : ∀ e ∈ events g.cell_size bodies, ∃ n, (shapeOf bodies)[e.bidx]? = some n ∧ e.tidx < n := by
    intro e he
    obtain ⟨b, hb, he⟩ := List.mem_flatMap.mp he
    rw [mem_bodyEvents] at he
    obtain ⟨n, hn⟩ := List.mem_iff_getElem?.mp hb
    refine ⟨b.tris.length, ?_, (List.getElem?_eq_some_iff.mp he.2.1).1⟩
    rw [he.1, hidx n b hn, shapeOf, List.getElem?_map, hn]; rfl
  obtain ⟨g', res, h1, h2, h3, -, h5, h6⟩ := events_run eps bodies ts
    (fun o => ∃ n, (shapeOf bodies)[o.body]? = some n ∧ o.tri < n) (events g.cell_size bodies) hE
    (fun o h => h) g hg
  refine ⟨g', res, (narrow_phase_eq eps g bodies ts hcs).trans h1, h2, ?_, ?_, ?_, ?_⟩
  · intro hv cell hc o ho
    rcases h3 hv cell hc o ho with h | ⟨e, he, rfl⟩
    · exact h
    · exact hE e he
  · intro a b A B ta tb sA sB hab hA hB htA htB hov
    obtain ⟨c, hcA, hcB⟩ := common_cell hcs _ _ (triAABB_le sA) (triAABB_le sB) hov
    obtain ⟨L1, L2, hL, -, hmem⟩ := split_at hB
    have hAL := hmem a A hab hA
    have he2 : (⟨B.idx, tb, sB, c⟩ : Event) ∈ bodyEvents g.cell_size B := by
      rw [mem_bodyEvents]; exact ⟨rfl, htB, hcB⟩
    obtain ⟨M1, M2, hM⟩ := List.append_of_mem he2
    have he1 : (⟨A.idx, ta, sA, c⟩ : Event) ∈ L1.flatMap (bodyEvents g.cell_size) := by
      refine List.mem_flatMap.mpr ⟨A, hAL, ?_⟩
      rw [mem_bodyEvents]; exact ⟨rfl, htA, hcA⟩
    have := h5 (L1.flatMap (bodyEvents g.cell_size) ++ M1) ⟨B.idx, tb, sB, c⟩
      (M2 ++ L2.flatMap (bodyEvents g.cell_size)) ⟨A.idx, ta, sA, c⟩ (by
        unfold events
        conv_lhs => rw [hL]
        rw [List.flatMap_append, List.flatMap_cons, hM]
        simp) (by simp [he1]) rfl (by
        unfold Cand
        rw [if_neg (by simp only [Event.obj]; rw [hidx a A hA, hidx b B hB]; omega)]
        exact (overlap_comm _ _).mp hov)
    rw [hidx a A hA, hidx b B hB] at this
    exact this
  · intro a A t u s1 s2 hA htu ht hu hsc
    obtain ⟨c, hc1, hc2⟩ := common_cell hcs _ _ (triAABB_le s2) (triAABB_le s1) hsc.2.1
    obtain ⟨L1, L2, hL⟩ := List.append_of_mem (List.mem_of_getElem? hA)
    obtain ⟨N1, N2, hN, -, hmem⟩ := split_at (L := A.tris.zipIdx) (n := u) (x := (s2, u)) (by
      simp [List.getElem?_zipIdx, hu])
    have h1N := hmem t (s1, t) htu (by simp [List.getElem?_zipIdx, ht])
    obtain ⟨M1, M2, hM⟩ := List.append_of_mem hc1
    have hev : bodyEvents g.cell_size A =
        (N1.flatMap fun t => (cellsOf g.cell_size (triAABB t.1)).map fun c => (⟨A.idx, t.2, t.1, c⟩ : Event)) ++
        (M1.map (fun c => (⟨A.idx, u, s2, c⟩ : Event)) ++ ⟨A.idx, u, s2, c⟩ ::
          M2.map (fun c => (⟨A.idx, u, s2, c⟩ : Event))) ++
        (N2.flatMap fun t => (cellsOf g.cell_size (triAABB t.1)).map fun c => (⟨A.idx, t.2, t.1, c⟩ : Event)) := by
      unfold bodyEvents
      rw [hN, List.flatMap_append, List.flatMap_cons, hM]
      simp
    have he1 : (⟨A.idx, t, s1, c⟩ : Event) ∈ (N1.flatMap fun t =>
        (cellsOf g.cell_size (triAABB t.1)).map fun c => (⟨A.idx, t.2, t.1, c⟩ : Event)) := by
      refine List.mem_flatMap.mpr ⟨(s1, t), h1N, List.mem_map.mpr ⟨c, hc2, rfl⟩⟩
    have := h5 _ ⟨A.idx, u, s2, c⟩ _ ⟨A.idx, t, s1, c⟩ (by
        unfold events
        conv_lhs => rw [hL]
        rw [List.flatMap_append, List.flatMap_cons, hev]
        simp only [List.append_assoc, List.cons_append]
        rw [← List.append_assoc, ← List.append_assoc]) (by simp [he1]) rfl (by
        unfold Cand
        rw [if_pos (by simp only [Event.obj])]
        refine ⟨A, s1, ?_, ht, hsc⟩
        simp only [Event.obj]
        rw [hidx a A hA]; exact hA)
    rw [hidx a A hA] at this
    exact this
  · intro b a u t h
    obtain ⟨e2, he2, o, ho, -, hp⟩ := h6 _ h
    cases hp
    obtain ⟨n, h7, h8⟩ := hE e2 he2
    rcases ho with ⟨m, h9, h10⟩ | ⟨e, he, rfl⟩
    · exact ⟨n, m, h7, h8, h9, h10⟩
    · obtain ⟨m, h9, h10⟩ := hE e he
      exact ⟨n, m, h7, h8, h9, h10⟩

/-- C22: a non-positive cell size is rejected. -/
theorem C22_bad_cell_size (eps : ℝ) (g : HashGrid Obj) (bodies : List SBody) (ts : ℤ)
    (h : g.cell_size ≤ 0) : narrow_phase eps g bodies ts = .error .valueError := by
  unfold narrow_phase; rw [if_pos h]

/-- Grids that can occur: a fresh one, then any sequence of parameter changes (cell size and table
size are set when bodies are created) and runs of the narrow phase, each with all earlier bodies (in
any deformation) and possibly new ones. -/
inductive GridReachable (eps : ℝ) : List ℕ → HashGrid Obj → Prop
  | fresh (shape) (g : HashGrid Obj) : g.hash_table = Dict.empty → GridReachable eps shape g
  | tune {shape} {g : HashGrid Obj} (g') : GridReachable eps shape g →
      g'.hash_table = g.hash_table → GridReachable eps shape g'
  | grow {shape shape'} {g : HashGrid Obj} : GridReachable eps shape g → shape <+: shape' →
      GridReachable eps shape' g
  | run {shape g g' res bodies ts} : GridReachable eps shape g → shapeOf bodies = shape →
      IndexedBodies bodies → narrow_phase eps g bodies ts = .ok (g', res) → GridReachable eps shape g'

/-- C22: every reachable grid meets the hypothesis of `C22_no_missed_pair`, so no run in any history
misses a pair or raises. -/
theorem C22_history (eps : ℝ) (shape : List ℕ) (g : HashGrid Obj) (h : GridReachable eps shape g) :
    GridRefers shape g := by
  induction h with
  | fresh shape g he => intro hv cell hc; rw [he] at hc; simp at hc
  | tune g' _ he ih => intro hv cell hc; rw [he] at hc; exact ih hv cell hc
  | grow _ hp ih =>
    intro hv cell hc o ho
    obtain ⟨n, h1, h2⟩ := ih hv cell hc o ho
    obtain ⟨L, rfl⟩ := hp
    refine ⟨n, ?_, h2⟩
    rw [List.getElem?_append_left (List.getElem?_eq_some_iff.mp h1).1, h1]
  | @run shape g g' res bodies ts _ hs hidx hr ih =>
    subst hs
    by_cases hcs : 0 < g.cell_size
    · obtain ⟨g'', res', h1, -, h3, -⟩ := C22_no_missed_pair eps g bodies ts hcs hidx ih
      rw [hr] at h1; cases h1; exact h3
    · rw [C22_bad_cell_size eps g bodies ts (not_lt.mp hcs)] at hr; cases hr

/-- C22: on a fresh grid nothing but candidates is reported: different bodies with overlapping boxes
(now), or one body and a pair of triangles that passes the self-collision test. -/
theorem C22_no_false_pair_fresh (eps : ℝ) (g g' : HashGrid Obj) (bodies : List SBody) (ts : ℤ)
    (res : List Pair) (hidx : IndexedBodies bodies)
    (hg : g.hash_table = Dict.empty) (hr : narrow_phase eps g bodies ts = .ok (g', res)) :
    ∀ b a tb ta, (b, a, tb, ta) ∈ res → ∃ A B sA sB, bodies[a]? = some A ∧ bodies[b]? = some B ∧
      A.tris[ta]? = some sA ∧ B.tris[tb]? = some sB ∧ AABB.is_overlap (triAABB sB) (triAABB sA) ∧
      (a = b → is_self_collision eps sB sA (triAABB sB) (triAABB sA)) := by
  have hcs : 0 < g.cell_size := by
    by_contra h
    rw [C22_bad_cell_size eps g bodies ts (not_lt.mp h)] at hr; cases hr
  have hB : ∀ e ∈ events g.cell_size bodies, ∃ b, bodies[e.bidx]? = some b ∧ b.tris[e.tidx]? = some e.tri := by
    intro e he
    obtain ⟨b, hb, he⟩ := List.mem_flatMap.mp he
    rw [mem_bodyEvents] at he
    obtain ⟨n, hn⟩ := List.mem_iff_getElem?.mp hb
    exact ⟨b, by rw [he.1, hidx n b hn, hn], he.2.1⟩
  obtain ⟨g'', res', h1, -, -, -, -, h6⟩ := events_run eps bodies ts (fun _ => False)
    (events g.cell_size bodies) (by
      intro e he
      obtain ⟨b, hb, ht⟩ := hB e he
      exact ⟨b.tris.length, by rw [shapeOf, List.getElem?_map, hb]; rfl,
        (List.getElem?_eq_some_iff.mp ht).1⟩) (fun o h => h.elim) g (by
      intro hv cell hc; rw [hg] at hc; simp at hc)
  rw [narrow_phase_eq eps g bodies ts hcs, h1] at hr
  cases hr
  intro b a tb ta hp
  obtain ⟨e2, he2, o, ho, hc, hp⟩ := h6 _ hp
  rcases ho with h | ⟨e1, he1, rfl⟩
  · exact h.elim
  simp only [Event.obj, Prod.mk.injEq] at hp
  obtain ⟨rfl, rfl, rfl, rfl⟩ := hp
  obtain ⟨A, hA, hA'⟩ := hB e1 he1
  obtain ⟨B, hB1, hB'⟩ := hB e2 he2
  refine ⟨A, B, e1.tri, e2.tri, hA, hB1, hA', hB', ?_, ?_⟩
  · unfold Cand at hc
    split_ifs at hc with h
    · obtain ⟨_, _, -, -, hs⟩ := hc; exact hs.2.1
    · exact hc
  · intro he
    unfold Cand at hc
    rw [if_pos (by exact he)] at hc
    obtain ⟨ob, t2, q1, q2, q3⟩ := hc
    simp only [Event.obj] at q1 q2 q3
    rw [hA] at q1; cases q1
    rw [hA'] at q2; cases q2
    exact q3

/-! ### a run that reports a pair whose boxes are far apart -/

/-- A small triangle at offset d (in units of cells) along x. -/
noncomputable def smallTri (d : ℤ) : Tri := ⟨⟨d, 0, 0⟩, ⟨d + 1 / 2, 0, 0⟩, ⟨d, 1 / 2, 0⟩⟩

theorem smallTri_aabb (d : ℤ) : triAABB (smallTri d) = ⟨⟨d, 0, 0⟩, ⟨d + 1 / 2, 1 / 2, 0⟩⟩ := by
  unfold triAABB smallTri AABB.vmin AABB.vmax
  simp only [AABB.mk.injEq, V3.mk.injEq]
  refine ⟨⟨?_, ?_, ?_⟩, ⟨?_, ?_, ?_⟩⟩ <;> norm_num

theorem smallTri_cells (d : ℤ) (hd : 0 ≤ d) : cellsOf 1 (triAABB (smallTri d)) = [(d, 0, 0)] := by
  rw [smallTri_aabb]
  have hd' : (0 : ℝ) ≤ d := by exact_mod_cast hd
  have t1 : trunc (d : ℝ) = d := by unfold trunc; rw [if_pos hd']; simp
  have t2 : trunc ((d : ℝ) + 1 / 2) = d := by
    unfold trunc; rw [if_pos (by positivity), Int.floor_eq_iff]; constructor <;> linarith
  have t3 : trunc (0 : ℝ) = 0 := by unfold trunc; simp
  have t4 : trunc (1 / 2 : ℝ) = 0 := by
    unfold trunc; rw [if_pos (by norm_num), Int.floor_eq_iff]; constructor <;> norm_num
  have r : ∀ n : ℤ, intRange n (n + 1) = [n] := by
    intro n; unfold intRange; simp
  unfold cellsOf
  simp only [div_one, t1, t2, t3, t4, r]
  have r0 := r 0
  rw [zero_add] at r0
  simp [r0]

/-- C22, over histories the converse fails: two bodies A, B of one small triangle each. At time stamp
0, A is at the origin and B ten cells away: nothing is reported. At time stamp 1, A is twenty cells
away and B at the origin: the pair (B, A) is reported although the boxes are disjoint, because the
first insertion at the new time stamp is answered with the old content of the cell. -/
theorem C22_stale_pair_reported (eps : ℝ) :
    let g0 : HashGrid Obj := ⟨1000, Dict.empty, 1, 1000, fun _ _ _ => 0⟩
    let run0 : List SBody := [⟨0, [smallTri 0]⟩, ⟨1, [smallTri 10]⟩]
    let run1 : List SBody := [⟨0, [smallTri 20]⟩, ⟨1, [smallTri 0]⟩]
    ∃ g1 g2, narrow_phase eps g0 run0 0 = .ok (g1, []) ∧
      narrow_phase eps g1 run1 1 = .ok (g2, [(1, 0, 0, 0)]) ∧
      ¬ AABB.is_overlap (triAABB (smallTri 0)) (triAABB (smallTri 20)) := by
  intro g0 run0 run1
  have hash : ∀ (t : Dict ℤ (HashCell Obj)) (d : ℤ), 0 ≤ d → d < 1000 →
      (⟨1000, t, 1, 1000, fun _ _ _ => 0⟩ : HashGrid Obj).get_hash_value d 0 0 = d := by
    intro t d h1 h2
    unfold HashGrid.get_hash_value
    simp
    omega
  have c0 := smallTri_cells 0 (by norm_num)
  have c10 := smallTri_cells 10 (by norm_num)
  have c20 := smallTri_cells 20 (by norm_num)
  have ovl : AABB.is_overlap (triAABB (smallTri 0)) (triAABB (smallTri 0)) := by
    rw [smallTri_aabb]; simp [AABB.is_overlap, AABB.anyLt]
  refine ⟨⟨1000, ⟨[(0, ⟨0, 1, [⟨0, 0, triAABB (smallTri 0)⟩]⟩), (10, ⟨0, 1, [⟨0, 1, triAABB (smallTri 10)⟩]⟩)]⟩,
      1, 1000, fun _ _ _ => 0⟩,
    ⟨1000, ⟨[(0, ⟨1, 1, [⟨0, 1, triAABB (smallTri 0)⟩]⟩), (10, ⟨0, 1, [⟨0, 1, triAABB (smallTri 10)⟩]⟩),
      (20, ⟨1, 1, [⟨0, 0, triAABB (smallTri 20)⟩]⟩)]⟩, 1, 1000, fun _ _ _ => 0⟩, ?_, ?_, ?_⟩
  · rw [narrow_phase_eq _ _ _ _ (by norm_num [g0])]
    simp [events, bodyEvents, run0, g0, c0, c10, eventStep, visitCell, HashGrid.insert, hash,
      Dict.empty, Dict.get?, Dict.setItem, Dict.mem, HashCell.init, HashCell.add, bind, Except.bind,
      pure, Except.pure]
  · rw [narrow_phase_eq _ _ _ _ (by norm_num)]
    simp [events, bodyEvents, run1, c0, c20, eventStep, visitCell, HashGrid.insert, hash,
      Dict.get?, Dict.setItem, Dict.mem, HashCell.init, HashCell.add, bind, Except.bind,
      pure, Except.pure, checkOverlap, ovl]
  · rw [smallTri_aabb, smallTri_aabb]; simp [AABB.is_overlap, AABB.anyLt]; norm_num

/-! ### C60: the self-collision test -/

/-- Specification: the points of a triangle. -/
def TriPoints (t : Tri) : Set V3 :=
  {p | ∃ u v w : ℝ, 0 ≤ u ∧ 0 ≤ v ∧ 0 ≤ w ∧ u + v + w = 1 ∧ p = u • t.a + v • t.b + w • t.c}

/-- C60, what holds: two triangles with a common corner never count as self-colliding, and neither
do triangles with disjoint boxes. -/
theorem C60_self_collision_partial (eps : ℝ) (s t : Tri) (A B : AABB)
    (h : is_self_collision eps s t A B) :
    AABB.is_overlap A B ∧ (∀ p ∈ [s.a, s.b, s.c], ∀ q ∈ [t.a, t.b, t.c], p ≠ q) := by
  refine ⟨h.2.1, ?_⟩
  intro p hp q hq hpq
  apply h.1
  subst hpq
  refine ⟨p.x, ?_, ?_⟩
  · simp at hp; rcases hp with rfl | rfl | rfl <;> simp
  · simp at hq; rcases hq with rfl | rfl | rfl <;> simp

/-- C60 fails: the common-vertex test compares coordinate values and not vertices, so two triangles
that cross but happen to have one coordinate value in common (here 0) are never self-colliding. -/
theorem C60_share_vertex_wrong (eps : ℝ) : ∃ s t : Tri, (∃ p, p ∈ TriPoints s ∧ p ∈ TriPoints t) ∧
    (∀ p ∈ [s.a, s.b, s.c], ∀ q ∈ [t.a, t.b, t.c], p ≠ q) ∧
    ¬ is_self_collision eps s t (triAABB s) (triAABB t) := by
  refine ⟨⟨⟨-2, -2, 0⟩, ⟨2, -2, 0⟩, ⟨0, 4, 0⟩⟩, ⟨⟨0, 0, -1⟩, ⟨0, 0, 3⟩, ⟨7, 0, 1⟩⟩, ⟨⟨0, 0, 0⟩, ?_, ?_⟩, ?_, ?_⟩
  · refine ⟨1/3, 1/3, 1/3, by norm_num, by norm_num, by norm_num, by norm_num, ?_⟩
    ext <;> simp <;> norm_num
  · refine ⟨3/4, 1/4, 0, by norm_num, by norm_num, by norm_num, by norm_num, ?_⟩
    ext <;> simp <;> norm_num
  · intro p hp q hq
    simp at hp hq
    rcases hp with rfl | rfl | rfl <;> rcases hq with rfl | rfl | rfl <;> simp
  · intro h
    apply h.1
    exact ⟨0, by simp, by simp⟩

/-- C60 fails also in the geometric part: two triangles that cross, with no coordinate in common, for
which the intersection test says no. -/
theorem C60_intersection_false_negative (eps : ℝ) (he : 0 < eps) (he' : eps < 1) :
    ∃ s t : Tri, (∃ p, p ∈ TriPoints s ∧ p ∈ TriPoints t) ∧ ¬ is_share_vertex s t ∧
      triangle_intersection eps s t = false := by
  refine ⟨⟨⟨-1, 0, 5⟩, ⟨1, -2, 7⟩, ⟨-8, -9, -5⟩⟩, ⟨⟨-3, -4, 8⟩, ⟨4, 3, -7⟩, ⟨2, 9, -6⟩⟩,
    ⟨⟨-3 + 7 * (49/197), -4 + 7 * (49/197), 8 - 15 * (49/197)⟩, ?_, ?_⟩, ?_, ?_⟩
  · refine ⟨83/197, 83/197, 31/197, by norm_num, by norm_num, by norm_num, by norm_num, ?_⟩
    ext <;> simp <;> norm_num
  · refine ⟨148/197, 49/197, 0, by norm_num, by norm_num, by norm_num, by norm_num, ?_⟩
    ext <;> simp <;> norm_num
  · simp [is_share_vertex]; norm_num
  · simp [triangle_intersection, V3.cross, V3.dot]
    norm_num

/-- C60 fails: two disjoint triangles (separated by a plane) for which the intersection test says
yes. -/
theorem C60_intersection_false_positive (eps : ℝ) (he : 0 < eps) (he' : eps < 1 / 100) :
    ∃ s t : Tri, (¬ ∃ p, p ∈ TriPoints s ∧ p ∈ TriPoints t) ∧ ¬ is_share_vertex s t ∧
      triangle_intersection eps s t = true := by
  refine ⟨⟨⟨5, -3, -2⟩, ⟨-4, -8, -9⟩, ⟨-6, 4, 9⟩⟩, ⟨⟨1, 3, -5⟩, ⟨6, -7, 7⟩, ⟨-1, 2, 8⟩⟩, ?_, ?_, ?_⟩
  · rintro ⟨p, ⟨u, v, w, hu, hv, hw, hs, rfl⟩, ⟨u', v', w', hu', hv', hw', hs', hp⟩⟩
    have hx := congrArg V3.x hp
    have hy := congrArg V3.y hp
    have hz := congrArg V3.z hp
    simp at hx hy hz
    linarith
  · simp [is_share_vertex]; norm_num
  · simp [triangle_intersection, V3.cross, V3.dot]
    norm_num
    exact ⟨Or.inr (by linarith), by linarith⟩

end Verif
