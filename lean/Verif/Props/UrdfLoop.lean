import Verif.Model.Urdf
import Verif.Props.SceneRuns
import Verif.Props.CoordSys
import Verif.Props.RigidHistory

/-! C92: the traversal that places the links of a robot. -/

namespace Verif

open Rigid Rigid.Urdf

/-- Two frames one after the other: coordinates of the frame B, then of the frame A. -/
def CoordSys.after (A B : CoordSys) : CoordSys := ⟨Quat.prod A.q B.q, Quat.rotate A.q B.r + A.r⟩

/-- What a URDF file says about the frames of the links: the frame of the root is W, and the frame of a joint's child is the
joint's origin, given in the frame of its parent. -/
inductive LinkFrame (joints : List Joint) (root : String) (W : CoordSys) : String → CoordSys → Prop
  | root : LinkFrame joints root W root W
  | child {j : Joint} {X : CoordSys} : j ∈ joints → j.type = "revolute" → LinkFrame joints root W j.parent X →
      LinkFrame joints root W j.child (X.after j.origin)

theorem after_rigid {A B : CoordSys} (hA : A.Rigid) (hB : B.Rigid) : (A.after B).Rigid := prod_unit hA hB

theorem concat_eq_after {A B : CoordSys} (hA : A.Rigid) (hB : B.Rigid) : CoordSys.concat A B = A.after B := by
  unfold CoordSys.concat CoordSys.after
  rw [Quat.unit_of_isUnit (prod_unit hA hB)]

/-- The body stands at X: the body frame's origin and axes. -/
def StandsAt (b : RigidBody) (X : CoordSys) : Prop := b.r = X.r ∧ b.q = X.q

/-- The hinge of the joint connects the joint's links, its two anchor points are both at O and its two axes along S. -/
def HingeAt (e : Engine) (name parent child : String) (O S : V3) : Prop :=
  ∃ ho ap ac np nc pb cb, e.hinges.get? name = some ho ∧ ho.parent = some parent ∧ ho.child = some child ∧
    ho.arm_p = some ap ∧ ho.arm_c = some ac ∧ ho.axis_p = some np ∧ ho.axis_c = some nc ∧
    e.bodies.get? parent = some pb ∧ e.bodies.get? child = some cb ∧
    bodyToWorld pb.body ap = O ∧ bodyToWorld cb.body ac = O ∧ Quat.rotate pb.body.q np = V3.unit S ∧
    Quat.rotate cb.body.q nc = V3.unit S

namespace UrdfLoop

/-- The entry of `parent.children` for a joint. -/
def kid (j : Joint) : String × String × CoordSys × V3 := (j.child, j.name, j.origin, j.axis)

/-- The situation before the traversal; R are the joints that became hinges. -/
structure Start (R : List Joint) (root : String) (W : CoordSys) (robot0 : Robot) (s0 : Scene) : Prop where
  child : (R.map (·.child)).Nodup
  names : (R.map (·.name)).Nodup
  noroot : ∀ j ∈ R, j.child ≠ root
  link : ∀ n l, robot0.get? n = some l → l.X_b2r.Rigid ∧ l.children = (R.filter fun j => j.parent == n).map kid ∧
    ∃ b, s0.eng.bodies.get? n = some b
  ends : ∀ j ∈ R, j.type = "revolute" ∧ j.origin.Rigid ∧ j.axis ≠ 0 ∧ (∃ l, robot0.get? j.parent = some l) ∧
    (∃ l, robot0.get? j.child = some l) ∧ ∃ h, s0.eng.hinges.get? j.name = some h
  base : ∃ l b, robot0.get? root = some l ∧ l.X_b2r = W ∧ s0.eng.bodies.get? root = some b ∧ StandsAt b.body W

/-- Link n has been placed: its frame is known and its body stands where it should. -/
def PlacedLink (R : List Joint) (root : String) (W : CoordSys) (robot0 : Robot) (s0 : Scene) (robot : Robot) (e : Engine)
    (n : String) : Prop :=
  ∃ X l b b0, LinkFrame R root W n X ∧ X.Rigid ∧ robot0.get? n = some l ∧ robot.get? n = some { l with X_b2r := X } ∧
    s0.eng.bodies.get? n = some b0 ∧ e.bodies.get? n = some b ∧
    b = { b0 with body := { b0.body with r := b.body.r, q := b.body.q } } ∧ IsUnitQ b.body.q ∧
    (n ≠ root → StandsAt b.body (X.after l.X_b2r)) ∧ (n = root → StandsAt b.body W)

/-- The invariant: D are the joints handled so far, P the remaining joints of the link at hand. -/
structure Inv (R : List Joint) (root : String) (W : CoordSys) (robot0 : Robot) (s0 : Scene)
    (st : List String × Robot × Scene) (D P : List Joint) : Prop where
  sub : ∀ j ∈ D ++ P, j ∈ R
  nodup : (D ++ P).Nodup
  stack : st.1.Nodup
  onstack : ∀ n ∈ st.1, n = root ∨ ∃ j ∈ D, j.child = n
  parents : ∀ j ∈ D ++ P, (j.parent = root ∨ ∃ j' ∈ D, j'.child = j.parent) ∧ j.parent ∉ st.1
  handled : ∀ j ∈ R, (j.parent = root ∨ ∃ j' ∈ D, j'.child = j.parent) → j.parent ∉ st.1 → j ∈ D ++ P
  placed : ∀ n, (n = root ∨ ∃ j ∈ D, j.child = n) → PlacedLink R root W robot0 s0 st.2.1 st.2.2.eng n
  other : ∀ n, n ≠ root → (∀ j ∈ D, j.child ≠ n) → st.2.1.get? n = robot0.get? n ∧
    st.2.2.eng.bodies.get? n = s0.eng.bodies.get? n
  hinges : ∀ j ∈ D, ∃ X, LinkFrame R root W j.child X ∧
    HingeAt st.2.2.eng j.name j.parent j.child X.r (Quat.rotate X.q j.axis)
  otherHinges : ∀ n, (∀ j ∈ D, j.name ≠ n) → st.2.2.eng.hinges.get? n = s0.eng.hinges.get? n
  keys : st.2.2.eng.bodies.keys = s0.eng.bodies.keys ∧ st.2.2.eng.hinges.keys = s0.eng.hinges.keys
  same : st.2.2 = { s0 with eng := { s0.eng with bodies := st.2.2.eng.bodies, hinges := st.2.2.eng.hinges } }

variable {R : List Joint} {root : String} {W : CoordSys} {robot0 : Robot} {s0 : Scene}

theorem nodup_map_inj {α β : Type*} {f : α → β} {l : List α} (h : (l.map f).Nodup) {a b : α} (ha : a ∈ l) (hb : b ∈ l)
    (he : f a = f b) : a = b := List.inj_on_of_nodup_map h ha hb he

/-- What the three API calls for one child do. -/
theorem place_api {e : Engine} {c p h : String} {X : CoordSys} {o a : V3} {bc bp : BodyObj} {ho : HingeObj}
    (hX : X.Rigid) (hc : e.bodies.get? c = some bc) (hp : e.bodies.get? p = some bp) (hpq : IsUnitQ bp.body.q) (hcp : c ≠ p)
    (hh : e.hinges.get? h = some ho) (ha : a ≠ 0) :
    ∃ e1 e2 e3 bc', e.set_position c X.r false = .ok e1 ∧ e1.set_orientation c X.q false = .ok e2 ∧
      e2.set_hinge h p c o a .world = .ok e3 ∧
      e3 = { e with bodies := e3.bodies, hinges := e3.hinges } ∧
      bc' = { bc with body := { bc.body with r := X.r, q := X.q } } ∧ e3.bodies.get? c = some bc' ∧
      (∀ n, n ≠ c → e3.bodies.get? n = e.bodies.get? n) ∧ (∀ n, n ≠ h → e3.hinges.get? n = e.hinges.get? n) ∧
      e3.bodies.keys = e.bodies.keys ∧ e3.hinges.keys = e.hinges.keys ∧ HingeAt e3 h p c o a := by
  have h1 := ((C44_set_position e c X.r).2 _ hc).1
  set e1 : Engine := { e with bodies := e.bodies.setItem c { bc with body := { bc.body with r := X.r } } } with he1
  have hc1 : e1.bodies.get? c = some { bc with body := { bc.body with r := X.r } } := by
    rw [he1]; exact Dict.get?_setItem_self _ _ _
  have h2 := ((C44_set_orientation e1 c X.q).2 _ hc1).1
  rw [Quat.unit_of_isUnit hX] at h2
  set e2 : Engine := { e1 with bodies := e1.bodies.setItem c { bc with body := { bc.body with r := X.r, q := X.q } } } with he2
  have hc2 : e2.bodies.get? c = some { bc with body := { bc.body with r := X.r, q := X.q } } := by
    rw [he2]; exact Dict.get?_setItem_self _ _ _
  have hother : ∀ n, n ≠ c → e2.bodies.get? n = e.bodies.get? n := by
    intro n hn
    rw [he2]
    simp only
    rw [Dict.get?_setItem_ne _ _ hn, he1]
    simp only
    rw [Dict.get?_setItem_ne _ _ hn]
  have hp2 : e2.bodies.get? p = some bp := by rw [hother p (fun h => hcp h.symm)]; exact hp
  have hh2 : e2.hinges.get? h = some ho := hh
  have hset : ∃ e3, e2.set_hinge h p c o a .world = .ok e3 := by
    unfold Engine.set_hinge Engine.hingeFrame
    rw [findHinge_ok.2 hh2, findBody_ok.2 hp2, findBody_ok.2 hc2]
    exact ⟨_, rfl⟩
  obtain ⟨e3, h3⟩ := hset
  have hkeys : ∀ {υ : Type} (d : Dict String υ) (k : String) (v w : υ), d.get? k = some v → (d.setItem k w).keys = d.keys := by
    intro υ d k v w hg
    rw [Dict.keys_setItem, if_pos]
    exact Dict.mem_of_get? hg
  obtain ⟨O, S, h', ap, ac, np, nc, ⟨rfl, rfl⟩, -, rfl, g1, g2, g3, g4, g5, g6, g7, g8, g9, g10⟩ :=
    C41_set_hinge (m := .world) h3 hp2 hc2 hpq hX (fun hm => by cases hm) ha
  refine ⟨e1, e2, _, _, h1, h2, h3, rfl, rfl, hc2, hother, ?_, ?_, ?_, ?_⟩
  · intro n hn
    exact Dict.get?_setItem_ne _ _ hn
  · change e2.bodies.keys = _
    rw [he2]
    simp only
    rw [hkeys _ _ _ _ hc1, he1]
    simp only
    rw [hkeys _ _ _ _ hc]
  · exact hkeys _ _ _ _ hh
  · exact ⟨h', ap, ac, np, nc, bp, _, Dict.get?_setItem_self _ _ _, g1, g2, g3, g4, g5, g6, hp2, hc2, g7, g8, g9, g10⟩

/-- One child. -/
theorem placeChild_inv (hS : Start R root W robot0 s0) {st : List String × Robot × Scene} {D P : List Joint} {j : Joint}
    (hI : Inv R root W robot0 s0 st D (j :: P)) {Xp : CoordSys} (hXp : ∃ l, st.2.1.get? j.parent = some l ∧ l.X_b2r = Xp) :
    ∃ st', placeChild j.parent Xp st (kid j) = .ok st' ∧ Inv R root W robot0 s0 st' (D ++ [j]) P ∧
      (∀ n, n ≠ j.child → st'.2.1.get? n = st.2.1.get? n) ∧ st'.1 = j.child :: st.1 := by
  obtain ⟨stack, robot, s⟩ := st
  have hjR : j ∈ R := hI.sub j (by simp)
  have hjD : j ∉ D := by
    have := hI.nodup
    rw [List.nodup_append] at this
    intro h
    exact this.2.2 j h j (by simp) rfl
  have hch : ∀ j' ∈ D, j'.child ≠ j.child := by
    intro j' hj' he
    have := nodup_map_inj hS.child (hI.sub j' (by simp [hj'])) hjR he
    exact hjD (this ▸ hj')
  have hcr : j.child ≠ root := hS.noroot j hjR
  obtain ⟨hrev, hor, hax, -, ⟨lc, hlc⟩, ⟨ho, hho⟩⟩ := hS.ends j hjR
  obtain ⟨hlcr, hlck, bc, hbc⟩ := hS.link _ _ hlc
  obtain ⟨ho1, ho2⟩ := hI.other j.child hcr hch
  simp only at ho1 ho2
  have hpp := hI.parents j (by simp)
  obtain ⟨X, lp, bp, bp0, hF, hX, hl0, hl, hb0, hb, hbe, hbq, -, -⟩ := hI.placed j.parent hpp.1
  simp only at hl hb
  obtain ⟨l', hl', rfl⟩ := hXp
  simp only at hl'
  rw [hl] at hl'
  cases hl'
  have hcp : j.child ≠ j.parent := by
    intro he
    rcases hpp.1 with h | ⟨j', hj', h⟩
    · exact hcr (he.trans h)
    · exact hch j' hj' (h.trans he.symm)
  have hXj : (X.after j.origin).Rigid := after_rigid hX hor
  have hFc : LinkFrame R root W j.child (X.after j.origin) := .child hjR hrev hF
  have hXb : ((X.after j.origin).after lc.X_b2r).Rigid := after_rigid hXj hlcr
  have hbc' : s.eng.bodies.get? j.child = some bc := by rw [ho2]; exact hbc
  have hhi : s.eng.hinges.get? j.name = some ho := by
    rw [hI.otherHinges j.name]
    · exact hho
    · intro j' hj' he
      have := nodup_map_inj hS.names (hI.sub j' (by simp [hj'])) hjR he
      exact hjD (this ▸ hj')
  have hax' : Quat.rotate (X.after j.origin).q j.axis ≠ 0 := rotate_ne_zero_V3 hXj hax
  obtain ⟨e1, e2, e3, bc', a1, a2, a3, a4, a5, a6, a7, a8, a9, a10, a11⟩ :=
    place_api (o := (X.after j.origin).r) hXb hbc' hb hbq hcp hhi hax'
  have hcat : CoordSys.concat X j.origin = X.after j.origin := concat_eq_after hX hor
  have hcat2 : CoordSys.concat (X.after j.origin) lc.X_b2r = (X.after j.origin).after lc.X_b2r := concat_eq_after hXj hlcr
  have hpt : CoordSys.xform_point (X.after j.origin) V3.zero = (X.after j.origin).r := by
    unfold CoordSys.xform_point
    rw [show V3.zero = (0 : V3) from rfl, rotate_zero, zero_add]
  have hget : robot.getItem j.child = .ok lc := by
    unfold Dict.getItem
    rw [ho1, hlc]
  refine ⟨(j.child :: stack, robot.setItem j.child { lc with X_b2r := X.after j.origin }, { s with eng := e3 }), ?_, ?_, ?_, rfl⟩
  · unfold placeChild kid
    simp only [hget, bind, Except.bind, hcat, hcat2, hpt]
    rw [a1]
    simp only
    rw [a2]
    simp only
    unfold CoordSys.xform_vector
    rw [a3]
    rfl
  rotate_left
  · intro n hn
    exact Dict.get?_setItem_ne _ _ hn
  have hPl : ∀ n, n ≠ j.child → (n = root ∨ ∃ j' ∈ D, j'.child = n) →
      PlacedLink R root W robot0 s0 (robot.setItem j.child { lc with X_b2r := X.after j.origin }) e3 n := by
    intro n hn hh
    obtain ⟨Y, l, b, b0, h1, h2, h3, h4, h5, h6, h7, h8⟩ := hI.placed n hh
    refine ⟨Y, l, b, b0, h1, h2, h3, ?_, h5, ?_, h7, h8⟩
    · rw [Dict.get?_setItem_ne _ _ hn]; exact h4
    · rw [a7 n hn]; exact h6
  have hne : ∀ n, (n = root ∨ ∃ j' ∈ D, j'.child = n) → n ≠ j.child := by
    rintro n (rfl | ⟨j', hj', rfl⟩)
    · exact fun h => hcr h.symm
    · exact hch j' hj'
  have hex : ∀ n, (n = root ∨ ∃ j' ∈ D ++ [j], j'.child = n) → n = j.child ∨ (n = root ∨ ∃ j' ∈ D, j'.child = n) := by
    rintro n (rfl | ⟨j', hj', rfl⟩)
    · exact Or.inr (Or.inl rfl)
    · rcases List.mem_append.1 hj' with h | h
      · exact Or.inr (Or.inr ⟨j', h, rfl⟩)
      · rw [List.mem_singleton] at h; subst h; exact Or.inl rfl
  have hex' : ∀ n, (n = root ∨ ∃ j' ∈ D, j'.child = n) → (n = root ∨ ∃ j' ∈ D ++ [j], j'.child = n) := by
    rintro n (rfl | ⟨j', hj', rfl⟩)
    · exact Or.inl rfl
    · exact Or.inr ⟨j', by simp [hj'], rfl⟩
  have hmem : ∀ j', j' ∈ (D ++ [j]) ++ P ↔ j' ∈ D ++ j :: P := by intro j'; simp
  constructor
  · intro j' hj'
    exact hI.sub j' ((hmem j').1 hj')
  · have := hI.nodup
    rwa [List.append_assoc]
  · rw [List.nodup_cons]
    refine ⟨fun h => ?_, hI.stack⟩
    exact hne _ (hI.onstack _ h) rfl
  · intro n hn
    rcases List.mem_cons.1 hn with rfl | hn
    · exact Or.inr ⟨j, by simp, rfl⟩
    · exact hex' n (hI.onstack n hn)
  · intro j' hj'
    obtain ⟨h1, h2⟩ := hI.parents j' ((hmem j').1 hj')
    refine ⟨hex' _ h1, fun h => ?_⟩
    rcases List.mem_cons.1 h with h | h
    · exact hne _ h1 h
    · exact h2 h
  · intro j' hj' h1 h2
    rw [hmem]
    rcases hex _ h1 with h | h
    · exact absurd (by rw [h]; simp) h2
    · exact hI.handled j' hj' h (fun h' => h2 (List.mem_cons_of_mem _ h'))
  · intro n hn
    by_cases hnc : n = j.child
    · subst hnc
      refine ⟨X.after j.origin, lc, bc', bc, hFc, hXj, hlc, Dict.get?_setItem_self _ _ _, hbc, a6, ?_, ?_, ?_, ?_⟩
      · rw [a5]
      · rw [a5]; exact hXb
      · intro _; rw [a5]; exact ⟨rfl, rfl⟩
      · intro h; exact absurd h hcr
    · exact hPl n hnc ((hex n hn).resolve_left hnc)
  · intro n hn1 hn2
    have hnc : n ≠ j.child := fun h => hn2 j (by simp) h.symm
    obtain ⟨h1, h2⟩ := hI.other n hn1 (fun j' hj' => hn2 j' (by simp [hj']))
    refine ⟨?_, ?_⟩
    · rw [show (robot.setItem j.child { lc with X_b2r := X.after j.origin }).get? n = robot.get? n from Dict.get?_setItem_ne _ _ hnc]
      exact h1
    · rw [show e3.bodies.get? n = _ from a7 n hnc]
      exact h2
  · intro j' hj'
    rcases List.mem_append.1 hj' with h | h
    · obtain ⟨Y, hY, ho', ap, ac, np, nc, pb, cb, g0, g1, g2, g3, g4, g5, g6, g7, g8, g9⟩ := hI.hinges j' h
      refine ⟨Y, hY, ho', ap, ac, np, nc, pb, cb, ?_, g1, g2, g3, g4, g5, g6, ?_, ?_, g9⟩
      · rw [show e3.hinges.get? j'.name = _ from a8 _ ?_]
        · exact g0
        · intro he
          have := nodup_map_inj hS.names (hI.sub j' (by simp [h])) hjR he
          exact hjD (this ▸ h)
      · rw [show e3.bodies.get? j'.parent = _ from a7 _ (hne _ (hI.parents j' (by simp [h])).1)]
        exact g7
      · rw [show e3.bodies.get? j'.child = _ from a7 _ (hch j' h)]
        exact g8
    · rw [List.mem_singleton] at h
      subst h
      exact ⟨_, hFc, a11⟩
  · intro n hn
    rw [show e3.hinges.get? n = _ from a8 n (fun h => hn j (by simp) h.symm)]
    exact hI.otherHinges n (fun j' hj' => hn j' (by simp [hj']))
  · exact ⟨a9.trans hI.keys.1, a10.trans hI.keys.2⟩
  · have h := hI.same
    simp only at h a4 ⊢
    rw [a4]
    simp only
    generalize e3.bodies = B
    generalize e3.hinges = H
    rw [h]

/-- All children of one link. -/
theorem children_inv (hS : Start R root W robot0 s0) {p : String} {Xp : CoordSys} {D P : List Joint}
    {st : List String × Robot × Scene} (hI : Inv R root W robot0 s0 st D P) (hP : ∀ j ∈ P, j.parent = p)
    (hXp : P = [] ∨ ∃ l, st.2.1.get? p = some l ∧ l.X_b2r = Xp) (hpc : ∀ j ∈ P, j.child ≠ p) :
    ∃ st', (P.map kid).foldlM (placeChild p Xp) st = .ok st' ∧ Inv R root W robot0 s0 st' (D ++ P) [] ∧
      st'.1.length = st.1.length + P.length := by
  induction P generalizing D st with
  | nil => exact ⟨st, rfl, by simpa using hI, by simp⟩
  | cons j P ih =>
    have hj : j.parent = p := hP j (by simp)
    have hXp' := hXp.resolve_left (by simp)
    obtain ⟨st1, h1, h2, h3, h4⟩ := placeChild_inv hS hI (Xp := Xp) (by rw [hj]; exact hXp')
    obtain ⟨st2, h5, h6, h7⟩ := ih h2 (fun j' hj' => hP j' (by simp [hj'])) (Or.inr (by
      rw [h3 p (fun h => hpc j (by simp) h.symm)]; exact hXp')) (fun j' hj' => hpc j' (by simp [hj']))
    refine ⟨st2, ?_, by simpa using h6, by rw [h7, h4]; simp; omega⟩
    rw [List.map_cons, List.foldlM_cons]
    rw [hj] at h1
    rw [h1]
    exact h5

/-- One trip of the loop. -/
theorem visit_inv (hS : Start R root W robot0 s0) {st : List String × Robot × Scene} {D : List Joint}
    (hI : Inv R root W robot0 s0 st D []) : (visit st = .ok none ∧ st.1 = []) ∨
      ∃ st' D', visit st = .ok (some st') ∧ Inv R root W robot0 s0 st' D' [] ∧
        (R.length - D'.length) + st'.1.length < (R.length - D.length) + st.1.length := by
  obtain ⟨stack, robot, s⟩ := st
  cases stack with
  | nil => exact Or.inl ⟨rfl, rfl⟩
  | cons p stack =>
    right
    have hpp := hI.onstack p (by simp)
    obtain ⟨X, l, b, b0, h1, h2, h3, h4, h5, h6, h7, h8, h9, h10⟩ := hI.placed p hpp
    simp only at h4 h6
    obtain ⟨hl1, hl2, -⟩ := hS.link _ _ h3
    have hst := hI.stack
    simp only [List.nodup_cons] at hst
    have hRn : R.Nodup := List.Nodup.of_map _ hS.child
    have hI' : Inv R root W robot0 s0 (stack, robot, s) D (R.filter fun j => j.parent == p) := by
      constructor
      · intro j hj
        rcases List.mem_append.1 hj with h | h
        · exact hI.sub j (by simp [h])
        · exact (List.mem_filter.1 h).1
      · rw [List.nodup_append]
        refine ⟨?_, hRn.filter _, ?_⟩
        · have := hI.nodup
          rwa [List.append_nil] at this
        · rintro a ha b hb rfl
          rw [List.mem_filter] at hb
          have hp := (hI.parents a (by simp [ha])).2
          apply hp
          have : a.parent = p := by simpa using hb.2
          rw [this]
          simp
      · exact hst.2
      · intro n hn
        exact hI.onstack n (List.mem_cons_of_mem _ hn)
      · intro j hj
        rcases List.mem_append.1 hj with h | h
        · obtain ⟨g1, g2⟩ := hI.parents j (by simp [h])
          exact ⟨g1, fun h' => g2 (List.mem_cons_of_mem _ h')⟩
        · have : j.parent = p := by simpa using (List.mem_filter.1 h).2
          rw [this]
          exact ⟨hpp, hst.1⟩
      · intro j hj h1 h2
        by_cases hjp : j.parent = p
        · refine List.mem_append_right _ (List.mem_filter.2 ⟨hj, by simpa using hjp⟩)
        · have := hI.handled j hj h1 (fun h => by
            rcases List.mem_cons.1 h with h | h
            · exact hjp h
            · exact h2 h)
          simp only [List.append_nil] at this
          exact List.mem_append_left _ this
      · exact hI.placed
      · exact hI.other
      · exact hI.hinges
      · exact hI.otherHinges
      · exact hI.keys
      · exact hI.same
    have hpc : ∀ j ∈ R.filter fun j => j.parent == p, j.child ≠ p := by
      intro j hj he
      have hjR := (List.mem_filter.1 hj).1
      have hjp : j.parent = p := by simpa using (List.mem_filter.1 hj).2
      rcases hpp with h | ⟨j', hj', h⟩
      · exact hS.noroot j hjR (he.trans h)
      · have := nodup_map_inj hS.child (hI.sub j' (by simp [hj'])) hjR (h.trans he.symm)
        subst this
        exact (hI.parents j' (by simp [hj'])).2 (by rw [hjp]; simp)
    obtain ⟨st', g1, g2, g3⟩ := children_inv hS hI' (p := p) (Xp := X)
      (fun j hj => by simpa using (List.mem_filter.1 hj).2) (Or.inr ⟨_, h4, rfl⟩) hpc
    refine ⟨st', _, ?_, g2, ?_⟩
    · unfold visit
      simp only
      have hget : robot.getItem p = .ok { l with X_b2r := X } := by
        unfold Dict.getItem
        rw [h4]
      rw [hget]
      simp only [bind, Except.bind]
      rw [hl2, g1]
      rfl
    · have hle : (D ++ R.filter fun j => j.parent == p).length ≤ R.length := by
        have hsub := g2.sub
        have hnd := g2.nodup
        rw [List.append_nil] at hnd
        exact (List.subperm_of_subset hnd (fun j hj => hsub j (by simpa using hj))).length_le
      simp only [List.length_append, List.length_cons] at *
      omega

/-- The whole traversal. -/
theorem loop_ends (hS : Start R root W robot0 s0) {st : List String × Robot × Scene} {D : List Joint}
    (hI : Inv R root W robot0 s0 st D []) : ∃ st' D', LoopEnds visit st (.ok st') ∧ Inv R root W robot0 s0 st' D' [] ∧ st'.1 = [] := by
  induction hn : (R.length - D.length) + st.1.length using Nat.strong_induction_on generalizing st D with
  | _ n ih =>
    rcases visit_inv hS hI with ⟨h, h'⟩ | ⟨st1, D1, h1, h2, h3⟩
    · exact ⟨st, D, .done h, hI, h'⟩
    · obtain ⟨st2, D2, g1, g2, g3⟩ := ih _ (hn ▸ h3) h2 rfl
      exact ⟨st2, D2, .next h1 g1, g2, g3⟩

theorem start_inv (hS : Start R root W robot0 s0) (hW : W.Rigid) : Inv R root W robot0 s0 ([root], robot0, s0) [] [] := by
  obtain ⟨l, b, h1, h2, h3, h4⟩ := hS.base
  constructor
  · simp
  · simp
  · simp
  · intro n hn; simp only [List.mem_singleton] at hn; exact Or.inl hn
  · simp
  · rintro j hj (h | ⟨j', hj', -⟩) h'
    · simp [h] at h'
    · simp at hj'
  · rintro n (rfl | ⟨j', hj', -⟩)
    · refine ⟨W, l, b, b, .root, hW, h1, ?_, h3, h3, ?_, ?_, fun h => absurd rfl h, fun _ => h4⟩
      · rw [h1, ← h2]
      · rfl
      · rw [h4.2]; exact hW
    · simp at hj'
  · intro n _ _; exact ⟨rfl, rfl⟩
  · simp
  · intro n _; rfl
  · exact ⟨rfl, rfl⟩
  · rfl

/-- Every link with a frame has been placed and every joint between such links has been set at the end. -/
theorem final_reach {st : List String × Robot × Scene} {D : List Joint}
    (hI : Inv R root W robot0 s0 st D []) (he : st.1 = []) {n : String} {X : CoordSys} (h : LinkFrame R root W n X) :
    n = root ∨ ∃ j ∈ D, j.child = n := by
  induction h with
  | root => exact Or.inl rfl
  | @child j X hj hr _ ih =>
    have := hI.handled j hj ih (by rw [he]; simp)
    exact Or.inr ⟨j, by simpa using this, rfl⟩

theorem linkFrame_unique (hS : Start R root W robot0 s0) {n : String} {X Y : CoordSys} (h : LinkFrame R root W n X)
    (h' : LinkFrame R root W n Y) : X = Y := by
  induction h generalizing Y with
  | root =>
    generalize hr : root = n at h'
    cases h' with
    | root => rfl
    | child hj _ _ => exact absurd hr.symm (hS.noroot _ hj)
  | @child j X hj hr hF ih =>
    generalize hc : j.child = n at h'
    cases h' with
    | root => exact absurd hc (hS.noroot _ hj)
    | @child j' X' hj' hr' hF' =>
      have := nodup_map_inj hS.child hj hj' hc
      subst this
      rw [ih hF']

end UrdfLoop

end Verif
