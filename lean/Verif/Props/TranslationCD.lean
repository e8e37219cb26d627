import Verif.Props.Translation
import Verif.Model.FullSim
import Mathlib.Data.EReal.Operations

/-! C131, the package's own collision detection. -/

namespace Verif

open Rigid Collision

variable {N : ℕ}

/-- The interval moved by `t`. -/
noncomputable def Interval.shift (t : ℝ) (I : Interval) : Interval := ⟨I.lower + (t : EReal), I.upper + (t : EReal)⟩

/-- The bounding volume moved by `c`. -/
noncomputable def KDOP.shift (c : V3) (D : KDOP) : KDOP :=
  ⟨D.K, fun k => (D.slabs k).shift (((KDOP.get_direction_table D.K).elim 0 fun dir => V3.dot (dir k) c))⟩

/-- The hierarchy moved by `c`: all its volumes. -/
noncomputable def BVH.SubTree.shift (c : V3) (st : BVH.SubTree) : BVH.SubTree :=
  { st with nodes := fun i => { st.nodes i with volume := (st.nodes i).volume.map (KDOP.shift c) } }

noncomputable def BVH.Tree.shift (c : V3) (t : BVH.Tree) : BVH.Tree := ⟨t.root.map (KDOP.shift c), t.chunks.map (BVH.SubTree.shift c)⟩

/-- The collision geometry of a body moved by `c`: mesh and distance field are in the frame of the body and stay, the volumes of the hierarchy are in world coordinates. -/
noncomputable def Collision.Collider.shift (c : V3) (C : Collider) : Collider := { C with bvh := C.bvh.shift c }

namespace Translation

theorem init_shift (t : ℝ) : Interval.init.shift t = Interval.init := by
  unfold Interval.shift Interval.init
  rw [EReal.top_add_coe, EReal.bot_add]

theorem add_le_iff (a b : EReal) (t : ℝ) : a + (t : EReal) ≤ b + (t : EReal) ↔ a ≤ b := by
  constructor
  · intro h
    have := add_le_add_left h ((-t : ℝ) : EReal)
    rw [add_assoc, add_assoc, ← EReal.coe_add, add_neg_cancel] at this
    simpa using this
  · intro h
    exact add_le_add_left h _

theorem add_min (a b : EReal) (t : ℝ) : min (a + (t : EReal)) (b + (t : EReal)) = min a b + (t : EReal) := by
  rcases le_total a b with h | h
  · rw [min_eq_left h, min_eq_left ((add_le_iff _ _ _).2 h)]
  · rw [min_eq_right h, min_eq_right ((add_le_iff _ _ _).2 h)]

theorem add_max (a b : EReal) (t : ℝ) : max (a + (t : EReal)) (b + (t : EReal)) = max a b + (t : EReal) := by
  rcases le_total a b with h | h
  · rw [max_eq_right h, max_eq_right ((add_le_iff _ _ _).2 h)]
  · rw [max_eq_left h, max_eq_left ((add_le_iff _ _ _).2 h)]

theorem dot_shift (d v c : V3) : ((V3.dot d (v + c) : ℝ) : EReal) = (V3.dot d v : ℝ) + ((V3.dot d c : ℝ) : EReal) := by
  rw [← EReal.coe_add]
  congr 1
  simp [V3.dot]
  ring

theorem fitSlab_shift (d : V3) (V : List V3) (c : V3) : KDOP.fitSlab d (V.map (· + c)) = (KDOP.fitSlab d V).shift (V3.dot d c) := by
  unfold KDOP.fitSlab
  have : ∀ I : Interval, (V.map (· + c)).foldl (fun I v => (⟨min I.lower (V3.dot d v : ℝ), max I.upper (V3.dot d v : ℝ)⟩ : Interval)) (I.shift (V3.dot d c)) =
      (V.foldl (fun I v => (⟨min I.lower (V3.dot d v : ℝ), max I.upper (V3.dot d v : ℝ)⟩ : Interval)) I).shift (V3.dot d c) := by
    induction V with
    | nil => intro I; rfl
    | cons v V ih =>
      intro I
      simp only [List.map_cons, List.foldl_cons]
      rw [← ih]
      congr 1
      unfold Interval.shift
      simp only [dot_shift, add_min, add_max]
  have h := this Interval.init
  rwa [init_shift] at h

theorem make_shift (K : ℕ) (V : List V3) (env : ℝ) (c : V3) : KDOP.make K (V.map (· + c)) env = (KDOP.make K V env).map (KDOP.shift c) := by
  unfold KDOP.make
  cases h : KDOP.get_direction_table K with
  | none => rfl
  | some dir =>
    simp only [Except.map, Except.ok.injEq]
    unfold KDOP.shift
    congr 1
    funext k
    dsimp only
    split_ifs with hk
    · rw [fitSlab_shift, h]
      unfold Interval.shift
      simp only [Option.elim]
      congr 1
      · rw [sub_eq_add_neg, sub_eq_add_neg, add_right_comm]
      · rw [add_right_comm]
    · rw [init_shift]

theorem union_shift (A B : KDOP) (c : V3) : KDOP.union (A.shift c) (B.shift c) = (KDOP.union A B).map (KDOP.shift c) := by
  unfold KDOP.union
  have hA : (A.shift c).K = A.K := rfl
  have hB : (B.shift c).K = B.K := rfl
  rw [hA, hB]
  by_cases h : A.K = B.K
  · rw [if_neg (not_not.2 h), if_neg (not_not.2 h)]
    simp only [Except.map, Except.ok.injEq]
    unfold KDOP.shift
    congr 1
    funext k
    dsimp only
    split_ifs with hk
    · rw [← h]
      unfold Interval.shift
      simp only [add_min, add_max]
    · rw [init_shift]
  · rw [if_pos h, if_pos h]
    rfl

theorem overlap_shift (A B : KDOP) (c : V3) : KDOP.overlap (A.shift c) (B.shift c) = KDOP.overlap A B := by
  unfold KDOP.overlap
  have hA : (A.shift c).K = A.K := rfl
  have hB : (B.shift c).K = B.K := rfl
  rw [hA, hB]
  by_cases h : A.K = B.K
  · rw [if_neg (not_not.2 h), if_neg (not_not.2 h)]
    simp only [Except.ok.injEq]
    congr 1
    apply propext
    refine forall_congr' fun k => imp_congr_right fun _ => not_congr ?_
    unfold KDOP.shift Interval.shift
    dsimp only
    rw [h]
    simp only [← not_le, add_le_iff]
  · rw [if_pos h, if_pos h]

theorem lookup_shift (X : List V3) (i : ℕ) (c : V3) : BVH.lookup (X.map (· + c)) i = (BVH.lookup X i).map (· + c) := by
  unfold BVH.lookup
  rw [List.getElem?_map]
  cases X[i]? <;> rfl

theorem mapM_comm {α β : Type} {f g : α → Except PyErr β} {m : β → β} (h : ∀ a, g a = (f a).map m) (L : List α) : L.mapM g = (L.mapM f).map (List.map m) := by
  induction L with
  | nil => rfl
  | cons a L ih =>
    rw [List.mapM_cons, List.mapM_cons, h, ih]
    cases f a with
    | error e => rfl
    | ok b => cases L.mapM f <;> rfl

theorem foldlM_comm {α σ : Type} {f g : σ → α → Except PyErr σ} {m : σ → σ} (h : ∀ s a, g (m s) a = (f s a).map m) (L : List α) (s : σ) :
    L.foldlM g (m s) = (L.foldlM f s).map m := by
  induction L generalizing s with
  | nil => rfl
  | cons a L ih =>
    rw [List.foldlM_cons, List.foldlM_cons, h]
    cases f s a with
    | error e => rfl
    | ok b => exact ih b

theorem gather_shift (X : List V3) (T : List (List ℕ)) (e : ℤ) (c : V3) : BVH.gather (X.map (· + c)) T e = (BVH.gather X T e).map (List.map (· + c)) := by
  unfold BVH.gather
  cases (if 0 ≤ e then T[e.toNat]? else none) with
  | none => rfl
  | some idx => exact mapM_comm (fun i => lookup_shift X i c) idx

theorem modify_shift (st : BVH.SubTree) (i : ℕ) (v : KDOP) (c : V3) :
    (st.shift c).modify i (fun n => { n with volume := some (v.shift c) }) = (st.modify i (fun n => { n with volume := some v })).map (BVH.SubTree.shift c) := by
  unfold BVH.SubTree.modify
  have hs : (st.shift c).size = st.size := rfl
  rw [hs]
  split_ifs with h
  · simp only [Except.map, Except.ok.injEq]
    unfold BVH.SubTree.shift
    congr 1
    funext j
    by_cases hj : j = i
    · subst hj
      simp
    · simp [Function.update_of_ne hj]
  · rfl

theorem get_shift (st : BVH.SubTree) (i : ℤ) (c : V3) :
    (st.shift c).get i = (st.get i).map fun n => { n with volume := n.volume.map (KDOP.shift c) } := by
  unfold BVH.SubTree.get
  have hs : (st.shift c).size = st.size := rfl
  rw [hs]
  split_ifs with h <;> rfl

theorem refitNode_shift (V : List V3) (T : List (List ℕ)) (K : ℕ) (env : ℝ) (c : V3) (st : BVH.SubTree) (i : ℕ) :
    BVH.refitNode (V.map (· + c)) T K env (st.shift c) i = (BVH.refitNode V T K env st i).map (BVH.SubTree.shift c) := by
  unfold BVH.refitNode
  have hu : BVH.is_undefined ((st.shift c).nodes i) = BVH.is_undefined (st.nodes i) := rfl
  have hl : BVH.is_leaf ((st.shift c).nodes i) = BVH.is_leaf (st.nodes i) := rfl
  have h1 : ((st.shift c).nodes i).start = (st.nodes i).start := rfl
  have h2 : ((st.shift c).nodes i).end = (st.nodes i).end := rfl
  dsimp only
  rw [hu, hl, h1, h2, gather_shift, get_shift, get_shift]
  split_ifs
  · rfl
  · cases BVH.gather V T (st.nodes i).start with
    | error e => rfl
    | ok P =>
      change (KDOP.make K (P.map (· + c)) env >>= _) = _
      rw [make_shift]
      change _ = Except.map _ (KDOP.make K P env >>= _)
      cases KDOP.make K P env with
      | error e => rfl
      | ok v => exact modify_shift st i v c
  · cases st.get (st.nodes i).start with
    | error e => rfl
    | ok a =>
      cases st.get (st.nodes i).end with
      | error e => rfl
      | ok b =>
        obtain ⟨va, _, _, _⟩ := a
        obtain ⟨vb, _, _, _⟩ := b
        cases va with
        | none => rfl
        | some va =>
          cases vb with
          | none => rfl
          | some vb =>
            change (KDOP.union (va.shift c) (vb.shift c) >>= _) = Except.map _ (KDOP.union va vb >>= _)
            rw [union_shift]
            cases KDOP.union va vb with
            | error e => rfl
            | ok v => exact modify_shift st i v c

theorem refit_sub_tree_shift (V : List V3) (T : List (List ℕ)) (K : ℕ) (env : ℝ) (c : V3) (st : BVH.SubTree) :
    BVH.refit_sub_tree (V.map (· + c)) T (st.shift c) K env = (BVH.refit_sub_tree V T st K env).map (BVH.SubTree.shift c) :=
  foldlM_comm (fun s i => refitNode_shift V T K env c s i) _ st

theorem initK_kdop (K : ℕ) (c : V3) : (KDOP.init K).shift c = KDOP.init K := by
  unfold KDOP.init KDOP.shift
  simp only [init_shift]

theorem rootStep_shift (c : V3) (r : KDOP) (st : BVH.SubTree) : BVH.rootStep (r.shift c) (st.shift c) = (BVH.rootStep r st).map (KDOP.shift c) := by
  unfold BVH.rootStep
  rw [get_shift]
  cases st.get 0 with
  | error e => rfl
  | ok n =>
    obtain ⟨v, _, _, _⟩ := n
    cases v with
    | none => rfl
    | some v => exact union_shift r v c

theorem refit_bvh_shift (V : List V3) (T : List (List ℕ)) (t : BVH.Tree) (K : ℕ) (env : ℝ) (c : V3) :
    BVH.refit_bvh (V.map (· + c)) T (t.shift c) K env = (BVH.refit_bvh V T t K env).map (BVH.Tree.shift c) := by
  have h1 : (t.chunks.map (BVH.SubTree.shift c)).mapM (fun st => BVH.refit_sub_tree (V.map (· + c)) T st K env) =
      (t.chunks.mapM fun st => BVH.refit_sub_tree V T st K env).map (List.map (BVH.SubTree.shift c)) := by
    rw [List.mapM_map]
    exact mapM_comm (fun st => refit_sub_tree_shift V T K env c st) _
  have h2 : ∀ (L : List BVH.SubTree) (r : KDOP), (L.map (BVH.SubTree.shift c)).foldlM BVH.rootStep (r.shift c) = (L.foldlM BVH.rootStep r).map (KDOP.shift c) := by
    intro L r
    rw [List.foldlM_map]
    exact foldlM_comm (fun r st => rootStep_shift c r st) L r
  unfold BVH.refit_bvh
  have hc : (t.shift c).chunks = t.chunks.map (BVH.SubTree.shift c) := rfl
  rw [hc, h1]
  cases t.chunks.mapM (fun st => BVH.refit_sub_tree V T st K env) with
  | error e => rfl
  | ok L =>
    have h := h2 L (KDOP.init K)
    rw [initK_kdop] at h
    change (List.foldlM BVH.rootStep (KDOP.init K) (L.map (BVH.SubTree.shift c)) >>= _) = Except.map _ (List.foldlM BVH.rootStep (KDOP.init K) L >>= _)
    rw [h]
    cases L.foldlM BVH.rootStep (KDOP.init K) <;> rfl

theorem travStep_shift (c : V3) (A B : BVH.SubTree) : BVH.travStep (A.shift c) (B.shift c) = BVH.travStep A B := by
  funext ⟨Q, R⟩
  cases Q with
  | nil => rfl
  | cons ij Q =>
    obtain ⟨ia, ib⟩ := ij
    unfold BVH.travStep
    dsimp only
    rw [get_shift, get_shift]
    cases A.get ia with
    | error e => rfl
    | ok a =>
      cases B.get ib with
      | error e => rfl
      | ok b =>
        obtain ⟨va, _, _, _⟩ := a
        obtain ⟨vb, _, _, _⟩ := b
        cases va with
        | none => rfl
        | some va =>
          cases vb with
          | none => rfl
          | some vb =>
            have h := overlap_shift va vb c
            change (KDOP.overlap (va.shift c) (vb.shift c) >>= _) = (KDOP.overlap va vb >>= _)
            rw [h]
            rfl

theorem traversal_shift (c : V3) (A B : BVH.Tree) : BVH.traversal (A.shift c) (B.shift c) = BVH.traversal A B := by
  obtain ⟨ra, ca⟩ := A
  obtain ⟨rb, cb⟩ := B
  cases ra with
  | none => rfl
  | some ra =>
    cases rb with
    | none => rfl
    | some rb =>
      have h := overlap_shift ra rb c
      change (KDOP.overlap (ra.shift c) (rb.shift c) >>= fun o => if ¬ o then Except.ok [] else
        (ca.map (BVH.SubTree.shift c)).foldlM (fun results sub_A => (cb.map (BVH.SubTree.shift c)).foldlM (fun results sub_B =>
        BVH.iterative_sub_tree_traversal sub_A sub_B results) results) []) = (KDOP.overlap ra rb >>= fun o => if ¬ o then Except.ok [] else
        ca.foldlM (fun results sub_A => cb.foldlM (fun results sub_B => BVH.iterative_sub_tree_traversal sub_A sub_B results) results) [])
      rw [h]
      have hi : ∀ A B R, BVH.iterative_sub_tree_traversal (A.shift c) (B.shift c) R = BVH.iterative_sub_tree_traversal A B R := by
        intro A B R
        unfold BVH.iterative_sub_tree_traversal
        rw [travStep_shift]
      simp only [List.foldlM_map, hi]

noncomputable abbrev shiftC (c : V3) (C : Fin N → Collider) : Fin N → Collider := fun k => (C k).shift c

theorem worldVertices_shift (c : V3) (b : RigidBody) (V : List V3) : worldVertices (b.shift c) V = (worldVertices b V).map (List.map (· + c)) := by
  unfold worldVertices
  have hq : (b.shift c).q = b.q := rfl
  have hr : (b.shift c).r = b.r + c := rfl
  rw [hq, hr]
  cases Quat.rotate_array b.q V with
  | error e => rfl
  | ok R =>
    simp only [Bind.bind, Except.bind, pure, Except.pure, Except.map, List.map_map, Except.ok.injEq]
    apply List.map_congr_left
    intro x _
    refine V3.ext ?_ ?_ ?_ <;> simp <;> ring

theorem refitBody_shift (c : V3) (P : Collision.CDParams) (b : RigidBody) (C : Collider) : refitBody P (b.shift c) (C.shift c) = (refitBody P b C).map (Collider.shift c) := by
  unfold refitBody
  have hV : (C.shift c).V = C.V := rfl
  have hT : (C.shift c).T = C.T := rfl
  have hB : (C.shift c).bvh = C.bvh.shift c := rfl
  rw [hV, hT, hB, worldVertices_shift]
  cases worldVertices b C.V with
  | error e => rfl
  | ok V =>
    change (BVH.refit_bvh (V.map (· + c)) (rows C.T) (C.bvh.shift c) P.K P.envelope >>= _) = Except.map _ (BVH.refit_bvh V (rows C.T) C.bvh P.K P.envelope >>= _)
    rw [refit_bvh_shift]
    cases BVH.refit_bvh V (rows C.T) C.bvh P.K P.envelope <;> rfl

theorem update_bvh_shift (c : V3) (P : Collision.CDParams) (B : Fin N → RigidBody) (C : Fin N → Collider) :
    update_bvh P (shiftB c B) (shiftC c C) = (update_bvh P B C).map (shiftC c) := by
  unfold update_bvh
  refine foldlM_comm (m := shiftC c) (fun C k => ?_) _ C
  change (refitBody P ((B k).shift c) ((C k).shift c) >>= _) = Except.map _ (refitBody P (B k) (C k) >>= _)
  rw [refitBody_shift]
  cases refitBody P (B k) (C k) with
  | error e => rfl
  | ok D =>
    simp only [Bind.bind, Except.bind, pure, Except.pure, Except.map, Except.ok.injEq]
    funext j
    by_cases hj : j = k
    · subst hj
      simp [shiftC]
    · simp [shiftC, Function.update_of_ne hj]

theorem narrow_phase_shift (c : V3) (C : Fin N → Collider) : narrow_phase (shiftC c C) = narrow_phase C := by
  unfold narrow_phase
  have : narrowPair (shiftC c C) = narrowPair C := by
    funext ij
    unfold narrowPair
    have := traversal_shift c (C ij.1).bvh (C ij.2).bvh
    change (BVH.traversal ((C ij.1).bvh.shift c) ((C ij.2).bvh.shift c) >>= _) = _
    rw [this]
  rw [this]

theorem verticesInFrame_shift (c : V3) (a b : RigidBody) (V : List V3) : verticesInFrame (a.shift c) (b.shift c) V = verticesInFrame a b V := by
  unfold verticesInFrame
  rw [worldVertices_shift]
  cases worldVertices a V with
  | error e => rfl
  | ok W =>
    change Quat.rotate_array (Quat.conjugate b.q) ((W.map (· + c)).map (· - (b.r + c))) = Quat.rotate_array (Quat.conjugate b.q) (W.map (· - b.r))
    rw [List.map_map]
    congr 1
    apply List.map_congr_left
    intro x _
    refine V3.ext ?_ ?_ ?_ <;> simp

theorem contactAt_shift (c : V3) (P : Collision.CDParams) (kA kB : Fin N) (b : RigidBody) (g : Grid) (x : V3) :
    contactAt P kA kB (b.shift c) g x = (contactAt P kA kB b g x).map (Option.map (ContactPoint.shift c)) := by
  unfold contactAt
  have hq : (b.shift c).q = b.q := rfl
  have hr : (b.shift c).r = b.r + c := rfl
  rw [hq, hr]
  cases g.is_inside x with
  | error e => rfl
  | ok i =>
    simp only [Bind.bind, Except.bind]
    by_cases hi : i = true
    · rw [if_pos hi, if_pos hi]
      cases g.get_value x with
      | error e => rfl
      | ok phi =>
        simp only
        by_cases hp : phi ≤ P.envelope
        · rw [if_pos hp, if_pos hp]
          cases g.get_gradient x with
          | error e => rfl
          | ok n =>
            simp only
            by_cases hn : V3.norm (Quat.rotate b.q n) > 0
            · rw [if_pos hn, if_pos hn]
              unfold ContactPoint.init
              by_cases h1 : |1.0 - V3.norm (V3.unit (Quat.rotate b.q n))| > 0.1
              · rw [if_pos h1, if_pos h1]
                rfl
              · rw [if_neg h1, if_neg h1]
                simp only [pure, Except.pure, Except.map, Except.ok.injEq, Option.map_some, Option.some.injEq]
                unfold ContactPoint.shift
                simp only [ContactPoint.mk.injEq, and_true, true_and]
                refine V3.ext ?_ ?_ ?_ <;> simp <;> ring
            · rw [if_neg hn, if_neg hn]
              rfl
        · rw [if_neg hp, if_neg hp]
          rfl
    · rw [if_neg hi, if_neg hi]
      rfl

theorem triangleContact_shift (c : V3) (P : Collision.CDParams) (kA kB : Fin N) (b : RigidBody) (g : Grid) (V : List V3) (T : List VMesh.Tri) (t : ℤ) :
    triangleContact P kA kB (b.shift c) g V T t = (triangleContact P kA kB b g V T t).map (Option.map (ContactPoint.shift c)) := by
  unfold triangleContact
  cases corners V T t with
  | error e => rfl
  | ok p =>
    change (frankWolfe P g p >>= _) = Except.map _ (frankWolfe P g p >>= _)
    cases frankWolfe P g p with
    | error e => rfl
    | ok x => exact contactAt_shift c P kA kB b g x

theorem filterMap_shift (c : V3) (L : List (Option (ContactPoint N))) :
    (L.map (Option.map (ContactPoint.shift c))).filterMap id = (L.filterMap id).map (ContactPoint.shift c) := by
  induction L with
  | nil => rfl
  | cons a L ih =>
    cases a with
    | none => exact ih
    | some a => exact congrArg (a.shift c :: ·) ih

theorem compute_contacts_shift (c : V3) (P : Collision.CDParams) (B : Fin N → RigidBody) (C : Fin N → Collider) (kA kB : Fin N) (L : List ℤ) :
    compute_contacts P (shiftB c B) (shiftC c C) kA kB L = (compute_contacts P B C kA kB L).map (List.map (ContactPoint.shift c)) := by
  unfold compute_contacts
  change (verticesInFrame ((B kA).shift c) ((B kB).shift c) (C kA).V >>= fun V_b => L.mapM (triangleContact P kA kB ((B kB).shift c) (C kB).grid V_b (C kA).T) >>= _) = _
  rw [verticesInFrame_shift]
  cases verticesInFrame (B kA) (B kB) (C kA).V with
  | error e => rfl
  | ok V =>
    have h := mapM_comm (fun t => triangleContact_shift c P kA kB (B kB) (C kB).grid V (C kA).T t) L
    change (L.mapM (triangleContact P kA kB ((B kB).shift c) (C kB).grid V (C kA).T) >>= _) = Except.map _ (L.mapM (triangleContact P kA kB (B kB) (C kB).grid V (C kA).T) >>= _)
    rw [h]
    cases L.mapM (triangleContact P kA kB (B kB) (C kB).grid V (C kA).T) with
    | error e => rfl
    | ok R => exact congrArg Except.ok (filterMap_shift c R)

theorem pairContacts_shift (c : V3) (P : Collision.CDParams) (B : Fin N → RigidBody) (C : Fin N → Collider) (o : (Fin N × Fin N) × List (ℤ × ℤ)) :
    pairContacts P (shiftB c B) (shiftC c C) o = (pairContacts P B C o).map (List.map (ContactPoint.shift c)) := by
  unfold pairContacts
  rw [compute_contacts_shift, compute_contacts_shift]
  cases compute_contacts P B C o.1.1 o.1.2 (unique (o.2.map (·.1))) with
  | error e => rfl
  | ok a =>
    cases compute_contacts P B C o.1.2 o.1.1 (unique (o.2.map (·.2))) with
    | error e => rfl
    | ok b => exact congrArg Except.ok List.map_append.symm

theorem contact_determination_shift (c : V3) (P : Collision.CDParams) (B : Fin N → RigidBody) (C : Fin N → Collider) (O : List ((Fin N × Fin N) × List (ℤ × ℤ))) :
    contact_determination P (shiftB c B) (shiftC c C) O = (contact_determination P B C O).map (List.map (ContactPoint.shift c)) := by
  unfold contact_determination
  rw [mapM_comm (fun o => pairContacts_shift c P B C o) O]
  cases O.mapM (pairContacts P B C) with
  | error e => rfl
  | ok R => exact congrArg Except.ok List.map_flatten.symm

theorem redundant_shift (c : V3) (p q : ContactPoint N) : redundant (p.shift c) (q.shift c) = redundant p q := by
  have h : p.p + c = q.p + c ↔ p.p = q.p := by
    constructor
    · intro h
      rw [V3.ext_iff] at h ⊢
      simpa using h
    · intro h
      rw [h]
  unfold redundant ContactPoint.shift
  rw [decide_eq_decide]
  exact and_congr_right fun _ => h

theorem contact_reduction_shift (c : V3) (L : List (ContactPoint N)) : contact_reduction (L.map (ContactPoint.shift c)) = (contact_reduction L).map (ContactPoint.shift c) := by
  unfold contact_reduction reduceBy
  have : ∀ R : List (ContactPoint N), (L.map (ContactPoint.shift c)).foldl (fun reduced cp1 => if reduced.any (fun cp2 => redundant cp1 cp2) then reduced else reduced ++ [cp1])
      (R.map (ContactPoint.shift c)) = (L.foldl (fun reduced cp1 => if reduced.any (fun cp2 => redundant cp1 cp2) then reduced else reduced ++ [cp1]) R).map (ContactPoint.shift c) := by
    induction L with
    | nil => intro R; rfl
    | cons a L ih =>
      intro R
      simp only [List.map_cons, List.foldl_cons]
      rw [← ih]
      congr 1
      simp only [List.any_map, Function.comp_def, redundant_shift]
      split_ifs <;> simp
  exact this []

end Translation

open Translation

/-- **C131.** The package's own collision detection does not depend on where the origin is: with bodies and hierarchies moved by `c` it finds the same contacts, moved by
`c`, and leaves the same hierarchies, moved by `c`. -/
theorem C131_collision_detection (P : Collision.CDParams) (c : V3) (B : Fin N → RigidBody) (C : Fin N → Collider) :
    run_collision_detection P (fun k => (B k).shift c) (fun k => (C k).shift c) =
      (run_collision_detection P B C).map fun r => (fun k => (r.1 k).shift c, r.2.map (ContactPoint.shift c)) := by
  unfold run_collision_detection
  rw [update_bvh_shift]
  cases update_bvh P B C with
  | error e => rfl
  | ok D =>
    change (narrow_phase (shiftC c D) >>= _) = Except.map _ (narrow_phase D >>= _)
    rw [narrow_phase_shift]
    cases narrow_phase D with
    | error e => rfl
    | ok O =>
      change (contact_determination P (shiftB c B) (shiftC c D) O >>= _) = Except.map _ (contact_determination P B D O >>= _)
      rw [contact_determination_shift]
      cases contact_determination P B D O with
      | error e => rfl
      | ok L =>
        have h := contact_reduction_shift c L
        change Except.ok (shiftC c D, contact_reduction (L.map (ContactPoint.shift c))) = _
        rw [h]
        rfl

/-- The engine moved by `c`: bodies, contact points and hierarchies. -/
noncomputable def Translation.simShift (c : V3) (s : Sim N) : Sim N := (World.shift c s.1, fun k => (s.2 k).shift c)

/-- **C131.** One step of the whole simulator. -/
theorem C131_full_step (P : Collision.CDParams) (c : V3) (dt : ℝ) (s : Sim N) : fullStep P dt (Translation.simShift c s) = (fullStep P dt s).map (Translation.simShift c) := by
  obtain ⟨w, C⟩ := s
  have hcd := fun B => C131_collision_detection P c B C
  unfold fullStep
  have h : step (fun w => (run_collision_detection P w.bodies (shiftC c C)).map Prod.snd) dt (World.shift c w) =
      (step (fun w => (run_collision_detection P w.bodies C).map Prod.snd) dt w).map (World.shift c) := by
    rw [step_eq, step_eq]
    have hb : (World.shift c w).bodies = shiftB c w.bodies := rfl
    have h1 : (run_collision_detection P (World.shift c w).bodies (shiftC c C)).map Prod.snd = ((run_collision_detection P w.bodies C).map Prod.snd).map (List.map (ContactPoint.shift c)) := by
      have := hcd w.bodies
      change run_collision_detection P (World.shift c w).bodies (shiftC c C) = _ at this
      rw [this]
      cases run_collision_detection P w.bodies C <;> rfl
    rw [h1, hb, copy_from_shift]
    cases copy_from_engine w.bodies with
    | error e => rfl
    | ok s =>
      cases (run_collision_detection P w.bodies C).map Prod.snd with
      | error e => rfl
      | ok cps =>
        have h := afterCD_shift c dt s { w with contact_points := cps }
        change (afterCD dt (shiftS c s) (World.shift c { w with contact_points := cps }) >>= _) = _
        rw [h]
        simp only [Bind.bind, Except.bind]
        cases afterCD dt s { w with contact_points := cps } with
        | error e => rfl
        | ok t =>
          simp only [Except.map, pure, Except.pure]
          rw [copy_to_shift]
          rfl
  change (step (fun w => (run_collision_detection P w.bodies (shiftC c C)).map Prod.snd) dt (World.shift c w) >>= fun w' =>
    run_collision_detection P (shiftB c w.bodies) (shiftC c C) >>= fun r => Except.ok (w', r.1)) = Except.map _ (step _ dt w >>= _)
  rw [h]
  cases step (fun w => (run_collision_detection P w.bodies C).map Prod.snd) dt w with
  | error e => rfl
  | ok w' =>
    have := hcd w.bodies
    change run_collision_detection P (shiftB c w.bodies) (shiftC c C) = _ at this
    change (run_collision_detection P (shiftB c w.bodies) (shiftC c C) >>= _) = Except.map _ (run_collision_detection P w.bodies C >>= _)
    rw [this]
    cases run_collision_detection P w.bodies C <;> rfl

/-- **C131.** `simulate` of the whole simulator. -/
theorem C131_full_simulate (P : Collision.CDParams) (c : V3) (s : Sim N) (T : ℝ) : fullSimulate P (Translation.simShift c s) T = (fullSimulate P s T).map (Translation.simShift c) := by
  unfold fullSimulate
  split_ifs with hT
  · rfl
  · have h := whileLoop_forget (fullTrip (N := N) P) (fullTrip P) (fun s : Sim N × ℝ => (Translation.simShift c s.1, s.2)) (by
      rintro ⟨s, t⟩
      unfold fullTrip
      dsimp only
      split_ifs with ht
      · rfl
      · have hp : (Translation.simShift c s).1.params = s.1.params := rfl
        rw [hp, C131_full_step]
        cases fullStep P (min t s.1.params.time_step) s <;> rfl) (s, T)
    dsimp only at h
    rw [← h]
    cases whileLoop (fullTrip P) (s, T) <;> rfl

end Verif
