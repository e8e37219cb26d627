import Verif.Model.SceneChain
import Verif.Props.FullScene
import Verif.Props.UrdfFindings

/-! C102: the chain of cubes joined by hinges. -/

namespace Verif

open Rigid Rigid.SceneM SMesh
open VMesh (Tri)

/-! ### The centre of mass of a box -/

theorem box_centroid {w h d : ℝ} (hv : w * h * d ≠ 0) : centroid (create_box w h d).1 (create_box w h d).2 = 0 := by
  have hS : ((create_box w h d).2.map fun t => det3 ((create_box w h d).1.getD t.a 0) ((create_box w h d).1.getD t.b 0)
      ((create_box w h d).1.getD t.c 0)).sum = 6 * (w * h * d) := by
    have := (C33_box w h d).2.2
    unfold enclosedVolume at this
    linarith
  have key : ∀ e : V3, V3.dot e (centroid (create_box w h d).1 (create_box w h d).2) = 0 := by
    intro e
    have h1 := dot_centroid e (create_box w h d).1 (create_box w h d).2
    rw [hS, if_neg (by simpa using hv)] at h1
    have h2 : ((create_box w h d).2.map fun t => det3 ((create_box w h d).1.getD t.a 0) ((create_box w h d).1.getD t.b 0)
        ((create_box w h d).1.getD t.c 0) * V3.dot e ((create_box w h d).1.getD t.a 0 + (create_box w h d).1.getD t.b 0 +
        (create_box w h d).1.getD t.c 0)).sum = 0 := by
      simp [create_box, boxT, det3, V3.dot]
      ring
    rw [h2] at h1
    have : 6 * (w * h * d) * 4 ≠ 0 := by
      intro h0; apply hv; linarith
    have h3 : V3.dot e (centroid (create_box w h d).1 (create_box w h d).2) * (6 * (w * h * d) * 4) = 0 := by linarith
    exact (mul_eq_zero.1 h3).resolve_right this
  refine V3.ext ?_ ?_ ?_
  · simpa [V3.dot] using key ⟨1, 0, 0⟩
  · simpa [V3.dot] using key ⟨0, 1, 0⟩
  · simpa [V3.dot] using key ⟨0, 0, 1⟩

theorem box_massCentre {w h d : ℝ} (hv : w * h * d ≠ 0) : massCentre (create_box w h d).1 (create_box w h d).2 = 0 := by
  unfold massCentre
  rw [box_centroid hv]
  have : snap 0 = 0 := by unfold snap; simp
  refine V3.ext ?_ ?_ ?_ <;> exact this

/-! ### Hinges -/

/-- The hinge called `name` joins body p (parent) and body c (child) at the world point O with the world axis S: both bodies hold the
anchor point at O and the axis along S. -/
def JoinedAt (s : Scene) (name p c : String) (O S : V3) : Prop :=
  ∃ ho pb cb ap ac np nc, s.eng.hinges.get? name = some ho ∧ s.eng.bodies.get? p = some pb ∧ s.eng.bodies.get? c = some cb ∧
    ho.parent = some p ∧ ho.child = some c ∧ ho.arm_p = some ap ∧ ho.arm_c = some ac ∧ ho.axis_p = some np ∧
    ho.axis_c = some nc ∧ bodyToWorld pb.body ap = O ∧ bodyToWorld cb.body ac = O ∧
    Quat.rotate pb.body.q np = S ∧ Quat.rotate cb.body.q nc = S

/-- The name of the hinge between link k and link k + 1. -/
def hingeName (N : List String) (k : ℕ) : String := N.getD k "" ++ "_" ++ N.getD (k + 1) ""

theorem query_ok {α : Type} {f : Engine → Except PyErr α} {s s' : Scene} {a : α} :
    query f s = .ok (a, s') ↔ f s.eng = .ok a ∧ s' = s := by
  unfold query
  cases h : f s.eng with
  | error e => simp [bind, Except.bind]
  | ok e =>
    simp only [bind, Except.bind, pure, Except.pure, Except.ok.injEq, Prod.mk.injEq]
    constructor
    · rintro ⟨rfl, rfl⟩; exact ⟨rfl, rfl⟩
    · rintro ⟨rfl, rfl⟩; exact ⟨rfl, rfl⟩

theorem nameAt_ok {N : List String} {k : ℕ} {s s' : Scene} {n : String} :
    nameAt N k s = .ok (n, s') ↔ N[k]? = some n ∧ s' = s := by
  unfold nameAt
  cases h : N[k]? with
  | none => simp only; constructor
            · intro h; cases h
            · rintro ⟨h, -⟩; cases h
  | some m =>
    simp only [pure_ok, Option.some.injEq]
    exact ⟨fun ⟨a, b⟩ => ⟨a, b.symm⟩, fun ⟨a, b⟩ => ⟨a, b.symm⟩⟩

theorem getPosition_ok {e : Engine} {n : String} {r : V3} : e.get_position n = .ok r ↔ ∃ o, e.bodies.get? n = some o ∧ o.body.r = r := by
  unfold Engine.get_position
  cases hb : e.bodies.get? n with
  | none => rw [findBody_none hb]; simp [bind, Except.bind]
  | some o => rw [findBody_ok.2 hb]; simp [bind, Except.bind, pure, Except.pure]

theorem unit_k : V3.unit V3.k = V3.k := by
  have hn : V3.norm V3.k = 1 := by
    unfold V3.norm V3.k V3.dot
    norm_num
  unfold V3.unit V3.divs
  rw [hn]
  refine V3.ext ?_ ?_ ?_ <;> simp

/-- One hinge. -/
theorem linkHinge_ok {N : List String} {k : ℕ} {s s' : Scene} {u : Unit} (hg : SceneGood s)
    (h : linkHinge N k s = .ok (u, s')) :
    ∃ p c pb cb ho, N[k]? = some p ∧ N[k + 1]? = some c ∧ s.eng.bodies.get? p = some pb ∧ s.eng.bodies.get? c = some cb ∧
      s.eng.hinges.get? (p ++ "_" ++ c) = none ∧
      s' = { s with eng := { s.eng with hinges := s.eng.hinges.setItem (p ++ "_" ++ c) ho } } ∧ SceneGood s' ∧
      JoinedAt s' (p ++ "_" ++ c) p c (V3.divs (pb.body.r + cb.body.r) 2) V3.k := by
  unfold linkHinge at h
  rw [bind_ok] at h
  obtain ⟨p, s1, h1, h⟩ := h
  obtain ⟨hp, rfl⟩ := nameAt_ok.1 h1
  rw [bind_ok] at h
  obtain ⟨c, s1, h1', h⟩ := h
  obtain ⟨hc, rfl⟩ := nameAt_ok.1 h1'
  rw [bind_ok] at h
  obtain ⟨u1, s2, h2, h⟩ := h
  obtain ⟨e1, h2, hs2⟩ := api_ok.1 h2
  have hg2 : SceneGood s2 := by
    rw [hs2]
    exact hg.call (op := .createHinge (p ++ "_" ++ c)) (by intros; simp) h2
  unfold Engine.create_hinge at h2
  split_ifs at h2 with hm
  rw [Bool.not_eq_true] at hm
  cases h2
  rw [bind_ok] at h
  obtain ⟨rp, s3, h3, h⟩ := h
  obtain ⟨h3, rfl⟩ := query_ok.1 h3
  rw [bind_ok] at h
  obtain ⟨rc, s4, h4, h⟩ := h
  obtain ⟨h4, rfl⟩ := query_ok.1 h4
  obtain ⟨e2, h5, hs'⟩ := api_ok.1 h
  obtain ⟨pb, hpb, rfl⟩ := getPosition_ok.1 h3
  obtain ⟨cb, hcb, rfl⟩ := getPosition_ok.1 h4
  have hgs' : SceneGood s' := by
    rw [hs']
    exact hg2.call (op := .setHinge (p ++ "_" ++ c) p c (V3.divs (pb.body.r + cb.body.r) 2) V3.k .world) (by intros; simp) h5
  have hunit : ∀ n o, s4.eng.bodies.get? n = some o → IsUnitQ o.body.q := by
    intro n o ho
    obtain ⟨i, -, h⟩ := hg2.eng.bodies.get? ho
    exact h.2.2.1
  obtain ⟨O, S, ho, ap, ac, np, nc, ⟨hO, hS⟩, -, rfl, f1, f2, f3, f4, f5, f6, f7, f8, f9, f10⟩ :=
    C41_set_hinge h5 hpb hcb (hunit _ _ hpb) (hunit _ _ hcb) (by intro h; cases h)
      (by unfold V3.k; intro h; have := congrArg V3.z h; simp at this)
  subst hs2
  simp only [setItem_setItem] at hs'
  simp only at hpb hcb
  subst hs'
  subst hO hS
  rw [unit_k] at f9 f10
  refine ⟨p, c, pb, cb, ho, hp, hc, hpb, hcb, (Dict.get?_eq_none _ _).2 hm, rfl, hgs', ho, pb, cb, ap, ac, np, nc,
    Dict.get?_setItem_self _ _ _, hpb, hcb, f1, f2, f3, f4, f5, f6, f7, f8, f9, f10⟩

/-- All hinges. -/
theorem hinges_ok (N : List String) : ∀ (L : List ℕ) (s s' : Scene) (u : Unit), SceneGood s →
    L.forM (linkHinge N) s = .ok (u, s') →
    SceneGood s' ∧ (∃ hs, s' = { s with eng := { s.eng with hinges := hs } }) ∧
      s'.eng.hinges.keys = s.eng.hinges.keys ++ L.map (hingeName N) ∧
      (∀ k ∈ L, s.eng.hinges.get? (hingeName N k) = none) ∧ (L.map (hingeName N)).Nodup ∧
      (∀ n, n ∉ L.map (hingeName N) → s'.eng.hinges.get? n = s.eng.hinges.get? n) ∧
      ∀ k ∈ L, ∃ p c pb cb, N[k]? = some p ∧ N[k + 1]? = some c ∧ s.eng.bodies.get? p = some pb ∧ s.eng.bodies.get? c = some cb ∧
        JoinedAt s' (hingeName N k) p c (V3.divs (pb.body.r + cb.body.r) 2) V3.k := by
  intro L
  induction L with
  | nil =>
    intro s s' u hg h
    change (pure PUnit.unit : SceneM PUnit) s = _ at h
    obtain ⟨-, rfl⟩ := pure_ok.1 h
    exact ⟨hg, ⟨_, rfl⟩, by simp, by simp, by simp, fun _ _ => rfl, by simp⟩
  | cons k L ih =>
    intro s s' u hg h
    change (linkHinge N k >>= fun _ => L.forM (linkHinge N)) s = _ at h
    rw [bind_ok] at h
    obtain ⟨u1, s1, h1, h2⟩ := h
    obtain ⟨p, c, pb, cb, ho, hp, hc, hpb, hcb, hnone, hs1, hg1, hj⟩ := linkHinge_ok hg h1
    have hname : hingeName N k = p ++ "_" ++ c := by
      unfold hingeName
      rw [List.getD_eq_getElem?_getD, List.getD_eq_getElem?_getD, hp, hc]
      rfl
    rw [← hname] at hnone hs1 hj
    obtain ⟨a1, ⟨hs, a2⟩, a3, a4, a5, a6, a7⟩ := ih s1 s' u hg1 h2
    have hk1 : s1.eng.hinges.keys = s.eng.hinges.keys ++ [hingeName N k] := by
      rw [hs1]; exact get?_keys_setItem_new hnone
    have hnot : hingeName N k ∉ L.map (hingeName N) := by
      intro hin
      obtain ⟨j, hj', e⟩ := List.mem_map.1 hin
      have := a4 j hj'
      rw [e, hs1] at this
      simp only [Dict.get?_setItem_self] at this
      cases this
    have hnew : ∀ n, n ≠ hingeName N k → s1.eng.hinges.get? n = s.eng.hinges.get? n := by
      intro n hn
      rw [hs1]; exact Dict.get?_setItem_ne _ _ hn
    refine ⟨a1, ⟨hs, by rw [a2, hs1]⟩, by rw [a3, hk1]; simp, ?_, by rw [List.map_cons, List.nodup_cons]; exact ⟨hnot, a5⟩, ?_, ?_⟩
    · intro j hj'
      rcases List.mem_cons.1 hj' with rfl | hj'
      · exact hnone
      · rw [← hnew _ (fun e => hnot (e ▸ List.mem_map_of_mem hj'))]
        exact a4 j hj'
    · intro n hn
      rw [List.map_cons, List.mem_cons, not_or] at hn
      rw [a6 n hn.2, hnew n hn.1]
    · intro j hj'
      rcases List.mem_cons.1 hj' with rfl | hj'
      · refine ⟨p, c, pb, cb, hp, hc, hpb, hcb, ?_⟩
        obtain ⟨ho', pb', cb', ap, ac, np, nc, f0, f1, f2, f3⟩ := hj
        refine ⟨ho', pb', cb', ap, ac, np, nc, by rw [a6 _ hnot]; exact f0, ?_, ?_, f3⟩
        · rw [a2]; exact f1
        · rw [a2]; exact f2
      · obtain ⟨p', c', pb', cb', f1, f2, f3, f4, f5⟩ := a7 j hj'
        refine ⟨p', c', pb', cb', f1, f2, ?_, ?_, f5⟩
        · rw [hs1] at f3; exact f3
        · rw [hs1] at f4; exact f4

/-! ### The links -/

/-- The x coordinate of link k of a chain of K cubes of edge length a: the cubes stand on an edge, so that each takes √2·a of the chain,
and there is a gap of 5 % of that between them; the chain is centred at the origin. -/
noncomputable def chainX (a : ℝ) (K : ℕ) (k : ℝ) : ℝ := (k - (K - 1) / 2) * (21 / 20 * (Real.sqrt 2 * a))

/-- Link k: a cube of edge length a, turned 45° about the z axis. -/
noncomputable def chainCube (a : ℝ) (K k : ℕ) : Brick :=
  ⟨(create_box a a a).1, (create_box a a a).2, ⟨chainX a K k, 0, 0⟩, Quat.Rz (Real.pi / 4)⟩

theorem sqrt_two_sq {a : ℝ} (ha : 0 ≤ a) : Real.sqrt (2 * a ^ 2) = Real.sqrt 2 * a := by
  rw [Real.sqrt_mul (by norm_num), Real.sqrt_sq ha]

theorem chainLink_eq {a : ℝ} (ha : 0 ≤ a) (shape : String) (K k : ℕ) (density : ℝ) (material : String) :
    chainLink shape (Real.sqrt (2 * a ^ 2)) (Real.sqrt (2 * a ^ 2) / 2.0) (0.1 * (Real.sqrt (2 * a ^ 2) / 2.0))
      ((K : ℝ) * Real.sqrt (2 * a ^ 2) + ((K : ℝ) - 1) * (0.1 * (Real.sqrt (2 * a ^ 2) / 2.0))) density material k = (do
        let n ← newBody "link" shape ⟨chainX a K k, 0, 0⟩ (Quat.Rz (Real.pi / 4))
        setup "free" material density n
        return n) := by
  unfold chainLink chainX
  have e : (k : ℝ) * (Real.sqrt (2 * a ^ 2) + 0.1 * (Real.sqrt (2 * a ^ 2) / 2.0)) + Real.sqrt (2 * a ^ 2) / 2.0 -
      ((K : ℝ) * Real.sqrt (2 * a ^ 2) + ((K : ℝ) - 1) * (0.1 * (Real.sqrt (2 * a ^ 2) / 2.0))) / 2.0 =
      (k - (K - 1) / 2) * (21 / 20 * (Real.sqrt 2 * a)) := by
    rw [sqrt_two_sq ha, lit2, show (0.1:ℝ) = 1 / 10 by norm_num]
    generalize Real.sqrt 2 * a = d
    ring
  simp only [e, lit0]

theorem link_ok {a : ℝ} {shape material : String} {K k : ℕ} {density : ℝ} {s s' : Scene} {n : String}
    (hsh : HasShape s shape (create_box a a a))
    (h : (do
        let n ← newBody "link" shape ⟨chainX a K k, 0, 0⟩ (Quat.Rz (Real.pi / 4))
        setup "free" material density n
        return n : SceneM String) s = .ok (n, s')) :
    PutUp (Finished false material density) s s' [chainCube a K k] [n] ∧ n = s.gen 0 "link" ∧ (s'.gen = fun i => s.gen (i + 1)) ∧
      (SceneGood s → SceneGood s') := by
  rw [bind_ok] at h
  obtain ⟨n', s1, h1, h2⟩ := h
  rw [bind_ok] at h2
  obtain ⟨u, s2, h3, h4⟩ := h2
  obtain ⟨rfl, rfl⟩ := pure_ok.1 h4
  have hb := (newBody_ok hsh h1).setup (setup_ok (Or.inr ⟨rfl, rfl⟩) h3)
  rw [(C01_unit_spec _).2.1 (Rz_unit _)] at hb
  refine ⟨hb, ?_, ?_, fun hg => setup_good (newBody_good hg h1) h3⟩
  all_goals
    unfold newBody generate_unique_name at h1
    rw [bind_ok] at h1
    obtain ⟨name, t1, g1, h1⟩ := h1
    simp only [Except.ok.injEq, Prod.mk.injEq] at g1
    obtain ⟨rfl, rfl⟩ := g1
    rw [bind_ok] at h1
    obtain ⟨_, t2, g2, h1⟩ := h1
    obtain ⟨e2, -, rfl⟩ := api_ok.1 g2
    rw [bind_ok] at h1
    obtain ⟨_, t3, g3, h1⟩ := h1
    obtain ⟨e3, -, rfl⟩ := api_ok.1 g3
    rw [bind_ok] at h1
    obtain ⟨_, t4, g4, h1⟩ := h1
    obtain ⟨e4, -, rfl⟩ := api_ok.1 g4
    rw [bind_ok] at h1
    obtain ⟨_, t5, g5, h1⟩ := h1
    obtain ⟨e5, -, rfl⟩ := api_ok.1 g5
    obtain ⟨rfl, rfl⟩ := pure_ok.1 h1
  · rfl
  · unfold setup at h3
    rw [bind_ok] at h3
    obtain ⟨_, t6, g6, h3⟩ := h3
    obtain ⟨e6, -, rfl⟩ := api_ok.1 g6
    rw [bind_ok] at h3
    obtain ⟨_, t7, g7, h3⟩ := h3
    obtain ⟨e7, -, rfl⟩ := api_ok.1 g7
    obtain ⟨e8, -, rfl⟩ := api_ok.1 h3
    rfl

/-- The loop over the links. -/
theorem links_ok {a : ℝ} {shape material : String} {K : ℕ} {density : ℝ} :
    ∀ (L : List ℕ) (s s' : Scene) (N : List String), HasShape s shape (create_box a a a) →
    L.mapM (fun (k : ℕ) => (do
        let n ← newBody "link" shape ⟨chainX a K k, 0, 0⟩ (Quat.Rz (Real.pi / 4))
        setup "free" material density n
        return n : SceneM String)) s = .ok (N, s') →
    PutUp (Finished false material density) s s' (L.map (chainCube a K)) N ∧
      N = (List.range L.length).map (fun (i : ℕ) => s.gen i "link") ∧ (SceneGood s → SceneGood s') := by
  intro L
  induction L with
  | nil =>
    intro s s' N _ h
    rw [List.mapM_nil, pure_ok] at h
    obtain ⟨rfl, rfl⟩ := h
    exact ⟨PutUp.nil _ _, rfl, id⟩
  | cons k L ih =>
    intro s s' N hsh h
    rw [List.mapM_cons, bind_ok] at h
    obtain ⟨n, s1, h1, h2⟩ := h
    rw [bind_ok] at h2
    obtain ⟨N', s2, h3, h4⟩ := h2
    obtain ⟨rfl, rfl⟩ := pure_ok.1 h4
    obtain ⟨a1, a2, a3, a4⟩ := link_ok hsh h1
    obtain ⟨b1, b2, b3⟩ := ih s1 s2 N' (hsh.grows a1.1) h3
    refine ⟨by simpa using a1.append b1, ?_, fun hg => b3 (a4 hg)⟩
    rw [List.length_cons, List.range_succ_eq_map, List.map_cons, List.map_map, ← a2, b2, a3]
    rfl

theorem chain_x {a : ℝ} (ha : 0 < a) {K k : ℕ} {p : V3} (hp : p ∈ (chainCube a K k).world) :
    chainX a K k - Real.sqrt 2 * a / 2 ≤ p.x ∧ p.x ≤ chainX a K k + Real.sqrt 2 * a / 2 := by
  unfold Brick.world at hp
  obtain ⟨v, hv, rfl⟩ := List.mem_map.1 hp
  obtain ⟨hx, hy, -⟩ := mem_box hv
  unfold Brick.at chainCube
  simp only [rotate_Rz, V3.add_x, Real.cos_pi_div_four, Real.sin_pi_div_four]
  have h2 : 0 < Real.sqrt 2 := by positivity
  have h3 : 0 < Real.sqrt 2 * a := by positivity
  rcases hx with e | e <;> rcases hy with e' | e' <;> rw [e, e'] <;> constructor <;> nlinarith

theorem chain_apart {a : ℝ} (ha : 0 < a) (K : ℕ) :
    ((List.range K).map (chainCube a K)).Pairwise fun b b' => PlaneApart b.world b'.world := by
  rw [List.pairwise_map]
  refine List.pairwise_lt_range.imp ?_
  intro i j hij
  have h3 : 0 < Real.sqrt 2 * a := by positivity
  have hij' : (i : ℝ) + 1 ≤ j := by exact_mod_cast hij
  refine PlaneApart.of_x (chainX a K i + Real.sqrt 2 * a / 2) (fun p hp => (chain_x ha hp).2) fun p hp => le_trans ?_ (chain_x ha hp).1
  unfold chainX
  nlinarith

/-! ### The theorem -/

/-- `set_body_type` "fixed" of a body. -/
theorem set_fixed_ok {e e' : Engine} {n : String} (h : e.set_body_type n "fixed" = .ok e') : ∃ b,
    e.bodies.get? n = some b ∧ e' = { e with bodies := e.bodies.setItem n { b with body := { b.body with is_fixed := true } } } := by
  obtain ⟨b, hb, hcase⟩ := set_type_ok h
  rcases hcase with ⟨-, h⟩ | ⟨h, -⟩
  · exact ⟨b, hb, h⟩
  · exact absurd h (by decide)

/-- What a builder of a chain leaves: K new bodies, called `names` in the order of the chain, that are cubes of edge length a turned by 45°,
in a row along the x axis, at rest, the first one fixed and the others free; no two overlap; K − 1 new hinges, called after the two links they
join, with the z axis as their axis and the point half way between the two links as their anchor point; and nothing else is changed. -/
structure ChainBuilt (s s' : Scene) (names : List String) (a : ℝ) (K : ℕ) (density : ℝ) (material : String) : Prop where
  length : names.length = K
  positive : 1 ≤ K
  keys : s'.eng.bodies.keys = s.eng.bodies.keys ++ names
  fresh : ∀ n ∈ names, s.eng.bodies.get? n = none
  nodup : names.Nodup
  old : ∀ n, n ∉ names → s'.eng.bodies.get? n = s.eng.bodies.get? n
  rest : s'.eng.forces = s.eng.forces ∧ s'.eng.surfaces_interactions = s.eng.surfaces_interactions ∧ s'.eng.params = s.eng.params
  apart : NoOverlap s' names
  link : ∀ (k : ℕ) (n : String), names[k]? = some n → ∃ o m, s'.eng.bodies.get? n = some o ∧ s'.worldMesh n = some m ∧
    m.V.Perm (chainCube a K k).world ∧
    (trianglesOf m.V m.T).Perm ((trianglesOf (create_box a a a).1 (create_box a a a).2).map fun t =>
      ((chainCube a K k).at t.1, (chainCube a K k).at t.2.1, (chainCube a K k).at t.2.2)) ∧
    o.body.is_fixed = decide (k = 0) ∧ o.body.material = material ∧ o.body.mass = snapPos (a * a * a) * density ∧
    o.body.r = ⟨chainX a K k, 0, 0⟩
  hingeKeys : s'.eng.hinges.keys = s.eng.hinges.keys ++ (List.range (K - 1)).map (hingeName names)
  hingeNew : ∀ k < K - 1, s.eng.hinges.get? (hingeName names k) = none
  hingeNodup : ((List.range (K - 1)).map (hingeName names)).Nodup
  hingeOld : ∀ n, n ∉ (List.range (K - 1)).map (hingeName names) → s'.eng.hinges.get? n = s.eng.hinges.get? n
  hinge : ∀ (k : ℕ) (p c : String), names[k]? = some p → names[k + 1]? = some c →
    JoinedAt s' (p ++ "_" ++ c) p c ⟨chainX a K (k + 1 / 2), 0, 0⟩ V3.k

/-- **C102.** Whatever the engine held before, whenever `create_cube_hinge_chain` returns it has built the chain. -/
theorem C102_chain {eig : Eig} (he : EigSpec eig) {a : ℝ} (ha : 0 < a) {K : ℕ} {density : ℝ} {material : String}
    {s s' : Scene} {names : List String} (hok : s.OK) (hg : SceneGood s)
    (hrun : create_cube_hinge_chain eig a K density material s = .ok (names, s')) :
    ChainBuilt s s' names a K density material ∧ SceneGood s' ∧ s'.OK := by
  unfold create_cube_hinge_chain at hrun
  rw [bind_ok] at hrun
  obtain ⟨shape, s1, h1, hrun⟩ := hrun
  obtain ⟨g1, hsh⟩ := newShape_ok he hok (C33_box_closed a a a).1 (C33_box_closed a a a).2 h1
  have hg1 := newShape_good he (box_star ha ha ha) hg h1
  rw [bind_ok] at hrun
  obtain ⟨N, s2, h2, hrun⟩ := hrun
  rw [show (chainLink shape (Real.sqrt (2 * a ^ 2)) (Real.sqrt (2 * a ^ 2) / 2.0) (0.1 * (Real.sqrt (2 * a ^ 2) / 2.0))
      ((K : ℝ) * Real.sqrt (2 * a ^ 2) + ((K : ℝ) - 1) * (0.1 * (Real.sqrt (2 * a ^ 2) / 2.0))) density material) = _ from
    funext fun k => chainLink_eq ha.le shape K k density material] at h2
  obtain ⟨b1, b2, b3⟩ := links_ok _ _ _ _ hsh h2
  have hg2 := b3 hg1
  have A := (PutUp.of_grows g1 b1).adds
  rw [bind_ok] at hrun
  obtain ⟨first, t, h3, hrun⟩ := hrun
  obtain ⟨hfirst, rfl⟩ := nameAt_ok.1 h3
  rw [bind_ok] at hrun
  obtain ⟨_, s3, h4, hrun⟩ := hrun
  replace h4 := api_ok.1 h4
  obtain ⟨e3, h4, rfl⟩ := h4
  have hg3 : SceneGood { t with eng := e3 } := hg2.call (op := .setType first "fixed") (by intros; simp) h4
  obtain ⟨fb, hfb, rfl⟩ := set_fixed_ok h4
  rw [bind_ok] at hrun
  obtain ⟨_, s4, h5, hrun⟩ := hrun
  obtain ⟨rfl, rfl⟩ := pure_ok.1 hrun
  obtain ⟨c1, ⟨hs, rfl⟩, c3, c4, c5, c6, c7⟩ := hinges_ok N _ _ _ _ hg3 h5
  have hlen : N.length = K := by rw [A.length]; simp
  have hK : 1 ≤ K := by
    rw [← hlen]
    exact Nat.succ_le_of_lt (List.getElem?_eq_some_iff.1 hfirst).1
  have hlink : ∀ (k : ℕ) (n : String), N[k]? = some n → ∃ o m,
      (t.eng.bodies.setItem first { fb with body := { fb.body with is_fixed := true } }).get? n = some o ∧
      (Scene.mk { t.eng with bodies := t.eng.bodies.setItem first (BodyObj.mk fb.idx { fb.body with is_fixed := true }), hinges := hs }
          t.meshes t.gen).worldMesh n = some m ∧
    t.worldMesh n = some m ∧
    m.V.Perm (chainCube a K k).world ∧
    (trianglesOf m.V m.T).Perm ((trianglesOf (create_box a a a).1 (create_box a a a).2).map fun t =>
      ((chainCube a K k).at t.1, (chainCube a K k).at t.2.1, (chainCube a K k).at t.2.2)) ∧
    o.body.is_fixed = decide (k = 0) ∧ o.body.material = material ∧ o.body.mass = snapPos (a * a * a) * density ∧
    o.body.r = ⟨chainX a K k, 0, 0⟩ := by
    intro k n hk
    have hkK : k < K := by rw [← hlen]; exact (List.getElem?_eq_some_iff.1 hk).1
    have hb : ((List.range K).map (chainCube a K))[k]? = some (chainCube a K k) := by
      rw [List.getElem?_map, List.getElem?_range hkK]; rfl
    obtain ⟨o, m, d1, d2, d3, d4, d5, d6, d7, d8⟩ := A.each k n _ hk hb
    have hvol : enclosedVolume (chainCube a K k).V (chainCube a K k).T = a * a * a := (C33_box a a a).2.2
    have hcen : massCentre (chainCube a K k).V (chainCube a K k).T = 0 := box_massCentre (by positivity)
    rw [hvol] at d7
    rw [hcen] at d8
    unfold Brick.at at d8
    rw [rotate_zero, add_zero] at d8
    by_cases hk0 : k = 0
    · subst hk0
      rw [hfirst] at hk
      cases hk
      rw [hfb] at d1
      cases d1
      refine ⟨_, m, Dict.get?_setItem_self _ _ _, ?_, d2, d3, d4, by simp, d6, d7, d8⟩
      rw [← d2]
      unfold Scene.worldMesh
      simp only [Dict.get?_setItem_self, hfb]
      rfl
    · have hne : n ≠ first := by
        rintro rfl
        have := A.nodup
        rw [List.nodup_iff_injective_getElem] at this
        obtain ⟨h0, e0⟩ := List.getElem?_eq_some_iff.1 hfirst
        obtain ⟨hk', ek⟩ := List.getElem?_eq_some_iff.1 hk
        have := @this ⟨k, hk'⟩ ⟨0, h0⟩ (by simp [e0, ek])
        simp only [Fin.mk.injEq] at this
        exact hk0 this
      refine ⟨o, m, by rw [Dict.get?_setItem_ne _ _ hne]; exact d1, ?_, d2, d3, d4, by rw [d5]; simp [hk0], d6, d7, d8⟩
      rw [← d2]
      unfold Scene.worldMesh
      simp only [Dict.get?_setItem_ne _ _ hne]
  have hfirstN : first ∈ N := List.mem_of_getElem? hfirst
  refine ⟨⟨hlen, hK, ?_, A.fresh, A.nodup, ?_, ⟨A.rest.1, A.rest.2.2.1, A.rest.2.2.2⟩, ?_, ?_, ?_, ?_, c5, ?_, ?_⟩, c1, ?_⟩
  · show (Dict.setItem _ _ _).keys = _
    rw [Dict.keys_replace hfb, A.keys]
  · intro n hn
    show (Dict.setItem _ _ _).get? _ = _
    rw [Dict.get?_setItem_ne _ _ (by rintro rfl; exact hn hfirstN), A.old n hn]
  · intro n hn n' hn' hne
    obtain ⟨m, m', e1, e2, e3⟩ := A.noOverlap (chain_apart ha K) n hn n' hn' hne
    obtain ⟨i, -, hi, -⟩ := A.mem hn
    obtain ⟨j, -, hj, -⟩ := A.mem hn'
    obtain ⟨o, mm, -, f1, f2, -⟩ := hlink i n hi
    obtain ⟨o', mm', -, f1', f2', -⟩ := hlink j n' hj
    rw [e1] at f2
    rw [e2] at f2'
    cases f2
    cases f2'
    exact ⟨m, m', f1, f1', e3⟩
  · intro k n hk
    obtain ⟨o, m, d1, d2, -, d3⟩ := hlink k n hk
    exact ⟨o, m, d1, d2, d3⟩
  · rw [c3]
    show t.eng.hinges.keys ++ _ = _
    rw [A.rest.2.1]
  · intro k hk
    have := c4 k (List.mem_range.2 hk)
    change t.eng.hinges.get? _ = none at this
    rw [A.rest.2.1] at this
    exact this
  · intro n hn
    rw [c6 n hn]
    show t.eng.hinges.get? _ = _
    rw [A.rest.2.1]
  · intro k p c hp hc
    have hk : k < K - 1 := by
      have := (List.getElem?_eq_some_iff.1 hc).1
      omega
    obtain ⟨p', c', pb, cb, f1, f2, f3, f4, f5⟩ := c7 k (List.mem_range.2 hk)
    rw [hp] at f1
    rw [hc] at f2
    cases f1
    cases f2
    obtain ⟨o1, -, d1, -, -, -, -, -, -, -, d8⟩ := hlink k p hp
    obtain ⟨o2, -, d1', -, -, -, -, -, -, -, d8'⟩ := hlink (k + 1) c hc
    simp only at f3 f4
    rw [d1] at f3
    rw [d1'] at f4
    cases f3
    cases f4
    rw [d8, d8'] at f5
    have hname : hingeName N k = p ++ "_" ++ c := by
      unfold hingeName
      rw [List.getD_eq_getElem?_getD, List.getD_eq_getElem?_getD, hp, hc]
      rfl
    rw [hname] at f5
    have hO : V3.divs ((⟨chainX a K k, 0, 0⟩ : V3) + ⟨chainX a K ((k + 1 : ℕ) : ℝ), 0, 0⟩) 2 = ⟨chainX a K (k + 1 / 2), 0, 0⟩ := by
      unfold V3.divs chainX
      refine V3.ext ?_ ?_ ?_ <;> simp
      ring
    rw [hO] at f5
    exact f5
  · have := A.ok hok
    unfold Rigid.Scene.OK at *
    exact this

/-! ### It succeeds -/

theorem linkHinge_runs {N : List String} {k : ℕ} {s : Scene} {p c : String} {pb cb : BodyObj} (hp : N[k]? = some p)
    (hc : N[k + 1]? = some c) (hpb : s.eng.bodies.get? p = some pb) (hcb : s.eng.bodies.get? c = some cb)
    (hn : s.eng.hinges.get? (p ++ "_" ++ c) = none) : ∃ s', linkHinge N k s = .ok ((), s') := by
  unfold linkHinge
  have h1 : ∀ t : Scene, nameAt N k t = .ok (p, t) := fun t => nameAt_ok.2 ⟨hp, rfl⟩
  have h2 : ∀ t : Scene, nameAt N (k + 1) t = .ok (c, t) := fun t => nameAt_ok.2 ⟨hc, rfl⟩
  rw [scene_bind (h1 s), scene_bind (h2 s)]
  have h3 : api (fun e => e.create_hinge (p ++ "_" ++ c)) s = .ok ((), Scene.mk
      { s.eng with hinges := s.eng.hinges.setItem (p ++ "_" ++ c) (HingeObj.init (p ++ "_" ++ c) s.eng.hinges.len) }
      s.meshes s.gen) := by
    rw [api_ok]
    refine ⟨_, ?_, rfl⟩
    unfold Engine.create_hinge
    rw [if_neg]
    rw [(Dict.get?_eq_none _ _).1 hn]; simp
  rw [scene_bind h3]
  rw [scene_bind (query_ok.2 ⟨getPosition_ok.2 ⟨pb, hpb, rfl⟩, rfl⟩), scene_bind (query_ok.2 ⟨getPosition_ok.2 ⟨cb, hcb, rfl⟩, rfl⟩)]
  have h4 : ∀ (e : Engine) (g : HingeObj) (O S : V3), e.hinges.get? (p ++ "_" ++ c) = some g → e.bodies.get? p = some pb →
      e.bodies.get? c = some cb → ∃ e', e.set_hinge (p ++ "_" ++ c) p c O S .world = .ok e' := by
    intro e g O S a1 a2 a3
    unfold Engine.set_hinge
    rw [findHinge_ok.2 a1, findBody_ok.2 a2, findBody_ok.2 a3]
    exact ⟨_, rfl⟩
  obtain ⟨e', h5⟩ := h4
    { s.eng with hinges := s.eng.hinges.setItem (p ++ "_" ++ c) (HingeObj.init (p ++ "_" ++ c) s.eng.hinges.len) } _
    (V3.divs (pb.body.r + cb.body.r) 2) V3.k (Dict.get?_setItem_self _ _ _) hpb hcb
  exact ⟨_, api_ok.2 ⟨e', h5, rfl⟩⟩

theorem hinges_run (N : List String) : ∀ (L : List ℕ) (s : Scene), SceneGood s →
    (∀ k ∈ L, ∃ p c pb cb, N[k]? = some p ∧ N[k + 1]? = some c ∧ s.eng.bodies.get? p = some pb ∧ s.eng.bodies.get? c = some cb) →
    (∀ k ∈ L, s.eng.hinges.get? (hingeName N k) = none) → (L.map (hingeName N)).Nodup →
    ∃ s', L.forM (linkHinge N) s = .ok ((), s') := by
  intro L
  induction L with
  | nil => intro s _ _ _ _; exact ⟨s, rfl⟩
  | cons k L ih =>
    intro s hg hL hn hd
    obtain ⟨p, c, pb, cb, hp, hc, hpb, hcb⟩ := hL k (by simp)
    have hname : hingeName N k = p ++ "_" ++ c := by
      unfold hingeName
      rw [List.getD_eq_getElem?_getD, List.getD_eq_getElem?_getD, hp, hc]
      rfl
    obtain ⟨s1, h1⟩ := linkHinge_runs hp hc hpb hcb (by rw [← hname]; exact hn k (by simp))
    obtain ⟨p', c', pb', cb', ho, hp', hc', -, -, -, hs1, hg1, -⟩ := linkHinge_ok hg h1
    rw [hp] at hp'
    rw [hc] at hc'
    cases hp'
    cases hc'
    rw [List.map_cons, List.nodup_cons] at hd
    obtain ⟨s2, h2⟩ := ih s1 hg1 (by
        intro j hj
        obtain ⟨p, c, pb, cb, a1, a2, a3, a4⟩ := hL j (by simp [hj])
        exact ⟨p, c, pb, cb, a1, a2, by rw [hs1]; exact a3, by rw [hs1]; exact a4⟩) (by
        intro j hj
        rw [hs1]
        show (Dict.setItem _ _ _).get? _ = _
        rw [Dict.get?_setItem_ne]
        · exact hn j (by simp [hj])
        · rw [← hname]
          intro e
          exact hd.1 (e ▸ List.mem_map_of_mem hj)) hd.2
    refine ⟨s2, ?_⟩
    show (linkHinge N k >>= fun _ => L.forM (linkHinge N)) s = _
    exact bind_ok.2 ⟨(), s1, h1, h2⟩

theorem newShape_gen {eig : Eig} {base : String} {VT : List V3 × List Tri} {s s' : Scene} {n : String}
    (h : newShape eig base VT s = .ok (n, s')) : s'.gen = fun i => s.gen (i + 1) := by
  unfold newShape generate_unique_name at h
  rw [bind_ok] at h
  obtain ⟨name, s1, h1, h2⟩ := h
  simp only [Except.ok.injEq, Prod.mk.injEq] at h1
  obtain ⟨rfl, rfl⟩ := h1
  simp only [bind, Except.bind] at h2
  split at h2
  · cases h2
  rename_i m hm
  split at h2
  · cases h2
  rename_i s2 hs2
  simp only [pure, Except.pure, Except.ok.injEq, Prod.mk.injEq] at h2
  rw [← h2.2]
  unfold Scene.create_shape at hs2
  split at hs2
  · cases hs2
  simp only [bind, Except.bind] at hs2
  split at hs2
  · cases hs2
  cases hc : Engine.create_shape _ _ _ _ _ _ with
  | error e => rw [hc] at hs2; cases hs2
  | ok e =>
  rw [hc, if_pos trivial] at hs2
  split at hs2
  · cases hs2
  simp only [pure, Except.pure, Except.ok.injEq] at hs2
  rw [← hs2]

/-- **C102.** It does return, for every edge length a > 0, every number K ≥ 1 of links, every density and every material the engine knows, as
long as the generated names are new and the hinge names made from them are, too; and more can be built afterwards. -/
theorem C102_chain_succeeds {eig : Eig} (he : EigSpec eig) {a : ℝ} (ha : 0 < a) {K : ℕ} (hK : 1 ≤ K) (density : ℝ) {material : String}
    {s : Scene} (hr : Ready material s)
    (hnew : ∀ k < K - 1, s.eng.hinges.get? (s.gen (k + 1) "link" ++ "_" ++ s.gen (k + 2) "link") = none)
    (hdiff : ∀ j < K - 1, ∀ k < K - 1, j ≠ k →
      s.gen (j + 1) "link" ++ "_" ++ s.gen (j + 2) "link" ≠ s.gen (k + 1) "link" ++ "_" ++ s.gen (k + 2) "link") :
    ∃ names s', create_cube_hinge_chain eig a K density material s = .ok (names, s') ∧
      (names = (List.range K).map fun (k : ℕ) => s.gen (k + 1) "link") ∧ Ready material s' := by
  unfold create_cube_hinge_chain
  obtain ⟨shape, s1, h1, r1, hs1, g1⟩ := newShape_runs he (base := "cube") hr (box_star ha ha ha)
  have hgen := newShape_gen h1
  rw [scene_bind h1]
  have h2 : ∃ N s2, (List.range K).mapM (fun (k : ℕ) => (do
        let n ← newBody "link" shape ⟨chainX a K k, 0, 0⟩ (Quat.Rz (Real.pi / 4))
        setup "free" material density n
        return n : SceneM String)) s1 = .ok (N, s2) ∧ (Ready material s2 ∧ HasShape s2 shape (create_box a a a)) ∧ Up s1 s2 N := by
    refine mapM_bodies_runs (fun s => Ready material s ∧ HasShape s shape (create_box a a a)) ?_ s1 ⟨r1, hs1⟩
    intro i _ s hi
    refine bind_runs (body_runs hi) ?_
    rintro n s3 ⟨⟨r3, hs3⟩, B, u3⟩
    obtain ⟨b, -, o, sh, m, g1, g2, -⟩ := placed_mem u3.2 (List.mem_singleton.2 rfl)
    obtain ⟨s4, h4, r4⟩ := setup_runs (density := density) (Or.inr rfl) r3 g1 g2
    have hs := setup_ok (Or.inr ⟨rfl, rfl⟩) h4
    refine bind_runs (P := fun _ s' => s' = s4) ⟨(), s4, h4, rfl⟩ ?_
    rintro _ _ rfl
    refine pure_runs ⟨⟨r4, ?_⟩, B, (u3.setup hs).mono fun _ _ _ _ hh => hh.1⟩
    obtain ⟨sh, m, a1, a2, a3, a4⟩ := hs3
    exact ⟨sh, m, by rw [hs.shapes]; exact a1, a2, by rw [hs.meshes]; exact a3, a4⟩
  obtain ⟨N, s2, h2, ⟨r2, -⟩, u2⟩ := h2
  obtain ⟨b1, b2, -⟩ := links_ok _ _ _ _ hs1 h2
  have hN : N = (List.range K).map fun (k : ℕ) => s.gen (k + 1) "link" := by
    rw [b2, hgen, List.length_range]
  have h2' : (List.range K).mapM (chainLink shape (Real.sqrt (2 * a ^ 2)) (Real.sqrt (2 * a ^ 2) / 2.0)
      (0.1 * (Real.sqrt (2 * a ^ 2) / 2.0)) ((K : ℝ) * Real.sqrt (2 * a ^ 2) + ((K : ℝ) - 1) * (0.1 * (Real.sqrt (2 * a ^ 2) / 2.0)))
      density material) s1 = .ok (N, s2) := by
    rw [show (chainLink shape (Real.sqrt (2 * a ^ 2)) (Real.sqrt (2 * a ^ 2) / 2.0) (0.1 * (Real.sqrt (2 * a ^ 2) / 2.0))
      ((K : ℝ) * Real.sqrt (2 * a ^ 2) + ((K : ℝ) - 1) * (0.1 * (Real.sqrt (2 * a ^ 2) / 2.0))) density material) = _ from
      funext fun k => chainLink_eq ha.le shape K k density material]
    exact h2
  rw [scene_bind h2']
  have hget : ∀ k < K, N[k]? = some (s.gen (k + 1) "link") := by
    intro k hk
    rw [hN, List.getElem?_map, List.getElem?_range hk]; rfl
  have hbody : ∀ k < K, ∃ o, s2.eng.bodies.get? (s.gen (k + 1) "link") = some o := by
    intro k hk
    obtain ⟨b, -, o, sh, m, g1, g2, -⟩ := placed_mem b1.2 (List.mem_of_getElem? (hget k hk))
    exact ⟨o, g1⟩
  rw [scene_bind (nameAt_ok.2 ⟨hget 0 hK, rfl⟩)]
  obtain ⟨fb, hfb⟩ := hbody 0 hK
  have h3 : s2.eng.set_body_type (s.gen (0 + 1) "link") "fixed" = .ok
      { s2.eng with bodies := s2.eng.bodies.setItem (s.gen (0 + 1) "link") { fb with body := { fb.body with is_fixed := true } } } := by
    unfold Engine.set_body_type
    rw [findBody_ok.2 hfb]
    simp only [bind, Except.bind]
    rw [if_pos (by decide), updateBody_some _ hfb]
  obtain ⟨e3, he3⟩ : ∃ e, e =
      { s2.eng with bodies := s2.eng.bodies.setItem (s.gen (0 + 1) "link") { fb with body := { fb.body with is_fixed := true } } } :=
    ⟨_, rfl⟩
  rw [← he3] at h3
  have hg3 : SceneGood { s2 with eng := e3 } := r2.good.call (op := .setType (s.gen (0 + 1) "link") "fixed") (by intros; simp) h3
  rw [scene_bind (api_ok (u := ()) |>.2 ⟨e3, h3, rfl⟩)]
  have hhn : ∀ k < K - 1, hingeName N k = s.gen (k + 1) "link" ++ "_" ++ s.gen (k + 2) "link" := by
    intro k hk
    unfold hingeName
    rw [List.getD_eq_getElem?_getD, List.getD_eq_getElem?_getD, hget k (by omega), hget (k + 1) (by omega)]
    rfl
  have hhinges : e3.hinges = s.eng.hinges := by
    rw [he3]
    show s2.eng.hinges = _
    rw [b1.1.hinges, g1.hinges]
  obtain ⟨s4, h4⟩ := hinges_run N (List.range (K - 1)) { s2 with eng := e3 } hg3 (by
      intro k hk
      have hk := List.mem_range.1 hk
      have hb3 : ∀ k < K, ∃ o, e3.bodies.get? (s.gen (k + 1) "link") = some o := by
        intro k hk
        rw [he3]
        show ∃ o, (Dict.setItem _ _ _).get? _ = _
        rw [Dict.get?_setItem]
        split_ifs
        · exact ⟨_, rfl⟩
        · exact hbody k hk
      obtain ⟨o1, q1⟩ := hb3 k (by omega)
      obtain ⟨o2, q2⟩ := hb3 (k + 1) (by omega)
      exact ⟨_, _, o1, o2, hget k (by omega), hget (k + 1) (by omega), q1, q2⟩) (by
      intro k hk
      have hk := List.mem_range.1 hk
      show e3.hinges.get? _ = _
      rw [hhinges, hhn k hk]
      exact hnew k hk) (by
      rw [List.nodup_map_iff_inj_on List.nodup_range]
      intro j hj k hk e
      have hj := List.mem_range.1 hj
      have hk := List.mem_range.1 hk
      rw [hhn j hj, hhn k hk] at e
      by_contra hjk
      exact hdiff j hj k hk hjk e)
  rw [scene_bind h4]
  obtain ⟨q1, ⟨hs, rfl⟩, -⟩ := hinges_ok N _ _ _ _ hg3 h4
  refine ⟨N, _, rfl, hN, ⟨?_, ⟨?_, r2.names.2⟩, ?_, q1⟩⟩
  · intro n hn
    change e3.shapes.get? n = none at hn
    rw [he3] at hn
    exact r2.ok n hn
  · intro i b
    refine ⟨?_, ?_⟩
    · show e3.shapes.get? _ = _
      rw [he3]; exact (r2.names.1 i b).1
    · show e3.bodies.get? _ = _
      have := (r2.names.1 i b).2
      rw [he3]
      show (Dict.setItem _ _ _).get? _ = _
      rw [Dict.get?_setItem_ne]
      · exact this
      · intro e
        change s2.gen i b = _ at e
        rw [e, hfb] at this
        cases this
  · show e3.surfaces_interactions.exist_material material = true
    rw [he3]; exact r2.material

/-- **C102.** Without links there is no first link: a chain of zero cubes raises IndexError (after its shape has been made). -/
theorem C102_no_links {eig : Eig} (he : EigSpec eig) {a : ℝ} (ha : 0 < a) (density : ℝ) {material : String} {s : Scene}
    (hr : Ready material s) : create_cube_hinge_chain eig a 0 density material s = .error .indexError := by
  unfold create_cube_hinge_chain
  obtain ⟨shape, s1, h1, -⟩ := newShape_runs he (base := "cube") hr (box_star ha ha ha)
  rw [scene_bind h1]
  simp only [List.range_zero, List.mapM_nil]
  rfl

/-- **C102.** The chain is ready to be simulated: in an engine that was complete before, with a density other than zero and cubes of a volume
above the threshold 1e-10 of mass.py. -/
theorem C102_chain_complete {s s' : Scene} {names : List String} {a : ℝ} {K : ℕ} {density : ℝ} {material : String}
    (h : ChainBuilt s s' names a K density material) (hc : Complete s) (hd : density ≠ 0) (hv : 1e-10 < a * a * a) : Complete s' := by
  have hcase : ∀ n o, s'.eng.bodies.get? n = some o → (s.eng.bodies.get? n = some o) ∨
      (o.body.shape ≠ none ∧ (o.body.is_fixed = false → o.body.mass ≠ 0)) := by
    intro n o ho
    by_cases hn : n ∈ names
    · right
      obtain ⟨i, hi, rfl⟩ := List.getElem_of_mem hn
      obtain ⟨o', m, h1, h2, -, -, -, -, h4, -⟩ := h.link i _ (List.getElem?_eq_getElem hi)
      rw [ho] at h1
      cases h1
      refine ⟨?_, ?_⟩
      · intro h0
        unfold Scene.worldMesh at h2
        rw [ho] at h2
        change (o.body.shape >>= _) = _ at h2
        rw [h0] at h2
        cases h2
      · intro _
        rw [h4]
        unfold snapPos
        rw [if_pos hv]
        exact mul_ne_zero (by linarith [show (0:ℝ) < 1e-10 by norm_num]) hd
    · left
      rw [← h.old n hn]; exact ho
  refine ⟨?_, ?_, ?_⟩
  · intro n o ho
    rcases hcase n o ho with h1 | h1
    · exact hc.shape n o h1
    · exact h1.1
  · intro n o ho hf
    rcases hcase n o ho with h1 | h1
    · exact hc.mass n o h1 hf
    · exact h1.2 hf
  · intro n hh hn
    by_cases hin : n ∈ (List.range (K - 1)).map (hingeName names)
    · obtain ⟨k, hk, rfl⟩ := List.mem_map.1 hin
      have hk := List.mem_range.1 hk
      have hl := h.length
      have e1 : names[k]? = some names[k] := List.getElem?_eq_getElem (by omega)
      have e2 : names[k + 1]? = some names[k + 1] := List.getElem?_eq_getElem (by omega)
      obtain ⟨ho, pb, cb, ap, ac, np, nc, f0, -, -, f3, -⟩ := h.hinge k _ _ e1 e2
      have hname : hingeName names k = names[k] ++ "_" ++ names[k + 1] := by
        unfold hingeName
        rw [List.getD_eq_getElem?_getD, List.getD_eq_getElem?_getD, e1, e2]
        rfl
      rw [hname, f0] at hn
      cases hn
      rw [f3]; simp
    · rw [h.hingeOld n hin] at hn
      exact hc.hinge n hh hn

/-- **C102.** From the first call to the last: a chain of K ≥ 1 cubes is built in a fresh engine, and simulated, for every edge length (with a volume
above 1e-10), density other than zero and time; whatever the distance fields say, nothing raises. -/
theorem C102_chain_simulates {eig : Eig} (he : EigSpec eig) {a : ℝ} (ha : 0 < a) (hv : 1e-10 < a * a * a) {K : ℕ} (hK : 1 ≤ K)
    {density : ℝ} (hden : density ≠ 0) {sd : SignedDistance} (hsd : OnePerNode sd) {T : ℝ} (hT : 0 < T) :
    ∃ names s W C s', create_cube_hinge_chain eig a K density "default" freshScene = .ok (names, s) ∧
      ChainBuilt freshScene s names a K density "default" ∧
      s.eng.toWorld = some W ∧ (∀ i, s.collider sd GeoParams.init (W.bodies i) = .ok (C i)) ∧
      fullSimulate GeoParams.init.toCDParams (W, C) T = .ok s' ∧ SameWorld (W, C) s' ∧ Simulable s' := by
  obtain ⟨names, s, h1, -⟩ := C102_chain_succeeds he ha hK density freshScene_ready (fun _ _ => rfl) (by
    intro j _ k _ hjk e
    have := congrArg (fun x => x.toList.length) e
    simp [freshScene] at this
    omega)
  obtain ⟨h2, h3, -⟩ := C102_chain he ha freshScene_ready.ok freshScene_ready.good h1
  have hc0 : Complete freshScene := ⟨fun n o h => (by cases h), fun n o h => (by cases h), fun n o h => (by cases h)⟩
  have hc := C102_chain_complete h2 hc0 hden hv
  have hts : s.eng.params.time_step = 0.01 := by rw [h2.rest.2.2]; rfl
  obtain ⟨W, C, a1, a2, -, a4⟩ := C95_scene hsd goodGeo_default h3 hc (by rw [hts]; norm_num)
  obtain ⟨s', dts, b1, -, -, -, -, b2, b3⟩ := a4 T hT
  exact ⟨names, s, W, C, s', h1, h2, a1, a2, b1, b2, b3⟩

/-- A chain of ten unit cubes. -/
example (eig : Eig) (he : EigSpec eig) : ∃ names s, create_cube_hinge_chain eig 1 10 1 "default" freshScene = .ok (names, s) ∧
    ChainBuilt freshScene s names 1 10 1 "default" := by
  obtain ⟨names, s, W, C, s', h1, h2, -⟩ := C102_chain_simulates he (a := 1) one_pos (by norm_num) (K := 10) (by norm_num) (density := 1)
    one_ne_zero (sd := fun nodes _ _ => nodes.map fun _ => 1) (fun _ _ _ => by simp) one_pos
  exact ⟨names, s, h1, h2⟩

end Verif
