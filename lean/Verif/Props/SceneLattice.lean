import Verif.Model.SceneLattice
import Verif.Props.SceneRuns
import Verif.Props.FullScene
import Verif.Props.SceneChain

/-! C103: lattices of bodies. -/

namespace Verif

open Rigid Rigid.SceneM SMesh
open VMesh (Tri)

/-! ### Placing a body by its centre of mass -/

/-- The solid VT turned so that the frame a becomes the world's axes, then turned by q, with its centre of mass at r. -/
noncomputable def centred (VT : List V3 × List Tri) (a : Quat) (r : V3) (q : Quat) : Brick :=
  ⟨VT.1, VT.2, r - Quat.rotate (Quat.prod q (Quat.conjugate a)) (massCentre VT.1 VT.2), Quat.prod q (Quat.conjugate a)⟩

theorem centred_at (VT : List V3 × List Tri) (a : Quat) (r : V3) (q : Quat) (v : V3) :
    (centred VT a r q).at v = r + Quat.rotate (Quat.prod q (Quat.conjugate a)) (v - massCentre VT.1 VT.2) := by
  unfold centred Brick.at
  rw [sub_eq_add_neg v, rotate_add, rotate_neg]
  refine V3.ext ?_ ?_ ?_ <;> simp <;> ring

theorem centred_centre (VT : List V3 × List Tri) (a : Quat) (r : V3) (q : Quat) :
    (centred VT a r q).at (massCentre VT.1 VT.2) = r := by
  rw [centred_at, sub_self, rotate_zero, add_zero]

/-- The frame of the shape called k (the principal axes found by `create_shape`). -/
noncomputable def axesOf (s : Scene) (k : String) : Quat :=
  match s.eng.shapes.get? k with
  | some sh => sh.q
  | none => Quat.identity

theorem axesOf_grows {s s' : Scene} {N : List String} {k : String} {VT : List V3 × List Tri} (hg : Grows s s' N)
    (h : HasShape s k VT) : axesOf s' k = axesOf s k := by
  obtain ⟨sh, m, h1, -⟩ := h
  unfold axesOf
  rw [h1, hg.shapes _ _ h1]

theorem axesOf_unit {s : Scene} {k : String} {VT : List V3 × List Tri} (h : HasShape s k VT) : IsUnitQ (axesOf s k) := by
  obtain ⟨sh, m, h1, -, -, ⟨h2, -⟩, -⟩ := h
  unfold axesOf
  rw [h1]
  exact h2

/-- What the four calls do. -/
theorem newBodyAt_eq {base k : String} {r : V3} {q : Quat} {s : Scene} {sh : Shape} (hsh : s.eng.shapes.get? k = some sh)
    (hf : s.eng.bodies.get? (s.gen 0 base) = none) :
    newBodyAt base k r q s = .ok (s.gen 0 base, ⟨{ s.eng with bodies := s.eng.bodies.setItem (s.gen 0 base) ⟨s.eng.bodies.len, { RigidBody.init (s.gen 0 base) with shape := some sh, r := r, q := Quat.unit q }⟩ },
      s.meshes, fun i => s.gen (i + 1)⟩) := by
  unfold newBodyAt generate_unique_name
  obtain ⟨name, hname⟩ : ∃ name, name = s.gen 0 base := ⟨_, rfl⟩
  rw [← hname] at hf ⊢
  have h1 : s.eng.create_rigid_body name =
      .ok { s.eng with bodies := s.eng.bodies.setItem name ⟨s.eng.bodies.len, RigidBody.init name⟩ } := by
    unfold Engine.create_rigid_body
    rw [if_neg]
    rw [(Dict.get?_eq_none _ _).1 hf]; simp
  obtain ⟨d1, hd1⟩ : ∃ d1, d1 = s.eng.bodies.setItem name ⟨s.eng.bodies.len, RigidBody.init name⟩ := ⟨_, rfl⟩
  have g1 : d1.get? name = some ⟨s.eng.bodies.len, RigidBody.init name⟩ := by rw [hd1]; exact Dict.get?_setItem_self _ _ _
  have h2 := connect_shape_eq (e := { s.eng with bodies := d1 }) g1 hsh
  obtain ⟨d2, hd2⟩ : ∃ d2, d2 = d1.setItem name { idx := s.eng.bodies.len, body := { RigidBody.init name with shape := some sh } } := ⟨_, rfl⟩
  have g2 : d2.get? name = some ⟨s.eng.bodies.len, { RigidBody.init name with shape := some sh }⟩ := by
    rw [hd2]; exact Dict.get?_setItem_self _ _ _
  have h3 := ((C44_set_position { s.eng with bodies := d2 } name r).2 _ g2).1
  obtain ⟨d3, hd3⟩ : ∃ d3, d3 = d2.setItem name { idx := s.eng.bodies.len, body := { RigidBody.init name with shape := some sh, r := r } } := ⟨_, rfl⟩
  have g3 : d3.get? name = some ⟨s.eng.bodies.len, { RigidBody.init name with shape := some sh, r := r }⟩ := by
    rw [hd3]; exact Dict.get?_setItem_self _ _ _
  have h4 := ((C44_set_orientation { s.eng with bodies := d3 } name q).2 _ g3).1
  simp only [← hd1] at h1
  simp only [← hd2] at h2
  simp only [← hd3] at h3
  have e4 : d3.setItem name { idx := s.eng.bodies.len, body := { RigidBody.init name with shape := some sh, r := r, q := Quat.unit q } } =
      s.eng.bodies.setItem name ⟨s.eng.bodies.len, { RigidBody.init name with shape := some sh, r := r, q := Quat.unit q }⟩ := by
    rw [hd3, hd2, hd1, setItem_setItem, setItem_setItem, setItem_setItem]
  refine bind_ok.2 ⟨name, { s with gen := fun i => s.gen (i + 1) }, by rw [hname], ?_⟩
  refine bind_ok.2 ⟨(), { s with eng := { s.eng with bodies := d1 }, gen := fun i => s.gen (i + 1) }, api_ok.2 ⟨_, h1, rfl⟩, ?_⟩
  refine bind_ok.2 ⟨(), { s with eng := { s.eng with bodies := d2 }, gen := fun i => s.gen (i + 1) }, api_ok.2 ⟨_, h2, rfl⟩, ?_⟩
  refine bind_ok.2 ⟨(), { s with eng := { s.eng with bodies := d3 }, gen := fun i => s.gen (i + 1) }, api_ok.2 ⟨_, h3, rfl⟩, ?_⟩
  refine bind_ok.2 ⟨(), _, api_ok.2 ⟨_, h4, rfl⟩, ?_⟩
  rw [pure_ok]
  exact ⟨rfl, by rw [← e4]⟩

theorem newBodyAt_fresh {base k : String} {r : V3} {q : Quat} {s s' : Scene} {n : String} (h : newBodyAt base k r q s = .ok (n, s')) :
    s.eng.bodies.get? (s.gen 0 base) = none := by
  unfold newBodyAt generate_unique_name at h
  rw [bind_ok] at h
  obtain ⟨name, s1, h1, h⟩ := h
  simp only [Except.ok.injEq, Prod.mk.injEq] at h1
  obtain ⟨rfl, rfl⟩ := h1
  rw [bind_ok] at h
  obtain ⟨u, s2, h2, h⟩ := h
  replace h2 := api_ok.1 h2
  obtain ⟨e1, h2, rfl⟩ := h2
  exact (create_body_ok h2).1

theorem newBodyAt_ok {base k : String} {VT : List V3 × List Tri} {r : V3} {q : Quat} {s s' : Scene} {n : String}
    (hsh : HasShape s k VT) (h : newBodyAt base k r q s = .ok (n, s')) :
    PutUp Placed s s' [centred VT (axesOf s k) r (Quat.unit q)] [n] := by
  have hf := newBodyAt_fresh h
  obtain ⟨sh, m, hs1, hs2, hs3, ⟨hr1, hr2, hr3, hr4⟩, hmass, hcentre⟩ := hsh
  have e : axesOf s k = sh.q := by unfold axesOf; rw [hs1]
  rw [newBodyAt_eq hs1 hf] at h
  simp only [Except.ok.injEq, Prod.mk.injEq] at h
  obtain ⟨hn, rfl⟩ := h
  rw [hn] at hf ⊢
  have hworld : ∀ x, bodyToWorld { RigidBody.init n with shape := some sh, r := r, q := Quat.unit q } x =
      (centred VT (axesOf s k) r (Quat.unit q)).at (bodyToModel sh x) := by
    intro x
    rw [centred_at, e]
    unfold bodyToWorld bodyToModel
    rw [← hcentre, add_sub_cancel_right, C02_rotate_prod, (C02_rotate_conjugate hr1 _).1]
    exact add_comm _ _
  refine ⟨⟨get?_keys_setItem_new hf, ?_, by simp, ?_, fun _ _ h => h, fun _ _ h => h, fun h => h, rfl, rfl, rfl, rfl⟩, ?_⟩
  · intro k' hk'
    rw [List.mem_singleton] at hk'
    rw [hk']; exact hf
  · intro k' hk'
    rw [List.mem_singleton] at hk'
    exact Dict.get?_setItem_ne _ _ hk'
  · refine List.Forall₂.cons ?_ List.Forall₂.nil
    have hmap : m.V.map (bodyToWorld { RigidBody.init n with shape := some sh, r := r, q := Quat.unit q }) =
        (m.V.map (bodyToModel sh)).map (centred VT (axesOf s k) r (Quat.unit q)).at := by
      rw [List.map_map]
      exact List.map_congr_left fun x _ => hworld x
    refine ⟨_, sh, m, Dict.get?_setItem_self _ _ _, rfl, by rw [hs2]; exact hs3, ?_, ?_, hmass, ?_⟩
    · rw [hmap]
      exact hr3.map _
    · rw [hmap, trianglesOf_map _ _ _ (by simpa using hr2)]
      exact hr4.map _
    · exact (centred_centre _ _ _ _).symm

theorem newBodyAt_good {base k : String} {r : V3} {q : Quat} {s s' : Scene} {n : String} (hs : SceneGood s)
    (h : newBodyAt base k r q s = .ok (n, s')) : SceneGood s' := by
  unfold newBodyAt at h
  rw [bind_ok] at h
  obtain ⟨m, s1, h1, h2⟩ := h
  cases h1
  rw [bind_ok] at h2
  obtain ⟨_, s2, h3, h2⟩ := h2
  rw [bind_ok] at h2
  obtain ⟨_, s3, h4, h2⟩ := h2
  rw [bind_ok] at h2
  obtain ⟨_, s4, h5, h2⟩ := h2
  rw [bind_ok] at h2
  obtain ⟨_, s5, h6, h2⟩ := h2
  rw [pure_ok] at h2
  obtain ⟨rfl, rfl⟩ := h2
  have g2 := (hs.gen _).api (op := .createBody (s.gen 0 base)) (fun _ _ _ _ _ => Engine.Op.noConfusion) h3
  have g3 := g2.api (op := .connectShape (s.gen 0 base) k) (fun _ _ _ _ _ => Engine.Op.noConfusion) h4
  have g4 := g3.api (op := .setPosition (s.gen 0 base) r false) (fun _ _ _ _ _ => Engine.Op.noConfusion) h5
  exact g4.api (op := .setOrientation (s.gen 0 base) q false) (fun _ _ _ _ _ => Engine.Op.noConfusion) h6

theorem newBodyAt_runs {base k material : String} {VT : List V3 × List Tri} {r : V3} {q : Quat} {s : Scene}
    (hr : Ready material s) (hsh : HasShape s k VT) :
    ∃ n s', newBodyAt base k r q s = .ok (n, s') ∧ Ready material s' ∧ Up s s' [n] := by
  have hsh' := hsh
  obtain ⟨sh, m, hs1, -⟩ := hsh'
  have hrun := newBodyAt_eq (r := r) (q := q) hs1 (hr.names.1 0 base).2
  have hp := newBodyAt_ok hsh hrun
  refine ⟨_, _, hrun, ⟨hp.1.ok hr.ok, ?_, by rw [hp.1.inter]; exact hr.material, ?_⟩, _, hp⟩
  · exact hr.names.step (base := base) rfl (fun _ _ => rfl) (fun n hn => hp.1.old n (by simpa using hn))
  · exact newBodyAt_good hr.good hrun

/-! ### The lattice -/

/-- The bodies of a lattice: the body of cell (i, j, k) has its centre of mass at the middle of the cell, is an instance of the shape
number (i + j + k) mod n, and is turned by q · q_l (then by its local orientation). -/
noncomputable def latticePlan (s : Scene) (solid : String → List V3 × List Tri) (shape_names : List String) (r : V3) (q : Quat)
    (dW dH dD : ℝ) (I J K : ℕ) (q_l : ℕ → ℕ → ℕ → Quat) : List Brick :=
  (List.range I).flatMap fun (i : ℕ) => (List.range J).flatMap fun (j : ℕ) => (List.range K).map fun (k : ℕ) =>
    let name := shape_names.getD ((i + j + k) % shape_names.length) ""
    centred (solid name) (axesOf s name) (Quat.rotate q ⟨(i + 1 / 2) * dW, (j + 1 / 2) * dH, (k + 1 / 2) * dD⟩ + r)
      (Quat.unit (Quat.prod q (q_l i j k)))

theorem latticeBody_ok {r : V3} {q : Quat} {shape_names : List String} {dW dH dD : ℝ} {rand : Bool} {q_body : Option Quat}
    {draw : ℕ → ℕ → ℕ → Quat} {i j k : ℕ} {solid : String → List V3 × List Tri} {s s' : Scene} {n : String}
    (hsh : ∀ k ∈ shape_names, HasShape s k (solid k))
    (h : latticeBody r q shape_names dW dH dD rand q_body draw i j k s = .ok (n, s')) :
    PutUp Placed s s' [centred (solid (shape_names.getD ((i + j + k) % shape_names.length) ""))
      (axesOf s (shape_names.getD ((i + j + k) % shape_names.length) ""))
      (Quat.rotate q ⟨(i + 1 / 2) * dW, (j + 1 / 2) * dH, (k + 1 / 2) * dD⟩ + r)
      (Quat.unit (Quat.prod q (latticeOrientation rand q_body (draw i j k))))] [n] := by
  unfold latticeBody at h
  cases hn : shape_names[(i + j + k) % shape_names.length]? with
  | none => rw [hn] at h; exact absurd h raise_ok
  | some name =>
    rw [hn] at h
    simp only at h
    rw [List.getD_eq_getElem?_getD, hn, Option.getD_some]
    have := newBodyAt_ok (hsh name (List.mem_of_getElem? hn)) h
    convert this using 3
    unfold globalPos
    congr 2
    refine V3.ext ?_ ?_ ?_ <;> simp [V3.divs] <;> norm_num <;> ring

theorem lattice_built {r : V3} {q : Quat} {shape_names : List String} {width height depth : ℝ} {I J K : ℕ} {density : ℝ}
    {material : String} {rand : Bool} {q_body : Option Quat} {draw : ℕ → ℕ → ℕ → Quat} {solid : String → List V3 × List Tri}
    {s s' : Scene} {names : List String} (hsh : ∀ k ∈ shape_names, HasShape s k (solid k))
    (h : create_lattice r q shape_names width height depth I J K density material rand q_body draw s = .ok (names, s')) :
    I ≠ 0 ∧ J ≠ 0 ∧ K ≠ 0 ∧
    PutUp (Finished false material density) s s' (latticePlan s solid shape_names r q (width / I) (height / J) (depth / K) I J K
      fun i j k => latticeOrientation rand q_body (draw i j k)) names := by
  unfold create_lattice at h
  split_ifs at h with hI hJ hK
  · exact absurd h raise_ok
  · exact absurd h raise_ok
  · exact absurd h raise_ok
  refine ⟨hI, hJ, hK, ?_⟩
  rw [bind_ok] at h
  obtain ⟨slabs, s1, h1, h⟩ := h
  rw [bind_ok] at h
  obtain ⟨u, s2, h2, h⟩ := h
  obtain ⟨rfl, rfl⟩ := pure_ok.1 h
  have key := mapM_built (Q := Placed) _ (fun b : List (List String) => b.flatten) (fun (i : ℕ) => (List.range J).flatMap fun (j : ℕ) => (List.range K).map fun (k : ℕ) =>
      centred (solid (shape_names.getD ((i + j + k) % shape_names.length) "")) (axesOf s (shape_names.getD ((i + j + k) % shape_names.length) ""))
        (Quat.rotate q ⟨(i + 1 / 2) * (width / I), (j + 1 / 2) * (height / J), (k + 1 / 2) * (depth / K)⟩ + r)
        (Quat.unit (Quat.prod q (latticeOrientation rand q_body (draw i j k)))))
    (fun s1 => ∀ k ∈ shape_names, HasShape s1 k (solid k) ∧ axesOf s1 k = axesOf s k)
    (fun s1 s2 N hg hi k hk => ⟨(hi k hk).1.grows hg, (axesOf_grows hg (hi k hk).1).trans (hi k hk).2⟩) ?_ _ _ _ _
    (fun k hk => ⟨hsh k hk, rfl⟩) h1
  · have e : slabs.flatMap (fun b : List (List String) => b.flatten) = (slabs.map List.flatten).flatten := List.flatMap_def ..
    rw [e] at key
    exact key.setup (forM_setup_ok (Or.inr ⟨rfl, rfl⟩) _ _ _ _ key.1.nodup h2)
  · intro i s3 b s4 hi h3
    refine mapM_rows (Q := Placed) _ _ (fun s1 => ∀ k ∈ shape_names, HasShape s1 k (solid k) ∧ axesOf s1 k = axesOf s k)
      (fun s1 s2 N hg hi k hk => ⟨(hi k hk).1.grows hg, (axesOf_grows hg (hi k hk).1).trans (hi k hk).2⟩) ?_ hi h3
    intro j s5 b s6 hi h4
    have := mapM_built (Q := Placed) _ (fun n : String => [n]) (fun (k : ℕ) => [centred (solid (shape_names.getD ((i + j + k) % shape_names.length) ""))
        (axesOf s (shape_names.getD ((i + j + k) % shape_names.length) ""))
        (Quat.rotate q ⟨(i + 1 / 2) * (width / I), (j + 1 / 2) * (height / J), (k + 1 / 2) * (depth / K)⟩ + r)
        (Quat.unit (Quat.prod q (latticeOrientation rand q_body (draw i j k))))])
      (fun s1 => ∀ k ∈ shape_names, HasShape s1 k (solid k) ∧ axesOf s1 k = axesOf s k)
      (fun s1 s2 N hg hi k hk => ⟨(hi k hk).1.grows hg, (axesOf_grows hg (hi k hk).1).trans (hi k hk).2⟩) (by
        intro k s7 b s8 hi h5
        have hb := latticeBody_ok (fun k hk => (hi k hk).1) h5
        have hne : shape_names ≠ [] := by
          rintro rfl
          unfold latticeBody at h5
          simp at h5
          exact absurd h5 raise_ok
        have hlt : (i + j + k) % shape_names.length < shape_names.length := Nat.mod_lt _ (List.length_pos_iff.2 hne)
        rw [(hi (shape_names.getD ((i + j + k) % shape_names.length) "") (by
          rw [List.getD_eq_getElem _ _ hlt]; exact List.getElem_mem hlt)).2] at hb
        exact hb) _ _ _ _ hi h4
    rwa [flatMap_singleton_id, flatMap_singleton_map] at this

/-! ### Cells -/

theorem flatMap_range_getElem? {α : Type*} {c : ℕ} (f : ℕ → List α) (hf : ∀ i, (f i).length = c) (n a b : ℕ) (ha : a < n)
    (hb : b < c) : ((List.range n).flatMap f)[a * c + b]? = (f a)[b]? := by
  induction n with
  | zero => omega
  | succ n ih =>
    have hl : ((List.range n).flatMap f).length = n * c := by
      rw [List.length_flatMap]
      simp [hf]
    rw [List.range_succ, List.flatMap_append]
    by_cases h : a < n
    · rw [List.getElem?_append_left, ih h]
      rw [hl]
      calc a * c + b < a * c + c := by omega
        _ = (a + 1) * c := by ring
        _ ≤ n * c := Nat.mul_le_mul_right c h
    · have e : a = n := by omega
      subst e
      rw [List.getElem?_append_right (by rw [hl]; omega), hl, Nat.add_sub_cancel_left]
      simp

/-- Body (i, j, k) of the lattice is number (i·J + j)·K + k. -/
theorem latticePlan_get {s : Scene} {solid : String → List V3 × List Tri} {shape_names : List String} {r : V3} {q : Quat}
    {dW dH dD : ℝ} {I J K : ℕ} {q_l : ℕ → ℕ → ℕ → Quat} {i j k : ℕ} (hi : i < I) (hj : j < J) (hk : k < K) :
    (latticePlan s solid shape_names r q dW dH dD I J K q_l)[(i * J + j) * K + k]? =
      some (centred (solid (shape_names.getD ((i + j + k) % shape_names.length) ""))
        (axesOf s (shape_names.getD ((i + j + k) % shape_names.length) ""))
        (Quat.rotate q ⟨(i + 1 / 2) * dW, (j + 1 / 2) * dH, (k + 1 / 2) * dD⟩ + r) (Quat.unit (Quat.prod q (q_l i j k)))) := by
  unfold latticePlan
  have e : (i * J + j) * K + k = i * (J * K) + (j * K + k) := by ring
  rw [e, flatMap_range_getElem? (c := J * K), flatMap_range_getElem? (c := K) _ (by simp) J j k hj hk, List.getElem?_map,
    List.getElem?_range hk]
  · rfl
  · intro i
    rw [List.length_flatMap]
    simp
  · exact hi
  · calc j * K + k < j * K + K := by omega
      _ = (j + 1) * K := by ring
      _ ≤ J * K := Nat.mul_le_mul_right K hj

theorem latticePlan_length {s : Scene} {solid : String → List V3 × List Tri} {shape_names : List String} {r : V3} {q : Quat}
    {dW dH dD : ℝ} {I J K : ℕ} {q_l : ℕ → ℕ → ℕ → Quat} :
    (latticePlan s solid shape_names r q dW dH dD I J K q_l).length = I * J * K := by
  unfold latticePlan
  simp [List.length_flatMap, Nat.mul_assoc]

/-- A point of a solid that stays within ρ of its centre of mass, placed at a cell's middle. -/
theorem centred_within {VT : List V3 × List Tri} {a q qw : Quat} (ha : IsUnitQ a) (hq : IsUnitQ q) (hw : IsUnitQ qw) {r c : V3} {ρ : ℝ}
    {v : V3} (hv : V3.norm (v - massCentre VT.1 VT.2) ≤ ρ) {n : V3} (hn : V3.norm n = 1) :
    |V3.dot (Quat.rotate q n) ((centred VT a (Quat.rotate q c + r) qw).at v - r) - V3.dot n c| ≤ ρ := by
  rw [centred_at]
  have hu : IsUnitQ (Quat.prod qw (Quat.conjugate a)) := prod_unit hw (C01_unit_group ha ha).2.1
  generalize Quat.prod qw (Quat.conjugate a) = p at hu
  have e : V3.dot (Quat.rotate q n) (Quat.rotate q c + r + Quat.rotate p (v - massCentre VT.1 VT.2) - r) - V3.dot n c =
      V3.dot (Quat.rotate q n) (Quat.rotate p (v - massCentre VT.1 VT.2)) := by
    have h0 := rotate_dot_V3 hq n c
    rw [← h0]
    simp only [V3.dot, V3.add_x, V3.add_y, V3.add_z, V3.sub_x, V3.sub_y, V3.sub_z]
    ring
  rw [e]
  have h1 : ∀ w : V3, V3.norm (Quat.rotate q n) = 1 ∧ V3.norm (Quat.rotate p w) = V3.norm w := by
    intro w
    refine ⟨?_, ?_⟩
    · unfold V3.norm at hn ⊢; rw [rotate_dot_V3 hq]; exact hn
    · unfold V3.norm; rw [rotate_dot_V3 hu]
  have h2 := V3.dot_le_norm_mul (Quat.rotate q n) (Quat.rotate p (v - massCentre VT.1 VT.2))
  have h3 := V3.dot_le_norm_mul (-Quat.rotate q n) (Quat.rotate p (v - massCentre VT.1 VT.2))
  have hd : ∀ w z : V3, V3.dot (-w) z = -V3.dot w z := by
    intro w z; simp only [V3.dot, V3.neg_x, V3.neg_y, V3.neg_z]; ring
  have h4 : V3.norm (-Quat.rotate q n) = 1 := by
    have := (h1 0).1
    have hd' : V3.dot (-Quat.rotate q n) (-Quat.rotate q n) = V3.dot (Quat.rotate q n) (Quat.rotate q n) := by
      simp only [V3.dot, V3.neg_x, V3.neg_y, V3.neg_z]; ring
    unfold V3.norm at this ⊢
    rw [hd']; exact this
  have h5 : V3.dot (-Quat.rotate q n) (Quat.rotate p (v - massCentre VT.1 VT.2)) = -V3.dot (Quat.rotate q n) (Quat.rotate p (v - massCentre VT.1 VT.2)) := hd _ _
  rw [(h1 0).1, (h1 _).2, one_mul] at h2
  rw [h4, (h1 _).2, one_mul, h5] at h3
  rw [abs_le]
  constructor <;> linarith

theorem lattice_apart {s : Scene} {solid : String → List V3 × List Tri} {shape_names : List String} {r : V3} {q : Quat} (hq : IsUnitQ q)
    {dW dH dD : ℝ} {I J K : ℕ} {q_l : ℕ → ℕ → ℕ → Quat} {ρ : ℝ} (hne : shape_names ≠ [])
    (hsh : ∀ k ∈ shape_names, HasShape s k (solid k))
    (hρ : ∀ k ∈ shape_names, ∀ v ∈ (solid k).1, V3.norm (v - massCentre (solid k).1 (solid k).2) ≤ ρ)
    (hW : 2 * ρ ≤ dW) (hH : 2 * ρ ≤ dH) (hD : 2 * ρ ≤ dD) (hρ0 : 0 ≤ ρ) :
    (latticePlan s solid shape_names r q dW dH dD I J K q_l).Pairwise fun a b => PlaneApart a.world b.world := by
  have hmem : ∀ i j k : ℕ, shape_names.getD ((i + j + k) % shape_names.length) "" ∈ shape_names := by
    intro i j k
    have hlt : (i + j + k) % shape_names.length < shape_names.length := Nat.mod_lt _ (List.length_pos_iff.2 hne)
    rw [List.getD_eq_getElem _ _ hlt]; exact List.getElem_mem hlt
  have hx : V3.norm ⟨1, 0, 0⟩ = 1 ∧ V3.norm ⟨0, 1, 0⟩ = 1 ∧ V3.norm ⟨0, 0, 1⟩ = 1 := by
    refine ⟨?_, ?_, ?_⟩ <;> simp [V3.norm, V3.dot]
  have hnz : (⟨1, 0, 0⟩ : V3) ≠ 0 ∧ (⟨0, 1, 0⟩ : V3) ≠ 0 ∧ (⟨0, 0, 1⟩ : V3) ≠ 0 := by
    refine ⟨?_, ?_, ?_⟩ <;> (intro h; have := congrArg (fun v : V3 => v.x + v.y + v.z) h; simp at this)
  have hb : ∀ (i j k : ℕ) (n : V3), V3.norm n = 1 → ∀ p ∈ (centred (solid (shape_names.getD ((i + j + k) % shape_names.length) ""))
      (axesOf s (shape_names.getD ((i + j + k) % shape_names.length) ""))
      (Quat.rotate q ⟨(i + 1 / 2) * dW, (j + 1 / 2) * dH, (k + 1 / 2) * dD⟩ + r) (Quat.unit (Quat.prod q (q_l i j k)))).world,
      |V3.dot (Quat.rotate q n) (p - r) - V3.dot n ⟨(i + 1 / 2) * dW, (j + 1 / 2) * dH, (k + 1 / 2) * dD⟩| ≤ ρ := by
    intro i j k n hn p hp
    unfold Brick.world at hp
    obtain ⟨v, hv, rfl⟩ := List.mem_map.1 hp
    exact centred_within (axesOf_unit (hsh _ (hmem i j k))) hq (Quat.unit_isUnit _) (hρ _ (hmem i j k) v hv) hn
  have hsep : ∀ (i j k i' j' k' : ℕ) (n : V3), V3.norm n = 1 → n ≠ 0 →
      2 * ρ ≤ V3.dot n ⟨(i' + 1 / 2) * dW, (j' + 1 / 2) * dH, (k' + 1 / 2) * dD⟩ - V3.dot n ⟨(i + 1 / 2) * dW, (j + 1 / 2) * dH, (k + 1 / 2) * dD⟩ →
      PlaneApart (centred (solid (shape_names.getD ((i + j + k) % shape_names.length) ""))
        (axesOf s (shape_names.getD ((i + j + k) % shape_names.length) ""))
        (Quat.rotate q ⟨(i + 1 / 2) * dW, (j + 1 / 2) * dH, (k + 1 / 2) * dD⟩ + r) (Quat.unit (Quat.prod q (q_l i j k)))).world
        (centred (solid (shape_names.getD ((i' + j' + k') % shape_names.length) ""))
        (axesOf s (shape_names.getD ((i' + j' + k') % shape_names.length) ""))
        (Quat.rotate q ⟨(i' + 1 / 2) * dW, (j' + 1 / 2) * dH, (k' + 1 / 2) * dD⟩ + r) (Quat.unit (Quat.prod q (q_l i' j' k')))).world := by
    intro i j k i' j' k' n hn hn0 hle
    have hd : ∀ p : V3, V3.dot (Quat.rotate q n) (p - r) = V3.dot (Quat.rotate q n) p - V3.dot (Quat.rotate q n) r := by
      intro p; simp only [V3.dot, V3.sub_x, V3.sub_y, V3.sub_z]; ring
    refine ⟨Quat.rotate q n, V3.dot n ⟨(i + 1 / 2) * dW, (j + 1 / 2) * dH, (k + 1 / 2) * dD⟩ + ρ + V3.dot (Quat.rotate q n) r,
      rotate_ne_zero_V3 hq hn0, ?_, ?_⟩
    · intro p hp
      have := (abs_le.1 (hb i j k n hn p hp)).2
      rw [hd] at this
      linarith
    · intro p hp
      have := (abs_le.1 (hb i' j' k' n hn p hp)).1
      rw [hd] at this
      linarith
  have hcast : ∀ {a b : ℕ} {d : ℝ}, a < b → 2 * ρ ≤ d → 2 * ρ ≤ ((b : ℝ) + 1 / 2) * d - ((a : ℝ) + 1 / 2) * d := by
    intro a b d hab hd
    have h1 : (a : ℝ) + 1 ≤ b := by exact_mod_cast hab
    have h2 : 0 ≤ d := by linarith
    nlinarith
  unfold latticePlan
  simp only
  rw [List.pairwise_flatMap]
  refine ⟨?_, ?_⟩
  · intro i _
    rw [List.pairwise_flatMap]
    refine ⟨?_, ?_⟩
    · intro j _
      rw [List.pairwise_map]
      refine List.Pairwise.imp ?_ List.pairwise_lt_range
      intro k k' hkk
      refine hsep _ _ _ _ _ _ _ hx.2.2 hnz.2.2 ?_
      have := hcast hkk hD
      simp only [V3.dot]
      linarith
    · refine List.Pairwise.imp ?_ List.pairwise_lt_range
      intro j j' hjj a ha b hb
      obtain ⟨k, -, rfl⟩ := List.mem_map.1 ha
      obtain ⟨k', -, rfl⟩ := List.mem_map.1 hb
      refine hsep _ _ _ _ _ _ _ hx.2.1 hnz.2.1 ?_
      have := hcast hjj hH
      simp only [V3.dot]
      linarith
  · refine List.Pairwise.imp ?_ List.pairwise_lt_range
    intro i i' hii a ha b hb
    obtain ⟨j, -, ha⟩ := List.mem_flatMap.1 ha
    obtain ⟨j', -, hb⟩ := List.mem_flatMap.1 hb
    obtain ⟨k, -, rfl⟩ := List.mem_map.1 ha
    obtain ⟨k', -, rfl⟩ := List.mem_map.1 hb
    refine hsep _ _ _ _ _ _ _ hx.1 hnz.1 ?_
    have := hcast hii hW
    simp only [V3.dot]
    linarith

/-! ### The theorems -/

/-- **C103.** With no cells along some side, or with no shapes, `create_lattice` raises ZeroDivisionError. -/
theorem C103_lattice_raises (r : V3) (q : Quat) (shape_names : List String) (width height depth : ℝ) (I J K : ℕ) (density : ℝ)
    (material : String) (rand : Bool) (q_body : Option Quat) (draw : ℕ → ℕ → ℕ → Quat) (s : Scene)
    (h : I = 0 ∨ J = 0 ∨ K = 0 ∨ shape_names = []) :
    create_lattice r q shape_names width height depth I J K density material rand q_body draw s = .error .zeroDivision := by
  unfold create_lattice
  split_ifs with hI hJ hK
  · rfl
  · rfl
  · rfl
  obtain rfl : shape_names = [] := by tauto
  have hraise : ∀ i j k : ℕ, ∀ s, latticeBody r q [] (width / I) (height / J) (depth / K) rand q_body draw i j k s =
    .error .zeroDivision := fun _ _ _ _ => rfl
  generalize width / (I : ℝ) = dW at *
  generalize height / (J : ℝ) = dH at *
  generalize depth / (K : ℝ) = dD at *
  obtain ⟨I, rfl⟩ := Nat.exists_eq_succ_of_ne_zero hI
  obtain ⟨J, rfl⟩ := Nat.exists_eq_succ_of_ne_zero hJ
  obtain ⟨K, rfl⟩ := Nat.exists_eq_succ_of_ne_zero hK
  refine scene_bind_error ?_
  rw [List.range_succ_eq_map (n := I), List.mapM_cons]
  refine scene_bind_error ?_
  rw [List.range_succ_eq_map (n := J), List.mapM_cons]
  refine scene_bind_error ?_
  rw [List.range_succ_eq_map (n := K), List.mapM_cons]
  refine scene_bind_error ?_
  rfl

/-- **C103.** A lattice has one free body per cell, number (i·J + j)·K + k for the cell (i, j, k): an instance of the shape number
(i + j + k) mod n, with its centre of mass at the middle of the cell (in the frame r, q), and orientation q · q_l, where q_l is a random
rotation, `q_body` or the identity.  The bodies have the given material and density; nothing else changed. -/
theorem C103_lattice {r : V3} {q : Quat} {shape_names : List String} {width height depth : ℝ} {I J K : ℕ} {density : ℝ}
    {material : String} {rand : Bool} {q_body : Option Quat} {draw : ℕ → ℕ → ℕ → Quat} {solid : String → List V3 × List Tri}
    {s s' : Scene} {names : List String} (hsh : ∀ k ∈ shape_names, HasShape s k (solid k))
    (h : create_lattice r q shape_names width height depth I J K density material rand q_body draw s = .ok (names, s')) :
    ∃ B : List Brick, Adds s s' names B false material density ∧ names.length = I * J * K ∧
      ∀ i j k : ℕ, i < I → j < J → k < K → ∃ name ∈ shape_names, shape_names[(i + j + k) % shape_names.length]? = some name ∧
        B[(i * J + j) * K + k]? = some (centred (solid name) (axesOf s name)
          (Quat.rotate q ⟨(i + 1 / 2) * (width / I), (j + 1 / 2) * (height / J), (k + 1 / 2) * (depth / K)⟩ + r)
          (Quat.unit (Quat.prod q (if rand then Quat.unit (draw i j k) else q_body.getD Quat.identity)))) := by
  obtain ⟨hI, hJ, hK, hp⟩ := lattice_built hsh h
  refine ⟨_, hp.adds, by rw [hp.length, latticePlan_length], ?_⟩
  intro i j k hi hj hk
  have hne : shape_names ≠ [] := by
    rintro rfl
    rw [C103_lattice_raises _ _ _ _ _ _ _ _ _ _ _ _ _ _ _ (Or.inr (Or.inr (Or.inr rfl)))] at h
    cases h
  have hlt : (i + j + k) % shape_names.length < shape_names.length := Nat.mod_lt _ (List.length_pos_iff.2 hne)
  refine ⟨shape_names[(i + j + k) % shape_names.length], List.getElem_mem hlt, List.getElem?_eq_getElem hlt, ?_⟩
  rw [latticePlan_get hi hj hk, List.getD_eq_getElem _ _ hlt]
  congr 4
  unfold latticeOrientation randQuat
  cases q_body <;> rfl

/-- **C103.** If the shapes stay within ρ of their centres of mass and no side of a cell is shorter than 2ρ, then every body of the lattice
stays in its cell, whatever the random numbers are: in the frame (r, q) of the lattice, body (i, j, k) lies between i·dW and (i+1)·dW,
j·dH and (j+1)·dH, k·dD and (k+1)·dD.  In particular the bodies do not overlap. -/
theorem C103_lattice_cells {r : V3} {q : Quat} (hq : IsUnitQ q) {shape_names : List String} {width height depth : ℝ} {I J K : ℕ}
    {density : ℝ} {material : String} {rand : Bool} {q_body : Option Quat} {draw : ℕ → ℕ → ℕ → Quat}
    {solid : String → List V3 × List Tri} {s s' : Scene} {names : List String} (hsh : ∀ k ∈ shape_names, HasShape s k (solid k))
    (h : create_lattice r q shape_names width height depth I J K density material rand q_body draw s = .ok (names, s')) {ρ : ℝ}
    (hρ : ∀ k ∈ shape_names, ∀ v ∈ (solid k).1, V3.norm (v - massCentre (solid k).1 (solid k).2) ≤ ρ) (hρ0 : 0 ≤ ρ)
    (hW : 2 * ρ ≤ width / I) (hH : 2 * ρ ≤ height / J) (hD : 2 * ρ ≤ depth / K) :
    (∀ i j k : ℕ, i < I → j < J → k < K → ∃ n m, names[(i * J + j) * K + k]? = some n ∧ s'.worldMesh n = some m ∧ ∀ p ∈ m.V,
      i * (width / I) ≤ V3.dot (Quat.rotate q ⟨1, 0, 0⟩) (p - r) ∧ V3.dot (Quat.rotate q ⟨1, 0, 0⟩) (p - r) ≤ (i + 1) * (width / I) ∧
      j * (height / J) ≤ V3.dot (Quat.rotate q ⟨0, 1, 0⟩) (p - r) ∧ V3.dot (Quat.rotate q ⟨0, 1, 0⟩) (p - r) ≤ (j + 1) * (height / J) ∧
      k * (depth / K) ≤ V3.dot (Quat.rotate q ⟨0, 0, 1⟩) (p - r) ∧ V3.dot (Quat.rotate q ⟨0, 0, 1⟩) (p - r) ≤ (k + 1) * (depth / K)) ∧
    NoOverlap s' names := by
  obtain ⟨B, hA, hlen, hB⟩ := C103_lattice hsh h
  refine ⟨?_, ?_⟩
  · intro i j k hi hj hk
    obtain ⟨name, hname, -, hb⟩ := hB i j k hi hj hk
    have hin : (i * J + j) * K + k < names.length := by
      rw [hA.length]
      exact (List.getElem?_eq_some_iff.1 hb).1
    obtain ⟨o, m, -, h2, h3, -⟩ := hA.each _ _ _ (List.getElem?_eq_getElem hin) hb
    refine ⟨_, m, List.getElem?_eq_getElem hin, h2, ?_⟩
    intro p hp
    have hp' := h3.mem_iff.1 hp
    unfold Brick.world at hp'
    obtain ⟨v, hv, rfl⟩ := List.mem_map.1 hp'
    have hx : V3.norm ⟨1, 0, 0⟩ = 1 ∧ V3.norm ⟨0, 1, 0⟩ = 1 ∧ V3.norm ⟨0, 0, 1⟩ = 1 := by
      refine ⟨?_, ?_, ?_⟩ <;> simp [V3.norm, V3.dot]
    have key := fun (n : V3) (hn : V3.norm n = 1) => abs_le.1 (centred_within (r := r) (c := ⟨(i + 1 / 2) * (width / I), (j + 1 / 2) * (height / J), (k + 1 / 2) * (depth / K)⟩)
      (qw := Quat.unit (Quat.prod q (if rand then Quat.unit (draw i j k) else q_body.getD Quat.identity)))
      (axesOf_unit (hsh _ hname)) hq (Quat.unit_isUnit _) (hρ name hname v hv) hn)
    have kx := key ⟨1, 0, 0⟩ hx.1
    have ky := key ⟨0, 1, 0⟩ hx.2.1
    have kz := key ⟨0, 0, 1⟩ hx.2.2
    simp only [show ∀ c : V3, V3.dot ⟨1, 0, 0⟩ c = c.x from fun c => by simp [V3.dot],
      show ∀ c : V3, V3.dot ⟨0, 1, 0⟩ c = c.y from fun c => by simp [V3.dot],
      show ∀ c : V3, V3.dot ⟨0, 0, 1⟩ c = c.z from fun c => by simp [V3.dot]] at kx ky kz
    refine ⟨?_, ?_, ?_, ?_, ?_, ?_⟩ <;> linarith
  · obtain ⟨hI, hJ, hK, hp⟩ := lattice_built hsh h
    obtain ⟨name, hname, -⟩ := hB 0 0 0 (by omega) (by omega) (by omega)
    exact hp.adds.noOverlap (lattice_apart hq (List.ne_nil_of_mem hname) hsh hρ hW hH hD hρ0)

theorem lattice_runs {r : V3} {q : Quat} {shape_names : List String} {width height depth : ℝ} {I J K : ℕ} (hI : I ≠ 0) (hJ : J ≠ 0)
    (hK : K ≠ 0) {density : ℝ} {material : String} {rand : Bool} {q_body : Option Quat} {draw : ℕ → ℕ → ℕ → Quat}
    {solid : String → List V3 × List Tri} {s : Scene} (hr : Ready material s) (hne : shape_names ≠ [])
    (hsh : ∀ k ∈ shape_names, HasShape s k (solid k)) :
    Succeeds material (create_lattice r q shape_names width height depth I J K density material rand q_body draw) s := by
  unfold Succeeds create_lattice
  rw [if_neg hI, if_neg hJ, if_neg hK]
  simp only
  refine bind_runs (P := fun (slabs : List (List (List String))) s1 => Ready material s1 ∧ Up s s1 (slabs.map List.flatten).flatten) ?_ ?_
  · obtain ⟨rs, s', h1, h2, h3⟩ := mapM_runs (l := List.range I) (f := fun (i : ℕ) => (List.range J).mapM fun (j : ℕ) => (List.range K).mapM fun (k : ℕ) =>
        latticeBody r q shape_names (width / I) (height / J) (depth / K) rand q_body draw i j k)
      (fun b : List (List String) => b.flatten) (fun s => Ready material s ∧ ∀ k ∈ shape_names, HasShape s k (solid k)) (by
      intro i _ s hi
      refine mapM_rows_runs _ ?_ s hi
      intro j _ s hi
      refine mapM_bodies_runs _ ?_ s hi
      intro k _ s hi
      have hlt : (i + j + k) % shape_names.length < shape_names.length := Nat.mod_lt _ (List.length_pos_iff.2 hne)
      unfold latticeBody
      rw [List.getElem?_eq_getElem hlt]
      simp only
      obtain ⟨n, s', h1, h2, B, h3⟩ := newBodyAt_runs (base := "body") (r := globalPos r q (⟨(i : ℝ) * (width / I), (j : ℝ) * (height / J), (k : ℝ) * (depth / K)⟩ + V3.divs ⟨width / I, height / J, depth / K⟩ 2.0))
        (q := Quat.prod q (latticeOrientation rand q_body (draw i j k))) hi.1 (hi.2 _ (List.getElem_mem hlt))
      exact ⟨n, s', h1, ⟨h2, fun k hk => (hi.2 k hk).grows h3.1⟩, B, h3⟩) s ⟨hr, hsh⟩
    refine ⟨rs, s', h1, h2.1, ?_⟩
    have e : rs.flatMap (fun b : List (List String) => b.flatten) = (rs.map List.flatten).flatten := List.flatMap_def ..
    rwa [e] at h3
  · rintro slabs s1 ⟨r1, u1⟩
    refine bind_runs (u1.setup_runs r1) ?_
    rintro _ s2 ⟨r2, u2⟩
    exact pure_runs ⟨r2, u2⟩

/-- **C103.** A lattice is built for all sizes and numbers of cells except zero, all lists of existing shapes except the empty one, and all
random numbers; and more can be built afterwards. -/
theorem C103_lattice_succeeds {r : V3} {q : Quat} {shape_names : List String} {width height depth : ℝ} {I J K : ℕ} (hI : I ≠ 0) (hJ : J ≠ 0)
    (hK : K ≠ 0) {density : ℝ} {material : String} {rand : Bool} {q_body : Option Quat} {draw : ℕ → ℕ → ℕ → Quat}
    {solid : String → List V3 × List Tri} {s : Scene} (hr : Ready material s) (hne : shape_names ≠ [])
    (hsh : ∀ k ∈ shape_names, HasShape s k (solid k)) :
    ∃ names s', create_lattice r q shape_names width height depth I J K density material rand q_body draw s = .ok (names, s') ∧
      Ready material s' := by
  obtain ⟨names, s', h1, h2, -⟩ := lattice_runs (r := r) (q := q) (width := width) (height := height) (depth := depth) (density := density)
    (rand := rand) (q_body := q_body) (draw := draw) hI hJ hK hr hne hsh
  exact ⟨names, s', h1, h2⟩

/-- **C103.** If the shapes have a volume above the threshold 1e-10 of mass.py and the density is not zero, then nothing is missing in the
new scene, if nothing was missing in the old one: it can be simulated (C95). -/
theorem C103_lattice_complete {r : V3} {q : Quat} {shape_names : List String} {width height depth : ℝ} {I J K : ℕ} {density : ℝ}
    {material : String} {rand : Bool} {q_body : Option Quat} {draw : ℕ → ℕ → ℕ → Quat} {solid : String → List V3 × List Tri}
    {s s' : Scene} {names : List String} (hsh : ∀ k ∈ shape_names, HasShape s k (solid k))
    (h : create_lattice r q shape_names width height depth I J K density material rand q_body draw s = .ok (names, s'))
    (hv : ∀ k ∈ shape_names, 1e-10 < enclosedVolume (solid k).1 (solid k).2) (hd : density ≠ 0) (hc : Complete s) : Complete s' := by
  obtain ⟨hI, hJ, hK, hp⟩ := lattice_built hsh h
  obtain ⟨B, -, -, hB⟩ := C103_lattice hsh h
  obtain ⟨name, hname, -⟩ := hB 0 0 0 (by omega) (by omega) (by omega)
  refine hc.adds hp.adds (Or.inr ⟨hd, ?_⟩)
  intro b hb
  unfold latticePlan at hb
  obtain ⟨i, -, hb⟩ := List.mem_flatMap.1 hb
  obtain ⟨j, -, hb⟩ := List.mem_flatMap.1 hb
  obtain ⟨k, -, rfl⟩ := List.mem_map.1 hb
  refine hv _ ?_
  have hlt : (i + j + k) % shape_names.length < shape_names.length := Nat.mod_lt _ (List.length_pos_iff.2 (List.ne_nil_of_mem hname))
  rw [List.getD_eq_getElem _ _ hlt]; exact List.getElem_mem hlt

/-- A lattice of a thousand unit cubes in a box of side 20: whatever way the random numbers turn them, they do not overlap. -/
example {eig : Eig} (he : EigSpec eig) (draw : ℕ → ℕ → ℕ → Quat) : ∃ k s names s', newShape eig "cube" (create_box 1 1 1) freshScene = .ok (k, s) ∧
    create_lattice 0 Quat.identity [k] 20 20 20 10 10 10 1 "default" true none draw s = .ok (names, s') ∧ names.length = 1000 ∧
    NoOverlap s' names := by
  obtain ⟨k, s, h1, h2, h3, -⟩ := newShape_runs he (base := "cube") freshScene_ready (box_star one_pos one_pos one_pos)
  have hsh : ∀ n ∈ [k], HasShape s n (create_box 1 1 1) := by
    intro n hn; rw [List.mem_singleton] at hn; rw [hn]; exact h3
  obtain ⟨names, s', h4, -⟩ := C103_lattice_succeeds (r := 0) (q := Quat.identity) (width := 20) (height := 20) (depth := 20) (I := 10) (J := 10)
    (K := 10) (density := 1) (rand := true) (q_body := none) (draw := draw) (solid := fun _ => create_box 1 1 1)
    (by norm_num) (by norm_num) (by norm_num) h2 (List.cons_ne_nil k []) hsh
  refine ⟨k, s, names, s', h1, h4, ?_, ?_⟩
  · obtain ⟨B, -, hl, -⟩ := C103_lattice (solid := fun _ => create_box 1 1 1) hsh h4
    simpa using hl
  · refine (C103_lattice_cells ident_unit (solid := fun _ => create_box 1 1 1) hsh h4 (ρ := 1) ?_ (by norm_num) (by norm_num) (by norm_num) (by norm_num)).2
    intro _ _ v hv
    rw [box_massCentre (by norm_num), sub_zero]
    obtain ⟨h1, h2, h3⟩ := mem_box hv
    unfold V3.norm
    rw [Real.sqrt_le_one]
    unfold V3.dot
    rcases h1 with h1 | h1 <;> rcases h2 with h2 | h2 <;> rcases h3 with h3 | h3 <;> rw [h1, h2, h3] <;> norm_num

end Verif
