import Verif.Props.GearVolume
import Verif.Props.SceneChain
import Verif.Props.SceneMail

/-! C107: the scene with a train of gears. -/

namespace Verif

open Rigid Rigid.SceneM Gear SMesh
open VMesh (Tri)

/-- The body is a solid given by (V, T) that stands where the brick is, and knows how: its frame and the frame of its shape fit together. -/
def Mounted : BrickFact := fun o sh m b =>
  ShapeOf sh m b.V b.T ∧ sh.mass = snapPos (enclosedVolume b.V b.T) ∧ sh.r = massCentre b.V b.T ∧ IsUnitQ o.q ∧
    ∀ x, bodyToWorld o x = b.at (bodyToModel sh x)

theorem Mounted.placed {o : RigidBody} {sh : Shape} {m : Mesh} {b : Brick} (h : Mounted o sh m b) : Placed o sh m b := by
  obtain ⟨⟨h1, h2, h3, h4⟩, hm, hc, hu, hw⟩ := h
  have hmap : m.V.map (bodyToWorld o) = (m.V.map (bodyToModel sh)).map b.at := by
    rw [List.map_map]; exact List.map_congr_left fun x _ => hw x
  refine ⟨?_, ?_, hm, ?_⟩
  · rw [hmap]; exact h3.map _
  · rw [hmap, trianglesOf_map _ _ _ (by simpa using h2)]; exact h4.map _
  · have h0 := hw 0
    unfold bodyToWorld bodyToModel at h0
    rw [rotate_zero, rotate_zero, zero_add, zero_add, hc] at h0
    exact h0

/-- … with type, material and mass. -/
def MountedFin (fixed : Bool) (material : String) (density : ℝ) : BrickFact := fun o sh m b =>
  Mounted o sh m b ∧ o.is_fixed = fixed ∧ o.material = material ∧ o.mass = snapPos (enclosedVolume b.V b.T) * density

theorem MountedFin.finished {fixed : Bool} {material : String} {density : ℝ} {o : RigidBody} {sh : Shape} {m : Mesh} {b : Brick}
    (h : MountedFin fixed material density o sh m b) : Finished fixed material density o sh m b := ⟨h.1.placed, h.2⟩

/-- a body put up with the model frame calls -/
theorem place_ok {s s' : Scene} {n : String} {r : V3} {q : Quat} {u : Unit} {o : BodyObj} {sh : Shape}
    (ho : s.eng.bodies.get? n = some o) (hsh : o.body.shape = some sh) (hu : IsUnitQ o.body.q) (hsu : IsUnitQ sh.q)
    (h : (do
      api fun e => e.set_position n r true
      api fun e => e.set_orientation n q true : SceneM Unit) s = .ok (u, s')) : ∃ q' r', IsUnitQ q' ∧
      s' = { s with eng := { s.eng with bodies := s'.eng.bodies } } ∧ s'.eng.bodies.keys = s.eng.bodies.keys ∧
      s'.eng.bodies.get? n = some { o with body := { o.body with q := q', r := r' } } ∧
      (∀ k, k ≠ n → s'.eng.bodies.get? k = s.eng.bodies.get? k) ∧
      ∀ x, bodyToWorld { o.body with q := q', r := r' } x = r + Quat.rotate (Quat.unit q) (bodyToModel sh x) := by
  rw [bind_ok] at h
  obtain ⟨u1, s1, h1, h2⟩ := h
  replace h1 := api_ok.1 h1
  obtain ⟨e1, h1, rfl⟩ := h1
  replace h2 := api_ok.1 h2
  obtain ⟨e2, h2, rfl⟩ := h2
  obtain ⟨r', hp1, hp2⟩ := ((C44_set_position s.eng n r).2 _ ho).2.2 sh hsh hsu hu
  rw [hp1] at h1
  cases h1
  simp only at h2
  have hg := Dict.get?_setItem_self s.eng.bodies n { o with body := { o.body with r := r' } }
  obtain ⟨q', r'', hq1, hq2, hq3⟩ := ((C44_set_orientation { s.eng with bodies := s.eng.bodies.setItem n { o with body := { o.body with r := r' } } } n q).2 _ hg).2.2
    sh hsh hsu hu
  rw [hq1] at h2
  cases h2
  refine ⟨q', r'', hq2, rfl, ?_, Dict.get?_setItem_self _ _ _, ?_, ?_⟩
  · show (Dict.setItem _ _ _).keys = _
    rw [Dict.keys_replace hg, Dict.keys_replace ho]
  · intro k hk
    show (Dict.setItem _ _ _).get? _ = _
    rw [Dict.get?_setItem_ne _ _ hk, Dict.get?_setItem_ne _ _ hk]
  · intro x
    have ho : bodyToModel sh (Quat.rotate (Quat.conjugate sh.q) (-sh.r)) = 0 := by
      unfold bodyToModel
      rw [(C02_rotate_conjugate hsu _).2]
      simp
    have h1 := hq3 x _ ho
    rw [h1, hp2, ho, rotate_zero, add_zero]

theorem newBody_mounted {base k : String} {VT : List V3 × List Tri} {r : V3} {q : Quat} {s s' : Scene} {n : String}
    (hsh : HasShape s k VT) (h : newBody base k r q s = .ok (n, s')) :
    PutUp Mounted s s' [⟨VT.1, VT.2, r, Quat.unit q⟩] [n] := by
  have hgrow := (newBody_ok hsh h).1
  refine ⟨hgrow, List.Forall₂.cons ?_ List.Forall₂.nil⟩
  obtain ⟨sh, m, hs1, hs2, hs3, hr, hmass, hcentre⟩ := hsh
  unfold newBody generate_unique_name at h
  rw [bind_ok] at h
  obtain ⟨name, s1, h1, h⟩ := h
  simp only [Except.ok.injEq, Prod.mk.injEq] at h1
  obtain ⟨rfl, rfl⟩ := h1
  rw [bind_ok] at h
  obtain ⟨u, s2, h2, h⟩ := h
  replace h2 := api_ok.1 h2
  obtain ⟨e1, h2, rfl⟩ := h2
  obtain ⟨hnone, rfl⟩ := create_body_ok h2
  rw [bind_ok] at h
  obtain ⟨u, s3, h3, h⟩ := h
  replace h3 := api_ok.1 h3
  obtain ⟨e2, h3, rfl⟩ := h3
  have hg1 := Dict.get?_setItem_self s.eng.bodies (s.gen 0 base) ⟨s.eng.bodies.len, RigidBody.init (s.gen 0 base)⟩
  simp only at h3
  rw [connect_shape_eq (e := { s.eng with bodies := s.eng.bodies.setItem (s.gen 0 base) ⟨s.eng.bodies.len, RigidBody.init (s.gen 0 base)⟩ })
    hg1 hs1] at h3
  cases h3
  rw [bind_ok] at h
  obtain ⟨u, s4, h4, h⟩ := h
  rw [bind_ok] at h
  obtain ⟨u', s5, h5, h⟩ := h
  obtain ⟨rfl, rfl⟩ := pure_ok.1 h
  have hui : IsUnitQ Quat.identity := by unfold IsUnitQ Quat.identity; norm_num
  have hpl := place_ok (n := s.gen 0 base) (r := r) (q := q) (s' := s5) (u := u') (Dict.get?_setItem_self _ _ _) (sh := sh) rfl hui hr.1 (bind_ok.2 ⟨_, _, h4, h5⟩)
  obtain ⟨q', r', hq', he, -, hget, -, hw⟩ := hpl
  refine ⟨_, sh, m, hget, rfl, ?_, hr, hmass, hcentre, hq', hw⟩
  rw [he, hs2]
  exact hs3

theorem PutUp.setup_mounted {s s1 s2 : Scene} {b : Brick} {n : String} {fixed : Bool} {material : String} {density : ℝ}
    (h : PutUp Mounted s s1 [b] [n]) (hs : SetUp fixed material density s1 s2 [n]) :
    PutUp (MountedFin fixed material density) s s2 [b] [n] := by
  refine ⟨((h.mono fun _ _ _ _ hm => hm.placed).setup hs).1, List.Forall₂.cons ?_ List.Forall₂.nil⟩
  obtain ⟨o, sh, m, h1, h2, h3, h4⟩ := (List.forall₂_cons.1 h.2).1
  exact ⟨_, sh, m, hs.upd n (by simp) o h1 sh h2, h2, by rw [hs.meshes]; exact h3, h4, rfl, rfl, by rw [← h4.2.1]⟩

/-- Gear with the given specification, lying flat, centre at height cz, turned by θ. -/
noncomputable def gearBrick (w : ℝ) (g : Specs) (pose : ℝ × ℝ × ℝ) (cz : ℝ) : Brick :=
  ⟨(make_gear_mesh g w).1, (make_gear_mesh g w).2, Quat.rotate gearFrame ⟨pose.1, pose.2.1, cz⟩, Quat.prod gearFrame (Quat.Rz pose.2.2)⟩

theorem newGear_ok {eig : Eig} (he : EigSpec eig) {w density : ℝ} {material : String} {m alpha : ℝ} {Z : ℕ} {s s' : Scene} {n : String} (hok : s.OK)
    (h : newGear eig w density material (make_gear_specs m Z alpha) s = .ok (n, s')) :
    PutUp (MountedFin false material density) s s' [gearBrick w (make_gear_specs m Z alpha) (0, 0, 0) 0] [n] := by
  unfold newGear at h
  rw [bind_ok] at h
  obtain ⟨k, s1, h1, h⟩ := h
  rw [bind_ok] at h
  obtain ⟨b, s2, h2, h⟩ := h
  rw [bind_ok] at h
  obtain ⟨u, s3, h3, h⟩ := h
  obtain ⟨rfl, rfl⟩ := pure_ok.1 h
  obtain ⟨hi, hc, -⟩ := C107_mesh_closed m Z alpha w
  obtain ⟨hg, hsh⟩ := newShape_ok he hok hi hc h1
  have hb := (newBody_mounted hsh h2).setup_mounted (setup_ok (Or.inr ⟨rfl, rfl⟩) h3)
  have e1 : Quat.unit (Quat.prod gearFrame Quat.identity) = Quat.prod gearFrame (Quat.Rz 0) := by
    have hz : Quat.Rz 0 = Quat.identity := by unfold Quat.Rz Quat.identity; simp
    rw [hz]
    exact (C01_unit_spec _).2.1 (prod_unit (Rx_unit _) ident_unit)
  rw [e1] at hb
  exact hb.of_grows hg

theorem placeGears_ok {w : ℝ} {omega : ℕ → ℝ} {material : String} {density : ℝ} : ∀ (L : List (Specs × String)) (i : ℕ) (cx cy cz θ : ℝ) (s s' : Scene) (u : Unit),
    (L.map Prod.snd).Nodup →
    (∀ p ∈ L, ∃ r q, Standing (MountedFin false material density) s p.2 ⟨(make_gear_mesh p.1 w).1, (make_gear_mesh p.1 w).2, r, q⟩) →
    placeGears w omega i L cx cy cz θ s = .ok (u, s') →
    s' = { s with eng := { s.eng with bodies := s'.eng.bodies } } ∧ s'.eng.bodies.keys = s.eng.bodies.keys ∧
      (∀ k, k ∉ L.tail.map Prod.snd → s'.eng.bodies.get? k = s.eng.bodies.get? k) ∧
      ∃ pose : ℕ → ℝ × ℝ × ℝ, pose 0 = (cx, cy, θ) ∧
        ∀ j a b, L[j]? = some a → L[j + 1]? = some b →
          make_gears_assembly a.1 b.1 (pose j).1 (pose j).2.1 (pose j).2.2 (omega (i + j)) = .ok (pose (j + 1)) ∧
          Standing (MountedFin false material density) s' b.2 (gearBrick w b.1 (pose (j + 1)) (cz + (j + 1) * (w / 2))) := by
  intro L
  induction L with
  | nil =>
    intro i cx cy cz θ s s' u _ _ h
    unfold placeGears at h
    obtain ⟨-, rfl⟩ := pure_ok.1 h
    exact ⟨rfl, rfl, fun _ _ => rfl, fun _ => (cx, cy, θ), rfl, by intro j a b h; simp at h⟩
  | cons a L ih =>
    cases L with
    | nil =>
      intro i cx cy cz θ s s' u _ _ h
      unfold placeGears at h
      obtain ⟨-, rfl⟩ := pure_ok.1 h
      exact ⟨rfl, rfl, fun _ _ => rfl, fun _ => (cx, cy, θ), rfl, by intro j a b _ h; simp at h⟩
    | cons b L =>
      intro i cx cy cz θ s s' u hnd hst h
      unfold placeGears at h
      cases hq : make_gears_assembly a.1 b.1 cx cy θ (omega i) with
      | error e =>
        rw [hq] at h
        cases h
      | ok p =>
        obtain ⟨x, y, φ⟩ := p
        rw [hq] at h
        simp only at h
        rw [bind_ok] at h
        obtain ⟨u1, s1, h1, h⟩ := h
        rw [bind_ok] at h
        obtain ⟨u2, s2, h2, h⟩ := h
        obtain ⟨r, q, o, sh, m, ho, hsh, hm, ⟨hM, hF⟩⟩ := hst b (by simp)
        obtain ⟨q', r', hq', he, hk, hget, hold, hw⟩ := place_ok (r := Quat.rotate gearFrame ⟨x, y, cz + w / 2⟩)
          (q := Quat.prod gearFrame (Quat.Rz φ)) (s' := s2) (u := u2) ho hsh hM.2.2.2.1 hM.1.1 (bind_ok.2 ⟨_, _, h1, h2⟩)
        have hun : IsUnitQ (Quat.prod gearFrame (Quat.Rz φ)) := prod_unit (Rx_unit _) (Rz_unit _)
        rw [(C01_unit_spec _).2.1 hun] at hw
        have hmesh : s2.meshes = s.meshes := by rw [he]
        have hbst : Standing (MountedFin false material density) s2 b.2 (gearBrick w b.1 (x, y, φ) (cz + w / 2)) :=
          ⟨_, sh, m, hget, hsh, by rw [hmesh]; exact hm, ⟨hM.1, hM.2.1, hM.2.2.1, hq', hw⟩, hF⟩
        rw [List.map_cons, List.nodup_cons] at hnd
        obtain ⟨e1, e2, e3, pose, p0, pj⟩ := ih (i + 1) x y (cz + w / 2) φ s2 s' u hnd.2 (by
          intro p hp
          by_cases hpb : p.2 = b.2
          · rcases List.mem_cons.1 hp with rfl | hp'
            · exact ⟨_, _, hbst⟩
            · exfalso
              have := (List.nodup_cons.1 hnd.2).1
              exact this (by rw [← hpb]; exact List.mem_map_of_mem hp')
          · obtain ⟨r, q, o, sh, m, ho, hsh, hm, hM⟩ := hst p (List.mem_cons_of_mem _ hp)
            exact ⟨r, q, o, sh, m, by rw [hold _ hpb]; exact ho, hsh, by rw [hmesh]; exact hm, hM⟩) h
        refine ⟨?_, e2.trans hk, ?_, fun j => if j = 0 then (cx, cy, θ) else pose (j - 1), rfl, ?_⟩
        · rw [e1, he]
        · intro k hk'
          simp only [List.tail_cons, List.map_cons, List.mem_cons, not_or] at hk'
          rw [e3 k (by simpa using hk'.2), hold k hk'.1]
        · intro j c d hc hd
          cases j with
          | zero =>
            simp only [List.getElem?_cons_zero, Option.some.injEq, List.getElem?_cons_succ, zero_add] at hc hd
            subst hc hd
            refine ⟨by simpa [p0] using hq, ?_⟩
            have hbk : b.2 ∉ (b :: L).tail.map Prod.snd := (List.nodup_cons.1 hnd.2).1
            obtain ⟨o, sh, m, ho, hsh, hm, hM⟩ := hbst
            refine ⟨o, sh, m, by rw [e3 _ hbk]; exact ho, hsh, by rw [e1]; exact hm, ?_⟩
            have : cz + ((0 : ℕ) + 1) * (w / 2) = cz + w / 2 := by push_cast; ring
            rw [this]
            simpa [p0] using hM
          | succ j =>
            simp only [List.getElem?_cons_succ] at hc hd
            obtain ⟨f1, f2⟩ := pj j c d hc hd
            refine ⟨?_, ?_⟩
            · simp only [Nat.add_sub_cancel, if_neg (Nat.succ_ne_zero _)]
              rw [show i + (j + 1) = i + 1 + j by omega]
              exact f1
            · simp only [Nat.add_sub_cancel, if_neg (Nat.succ_ne_zero _)]
              rw [show cz + ((j + 1 : ℕ) + 1) * (w / 2) = cz + w / 2 + (j + 1) * (w / 2) by push_cast; ring]
              exact f2

/-- One hinge. -/
theorem gearHinge_ok {w : ℝ} {p c : String} {s s' : Scene} {u : Unit} {pb cb : BodyObj} (hp : s.eng.bodies.get? p = some pb) (hc : s.eng.bodies.get? c = some cb)
    (hpq : IsUnitQ pb.body.q) (hcq : IsUnitQ cb.body.q) (h : gearHinge w p c s = .ok (u, s')) :
    s.eng.hinges.get? (p ++ "_" ++ c) = none ∧ (∃ ho, s' = { s with eng := { s.eng with hinges := s.eng.hinges.setItem (p ++ "_" ++ c) ho } }) ∧
      JoinedAt s' (p ++ "_" ++ c) p c (cb.body.r - ⟨0, w / 2, 0⟩) V3.k := by
  unfold gearHinge at h
  rw [bind_ok] at h
  obtain ⟨u1, s2, h2, h⟩ := h
  replace h2 := api_ok.1 h2
  obtain ⟨e1, h2, rfl⟩ := h2
  unfold Engine.create_hinge at h2
  split_ifs at h2 with hm
  rw [Bool.not_eq_true] at hm
  cases h2
  rw [bind_ok] at h
  obtain ⟨rc, s4, h4, h⟩ := h
  replace h4 := query_ok.1 h4
  obtain ⟨h4, rfl⟩ := h4
  obtain ⟨e2, h5, hs'⟩ := api_ok.1 h
  obtain ⟨cb', hcb, rfl⟩ := getPosition_ok.1 h4
  simp only at hcb
  rw [hc] at hcb
  cases hcb
  obtain ⟨O, S, ho, ap, ac, np, nc, ⟨hO, hS⟩, -, rfl, f1, f2, f3, f4, f5, f6, f7, f8, f9, f10⟩ :=
    C41_set_hinge h5 hp hc hpq hcq (by intro h; cases h) (by unfold V3.k; intro h; have := congrArg V3.z h; simp at this)
  simp only [setItem_setItem] at hs'
  subst hs'
  subst hO hS
  rw [unit_k] at f9 f10
  rw [lit0, lit2] at f7 f8
  exact ⟨(Dict.get?_eq_none _ _).2 hm, ⟨ho, rfl⟩, ho, pb, cb, ap, ac, np, nc, Dict.get?_setItem_self _ _ _, hp, hc, f1, f2, f3, f4, f5, f6, f7, f8, f9, f10⟩

theorem gearHinges_ok {w : ℝ} {p : String} {pb : BodyObj} (hpq : IsUnitQ pb.body.q) : ∀ (L : List String) (s s' : Scene) (u : Unit),
    s.eng.bodies.get? p = some pb → (∀ c ∈ L, ∃ cb, s.eng.bodies.get? c = some cb ∧ IsUnitQ cb.body.q) →
    L.forM (gearHinge w p) s = .ok (u, s') →
    (∃ hs, s' = { s with eng := { s.eng with hinges := hs } }) ∧
      s'.eng.hinges.keys = s.eng.hinges.keys ++ L.map (fun c => p ++ "_" ++ c) ∧
      (∀ c ∈ L, s.eng.hinges.get? (p ++ "_" ++ c) = none) ∧
      (∀ n, n ∉ L.map (fun c => p ++ "_" ++ c) → s'.eng.hinges.get? n = s.eng.hinges.get? n) ∧
      ∀ c ∈ L, ∀ cb, s.eng.bodies.get? c = some cb → JoinedAt s' (p ++ "_" ++ c) p c (cb.body.r - ⟨0, w / 2, 0⟩) V3.k := by
  intro L
  induction L with
  | nil =>
    intro s s' u _ _ h
    change (pure PUnit.unit : SceneM PUnit) s = _ at h
    obtain ⟨-, rfl⟩ := pure_ok.1 h
    exact ⟨⟨_, rfl⟩, by simp, by simp, fun _ _ => rfl, by simp⟩
  | cons c L ih =>
    intro s s' u hp hL h
    change (gearHinge w p c >>= fun _ => L.forM (gearHinge w p)) s = _ at h
    rw [bind_ok] at h
    obtain ⟨u1, s1, h1, h2⟩ := h
    obtain ⟨cb, hc, hcq⟩ := hL c (by simp)
    obtain ⟨a1, ⟨ho, a2⟩, a3⟩ := gearHinge_ok hp hc hpq hcq h1
    have hb1 : s1.eng.bodies = s.eng.bodies := by rw [a2]
    obtain ⟨⟨hs, b1⟩, b2, b3, b4, b5⟩ := ih s1 s' u (by rw [hb1]; exact hp) (fun d hd => by rw [hb1]; exact hL d (by simp [hd])) h2
    have hnot : p ++ "_" ++ c ∉ L.map (fun c => p ++ "_" ++ c) := by
      intro hin
      obtain ⟨j, hj', e⟩ := List.mem_map.1 hin
      have := b3 j hj'
      rw [e, a2] at this
      simp only [Dict.get?_setItem_self] at this
      cases this
    refine ⟨⟨hs, by rw [b1, a2]⟩, ?_, ?_, ?_, ?_⟩
    · rw [b2, a2]
      show (Dict.setItem _ _ _).keys ++ _ = _
      rw [get?_keys_setItem_new a1]; simp
    · intro d hd
      rcases List.mem_cons.1 hd with rfl | hd
      · exact a1
      · have := b3 d hd
        rw [a2] at this
        simp only at this
        rwa [Dict.get?_setItem_ne _ _ (fun e => hnot (by rw [← e]; exact List.mem_map_of_mem (f := fun c => p ++ "_" ++ c) hd))] at this
    · intro n hn
      rw [List.map_cons, List.mem_cons, not_or] at hn
      rw [b4 n hn.2, a2]
      exact Dict.get?_setItem_ne _ _ hn.1
    · intro d hd db hdb
      rcases List.mem_cons.1 hd with rfl | hd
      · rw [hc] at hdb
        cases hdb
        obtain ⟨ho', pb', cb', ap, ac, np, nc, f0, f1, f2, f3⟩ := a3
        refine ⟨ho', pb', cb', ap, ac, np, nc, by rw [b4 _ hnot]; exact f0, ?_, ?_, f3⟩
        · rw [b1]; exact f1
        · rw [b1]; exact f2
      · exact b5 d hd db (by rw [hb1]; exact hdb)

theorem rotate_gearFrame (v : V3) : Quat.rotate gearFrame v = ⟨v.x, v.z, -v.y⟩ := by
  unfold gearFrame
  rw [rotate_Rx, show -Real.pi / 2 = -(Real.pi / 2) by ring, Real.cos_neg, Real.sin_neg, Real.cos_pi_div_two, Real.sin_pi_div_two]
  refine V3.ext ?_ ?_ ?_ <;> simp

theorem gearHeight (k : ℕ) : (0 : ℝ) + (k + 1) * (10.0 / 2) = 5 * ((k + 1 : ℕ) : ℝ) := by norm_num; ring

/-- The number of teeth of the i-th gear. -/
def teethOf (Z : ℕ → Fin 4) (i : ℕ) : ℕ := [7, 12, 15, 28].getD (Z i) 0

/-- The i-th gear of a train. -/
noncomputable def trainSpecs (Z : ℕ → Fin 4) (i : ℕ) : Specs := make_gear_specs 1.0 (teethOf Z i) 20

/-- **C107.** When `create_gear_train` returns, whatever it drew: the scene has N more free bodies, the gears, and one fixed body, the ground below them.
Gear i lies flat (its axis is vertical) in the height 5·i; gear i + 1 is where `make_gears_assembly` wants it next to gear i, so that their teeth mesh
(`C107_assembly_touch`, `C107_assembly_mesh`).  Every gear hangs on one hinge to the ground; nothing else has changed. -/
theorem C107_gear_train {eig : Eig} (he : EigSpec eig) {Z : ℕ → Fin 4} {omega : ℕ → ℝ} {N : ℕ} {density : ℝ} {material : String} {s s' : Scene}
    {names : List String} (hok : s.OK) (h : create_gear_train eig Z omega N density material s = .ok (names, s')) :
    ∃ (gears : List String) (ground : String) (pose : ℕ → ℝ × ℝ × ℝ), names = gears ++ [ground] ∧ gears.length = N ∧
      s'.eng.bodies.keys = s.eng.bodies.keys ++ names ∧ names.Nodup ∧ (∀ n ∈ names, s.eng.bodies.get? n = none) ∧
      (∀ n, n ∉ names → s'.eng.bodies.get? n = s.eng.bodies.get? n) ∧
      pose 0 = (0, 0, 0) ∧
      (∀ i, i + 1 < N → make_gears_assembly (trainSpecs Z i) (trainSpecs Z (i + 1)) (pose i).1 (pose i).2.1 (pose i).2.2 (omega i) = .ok (pose (i + 1))) ∧
      (∀ i n, gears[i]? = some n → Standing (Finished false material density) s' n (gearBrick 10 (trainSpecs Z i) (pose i) (5 * i))) ∧
      Standing (Finished true material density) s' ground ⟨(create_box 200 1 200).1, (create_box 200 1 200).2, ⟨0, -21 / 2, 0⟩, Quat.identity⟩ ∧
      s'.eng.hinges.keys = s.eng.hinges.keys ++ gears.map (fun g => ground ++ "_" ++ g) ∧
      (∀ g ∈ gears, ∃ b, s'.eng.bodies.get? g = some b ∧ JoinedAt s' (ground ++ "_" ++ g) ground g (b.body.r - ⟨0, 5, 0⟩) V3.k) ∧
      (∀ n, n ∉ gears.map (fun g => ground ++ "_" ++ g) → s'.eng.hinges.get? n = s.eng.hinges.get? n) ∧
      s'.eng.forces = s.eng.forces ∧ s'.eng.surfaces_interactions = s.eng.surfaces_interactions ∧ s'.eng.params = s.eng.params := by
  unfold create_gear_train at h
  simp only at h
  have hspecs : ((List.range N).map fun (i : ℕ) => make_gear_specs 1.0 ([7, 12, 15, 28].getD (Z i) 0) 20) = (List.range N).map (trainSpecs Z) := rfl
  rw [hspecs] at h
  rw [bind_ok] at h
  obtain ⟨G, s1, h1, h⟩ := h
  rw [bind_ok] at h
  obtain ⟨u2, s2, h2, h⟩ := h
  rw [bind_ok] at h
  obtain ⟨k, s3, h3, h⟩ := h
  rw [bind_ok] at h
  obtain ⟨gr, s4, h4, h⟩ := h
  rw [bind_ok] at h
  obtain ⟨u5, s5, h5, h⟩ := h
  rw [bind_ok] at h
  obtain ⟨u6, s6, h6, h⟩ := h
  obtain ⟨rfl, rfl⟩ := pure_ok.1 h
  -- the gears
  have hput : PutUp (MountedFin false material density) s s1 (((List.range N).map (trainSpecs Z)).flatMap fun g => [gearBrick 10.0 g (0, 0, 0) 0]) (G.flatMap fun n => [n]) := by
    rw [List.mapM_map] at h1
    have := mapM_built (Q := MountedFin false material density) (fun (i : ℕ) => newGear eig 10.0 density material (trainSpecs Z i)) (fun n => [n])
      (fun i => [gearBrick 10.0 (trainSpecs Z i) (0, 0, 0) 0]) Rigid.Scene.OK (fun s s' N hg => hg.ok) (fun i s b s' hok h => newGear_ok he hok h) (List.range N) s s1 G hok h1
    rw [List.flatMap_map]
    exact this
  rw [flatMap_singleton_id] at hput
  rw [flatMap_singleton_map, List.map_map] at hput
  have hlen : G.length = N := by have := hput.length; simpa using this
  have hF : ∀ i n, G[i]? = some n → Standing (MountedFin false material density) s1 n (gearBrick 10.0 (trainSpecs Z i) (0, 0, 0) 0) := by
    intro i n hn
    have hi : i < G.length := by
      by_contra hc
      rw [List.getElem?_eq_none (by omega)] at hn; cases hn
    have := List.Forall₂.get hput.2 (i := i) hi (by simpa [hlen] using hi)
    rw [List.getElem?_eq_getElem hi] at hn
    cases hn
    simpa using this
  -- their places
  have hzip : ∀ (i : ℕ) (p : Specs × String), (((List.range N).map (trainSpecs Z)).zip G)[i]? = some p ↔ p.1 = trainSpecs Z i ∧ G[i]? = some p.2 ∧ i < N := by
    intro i p
    rw [List.getElem?_zip_eq_some]
    constructor
    · rintro ⟨a, b⟩
      rw [List.getElem?_map] at a
      have hi : i < N := by
        by_contra hc
        rw [List.getElem?_eq_none (by simpa using hc)] at a; cases a
      rw [List.getElem?_range hi] at a
      simp only [Option.map_some, Option.some.injEq] at a
      exact ⟨a.symm, b, hi⟩
    · rintro ⟨a, b, hi⟩
      refine ⟨?_, b⟩
      rw [List.getElem?_map, List.getElem?_range hi, a]; rfl
  have hsnd : ((((List.range N).map (trainSpecs Z)).zip G).map Prod.snd) = G := List.map_snd_zip (by simp [hlen])
  obtain ⟨e1, e2, e3, pose, p0, pj⟩ := placeGears_ok (material := material) (density := density) _ 0 0 0 0 0 s1 s2 u2 (by rw [hsnd]; exact hput.1.nodup) (by
    intro p hp
    obtain ⟨i, hi⟩ := List.mem_iff_getElem?.1 hp
    obtain ⟨a, b, -⟩ := (hzip i p).1 hi
    exact ⟨_, _, by rw [a]; exact hF i p.2 b⟩) h2
  have hG2 : ∀ i n, G[i]? = some n → Standing (MountedFin false material density) s2 n (gearBrick 10.0 (trainSpecs Z i) (pose i) (5 * i)) := by
    intro i n hn
    have hi : i < G.length := by
      by_contra hc
      rw [List.getElem?_eq_none (by omega)] at hn; cases hn
    cases i with
    | zero =>
      have hnot : n ∉ (((List.range N).map (trainSpecs Z)).zip G).tail.map Prod.snd := by
        rw [List.map_tail, hsnd]
        intro hin
        cases hG : G with
        | nil => rw [hG] at hi; simp at hi
        | cons g G' =>
          rw [hG] at hn hin
          have := hput.1.nodup
          rw [hG, List.nodup_cons] at this
          simp only [List.getElem?_cons_zero, Option.some.injEq] at hn
          exact this.1 (hn ▸ hin)
      obtain ⟨o, sh, m, ho, hsh, hm, hM⟩ := hF 0 n hn
      refine ⟨o, sh, m, by rw [e3 n hnot]; exact ho, hsh, by rw [e1]; exact hm, ?_⟩
      rw [p0]
      simpa using hM
    | succ j =>
      have := (pj j (trainSpecs Z j, G[j]) (trainSpecs Z (j + 1), n)
        ((hzip _ _).2 ⟨rfl, List.getElem?_eq_getElem (by omega), by omega⟩) ((hzip _ _).2 ⟨rfl, hn, by omega⟩)).2
      rw [gearHeight] at this
      exact this
  -- the ground
  have hok2 : s2.OK := by
    have := hput.1.ok hok
    unfold Rigid.Scene.OK at *
    rw [e1]
    exact this
  obtain ⟨hbi, hbc⟩ : IndicesBelow (create_box 200.0 1.0 200.0).2 (create_box 200.0 1.0 200.0).1.length ∧ ClosedOriented (create_box 200.0 1.0 200.0).2 := by
    have := box_star (w := 200.0) (h := 1.0) (d := 200.0) (by norm_num) (by norm_num) (by norm_num)
    exact ⟨this.1, this.2.1⟩
  obtain ⟨g3, hsh3⟩ := newShape_ok he hok2 hbi hbc h3
  have hgr := ((newBody_mounted hsh3 h4).setup_mounted (setup_ok (Or.inl ⟨rfl, rfl⟩) h5)).of_grows g3
  rw [(C01_unit_spec _).2.1 ident_unit] at hgr
  obtain ⟨og, shg, mg, hog, hshg, hmg, hMg⟩ := (List.forall₂_cons.1 hgr.2).1
  have hG5 : ∀ i n, G[i]? = some n → Standing (MountedFin false material density) s5 n (gearBrick 10.0 (trainSpecs Z i) (pose i) (5 * i)) :=
    fun i n hn => (hG2 i n hn).grows hgr.1
  obtain ⟨⟨hs, f1⟩, f2, f3, f4, f5⟩ := gearHinges_ok hMg.1.2.2.2.1 G s5 s6 u6 hog (by
    intro c hc
    obtain ⟨i, hi⟩ := List.mem_iff_getElem?.1 hc
    obtain ⟨o, sh, m, ho, hsh, hm, hM⟩ := hG5 i c hi
    exact ⟨o, ho, hM.1.2.2.2.1⟩) h6
  have hbod : s6.eng.bodies = s5.eng.bodies := by rw [f1]
  have hmsh : s6.meshes = s5.meshes := by rw [f1]
  have hstand : ∀ {Q : BrickFact} {n : String} {b : Brick}, Standing Q s5 n b → Standing Q s6 n b := by
    rintro Q n b ⟨o, sh, m, ho, hsh, hm, hM⟩
    exact ⟨o, sh, m, by rw [hbod]; exact ho, hsh, by rw [hmsh]; exact hm, hM⟩
  have hfin : ∀ {fixed : Bool} {s : Scene} {n : String} {b : Brick}, Standing (MountedFin fixed material density) s n b → Standing (Finished fixed material density) s n b := by
    rintro fixed s n b ⟨o, sh, m, ho, hsh, hm, hM⟩
    exact ⟨o, sh, m, ho, hsh, hm, hM.finished⟩
  have hkeys : s6.eng.bodies.keys = s.eng.bodies.keys ++ (G ++ [gr]) := by
    rw [hbod, hgr.1.keys, e2, hput.1.keys, List.append_assoc]
  have hgnot : gr ∉ G := by
    intro hin
    have := hgr.1.fresh gr (by simp)
    have h0 : s2.eng.bodies.get? gr = none := this
    obtain ⟨i, hi⟩ := List.mem_iff_getElem?.1 hin
    obtain ⟨o, _, _, ho, _⟩ := hG2 i gr hi
    rw [h0] at ho; cases ho
  have hsub : ∀ n, n ∉ G → s2.eng.bodies.get? n = s.eng.bodies.get? n := by
    intro n hn
    rw [e3 n (by rw [List.map_tail, hsnd]; exact fun h => hn (List.mem_of_mem_tail h)), hput.1.old n hn]
  have l10 : (10.0 : ℝ) = 10 := by norm_num
  refine ⟨G, gr, pose, rfl, hlen, hkeys, ?_, ?_, ?_, p0, ?_, ?_, ?_, ?_, ?_, ?_, ?_, ?_, ?_⟩
  · rw [List.nodup_append]
    refine ⟨hput.1.nodup, by simp, ?_⟩
    intro a ha b hb hab
    rw [List.mem_singleton] at hb
    exact hgnot (by rw [← hb, ← hab]; exact ha)
  · intro n hn
    rcases List.mem_append.1 hn with hn | hn
    · exact hput.1.fresh n hn
    · rw [List.mem_singleton] at hn
      rw [hn, ← hsub gr hgnot]
      exact hgr.1.fresh gr (by simp)
  · intro n hn
    rw [List.mem_append, not_or] at hn
    rw [hbod, hgr.1.old n hn.2, hsub n hn.1]
  · intro i hi
    have := (pj i (trainSpecs Z i, G[i]'(by omega)) (trainSpecs Z (i + 1), G[i + 1]'(by omega))
        ((hzip _ _).2 ⟨rfl, List.getElem?_eq_getElem (by omega), by omega⟩) ((hzip _ _).2 ⟨rfl, List.getElem?_eq_getElem (by omega), by omega⟩)).1
    rwa [Nat.zero_add] at this
  · intro i n hn
    have := hfin (hstand (hG5 i n hn))
    rwa [l10] at this
  · have := hfin (hstand ⟨og, shg, mg, hog, hshg, hmg, hMg⟩)
    have e200 : (200.0 : ℝ) = 200 := by norm_num
    have e1' : (1.0 : ℝ) = 1 := by norm_num
    have e : (⟨0.0, -0.5 - 10.0, 0.0⟩ : V3) = ⟨0, -21 / 2, 0⟩ := by refine V3.ext ?_ ?_ ?_ <;> norm_num
    rw [e200, e1', e] at this
    exact this
  · rw [f2, hgr.1.hinges, e1]
    show s1.eng.hinges.keys ++ _ = _
    rw [hput.1.hinges]
  · intro g hg
    obtain ⟨i, hi⟩ := List.mem_iff_getElem?.1 hg
    obtain ⟨o, sh, m, ho, hsh, hm, hM⟩ := hG5 i g hi
    refine ⟨o, by rw [hbod]; exact ho, ?_⟩
    have := f5 g hg o ho
    rwa [show (10.0 : ℝ) / 2 = 5 by norm_num] at this
  · intro n hn
    rw [f4 n hn, hgr.1.hinges, e1]
    show s1.eng.hinges.get? n = _
    rw [hput.1.hinges]
  · rw [f1]
    show s5.eng.forces = _
    rw [hgr.1.forces, e1]
    exact hput.1.forces
  · rw [f1]
    show s5.eng.surfaces_interactions = _
    rw [hgr.1.inter, e1]
    exact hput.1.inter
  · rw [f1]
    show s5.eng.params = _
    rw [hgr.1.params, e1]
    exact hput.1.params

end Verif
