import Verif.Props.SceneAll2
import Verif.Props.SceneTemple5
import Verif.Props.SceneGear3
import Verif.Props.SceneMail4
import Verif.Props.SceneFall2
import Verif.Props.SceneChain

/-! C110: every named scene is built. -/

namespace Verif

open Rigid Rigid.SceneM SMesh
open VMesh (Tri)

/-- What is assumed of the parts that come from outside: the eigenvalue library solves symmetric problems, the hull library returns hulls of the three wedges
of the temple, and the meshes of the files are closed solids (star shaped where they are rescaled). -/
structure GoodOutside (O : Outside) : Prop where
  eig : EigSpec O.eig
  hull : TempleHulls O.hull 1 3 1
  jack : StarShaped O.jack
  funnel : StarShaped O.funnel
  glass : StarShaped O.glass
  objs_some : O.objs ≠ []
  objs : ∀ VT ∈ O.objs, StarShaped VT
  grains : ∀ n < 20, StarShaped (O.grains n)
  rocks : ∀ n < 20, StarShaped (O.rocks n)
  mountains : Solid O.mountains
  buildings : ∀ VT ∈ O.buildings, Solid VT

/-- The names of the hinges of the two scenes that have hinges are new: no hinge is called like two generated names joined by an underscore, and the
links of the chain do not give the same name to two hinges. -/
structure NewHinges (s : Scene) : Prop where
  new : ∀ i j b c, s.eng.hinges.get? (s.gen i b ++ "_" ++ s.gen j c) = none
  diff : ∀ i j, i ≠ j → s.gen (i + 1) "link" ++ "_" ++ s.gen (i + 2) "link" ≠ s.gen (j + 1) "link" ++ "_" ++ s.gen (j + 2) "link"

theorem placeFile_runs {eig : Eig} (he : EigSpec eig) {shape base type material : String} (ht : type = "fixed" ∨ type = "free") {density : ℝ}
    {VT : List V3 × List Tri} (hv : Solid VT) {s : Scene} (hr : Ready material s) :
    ∃ n s', placeFile eig shape base type VT density material s = .ok (n, s') ∧ Ready material s' ∧ Up s s' [n] := by
  obtain ⟨n, s', h1, ⟨h2, -⟩, h3⟩ := solidBody_runs he (base := shape) (base' := base) ht (density := density) hv V3.zero Quat.identity (s0 := s) hr
    ⟨⟨0, rfl⟩, fun n o h => Or.inl (by rw [h]; simp)⟩
  exact ⟨n, s', h1, h2, h3⟩

theorem rockSlide_runs {eig : Eig} (he : EigSpec eig) {w h d : ℝ} (hw : 0 < w) (hh : 0 < h) (hd : 0 < d) {I J K : ℕ} (hI : I ≠ 0) (hJ : J ≠ 0) (hK : K ≠ 0)
    {density : ℝ} {material : String} {mountains : List V3 × List Tri} (hm : Solid mountains) {buildings : List (List V3 × List Tri)}
    (hb : ∀ VT ∈ buildings, Solid VT) {rocks : ℕ → List V3 × List Tri} (hg : ∀ n < 20, StarShaped (rocks n)) {draw : ℕ → ℕ → ℕ → Quat} {s : Scene}
    (hr : Ready material s) :
    ∃ names s', create_rock_slide eig w h d I J K density material mountains buildings rocks draw s = .ok (names, s') ∧ Ready material s' := by
  have ht9 : 0 < min (min (w / I) (h / J)) (d / K) * 0.9 := mul_pos (cell_pos hw hh hd hI hJ hK) (by norm_num)
  unfold create_rock_slide
  refine bind_runs (placeFile_runs he (Or.inl rfl) hm hr) ?_
  rintro m s1 ⟨r1, -⟩
  refine bind_runs (mapM_bodies_runs (fun s => Ready material s) (fun VT hVT s hi => placeFile_runs he (Or.inr rfl) (hb VT hVT) hi) s1 r1) ?_
  rintro L s2 ⟨r2, -⟩
  rw [if_neg hI, if_neg hJ, if_neg hK]
  obtain ⟨N, s3, h3, r3⟩ := scaledShapes_runs he (base := "rock") rocks ht9 (List.range 20) (fun n hn => hg n (List.mem_range.1 hn)) s2 r2
  obtain ⟨-, -, Ws, hs⟩ := scaledShapes_ok he rocks ht9 _ (fun n hn => (hg n (List.mem_range.1 hn)).scalable) _ _ _ r2.ok h3
  have hN : N ≠ [] := by
    have := hs.2.1.length_eq.trans hs.2.2.length_eq.symm
    rw [List.length_map, List.length_range] at this
    intro e; rw [e] at this; simp at this
  refine bind_runs (P := fun N s1 => N ≠ [] ∧ Ready material s1 ∧ ∃ Ws, ScaledShapes s1 (min (min (w / I) (h / J)) (d / K) * 0.9) ((List.range 20).map rocks) Ws N)
    ⟨N, s3, h3, hN, r3, Ws, hs⟩ ?_
  rintro N s1 ⟨hN, r1, Ws, hs⟩
  exact bind_runs (scaled_lattice_runs hs hN hI hJ hK r1) fun _ _ r2 => pure_runs r2

/-- After the ground, a builder that succeeds. -/
theorem onGround {O : Outside} (hO : GoodOutside O) {α : Type} {m : SceneM α} {s : Scene} (hr : Ready "default" s)
    (hm : ∀ s1, Ready "default" s1 → ∃ a s', m s1 = .ok (a, s') ∧ SceneGood s') :
    ∃ s1 s2 a, defaultGround O s = .ok ((), s1) ∧ Ready "default" s1 ∧ m s1 = .ok (a, s2) ∧ SceneGood s2 := by
  obtain ⟨u, s1, h1, r1⟩ := ground_runs hO.eig V3.zero Quat.identity 1.0 hr
  obtain ⟨a, s2, h2, g2⟩ := hm s1 r1
  exact ⟨s1, s2, a, h1, r1, h2, g2⟩

theorem onGround' {O : Outside} (hO : GoodOutside O) {α : Type} {m : SceneM α} {s : Scene} (hr : Ready "default" s)
    (hm : ∀ s1, Ready "default" s1 → ∃ a s', m s1 = .ok (a, s') ∧ Ready "default" s') :
    ∃ s', (do
      defaultGround O
      let _ ← m : SceneM Unit) s = .ok ((), s') ∧ SceneGood s' := by
  obtain ⟨s1, s2, a, h1, -, h2, g⟩ := onGround hO hr fun s1 r1 => by
    obtain ⟨a, s', h, r⟩ := hm s1 r1
    exact ⟨a, s', h, r.good⟩
  exact ⟨s2, bind_ok.2 ⟨(), s1, h1, bind_ok.2 ⟨a, s2, h2, rfl⟩⟩, g⟩

theorem alone {α : Type} {m : SceneM α} {s : Scene} (hm : ∃ a s', m s = .ok (a, s') ∧ SceneGood s') :
    ∃ s', (do let _ ← m : SceneM Unit) s = .ok ((), s') ∧ SceneGood s' := by
  obtain ⟨a, s', h, g⟩ := hm
  exact ⟨s', bind_ok.2 ⟨a, s', h, rfl⟩, g⟩

theorem tan_pi_twelve : Real.tan (Real.pi / 12) < 1 / 2 := by
  have h0 := Real.pi_pos
  have h1 := Real.pi_le_four
  have h2 : Real.sin (Real.pi / 12) < Real.pi / 12 := Real.sin_lt (by positivity)
  have h3 := Real.one_sub_sq_div_two_le_cos (x := Real.pi / 12)
  have h4 : (Real.pi / 12) ^ 2 ≤ 1 / 9 := by nlinarith
  rw [Real.tan_eq_sin_div_cos, div_lt_iff₀ (by linarith)]
  linarith

/-- Every scene but "ur5" is put up. -/
theorem stage_builds {O : Outside} (hO : GoodOutside O) {name : String} (hn : name ∈ get_scene_names) (h5 : name ≠ "ur5") {s : Scene}
    (hr : Ready "default" s) (hh : NewHinges s) : ∃ s', stage O name s = .ok ((), s') ∧ SceneGood s' := by
  have he := hO.eig
  unfold get_scene_names at hn
  simp only [List.mem_cons, List.not_mem_nil, or_false] at hn
  rcases hn with h | h | h | h | h | h | h | h | h | h | h | h | h | h | h | h | h
  all_goals subst h
  all_goals unfold stage
  all_goals simp only [reduceIte, String.reduceEq]
  · exact onGround' hO hr fun s1 r1 => C90_pillar_succeeds he _ _ _ r1 (by norm_num) (by norm_num) (by norm_num) (by norm_num)
  · exact onGround' hO hr fun s1 r1 => C88_arch_succeeds he _ _ r1 (by norm_num) (by norm_num) (by norm_num) (by norm_num) (by norm_num) (by norm_num) (by norm_num)
  · exact onGround' hO hr fun s1 r1 => C89_dome_succeeds he _ _ _ r1 (by norm_num) (by norm_num) (by norm_num)
  · exact onGround' hO hr fun s1 r1 => C87_tower_succeeds he _ _ _ _ r1 (by norm_num) (by norm_num) (by norm_num) (by norm_num) (by norm_num) (by norm_num)
  · exact onGround' hO hr fun s1 r1 => C91_colosseum_succeeds he _ _ r1 (by norm_num) (by norm_num) (by norm_num) (by norm_num) (by norm_num) (by norm_num) (by
      have := tan_pi_twelve
      push_cast
      norm_num
      linarith)
  · exact onGround' hO hr fun s1 r1 => C91_pantheon_succeeds he _ _ _ r1 (by norm_num) (by norm_num) (by norm_num) (by norm_num) (by norm_num) (by norm_num)
  · exact onGround' hO hr fun s1 r1 => (C105_succeeds he (r := 0) (q := Quat.identity) (by norm_num) (by norm_num) (by norm_num) (by norm_num) (by norm_num) (by norm_num)
      (by norm_num) (by norm_num) hO.jack hO.funnel hO.objs_some hO.objs hO.grains one_ne_zero one_ne_zero r1).2.2.1
  · exact onGround' hO hr fun s1 r1 => (C105_succeeds he (r := 0) (q := Quat.identity) (by norm_num) (by norm_num) (by norm_num) (by norm_num) (by norm_num) (by norm_num)
      (by norm_num) (by norm_num) hO.jack hO.glass hO.objs_some hO.objs hO.grains one_ne_zero one_ne_zero r1).2.2.2.1
  · exact onGround' hO hr fun s1 r1 => (C105_succeeds he (r := 0) (q := Quat.identity) (by norm_num) (by norm_num) (by norm_num) (by norm_num) (by norm_num) (by norm_num)
      (by norm_num) (by norm_num) hO.jack hO.glass hO.objs_some hO.objs hO.grains (by norm_num) (by norm_num) r1).2.2.2.2
  · refine onGround' hO hr fun s1 r1 => ?_
    rw [show (1.0 : ℝ) = 1 by norm_num, show (3.0 : ℝ) = 3 by norm_num]
    exact C109_temple_succeeds (n := 2) he (by norm_num) (by norm_num) (by norm_num) (by norm_num) (by norm_num) _ r1 hO.hull
  · obtain ⟨N, s1, h1, r1⟩ := C106_succeeds he (R := 2) (r := 0.5) (by norm_num) (by norm_num) 10 10 0.75 1.0 true hr
    obtain ⟨N2, s2, h2, r2⟩ := (C105_succeeds he (r := ⟨-20, 40, -20⟩) (q := Quat.identity) (R := 1) (H := 1) (w := 40.0) (h := 40.0) (d := 40.0) (I := 5) (J := 5) (K := 5)
      (density := 1.0) (rand := true) (draw := O.draw) (by norm_num) (by norm_num) (by norm_num)
      (by norm_num) (by norm_num) (by norm_num) (by norm_num) (by norm_num) hO.jack hO.funnel hO.objs_some hO.objs hO.grains one_ne_zero one_ne_zero r1).1
    exact ⟨s2, bind_ok.2 ⟨N, s1, h1, bind_ok.2 ⟨N2, s2, h2, rfl⟩⟩, r2.good⟩
  · exact alone (C107_train_succeeds he _ _ _ _ hr hh.new)
  · obtain ⟨N, s1, h1, r1⟩ := rockSlide_runs he (w := 8) (h := 4) (d := 2) (by norm_num) (by norm_num) (by norm_num) (I := 20) (J := 10) (K := 5) (by norm_num) (by norm_num)
      (by norm_num) (density := 1.0) hO.mountains hO.buildings hO.rocks (draw := O.draw) hr
    exact alone ⟨N, s1, h1, r1.good⟩
  · obtain ⟨N, s1, h1, r1⟩ := (C105_succeeds he (r := 0) (q := Quat.identity) (R := 1) (H := 1) (w := 10) (h := 10) (d := 10) (I := 20) (J := 20) (K := 20)
      (density := 1.0) (rand := true) (draw := O.draw) (by norm_num) (by norm_num) (by norm_num)
      (by norm_num) (by norm_num) (by norm_num) (by norm_num) (by norm_num) hO.jack hO.funnel hO.objs_some hO.objs hO.grains one_ne_zero one_ne_zero hr).2.1
    exact alone ⟨N, s1, h1, r1.good⟩
  · exact onGround' hO hr fun s1 r1 => C86_box_stack_succeeds he (by norm_num) (by norm_num) (by norm_num) _ _ r1
  · obtain ⟨N, s1, h1, -, r1⟩ := C102_chain_succeeds he (a := 10.0) (by norm_num) (K := 5) (by norm_num) 1.0 hr (fun _ _ => hh.new _ _ _ _)
      (fun i _ j _ h => hh.diff i j h)
    exact alone ⟨N, s1, h1, r1.good⟩
  · exact absurd rfl h5

/-- **C110** (all scenes). Every name of `get_scene_names` except "ur5" gives a scene: if the libraries and the files are in order, and the engine knows the
material "default", gives new names and has no forces "earth" and "air", then `create_scene` returns. -/
theorem C110_builds {O : Outside} (hO : GoodOutside O) {name : String} (hn : name ∈ get_scene_names) (h5 : name ≠ "ur5") {s : Scene}
    (hr : Ready "default" s) (hh : NewHinges s) (h1 : s.eng.forces.get? "earth" = none) (h2 : s.eng.forces.get? "air" = none) :
    ∃ s', create_scene O name s = .ok ((), s') := by
  obtain ⟨s1, h3, -⟩ := stage_builds hO hn h5 hr hh
  have hc := calmly_stage _ _ _ h3
  obtain ⟨s', h4, -⟩ := scene_runs (hr.good.eng.forcesKnown.calm hc) h3 (by rw [hc.1.forces]; exact h1) (by rw [hc.1.forces]; exact h2)
  exact ⟨s', h4⟩

end Verif
