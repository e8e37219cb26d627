import Verif.Props.MeshDisjoint
import Verif.Props.MeshVolume

/-! C31: the surface of a tetrahedral mesh encloses the volume of its tetrahedra; a mesh without overlap has a boundary. -/

namespace Verif

open VMesh (Tri Tet compute_surface compute_neighbors)

/-- Six times the signed volume of the cone over an oriented triangle. -/
def cone (pos : ℕ → V3) (f : Tri) : ℝ := det3 (pos f.a) (pos f.b) (pos f.c)

theorem cone_tet (pos : ℕ → V3) (t : Tet) :
    cone pos (outFace t 0) + cone pos (outFace t 1) + cone pos (outFace t 2) + cone pos (outFace t 3) = 6 * meshVol pos t := by
  simp only [cone, outFace, det3, meshVol, V3.dot, V3.cross, V3.sub_x, V3.sub_y, V3.sub_z]
  ring

/-- the cones over an oriented face and over its neighbour's cancel -/
theorem cone_shared {T : List Tet} {pos : ℕ → V3} (he : Embedded T pos) {x y : ℕ × ℕ} {t t' : Tet}
    (h : SharedFace T x y) (ht : T[x.1]? = some t) (ht' : T[y.1]? = some t') :
    cone pos (outFace t x.2) + cone pos (outFace t' y.2) = 0 := by
  obtain ⟨hne, f, g, ⟨_, u, hu, rfl⟩, ⟨_, u', hu', rfl⟩, hp⟩ := id h
  obtain rfl : t = u := Option.some.inj (ht.symm.trans hu)
  obtain rfl : t' = u' := Option.some.inj (ht'.symm.trans hu')
  have hperm := (outFace_perm t' y.2).trans (hp.symm.trans (outFace_perm t x.2).symm)
  have hs := he.2 x y t t' (outFace t x.2) h ht ht' (outFace_perm t x.2)
  have h1 := side_outFace pos t x.2
  have h2 := side_outFace pos t' y.2
  have v1 := he.1 t (List.mem_of_getElem? ht)
  have v2 := he.1 t' (List.mem_of_getElem? ht')
  rw [h1] at hs
  generalize hF : outFace t x.2 = F at *
  generalize hG : outFace t' y.2 = G at *
  generalize pos (nodeOf t' y.2) = q at *
  have hpos : 0 < side pos F q := by
    by_contra hc
    have : 0 ≤ -6 * meshVol pos t * side pos F q := mul_nonneg_of_nonpos_of_nonpos (by linarith) (by linarith)
    linarith
  have hneg : side pos G q < 0 := by rw [h2]; linarith
  obtain ⟨A, B, C⟩ := F
  obtain ⟨A', B', C'⟩ := G
  simp only at hperm
  have heven : ∀ f, side pos f q = side pos ⟨A, B, C⟩ q → side pos f q < 0 → False := by
    intro f e hl
    rw [e] at hl
    linarith
  rcases perm3 hperm with ⟨rfl, rfl, rfl⟩ | ⟨rfl, rfl, rfl⟩ | ⟨rfl, rfl, rfl⟩ | ⟨rfl, rfl, rfl⟩ |
    ⟨rfl, rfl, rfl⟩ | ⟨rfl, rfl, rfl⟩
  · exact absurd hneg (by linarith)
  · exact (heven _ (by simp only [side, V3.dot, V3.cross, V3.sub_x, V3.sub_y, V3.sub_z]; ring) hneg).elim
  · exact (heven _ (by simp only [side, V3.dot, V3.cross, V3.sub_x, V3.sub_y, V3.sub_z]; ring) hneg).elim
  all_goals
    simp only [cone, det3]
    ring

/-- **C31** (volume of the surface). For a tetrahedral mesh in which tetrahedra that share a face lie on different sides of it, the extracted
surface encloses exactly the total volume of the tetrahedra. -/
theorem C31_surface_volume (T : List Tet) (V : List V3) (hm : FaceManifold T) (he : Embedded T (fun i => V.getD i 0)) :
    ∃ (S : List Tri) (O : List (Option (ℕ × ℕ))), compute_surface T (compute_neighbors T) = .ok (S.map some, O) ∧
      enclosedVolume V S = (T.map (meshVol fun i => V.getD i 0)).sum := by
  refine ⟨_, _, compute_surface_eq hm, ?_⟩
  obtain ⟨pos, hpos⟩ : ∃ pos : ℕ → V3, pos = fun i => V.getD i 0 := ⟨_, rfl⟩
  rw [← hpos] at he ⊢
  have goal : (((surfRows T).map Prod.fst).map fun f => cone pos f).sum = 6 * (T.map (meshVol pos)).sum := by
    classical
    let F : ℕ × ℕ → ℝ := fun x => match T[x.1]? with
      | some t => cone pos (outFace t x.2)
      | none => 0
    have hF : ∀ x t, T[x.1]? = some t → F x = cone pos (outFace t x.2) := by
      intro x t ht
      simp only [F, ht]
    let U : Finset (ℕ × ℕ) := Finset.range T.length ×ˢ Finset.range 4
    have hU : ∑ x ∈ U, F x = 6 * (T.map (meshVol pos)).sum := by
      rw [Finset.sum_product, show (T.map (meshVol pos)).sum = ∑ e ∈ Finset.range T.length, (match T[e]? with
        | some t => meshVol pos t
        | none => 0) from ?_, Finset.mul_sum]
      · refine Finset.sum_congr rfl fun e hel => ?_
        have hel' := Finset.mem_range.1 hel
        have := cone_tet pos T[e]
        simp only [Finset.sum_range_succ, Finset.sum_range_zero, zero_add]
        rw [hF (e, 0) T[e] (List.getElem?_eq_getElem hel'), hF (e, 1) T[e] (List.getElem?_eq_getElem hel'),
          hF (e, 2) T[e] (List.getElem?_eq_getElem hel'), hF (e, 3) T[e] (List.getElem?_eq_getElem hel'), List.getElem?_eq_getElem hel']
        exact this
      · rw [← list_sum_range]
        congr 1
        refine List.ext_getElem (by simp) fun e h1 h2 => ?_
        have he : e < T.length := by simpa using h1
        simp [List.getElem?_eq_getElem he]
    have hsplit := Finset.sum_filter_add_sum_filter_not U (fun x => ∃ y, SharedFace T x y) F
    have hsymm : ∀ x y, SharedFace T x y → SharedFace T y x := by
      rintro x y ⟨hne, f, g, hf, hg, hp⟩
      exact ⟨hne.symm, g, f, hg, hf, hp.symm⟩
    have hmemU : ∀ x f, FaceAt T x f → x ∈ U := by
      rintro x f ⟨hv, t, ht, _⟩
      obtain ⟨hl, _⟩ := List.getElem?_eq_some_iff.1 ht
      exact Finset.mem_product.2 ⟨Finset.mem_range.2 hl, Finset.mem_range.2 hv⟩
    have hshared : ∑ x ∈ U with ∃ y, SharedFace T x y, F x = 0 := by
      refine Finset.sum_involution (fun x hx => (Finset.mem_filter.1 hx).2.choose) ?_ ?_ ?_ ?_
      · intro x hx
        have hsp := (Finset.mem_filter.1 hx).2.choose_spec
        obtain ⟨_, f, g, ⟨_, t, ht, _⟩, ⟨_, t', ht', _⟩, _⟩ := id hsp
        rw [hF x t ht, hF _ t' ht']
        exact cone_shared he hsp ht ht'
      · intro x hx _ e
        exact (Finset.mem_filter.1 hx).2.choose_spec.1 e.symm
      · intro x hx
        have hsp := (Finset.mem_filter.1 hx).2.choose_spec
        obtain ⟨_, f, g, _, hg, _⟩ := id hsp
        exact Finset.mem_filter.2 ⟨hmemU _ _ hg, x, hsymm _ _ hsp⟩
      · intro x hx
        have hsp := (Finset.mem_filter.1 hx).2.choose_spec
        have hex : ∃ y, SharedFace T (Finset.mem_filter.1 hx).2.choose y := ⟨x, hsymm _ _ hsp⟩
        exact hm _ _ _ hex.choose_spec (hsymm _ _ hsp)
    have hrows : (((surfRows T).map Prod.fst).map fun f => cone pos f) =
        ((surfRows T).map Prod.snd).map F := by
      rw [List.map_map, List.map_map]
      refine List.map_congr_left ?_
      rintro ⟨f, x⟩ hfx
      obtain ⟨_, _, t, ht, hf⟩ := mem_surfRows.1 hfx
      simp only [Function.comp]
      rw [hF x t ht, hf]
    have hnodup : ((surfRows T).map Prod.snd).Nodup := by
      refine (surfRows_sorted T).imp ?_
      rintro x y h rfl
      rcases h with h | ⟨_, h⟩ <;> exact lt_irrefl _ h
    have hset : ((surfRows T).map Prod.snd).toFinset = U.filter (fun x => ¬ ∃ y, SharedFace T x y) := by
      ext x
      rw [List.mem_toFinset, List.mem_map, Finset.mem_filter]
      constructor
      · rintro ⟨⟨f, x'⟩, hm', rfl⟩
        obtain ⟨hv, hN, t, ht, _⟩ := mem_surfRows.1 hm'
        obtain ⟨hl, _⟩ := List.getElem?_eq_some_iff.1 ht
        exact ⟨hmemU _ _ ⟨hv, t, ht, rfl⟩, ((C31_neighbors T hm x' hl hv).1).1 hN⟩
      · rintro ⟨hxU, hno⟩
        have hl := Finset.mem_range.1 (Finset.mem_product.1 hxU).1
        have hv := Finset.mem_range.1 (Finset.mem_product.1 hxU).2
        exact ⟨(outFace T[x.1] x.2, x), mem_surfRows.2 ⟨hv, ((C31_neighbors T hm x hl hv).1).2 hno, _,
          List.getElem?_eq_getElem hl, rfl⟩, rfl⟩
    rw [hrows, ← List.sum_toFinset F hnodup, hset]
    rw [hU, hshared, zero_add] at hsplit
    exact hsplit
  unfold enclosedVolume
  have h2 : (((surfRows T).map Prod.fst).map fun t : Tri => det3 (V.getD t.a 0) (V.getD t.b 0) (V.getD t.c 0)).sum =
      6 * (T.map (meshVol pos)).sum := by
    rw [← goal, hpos]
    rfl
  rw [h2]
  ring

end Verif
