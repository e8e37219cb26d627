import Verif.Model.Mass
import Verif.Spec.Mass
import Verif.Props.MeshTransform
import Verif.Props.Vector3

/-! C68: the mass properties of a mesh are the integrals over the enclosed solid. -/

namespace Verif

open VMesh (Tri)
open Mass

/-- mean of u over the triangle, given the cornerVals values -/
noncomputable def mean1 (u : Fin 3 → ℝ) : ℝ := (u 0 + u 1 + u 2) / 3
/-- mean of u·v over the triangle -/
noncomputable def mean2 (u v : Fin 3 → ℝ) : ℝ :=
  (2 * (u 0 * v 0 + u 1 * v 1 + u 2 * v 2) + u 0 * v 1 + u 1 * v 0 + u 0 * v 2 + u 2 * v 0 + u 1 * v 2 + u 2 * v 1) / 12
/-- mean of u²·v over the triangle -/
noncomputable def mean3 (u v : Fin 3 → ℝ) : ℝ :=
  (6 * (u 0 * u 0 * v 0 + u 1 * u 1 * v 1 + u 2 * u 2 * v 2) +
   2 * (u 0 * u 0 * v 1 + 2 * (u 0 * u 1 * v 0) + u 0 * u 0 * v 2 + 2 * (u 0 * u 2 * v 0) +
     u 1 * u 1 * v 0 + 2 * (u 0 * u 1 * v 1) + u 1 * u 1 * v 2 + 2 * (u 1 * u 2 * v 1) +
     u 2 * u 2 * v 0 + 2 * (u 0 * u 2 * v 2) + u 2 * u 2 * v 1 + 2 * (u 1 * u 2 * v 2)) +
   2 * (u 0 * u 1 * v 2 + u 0 * u 2 * v 1 + u 1 * u 2 * v 0)) / 60

theorem lit0 : (0.0:ℝ) = 0 := by norm_num
theorem lit1 : (1.0:ℝ) = 1 := by norm_num
theorem lit2 : (2.0:ℝ) = 2 := by norm_num
theorem lit3 : (3.0:ℝ) = 3 := by norm_num
theorem lit4 : (4.0:ℝ) = 4 := by norm_num
theorem lit6 : (6.0:ℝ) = 6 := by norm_num
theorem lit12 : (12.0:ℝ) = 12 := by norm_num
theorem lit20 : (20.0:ℝ) = 20 := by norm_num
theorem lit24 : (24.0:ℝ) = 24 := by norm_num
theorem lit60 : (60.0:ℝ) = 60 := by norm_num

/-- The projected integrals are the signed projected area times the means. -/
theorem projected_eq (v : Fin 3 → V3) (X Y : Fin 3) (a b : Fin 3 → ℝ) (ha : ∀ i, comp (v i) X = a i) (hb : ∀ i, comp (v i) Y = b i)
    (D : ℝ) (hD : D = ((a 1 - a 0) * (b 2 - b 0) - (a 2 - a 0) * (b 1 - b 0)) / 2) :
    projectedFaceIntegral v X Y = ⟨D, D * mean1 a, D * mean2 a a, D * mean3 a a, D * mean1 b, D * mean2 b b, D * mean3 b b,
      D * mean2 a b, D * mean3 a b, D * mean3 b a⟩ := by
  have hl : List.finRange 3 = [0, 1, 2] := by decide
  have h1 : (0 : Fin 3) + 1 = 1 := rfl
  have h2 : (1 : Fin 3) + 1 = 2 := rfl
  have h3 : (2 : Fin 3) + 1 = 0 := rfl
  subst hD
  unfold projectedFaceIntegral
  simp only [hl, List.foldl, ha, hb, h1, h2, h3, PInt.addEdge, mean1, mean2, mean3, lit0, lit1, lit2, lit3, lit4, lit6, lit12, lit20, lit24, lit60]
  generalize a 0 = a0
  generalize a 1 = a1
  generalize a 2 = a2
  generalize b 0 = b0
  generalize b 1 = b1
  generalize b 2 = b2
  congr 1 <;> ring

theorem addAt_apply (T : Fin 3 → ℝ) (Z : Fin 3) (a b c : ℝ) :
    addAt T (Z + 1) (Z + 1 + 1) Z a b c (Z + 1) = T (Z + 1) + a ∧
    addAt T (Z + 1) (Z + 1 + 1) Z a b c (Z + 1 + 1) = T (Z + 1 + 1) + b ∧
    addAt T (Z + 1) (Z + 1 + 1) Z a b c Z = T Z + c := by
  fin_cases Z <;> simp [addAt, Function.update]

theorem forall_cyclic (Z : Fin 3) (p : Fin 3 → Prop) (h1 : p (Z + 1)) (h2 : p (Z + 1 + 1)) (h3 : p Z) (m : Fin 3) : p m := by
  fin_cases Z <;> fin_cases m <;> assumption

/-- the values of coordinate m at the corners -/
def cornerVals (pi pj pk : V3) (m : Fin 3) : Fin 3 → ℝ := fun i => comp (![pi, pj, pk] i) m

/-- coordinate m of the area normal (twice the area times the unit normal) -/
def areaNormal (pi pj pk : V3) (m : Fin 3) : ℝ := comp (V3.cross (pj - pi) (pk - pi)) m

theorem areaNormal_eq (pi pj pk : V3) (Z : Fin 3) :
    let a := cornerVals pi pj pk (Z + 1)
    let b := cornerVals pi pj pk (Z + 1 + 1)
    areaNormal pi pj pk Z = (a 1 - a 0) * (b 2 - b 0) - (a 2 - a 0) * (b 1 - b 0) := by
  fin_cases Z <;> simp [areaNormal, cornerVals, comp, V3.cross] <;> ring

/-- The integrals of the third coordinate, eliminated with the plane equation. -/
theorem plane_keys (NA NB NC L W : ℝ) (hL : L ≠ 0) (hC : NC ≠ 0) (a b c : Fin 3 → ℝ)
    (h : ∀ i, NA * a i + NB * b i + NC * c i = L * W) :
    let k := 1 / (NC / L)
    let D := NC / 2
    (-(k * k) * (NA / L * (D * mean1 a) + NB / L * (D * mean1 b) + -W * D) = L / 2 * mean1 c) ∧
    (NC / L * (k * k * k * (NA / L * (NA / L) * (D * mean2 a a) + 2 * (NA / L) * (NB / L) * (D * mean2 a b) + NB / L * (NB / L) * (D * mean2 b b) +
      -W * (2 * (NA / L * (D * mean1 a) + NB / L * (D * mean1 b)) + -W * D))) = NC / 2 * mean2 c c) ∧
    (NC / L * (-(k * k * k * k) * (NA / L * (NA / L) * (NA / L) * (D * mean3 a a) + 3 * (NA / L) * (NA / L) * (NB / L) * (D * mean3 a b) +
      3 * (NA / L) * (NB / L) * (NB / L) * (D * mean3 b a) + NB / L * (NB / L) * (NB / L) * (D * mean3 b b) +
      3 * -W * (NA / L * (NA / L) * (D * mean2 a a) + 2 * (NA / L) * (NB / L) * (D * mean2 a b) + NB / L * (NB / L) * (D * mean2 b b)) +
      -W * -W * (3 * (NA / L * (D * mean1 a) + NB / L * (D * mean1 b)) + -W * D))) = NC / 2 * mean3 c c) ∧
    (NB / L * (-(k * k) * (NA / L * (D * mean3 b a) + NB / L * (D * mean3 b b) + -W * (D * mean2 b b))) = NB / 2 * mean3 b c) ∧
    (NC / L * (k * k * k * (NA / L * (NA / L) * (D * mean3 a a) + 2 * (NA / L) * (NB / L) * (D * mean3 a b) + NB / L * (NB / L) * (D * mean3 b a) +
      -W * (2 * (NA / L * (D * mean2 a a) + NB / L * (D * mean2 a b)) + -W * (D * mean1 a)))) = NC / 2 * mean3 c a) := by
  intro k D
  have hc : ∀ i, c i = (W - NA / L * a i - NB / L * b i) / (NC / L) := by
    intro i
    have := h i
    field_simp
    linear_combination this
  have hg : NC / L ≠ 0 := div_ne_zero hC hL
  have hNC : NC = NC / L * L := by field_simp
  have hNB : NB = NB / L * L := by field_simp
  simp only [k, D]
  generalize NC / L = g at *
  rw [hNC]
  rw [show NB / 2 = NB / L * L / 2 by rw [← hNB]]
  generalize NA / L = p at *
  generalize NB / L = q at *
  clear h hNC hNB hC
  simp only [mean1, mean2, mean3, hc]
  generalize a 0 = a0
  generalize a 1 = a1
  generalize a 2 = a2
  generalize b 0 = b0
  generalize b 1 = b1
  generalize b 2 = b2
  refine ⟨?_, ?_, ?_, ?_, ?_⟩ <;> · field_simp; ring

/-- One triangle adds the flux of the vector fields (x,0,0), (m² in direction m), (m³ in direction m) and (m²·(m+1) in
direction m), whichever coordinate plane it is projected onto. -/
theorem addFace_eq (A : Acc) (pi pj pk : V3) (hN : V3.cross (pj - pi) (pk - pi) ≠ 0) :
    let N := areaNormal pi pj pk
    let c := cornerVals pi pj pk
    (A.addFace pi pj pk).nan = A.nan ∧
    (A.addFace pi pj pk).T0 = A.T0 + N 0 / 2 * mean1 (c 0) ∧
    ∀ m, (A.addFace pi pj pk).T1 m = A.T1 m + N m / 2 * mean2 (c m) (c m) ∧
      (A.addFace pi pj pk).T2 m = A.T2 m + N m / 2 * mean3 (c m) (c m) ∧
      (A.addFace pi pj pk).TP m = A.TP m + N m / 2 * mean3 (c m) (c (m + 1)) := by
  intro N c
  have hL : 0 < V3.norm (V3.cross (pj - pi) (pk - pi)) := V3.norm_pos hN
  set L := V3.norm (V3.cross (pj - pi) (pk - pi)) with hLd
  set n := V3.unit (V3.cross (pj - pi) (pk - pi)) with hn
  set Z := V3.max_abs_component n with hZ
  have hnm : ∀ m, comp n m = N m / L := by
    intro m
    fin_cases m <;> simp [hn, N, areaNormal, comp, V3.unit, V3.divs, hLd]
  have hNZ : N Z ≠ 0 := by
    intro h0
    have hz : comp n Z = 0 := by rw [hnm, h0]; simp
    have hall : ∀ m, N m = 0 := by
      intro m
      have h1 := C08_max_abs_component n m
      have h2 : n.toFun (V3.max_abs_component n) = 0 := hz
      rw [h2, abs_zero] at h1
      have h3 : comp n m = 0 := abs_eq_zero.1 (le_antisymm h1 (abs_nonneg _))
      rw [hnm] at h3
      rcases div_eq_zero_iff.1 h3 with h | h
      · exact h
      · exact absurd h hL.ne'
    apply hN
    ext
    · exact hall 0
    · exact hall 1
    · exact hall 2
  have hP := projected_eq ![pi, pj, pk] (Z + 1) (Z + 1 + 1) (c (Z + 1)) (c (Z + 1 + 1)) (fun _ => rfl) (fun _ => rfl) (N Z / 2)
    (by have := areaNormal_eq pi pj pk Z; simp only [] at this; rw [show N Z = _ from this])
  have hw : ∀ i, N (Z + 1) * c (Z + 1) i + N (Z + 1 + 1) * c (Z + 1 + 1) i + N Z * c Z i =
      L * V3.dot n (V3.divs (pi + pj + pk) 3.0) := by
    intro i
    have hdot : L * V3.dot n (V3.divs (pi + pj + pk) 3.0) =
        N 0 * (pi.x + pj.x + pk.x) / 3 + N 1 * (pi.y + pj.y + pk.y) / 3 + N 2 * (pi.z + pj.z + pk.z) / 3 := by
      have h0 := hnm 0
      have h1 := hnm 1
      have h2 := hnm 2
      simp only [comp, Matrix.cons_val_zero, Matrix.cons_val_one, Matrix.cons_val] at h0 h1 h2
      simp only [V3.dot, h0, h1, h2, V3.divs, V3.add_x, V3.add_y, V3.add_z, lit3]
      field_simp
    rw [hdot]
    have hcyc : N (Z + 1) * c (Z + 1) i + N (Z + 1 + 1) * c (Z + 1 + 1) i + N Z * c Z i = N 0 * c 0 i + N 1 * c 1 i + N 2 * c 2 i := by
      clear_value Z
      fin_cases Z
      · show N 1 * c 1 i + N 2 * c 2 i + N 0 * c 0 i = _
        ring
      · show N 2 * c 2 i + N 0 * c 0 i + N 1 * c 1 i = _
        ring
      · show N 0 * c 0 i + N 1 * c 1 i + N 2 * c 2 i = _
        ring
    rw [hcyc]
    fin_cases i <;> simp [N, c, areaNormal, cornerVals, comp, V3.cross] <;> ring
  have hnan : (A.addFace pi pj pk).nan = A.nan := by
    unfold Acc.addFace
    simp [hN]
  refine ⟨hnan, ?_⟩
  unfold Acc.addFace
  simp only [← hn, ← hZ]
  rw [hP]
  have hnA := hnm (Z + 1)
  have hnB := hnm (Z + 1 + 1)
  have hnC := hnm Z
  have hn0 := hnm 0
  set W := V3.dot n (V3.divs (pi + pj + pk) 3.0) with hW
  have h0 := hw 0
  have h1 := hw 1
  have h2 := hw 2
  clear hw hP hnan hnm
  simp only [hnA, hnB, hnC, hn0]
  have hXY : c (Z + 1 + 1 + 1) = c Z := by
    congr 1
    clear_value Z
    fin_cases Z <;> rfl
  clear_value W Z N c
  obtain ⟨k1, k2, k3, k4, k5⟩ := plane_keys (N (Z + 1)) (N (Z + 1 + 1)) (N Z) L W hL.ne' hNZ (c (Z + 1)) (c (Z + 1 + 1)) (c Z)
    (fun i => by fin_cases i <;> assumption)
  simp only [lit1, lit2, lit3]
  refine ⟨?_, ?_⟩
  · congr 1
    split_ifs with hX hY
    · rw [hX]
      field_simp
    · rw [hY]
      field_simp
    · have hZ0 : Z = 0 := by
        revert hX hY; clear * -; revert Z; decide
      rw [k1, hZ0]
      field_simp
  · apply forall_cyclic Z
    · refine ⟨?_, ?_, ?_⟩
      · rw [(addAt_apply _ Z _ _ _).1]; congr 1; field_simp
      · rw [(addAt_apply _ Z _ _ _).1]; congr 1; field_simp
      · rw [(addAt_apply _ Z _ _ _).1]; congr 1; field_simp
    · refine ⟨?_, ?_, ?_⟩
      · rw [(addAt_apply _ Z _ _ _).2.1]; congr 1; field_simp
      · rw [(addAt_apply _ Z _ _ _).2.1]; congr 1; field_simp
      · rw [(addAt_apply _ Z _ _ _).2.1, hXY]; congr 1
    · refine ⟨?_, ?_, ?_⟩
      · rw [(addAt_apply _ Z _ _ _).2.2]; congr 1
      · rw [(addAt_apply _ Z _ _ _).2.2]; congr 1
      · rw [(addAt_apply _ Z _ _ _).2.2]; congr 1

/-- minus the area of the origin-edge triangle projected along m, per orientation -/
def edgeArea (m : Fin 3) (p q : V3) : ℝ := comp p (m + 1) * comp q (m + 1 + 1) - comp p (m + 1 + 1) * comp q (m + 1)

/-- edge terms of the four vector fields -/
noncomputable def edge1 (m : Fin 3) (p q : V3) : ℝ := edgeArea m p q / 3 * ((comp p m + comp q m) / 2)
noncomputable def edge2 (m : Fin 3) (p q : V3) : ℝ :=
  edgeArea m p q / 4 * ((comp p m * comp p m + comp p m * comp q m + comp q m * comp q m) / 3)
noncomputable def edge3 (m l : Fin 3) (p q : V3) : ℝ :=
  edgeArea m p q / 5 * ((3 * (comp p m * comp p m * comp p l) + 2 * (comp p m * comp q m * comp p l) + comp p m * comp p m * comp q l +
    comp q m * comp q m * comp p l + 2 * (comp p m * comp q m * comp q l) + 3 * (comp q m * comp q m * comp q l)) / 12)

theorem tet_one (a b c : V3) : tetIntegral (fun _ => 1) a b c = det3 a b c / 6 := by
  rw [tetIntegral_affine _ a b c 1 0 0 0 1 0 0 0 (by intros; ring)]
  ring

theorem comp_comb (a b c : V3) (m : Fin 3) (s t u : ℝ) : comp (s • a + t • b + u • c) m = 0 + comp a m * s + comp b m * t + comp c m * u := by
  fin_cases m <;> simp [comp] <;> ring

theorem tet_lin (a b c : V3) (m : Fin 3) :
    tetIntegral (fun p => comp p m) a b c = det3 a b c * (comp a m + comp b m + comp c m) / 24 := by
  rw [tetIntegral_affine _ a b c 0 (comp a m) (comp b m) (comp c m) 1 0 0 0 (by intro s t u; rw [comp_comb]; ring)]
  ring

theorem tet_quad (a b c : V3) (m l : Fin 3) :
    tetIntegral (fun p => comp p m * comp p l) a b c = det3 a b c *
      ((comp a m * comp a l + comp b m * comp b l + comp c m * comp c l) / 60 +
       (comp a m * comp b l + comp b m * comp a l + comp a m * comp c l + comp c m * comp a l + comp b m * comp c l + comp c m * comp b l) / 120) := by
  rw [tetIntegral_affine _ a b c 0 (comp a m) (comp b m) (comp c m) 0 (comp a l) (comp b l) (comp c l)
    (by intro s t u; rw [comp_comb, comp_comb])]
  ring

theorem div1 (a b c : V3) (m : Fin 3) : areaNormal a b c m / 2 * mean1 (cornerVals a b c m) =
    tetIntegral (fun _ => 1) a b c + (edge1 m a b + edge1 m b c + edge1 m c a) := by
  rw [tet_one]
  obtain rfl | rfl | rfl : m = 0 ∨ m = 1 ∨ m = 2 := by decide +revert
  all_goals
    simp [areaNormal, cornerVals, comp, V3.cross, mean1, edge1, edgeArea, det3]
    ring

theorem div2 (a b c : V3) (m : Fin 3) : areaNormal a b c m / 2 * mean2 (cornerVals a b c m) (cornerVals a b c m) =
    2 * tetIntegral (fun p => comp p m) a b c + (edge2 m a b + edge2 m b c + edge2 m c a) := by
  rw [tet_lin]
  obtain rfl | rfl | rfl : m = 0 ∨ m = 1 ∨ m = 2 := by decide +revert
  all_goals
    simp [areaNormal, cornerVals, comp, V3.cross, mean2, edge2, edgeArea, det3]
    ring

theorem div3 (a b c : V3) (m : Fin 3) : areaNormal a b c m / 2 * mean3 (cornerVals a b c m) (cornerVals a b c m) =
    3 * tetIntegral (fun p => comp p m * comp p m) a b c + (edge3 m m a b + edge3 m m b c + edge3 m m c a) := by
  rw [tet_quad]
  obtain rfl | rfl | rfl : m = 0 ∨ m = 1 ∨ m = 2 := by decide +revert
  all_goals
    simp [areaNormal, cornerVals, comp, V3.cross, mean3, edge3, edgeArea, det3]
    ring

theorem divP (a b c : V3) (m : Fin 3) : areaNormal a b c m / 2 * mean3 (cornerVals a b c m) (cornerVals a b c (m + 1)) =
    2 * tetIntegral (fun p => comp p m * comp p (m + 1)) a b c + (edge3 m (m + 1) a b + edge3 m (m + 1) b c + edge3 m (m + 1) c a) := by
  rw [tet_quad]
  obtain rfl | rfl | rfl : m = 0 ∨ m = 1 ∨ m = 2 := by decide +revert
  all_goals
    simp [areaNormal, cornerVals, comp, V3.cross, mean3, edge3, edgeArea, det3]
    ring

/-- A triangle of zero area (with the degenerate normal the program would normalize). -/
def ZeroArea (V : List V3) (t : Tri) : Prop := V3.cross (V.getD t.b 0 - V.getD t.a 0) (V.getD t.c 0 - V.getD t.a 0) = 0

theorem lookup_getD (V : List V3) (i : ℕ) (h : i < V.length) : BVH.lookup V i = .ok (V.getD i 0) := by
  unfold BVH.lookup
  rw [List.getElem?_eq_getElem h, List.getD_eq_getElem _ _ h]

/-- the loop as a fold -/
theorem faceLoop_fold (V : List V3) (T : List Tri) (hi : IndicesBelow T V.length) (A : Acc) :
    T.foldlM (fun A t => do
      let pi ← BVH.lookup V t.a
      let pj ← BVH.lookup V t.b
      let pk ← BVH.lookup V t.c
      return Acc.addFace A pi pj pk) A =
    (.ok (T.foldl (fun A t => A.addFace (V.getD t.a 0) (V.getD t.b 0) (V.getD t.c 0)) A) : Except PyErr Acc) := by
  induction T generalizing A with
  | nil => rfl
  | cons t T ih =>
    have h := hi t (List.mem_cons_self ..)
    rw [List.foldlM_cons, lookup_getD V t.a h.1, lookup_getD V t.b h.2.1, lookup_getD V t.c h.2.2]
    exact ih (fun t' h' => hi t' (List.mem_cons_of_mem _ h')) _

/-- sum over the triangles -/
noncomputable def faceSum (g : V3 → V3 → V3 → ℝ) (V : List V3) (T : List Tri) : ℝ :=
  (T.map fun t => g (V.getD t.a 0) (V.getD t.b 0) (V.getD t.c 0)).sum

theorem fold_eq (V : List V3) (T : List Tri) (hN : ∀ t ∈ T, ¬ ZeroArea V t) (A : Acc) :
    let B := T.foldl (fun A t => A.addFace (V.getD t.a 0) (V.getD t.b 0) (V.getD t.c 0)) A
    B.nan = A.nan ∧
    B.T0 = A.T0 + faceSum (fun a b c => areaNormal a b c 0 / 2 * mean1 (cornerVals a b c 0)) V T ∧
    ∀ m, B.T1 m = A.T1 m + faceSum (fun a b c => areaNormal a b c m / 2 * mean2 (cornerVals a b c m) (cornerVals a b c m)) V T ∧
      B.T2 m = A.T2 m + faceSum (fun a b c => areaNormal a b c m / 2 * mean3 (cornerVals a b c m) (cornerVals a b c m)) V T ∧
      B.TP m = A.TP m + faceSum (fun a b c => areaNormal a b c m / 2 * mean3 (cornerVals a b c m) (cornerVals a b c (m + 1))) V T := by
  induction T generalizing A with
  | nil => simp [faceSum]
  | cons t T ih =>
    have h := addFace_eq A _ _ _ (hN t (List.mem_cons_self ..))
    have h2 := ih (fun t' h' => hN t' (List.mem_cons_of_mem _ h')) (A.addFace (V.getD t.a 0) (V.getD t.b 0) (V.getD t.c 0))
    simp only [List.foldl_cons] at *
    refine ⟨h2.1.trans h.1, ?_, fun m => ⟨?_, ?_, ?_⟩⟩
    · rw [h2.2.1, h.2.1]; simp only [faceSum, List.map_cons, List.sum_cons]; ring
    · rw [(h2.2.2 m).1, (h.2.2 m).1]; simp only [faceSum, List.map_cons, List.sum_cons]; ring
    · rw [(h2.2.2 m).2.1, (h.2.2 m).2.1]; simp only [faceSum, List.map_cons, List.sum_cons]; ring
    · rw [(h2.2.2 m).2.2, (h.2.2 m).2.2]; simp only [faceSum, List.map_cons, List.sum_cons]; ring

theorem fold_nan (V : List V3) (T : List Tri) (A : Acc) (h : A.nan = true ∨ ∃ t ∈ T, ZeroArea V t) :
    (T.foldl (fun A t => A.addFace (V.getD t.a 0) (V.getD t.b 0) (V.getD t.c 0)) A).nan = true := by
  induction T generalizing A with
  | nil => simpa using h
  | cons t T ih =>
    apply ih
    rcases h with h | ⟨t', h1, h2⟩
    · left; simp [Acc.addFace, h]
    · rcases List.mem_cons.1 h1 with rfl | h1
      · left
        unfold ZeroArea at h2
        simp only [Acc.addFace, h2]
        simp
      · right; exact ⟨t', h1, h2⟩

/-- on a closed mesh the edge terms cancel -/
theorem faceSum_closed (V : List V3) (T : List Tri) (hc : ClosedOriented T) (g : V3 → V3 → V3 → ℝ) (f : V3 → ℝ) (k : ℝ)
    (E : V3 → V3 → ℝ) (hE : ∀ p q, E q p = -E p q) (h : ∀ a b c, g a b c = k * tetIntegral f a b c + (E a b + E b c + E c a)) :
    faceSum g V T = k * solidIntegral f V T := by
  have h0 := closed_sum_zero hc (fun e => E (V.getD e.1 0) (V.getD e.2 0)) (fun e => hE _ _)
  rw [dirEdges_sum] at h0
  unfold faceSum solidIntegral
  rw [show (T.map fun t => g (V.getD t.a 0) (V.getD t.b 0) (V.getD t.c 0)) = T.map fun t =>
    k * tetIntegral f (V.getD t.a 0) (V.getD t.b 0) (V.getD t.c 0) +
    (E (V.getD t.a 0) (V.getD t.b 0) + E (V.getD t.b 0) (V.getD t.c 0) + E (V.getD t.c 0) (V.getD t.a 0)) from
      List.map_congr_left fun t _ => h _ _ _]
  rw [List.sum_map_add, h0, List.sum_map_mul_left, add_zero]

theorem edgeArea_swap (m : Fin 3) (p q : V3) : edgeArea m q p = -edgeArea m p q := by
  unfold edgeArea; ring

/-- **C68.** The accumulated quantities are the integrals of 1, x, y, z, x², y², z², xy, yz, zx over the solid. -/
theorem faceLoop_spec (V : List V3) (T : List Tri) (hc : ClosedOriented T) (hi : IndicesBelow T V.length)
    (hN : ∀ t ∈ T, ¬ ZeroArea V t) :
    ∃ A, faceLoop V T = .ok A ∧ A.nan = false ∧ A.T0 = solidIntegral (fun _ => 1) V T ∧
      ∀ m, A.T1 m / 2 = solidIntegral (fun p => comp p m) V T ∧
        A.T2 m / 3 = solidIntegral (fun p => comp p m * comp p m) V T ∧
        A.TP m / 2 = solidIntegral (fun p => comp p m * comp p (m + 1)) V T := by
  refine ⟨_, faceLoop_fold V T hi _, ?_⟩
  obtain ⟨h1, h2, h3⟩ := fold_eq V T hN ⟨false, 0.0, fun _ => 0, fun _ => 0, fun _ => 0⟩
  refine ⟨h1, ?_, fun m => ⟨?_, ?_, ?_⟩⟩
  · rw [h2, faceSum_closed V T hc _ (fun _ => 1) 1 (edge1 0)
      (fun p q => by unfold edge1; rw [edgeArea_swap]; ring) (fun a b c => by rw [div1]; ring), lit0]
    ring
  · rw [(h3 m).1, faceSum_closed V T hc _ (fun p => comp p m) 2 (edge2 m)
      (fun p q => by unfold edge2; rw [edgeArea_swap]; ring) (fun a b c => by rw [div2])]
    ring
  · rw [(h3 m).2.1, faceSum_closed V T hc _ (fun p => comp p m * comp p m) 3 (edge3 m m)
      (fun p q => by unfold edge3; rw [edgeArea_swap]; ring) (fun a b c => by rw [div3])]
    ring
  · rw [(h3 m).2.2, faceSum_closed V T hc _ (fun p => comp p m * comp p (m + 1)) 2 (edge3 m (m + 1))
      (fun p q => by unfold edge3; rw [edgeArea_swap]; ring) (fun a b c => by rw [divP])]
    ring

open Classical in
/-- values of magnitude at most 1e-10 are reported as 0 -/
noncomputable def snap (v : ℝ) : ℝ := if 1e-10 < |v| then v else 0

open Classical in
/-- values of at most 1e-10 are reported as 0 -/
noncomputable def snapPos (v : ℝ) : ℝ := if 1e-10 < v then v else 0

theorem clampAbs_eq (v : ℝ) : clampAbs v = snap v := by
  unfold clampAbs snap too_small
  rw [show (1.0e-10 : ℝ) = 1e-10 by norm_num, lit0]

theorem clampPos_eq (v : ℝ) : clampPos v = snapPos v := by
  unfold clampPos snapPos too_small
  rw [show (1.0e-10 : ℝ) = 1e-10 by norm_num, lit0]

/-- **C68.** For a closed, consistently outward oriented mesh without degenerate triangles, the mass is density times the volume
of the solid, the centre of mass is its centroid, and the inertia tensor is the integral of the density with respect to the
model origin: moments ρ∫(y²+z²), products -ρ∫xy; values of magnitude below 1e-10 are reported as 0. -/
theorem C68_mass_integrals (V : List V3) (T : List Tri) (ρ : ℝ) (hc : ClosedOriented T) (hi : IndicesBelow T V.length)
    (hN : ∀ t ∈ T, ¬ ZeroArea V t) (hV : 0 < solidIntegral (fun _ => 1) V T) :
    ∃ p, compute_mass_properties V T ρ = .ok p ∧
      p.mass = snapPos (ρ * solidIntegral (fun _ => 1) V T) ∧
      p.x = snap (solidIntegral (fun r => r.x) V T / solidIntegral (fun _ => 1) V T) ∧
      p.y = snap (solidIntegral (fun r => r.y) V T / solidIntegral (fun _ => 1) V T) ∧
      p.z = snap (solidIntegral (fun r => r.z) V T / solidIntegral (fun _ => 1) V T) ∧
      p.Ixx = snapPos (ρ * (solidIntegral (fun r => r.y * r.y) V T + solidIntegral (fun r => r.z * r.z) V T)) ∧
      p.Iyy = snapPos (ρ * (solidIntegral (fun r => r.z * r.z) V T + solidIntegral (fun r => r.x * r.x) V T)) ∧
      p.Izz = snapPos (ρ * (solidIntegral (fun r => r.x * r.x) V T + solidIntegral (fun r => r.y * r.y) V T)) ∧
      p.Ixy = snap (-ρ * solidIntegral (fun r => r.x * r.y) V T) ∧
      p.Iyz = snap (-ρ * solidIntegral (fun r => r.y * r.z) V T) ∧
      p.Ixz = snap (-ρ * solidIntegral (fun r => r.z * r.x) V T) := by
  obtain ⟨A, h1, h2, h3, h4⟩ := faceLoop_spec V T hc hi hN
  have e0 := h4 0
  have e1 := h4 1
  have e2 := h4 2
  unfold compute_mass_properties
  rw [h1]
  simp only [bind, Except.bind]
  rw [if_pos ⟨h2, by rw [lit0, h3]; exact hV⟩]
  simp only [pure, Except.pure, lit2, lit3, e0.1, e1.1, e2.1, e0.2.1, e1.2.1, e2.2.1, e0.2.2, e1.2.2, e2.2.2, h3, clampAbs_eq, clampPos_eq]
  exact ⟨_, rfl, rfl, rfl, rfl, rfl, rfl, rfl, rfl, rfl, rfl, rfl⟩

/-- **C68.** An inside-out mesh, or one that encloses no volume, is rejected. -/
theorem C68_rejects_volume (V : List V3) (T : List Tri) (ρ : ℝ) (hc : ClosedOriented T) (hi : IndicesBelow T V.length)
    (hN : ∀ t ∈ T, ¬ ZeroArea V t) (hV : solidIntegral (fun _ => 1) V T ≤ 0) :
    compute_mass_properties V T ρ = .error .runtimeError := by
  obtain ⟨A, h1, h2, h3, h4⟩ := faceLoop_spec V T hc hi hN
  unfold compute_mass_properties
  rw [h1]
  simp only [bind, Except.bind]
  rw [if_neg]
  rintro ⟨-, h⟩
  rw [lit0, h3] at h
  exact absurd h (not_lt.2 hV)

/-- **C68.** A mesh with a triangle of zero area is rejected. -/
theorem C68_rejects_degenerate (V : List V3) (T : List Tri) (ρ : ℝ) (hi : IndicesBelow T V.length)
    (hN : ∃ t ∈ T, ZeroArea V t) : compute_mass_properties V T ρ = .error .runtimeError := by
  unfold compute_mass_properties
  have h1 : faceLoop V T = _ := faceLoop_fold V T hi _
  rw [h1]
  simp only [bind, Except.bind]
  rw [if_neg]
  rintro ⟨h, -⟩
  rw [fold_nan V T _ (Or.inr hN)] at h
  cases h

/-- The volume integral is the enclosed volume of the mesh. -/
theorem solidIntegral_one (V : List V3) (T : List Tri) : solidIntegral (fun _ => 1) V T = enclosedVolume V T := by
  unfold solidIntegral enclosedVolume
  simp only [tet_one]
  simp only [div_eq_mul_inv]
  rw [List.sum_map_mul_right]

end Verif
