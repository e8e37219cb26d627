import Verif.Props.GearMesh

/-! C107: the volume of the mesh of a gear. -/

namespace Verif

open Gear SMesh
open VMesh (Tri)

/-- Twice the area of a polygon with the given corners (the shoelace formula). -/
noncomputable def shoelace (xy : List (ℝ × ℝ)) : ℝ := ∑ i ∈ Finset.range xy.length,
  ((xy.getD i 0).1 * (xy.getD ((i + 1) % xy.length) 0).2 - (xy.getD i 0).2 * (xy.getD ((i + 1) % xy.length) 0).1)

/-- the cross product of two points of the plane -/
def cr (p q : V3) : ℝ := p.x * q.y - p.y * q.x

theorem det3_flat (a b c : V3) {z : ℝ} (ha : a.z = z) (hb : b.z = z) (hc : c.z = z) : det3 a b c = z * (cr a b + cr b c + cr c a) := by
  unfold det3 cr; rw [ha, hb, hc]; ring

theorem cr_anti (a b : V3) : cr a b = -cr b a := by unfold cr; ring

theorem sum_blocks (f : ℕ → ℝ) (n : ℕ) : ∀ K, ∑ j ∈ Finset.range (n * K), f j = ∑ c ∈ Finset.range K, ∑ r ∈ Finset.range n, f (n * c + r)
  | 0 => by simp
  | K + 1 => by
    rw [Finset.sum_range_succ, ← sum_blocks f n K, Nat.mul_succ, Finset.sum_range_add]

/-- a sum round a ring does not change when the ring is turned by one -/
theorem sum_turn (f : ℕ → ℝ) {N : ℕ} (hN : 0 < N) : ∑ i ∈ Finset.range N, f ((i + 1) % N) = ∑ i ∈ Finset.range N, f i := by
  obtain ⟨n, rfl⟩ : ∃ n, N = n + 1 := ⟨N - 1, by omega⟩
  rw [Finset.sum_range_succ, Nat.mod_self, Finset.sum_range_succ' f]
  congr 1
  refine Finset.sum_congr rfl fun i hi => ?_
  rw [Nat.mod_eq_of_lt (by have := Finset.mem_range.1 hi; omega)]

/-- the ring of points, starting with the last -/
def ringAt (K j : ℕ) : ℕ := (j + (34 * K - 1)) % (34 * K)

theorem ringAt_spec {K j : ℕ} (hj : j < 34 * K) : (j = 0 ∧ ringAt K j + 1 = 34 * K) ∨ (0 < j ∧ ringAt K j + 1 = j) := by
  unfold ringAt
  by_cases h : j = 0
  · left; subst h; rw [Nat.mod_eq_of_lt (by omega)]; omega
  · right
    rw [show j + (34 * K - 1) = (j - 1) + 34 * K by omega, Nat.add_mod_right, Nat.mod_eq_of_lt (by omega)]
    omega

theorem ringAt_next (K j : ℕ) (hK : 0 < K) : (ringAt K j + 1) % (34 * K) = j % (34 * K) := by
  unfold ringAt
  rw [Nat.mod_add_mod, show j + (34 * K - 1) + 1 = j + 34 * K by omega, Nat.add_mod_right]

theorem loopAt_ring {K c m : ℕ} (hc : c < K) (hm : m < 30) : loopAt K c m = ringAt K (34 * c + m) := by
  have := loopAt_spec (m := m) hc
  have := ringAt_spec (K := K) (j := 34 * c + m) (by omega)
  omega

/-- The sum of the cross products over all triangles of a face, seen from above: spokes cancel. -/
theorem face_sum {K : ℕ} (hK : 0 < K) (P : ℕ → V3) (M : ℕ → V3) (A : V3) :
    (∑ c ∈ Finset.range K, ∑ m ∈ Finset.range 30, (cr (M c) (P (loopAt K c m)) + cr (P (loopAt K c m)) (P (loopAt K c ((m + 1) % 30))) +
        cr (P (loopAt K c ((m + 1) % 30))) (M c))) +
      (∑ c ∈ Finset.range K, (cr A (P (loopAt K c 0)) + cr (P (loopAt K c 0)) (P (34 * c + 28)) + cr (P (34 * c + 28)) A)) +
      (∑ c ∈ Finset.range K, ∑ n ∈ Finset.range 5, (cr A (P (34 * c + 28 + n)) + cr (P (34 * c + 28 + n)) (P (34 * c + 28 + n + 1)) +
        cr (P (34 * c + 28 + n + 1)) A)) =
    ∑ i ∈ Finset.range (34 * K), cr (P i) (P ((i + 1) % (34 * K))) := by
  have hR : ∀ f : ℕ → ℝ, ∑ i ∈ Finset.range (34 * K), f i = ∑ i ∈ Finset.range (34 * K), f (ringAt K i) := by
    intro f
    rw [← sum_turn (fun i => f (ringAt K i)) (show 0 < 34 * K by omega)]
    refine Finset.sum_congr rfl fun i hi => ?_
    congr 1
    have hi := Finset.mem_range.1 hi
    have hn := next_spec hi
    have := ringAt_spec (K := K) (j := (i + 1) % (34 * K)) (by omega)
    omega
  -- the profile, tooth by tooth
  have hS : ∑ i ∈ Finset.range (34 * K), cr (P i) (P ((i + 1) % (34 * K))) =
      ∑ c ∈ Finset.range K, ((∑ m ∈ Finset.range 29, cr (P (loopAt K c m)) (P (loopAt K c (m + 1)))) +
        ∑ n ∈ Finset.range 5, cr (P (34 * c + 28 + n)) (P (34 * c + 28 + n + 1))) := by
    rw [hR, sum_blocks]
    refine Finset.sum_congr rfl fun c hc => ?_
    have hc := Finset.mem_range.1 hc
    rw [show Finset.range 34 = Finset.range (29 + 5) from rfl, Finset.sum_range_add]
    congr 1
    · refine Finset.sum_congr rfl fun m hm => ?_
      have hm := Finset.mem_range.1 hm
      rw [loopAt_ring hc (by omega), loopAt_ring hc (by omega), ringAt_next K _ hK]
      have := ringAt_spec (K := K) (j := 34 * c + (m + 1)) (by omega)
      rw [Nat.mod_eq_of_lt (by omega)]
      congr 2; omega
    · refine Finset.sum_congr rfl fun n hn => ?_
      have hn := Finset.mem_range.1 hn
      rw [ringAt_next K _ hK]
      have := ringAt_spec (K := K) (j := 34 * c + (29 + n)) (by omega)
      rw [Nat.mod_eq_of_lt (by omega)]
      congr 2 <;> omega
  -- the spokes of one tooth
  have hT : ∀ c ∈ Finset.range K, (∑ m ∈ Finset.range 30, (cr (M c) (P (loopAt K c m)) + cr (P (loopAt K c m)) (P (loopAt K c ((m + 1) % 30))) +
        cr (P (loopAt K c ((m + 1) % 30))) (M c))) =
      (∑ m ∈ Finset.range 29, cr (P (loopAt K c m)) (P (loopAt K c (m + 1)))) - cr (P (loopAt K c 0)) (P (34 * c + 28)) := by
    intro c hc
    have hc := Finset.mem_range.1 hc
    have h29 : loopAt K c 29 = 34 * c + 28 := by have := loopAt_spec (m := 29) hc; omega
    have e1 := sum_turn (fun m => cr (P (loopAt K c m)) (M c)) (show 0 < 30 by norm_num)
    rw [Finset.sum_add_distrib, Finset.sum_add_distrib, e1]
    have e2 : ∑ m ∈ Finset.range 30, cr (M c) (P (loopAt K c m)) = -∑ m ∈ Finset.range 30, cr (P (loopAt K c m)) (M c) := by
      rw [← Finset.sum_neg_distrib]
      exact Finset.sum_congr rfl fun m _ => cr_anti _ _
    have e3 : ∑ m ∈ Finset.range 30, cr (P (loopAt K c m)) (P (loopAt K c ((m + 1) % 30))) =
        (∑ m ∈ Finset.range 29, cr (P (loopAt K c m)) (P (loopAt K c (m + 1)))) + cr (P (34 * c + 28)) (P (loopAt K c 0)) := by
      rw [show (30 : ℕ) = 29 + 1 from rfl, Finset.sum_range_succ]
      have : ∀ m ∈ Finset.range 29, cr (P (loopAt K c m)) (P (loopAt K c ((m + 1) % (29 + 1)))) = cr (P (loopAt K c m)) (P (loopAt K c (m + 1))) := by
        intro m hm
        rw [Nat.mod_eq_of_lt (by have := Finset.mem_range.1 hm; omega)]
      rw [Finset.sum_congr rfl this, h29]
    rw [e2, e3, cr_anti (P (34 * c + 28)) (P (loopAt K c 0))]
    ring
  -- the spokes from the middle of the face
  have hA : ∀ c ∈ Finset.range K, (∑ n ∈ Finset.range 5, (cr A (P (34 * c + 28 + n)) + cr (P (34 * c + 28 + n)) (P (34 * c + 28 + n + 1)) +
        cr (P (34 * c + 28 + n + 1)) A)) =
      (∑ n ∈ Finset.range 5, cr (P (34 * c + 28 + n)) (P (34 * c + 28 + n + 1))) + cr A (P (34 * c + 28)) + cr (P (34 * c + 33)) A := by
    intro c _
    simp only [Finset.sum_range_succ, Finset.sum_range_zero]
    have e : ∀ k, 34 * c + 28 + k + 1 = 34 * c + 28 + (k + 1) := fun k => by omega
    simp only [Nat.add_assoc]
    norm_num
    linarith [cr_anti A (P (34 * c + 29)), cr_anti A (P (34 * c + 30)), cr_anti A (P (34 * c + 31)), cr_anti A (P (34 * c + 32))]
  have hL : ∑ c ∈ Finset.range K, cr A (P (loopAt K c 0)) = ∑ c ∈ Finset.range K, cr A (P (34 * c + 33)) := by
    rw [← sum_turn (fun c => cr A (P (loopAt K c 0))) hK]
    refine Finset.sum_congr rfl fun c hc => ?_
    have hc := Finset.mem_range.1 hc
    have hn := next_spec hc
    have := loopAt_spec (K := K) (c := (c + 1) % K) (m := 0) (by omega)
    congr 2; omega
  rw [Finset.sum_congr rfl hT, Finset.sum_congr rfl hA, hS]
  simp only [Finset.sum_add_distrib, Finset.sum_sub_distrib]
  rw [hL]
  have e4 : ∑ c ∈ Finset.range K, cr (P (34 * c + 33)) A = -∑ c ∈ Finset.range K, cr A (P (34 * c + 33)) := by
    rw [← Finset.sum_neg_distrib]; exact Finset.sum_congr rfl fun c _ => cr_anti _ _
  have e5 : ∑ c ∈ Finset.range K, cr (P (34 * c + 28)) A = -∑ c ∈ Finset.range K, cr A (P (34 * c + 28)) := by
    rw [← Finset.sum_neg_distrib]; exact Finset.sum_congr rfl fun c _ => cr_anti _ _
  rw [e4, e5]
  ring

theorem mean_z {L : List V3} (h0 : L ≠ []) {z : ℝ} (h : ∀ v ∈ L, v.z = z) : (mean L).z = z := by
  have hs : ∀ L : List V3, (∀ v ∈ L, v.z = z) → L.sum.z = L.length * z := by
    intro L
    induction L with
    | nil => intro _; simp
    | cons a l ih =>
      intro h
      rw [List.sum_cons, V3.add_z, ih (fun v hv => h v (List.mem_cons_of_mem _ hv)), h a (List.mem_cons_self ..)]
      simp only [List.length_cons]; push_cast; ring
  have hl : (0 : ℝ) < L.length := by exact_mod_cast List.length_pos_iff.2 h0
  unfold mean
  simp only [V3.divs]
  rw [hs L h]
  field_simp

section volume
variable (m : ℝ) (Z : ℕ) (alpha w : ℝ)

/-- the position of a vertex of the mesh -/
noncomputable def gearPos (v : GV) : V3 := (make_gear_mesh (make_gear_specs m Z alpha) w).1.getD (gearIdx Z v) 0

theorem faceV_b {xy : List (ℝ × ℝ)} {z : ℝ} {i : ℕ} (hi : i < xy.length) : (faceV xy z).getD i 0 = ⟨(xy.getD i 0).1, (xy.getD i 0).2, -z⟩ := by
  unfold faceV
  rw [List.getD_append _ _ _ _ (by simpa using hi), List.getD_eq_getElem?_getD, List.getElem?_map, List.getD_eq_getElem?_getD,
    List.getElem?_eq_getElem hi]
  rfl

theorem faceV_t {xy : List (ℝ × ℝ)} {z : ℝ} {i : ℕ} (hi : i < xy.length) : (faceV xy z).getD (xy.length + i) 0 = ⟨(xy.getD i 0).1, (xy.getD i 0).2, z⟩ := by
  unfold faceV
  rw [List.getD_append_right _ _ _ _ (by simp), List.length_map, Nat.add_sub_cancel_left, List.getD_eq_getElem?_getD, List.getElem?_map, List.getD_eq_getElem?_getD,
    List.getElem?_eq_getElem hi]
  rfl

theorem gearPos_b {i : ℕ} (hi : i < 34 * Z) : gearPos m Z alpha w (.b i) =
    ⟨((make_gear_specs m Z alpha).xy.getD i 0).1, ((make_gear_specs m Z alpha).xy.getD i 0).2, -(w / 2)⟩ := by
  have hl := specs_length m Z alpha
  unfold gearPos
  rw [gearMesh_eq]
  simp only [gearIdx]
  rw [List.getD_append _ _ _ _ (by simp only [List.length_append, faceV_length, hl]; omega), List.getD_append _ _ _ _ (by rw [faceV_length, hl]; omega), faceV_b (by rw [hl]; exact hi)]

theorem gearPos_t {i : ℕ} (hi : i < 34 * Z) : gearPos m Z alpha w (.t i) =
    ⟨((make_gear_specs m Z alpha).xy.getD i 0).1, ((make_gear_specs m Z alpha).xy.getD i 0).2, w / 2⟩ := by
  have hl := specs_length m Z alpha
  unfold gearPos
  rw [gearMesh_eq]
  simp only [gearIdx]
  have := faceV_t (xy := (make_gear_specs m Z alpha).xy) (z := w / 2) (i := i) (by rw [hl]; exact hi)
  rw [hl] at this
  rw [List.getD_append _ _ _ _ (by simp only [List.length_append, faceV_length, hl]; omega), List.getD_append _ _ _ _ (by rw [faceV_length, hl]; omega), this]

theorem gearPos_z (v : GV) (hv : v.ok Z) : (gearPos m Z alpha w v).z = match v with
    | .b _ => -(w / 2) | .cb _ => -(w / 2) | .ab => -(w / 2) | .t _ => w / 2 | .ct _ => w / 2 | .at => w / 2 := by
  have hl := specs_length m Z alpha
  have hM : ((List.range Z).flatMap (middles Z (faceV (make_gear_specs m Z alpha).xy (w / 2)))).length = 2 * Z := by
    simp [List.length_flatMap, middles, Nat.mul_comm]
  have hF : (faceV (make_gear_specs m Z alpha).xy (w / 2)).length = 68 * Z := by rw [faceV_length, hl]; ring
  have hmid : ∀ c < Z, ∀ k < 2, gearPos m Z alpha w (if k = 0 then .cb c else .ct c) = (middles Z (faceV (make_gear_specs m Z alpha).xy (w / 2)) c).getD k 0 := by
    intro c hc k hk
    have hi : gearIdx Z (if k = 0 then GV.cb c else GV.ct c) = 68 * Z + (c * 2 + k) := by
      split_ifs <;> simp only [gearIdx] <;> omega
    unfold gearPos
    rw [gearMesh_eq, hi]
    simp only
    rw [List.getD_append _ _ _ _ (by simp only [List.length_append, hF, hM]; omega), List.getD_append_right _ _ _ _ (by omega), hF,
      show 68 * Z + (c * 2 + k) - 68 * Z = c * 2 + k by omega, getD_flatMap_const 2 _ (fun a => rfl) _ _ _ (by simpa using hc) hk, List.getElem_range]
  have hb : ∀ c < Z, ∀ v ∈ ((loopIdx Z c).map fun i => (faceV (make_gear_specs m Z alpha).xy (w / 2)).getD i 0), v.z = -(w / 2) := by
    intro c hc v hv
    obtain ⟨i, hi, rfl⟩ := List.mem_map.1 hv
    obtain ⟨n, hn, rfl⟩ := List.mem_map.1 hi
    rw [faceV_b (by rw [hl]; exact loopAt_lt hc (List.mem_range.1 hn))]
  have ht : ∀ c < Z, ∀ v ∈ (((loopIdx Z c).map (· + 34 * Z)).map fun i => (faceV (make_gear_specs m Z alpha).xy (w / 2)).getD i 0), v.z = w / 2 := by
    intro c hc v hv
    obtain ⟨i, hi, rfl⟩ := List.mem_map.1 hv
    obtain ⟨j, hj, rfl⟩ := List.mem_map.1 hi
    obtain ⟨n, hn, rfl⟩ := List.mem_map.1 hj
    have := faceV_t (xy := (make_gear_specs m Z alpha).xy) (z := w / 2) (i := loopAt Z c n) (by rw [hl]; exact loopAt_lt hc (List.mem_range.1 hn))
    rw [hl] at this
    rw [Nat.add_comm, this]
  cases v with
  | b i => rw [gearPos_b m Z alpha w hv]
  | t i => rw [gearPos_t m Z alpha w hv]
  | cb c =>
    have := hmid c hv 0 (by norm_num)
    rw [if_pos rfl] at this
    rw [this]
    exact mean_z (by simp [loopIdx]) (hb c hv)
  | ct c =>
    have := hmid c hv 1 (by norm_num)
    rw [if_neg (by norm_num)] at this
    rw [this]
    exact mean_z (by simp [loopIdx]) (ht c hv)
  | ab =>
    unfold gearPos
    rw [gearMesh_eq]
    simp only [gearIdx]
    rw [List.getD_append_right _ _ _ _ (by simp only [List.length_append, hF, hM]; omega)]
    simp only [List.length_append, hF, hM, show 70 * Z - (68 * Z + 2 * Z) = 0 by omega]
    simp; ring
  | «at» =>
    unfold gearPos
    rw [gearMesh_eq]
    simp only [gearIdx]
    rw [List.getD_append_right _ _ _ _ (by simp only [List.length_append, hF, hM]; omega)]
    simp only [List.length_append, hF, hM, show 70 * Z + 1 - (68 * Z + 2 * Z) = 1 by omega]
    simp

/-- six times the volume under a triangle of the mesh -/
noncomputable def tagDet (t : GTag) : ℝ := det3 (gearPos m Z alpha w (gearTri Z t).1) (gearPos m Z alpha w (gearTri Z t).2.1) (gearPos m Z alpha w (gearTri Z t).2.2)

theorem volume_tags : enclosedVolume (make_gear_mesh (make_gear_specs m Z alpha) w).1 (make_gear_mesh (make_gear_specs m Z alpha) w).2 =
    ((gearTags Z).map (tagDet m Z alpha w)).sum / 6 := by
  unfold enclosedVolume
  have : (make_gear_mesh (make_gear_specs m Z alpha) w).2 = (gearTags Z).map (tagT Z) := by rw [gearMesh_eq]
  rw [this, List.map_map]
  rfl

/-- **C107.** The volume of a gear is the area of its profile (shoelace formula) times its width. -/
theorem C107_volume (hZ : 0 < Z) : enclosedVolume (make_gear_mesh (make_gear_specs m Z alpha) w).1 (make_gear_mesh (make_gear_specs m Z alpha) w).2 =
    w * (shoelace (make_gear_specs m Z alpha).xy / 2) := by
  have hl := specs_length m Z alpha
  obtain ⟨P, hP⟩ : ∃ P : ℕ → V3, P = fun i => ⟨((make_gear_specs m Z alpha).xy.getD i 0).1, ((make_gear_specs m Z alpha).xy.getD i 0).2, 0⟩ := ⟨_, rfl⟩
  have hS : shoelace (make_gear_specs m Z alpha).xy = ∑ i ∈ Finset.range (34 * Z), cr (P i) (P ((i + 1) % (34 * Z))) := by
    unfold shoelace; rw [hl, hP]; rfl
  have crl : ∀ v : V3, ∀ i < 34 * Z, cr (gearPos m Z alpha w (.b i)) v = cr (P i) v ∧ cr v (gearPos m Z alpha w (.b i)) = cr v (P i) ∧
      cr (gearPos m Z alpha w (.t i)) v = cr (P i) v ∧ cr v (gearPos m Z alpha w (.t i)) = cr v (P i) := by
    intro v i hi
    rw [gearPos_b m Z alpha w hi, gearPos_t m Z alpha w hi, hP]
    exact ⟨rfl, rfl, rfl, rfl⟩
  have hz := gearPos_z m Z alpha w
  -- walls
  have wall : ∀ i < 34 * Z, tagDet m Z alpha w (.lo i) + tagDet m Z alpha w (.hi i) = 2 * w * cr (P i) (P ((i + 1) % (34 * Z))) := by
    intro i hi
    have hn : (i + 1) % (34 * Z) < 34 * Z := Nat.mod_lt _ (by omega)
    simp only [tagDet, gearTri]
    rw [gearPos_b m Z alpha w hi, gearPos_b m Z alpha w hn, gearPos_t m Z alpha w hi, gearPos_t m Z alpha w hn, hP]
    simp only [det3, cr]
    ring
  have capB : ∀ c < Z, ∀ n < 30, tagDet m Z alpha w (.capB c n) = w / 2 * (cr (gearPos m Z alpha w (.cb c)) (P (loopAt Z c n)) +
      cr (P (loopAt Z c n)) (P (loopAt Z c ((n + 1) % 30))) + cr (P (loopAt Z c ((n + 1) % 30))) (gearPos m Z alpha w (.cb c))) := by
    intro c hc n hn
    have h1 := loopAt_lt hc hn
    have h2 := loopAt_lt hc (show (n + 1) % 30 < 30 by omega)
    simp only [tagDet, gearTri]
    rw [det3_flat _ _ _ (hz (.cb c) hc) (hz (.b _) h2) (hz (.b _) h1), (crl _ _ h2).1, (crl _ _ h2).2.1, (crl _ _ h1).1, (crl _ _ h1).2.1]
    rw [cr_anti (gearPos m Z alpha w (.cb c)) (P (loopAt Z c ((n + 1) % 30))), cr_anti (P (loopAt Z c ((n + 1) % 30))) (P (loopAt Z c n)),
      cr_anti (P (loopAt Z c n)) (gearPos m Z alpha w (.cb c))]
    ring
  have capT : ∀ c < Z, ∀ n < 30, tagDet m Z alpha w (.capT c n) = w / 2 * (cr (gearPos m Z alpha w (.ct c)) (P (loopAt Z c n)) +
      cr (P (loopAt Z c n)) (P (loopAt Z c ((n + 1) % 30))) + cr (P (loopAt Z c ((n + 1) % 30))) (gearPos m Z alpha w (.ct c))) := by
    intro c hc n hn
    have h1 := loopAt_lt hc hn
    have h2 := loopAt_lt hc (show (n + 1) % 30 < 30 by omega)
    simp only [tagDet, gearTri]
    rw [det3_flat _ _ _ (hz (.ct c) hc) (hz (.t _) h1) (hz (.t _) h2), (crl _ _ h2).2.2.1, (crl _ _ h2).2.2.2, (crl _ _ h1).2.2.1, (crl _ _ h1).2.2.2]
  have chB : ∀ c < Z, tagDet m Z alpha w (.chB c) = w / 2 * (cr (gearPos m Z alpha w .ab) (P (loopAt Z c 0)) +
      cr (P (loopAt Z c 0)) (P (34 * c + 28)) + cr (P (34 * c + 28)) (gearPos m Z alpha w .ab)) := by
    intro c hc
    have h1 := loopAt_lt hc (show 0 < 30 by norm_num)
    have h2 : 34 * c + 28 < 34 * Z := by omega
    simp only [tagDet, gearTri]
    rw [det3_flat _ _ _ (hz .ab trivial) (hz (.b _) h2) (hz (.b _) h1), (crl _ _ h2).1, (crl _ _ h2).2.1, (crl _ _ h1).1, (crl _ _ h1).2.1]
    rw [cr_anti (gearPos m Z alpha w .ab) (P (34 * c + 28)), cr_anti (P (34 * c + 28)) (P (loopAt Z c 0)),
      cr_anti (P (loopAt Z c 0)) (gearPos m Z alpha w .ab)]
    ring
  have chT : ∀ c < Z, tagDet m Z alpha w (.chT c) = w / 2 * (cr (gearPos m Z alpha w .at) (P (loopAt Z c 0)) +
      cr (P (loopAt Z c 0)) (P (34 * c + 28)) + cr (P (34 * c + 28)) (gearPos m Z alpha w .at)) := by
    intro c hc
    have h1 := loopAt_lt hc (show 0 < 30 by norm_num)
    have h2 : 34 * c + 28 < 34 * Z := by omega
    simp only [tagDet, gearTri]
    rw [det3_flat _ _ _ (hz .at trivial) (hz (.t _) h1) (hz (.t _) h2), (crl _ _ h2).2.2.1, (crl _ _ h2).2.2.2, (crl _ _ h1).2.2.1, (crl _ _ h1).2.2.2]
  have rtB : ∀ c < Z, ∀ n < 5, tagDet m Z alpha w (.rtB c n) = w / 2 * (cr (gearPos m Z alpha w .ab) (P (34 * c + 28 + n)) +
      cr (P (34 * c + 28 + n)) (P (34 * c + 28 + n + 1)) + cr (P (34 * c + 28 + n + 1)) (gearPos m Z alpha w .ab)) := by
    intro c hc n hn
    have h1 : 34 * c + 28 + n < 34 * Z := by omega
    have h2 : 34 * c + 28 + n + 1 < 34 * Z := by omega
    simp only [tagDet, gearTri]
    rw [det3_flat _ _ _ (hz .ab trivial) (hz (.b _) h2) (hz (.b _) h1), (crl _ _ h2).1, (crl _ _ h2).2.1, (crl _ _ h1).1, (crl _ _ h1).2.1]
    rw [cr_anti (gearPos m Z alpha w .ab) (P (34 * c + 28 + n + 1)), cr_anti (P (34 * c + 28 + n + 1)) (P (34 * c + 28 + n)),
      cr_anti (P (34 * c + 28 + n)) (gearPos m Z alpha w .ab)]
    ring
  have rtT : ∀ c < Z, ∀ n < 5, tagDet m Z alpha w (.rtT c n) = w / 2 * (cr (gearPos m Z alpha w .at) (P (34 * c + 28 + n)) +
      cr (P (34 * c + 28 + n)) (P (34 * c + 28 + n + 1)) + cr (P (34 * c + 28 + n + 1)) (gearPos m Z alpha w .at)) := by
    intro c hc n hn
    have h1 : 34 * c + 28 + n < 34 * Z := by omega
    have h2 : 34 * c + 28 + n + 1 < 34 * Z := by omega
    simp only [tagDet, gearTri]
    rw [det3_flat _ _ _ (hz .at trivial) (hz (.t _) h1) (hz (.t _) h2), (crl _ _ h2).2.2.1, (crl _ _ h2).2.2.2, (crl _ _ h1).2.2.1, (crl _ _ h1).2.2.2]
  have low := face_sum hZ P (fun c => gearPos m Z alpha w (.cb c)) (gearPos m Z alpha w .ab)
  have high := face_sum hZ P (fun c => gearPos m Z alpha w (.ct c)) (gearPos m Z alpha w .at)
  rw [volume_tags, hS]
  unfold gearTags
  simp only [List.map_append, List.sum_append, sum_flatMap, list_sum_range, List.map_cons, List.map_nil, List.sum_cons, List.sum_nil, add_zero, List.map_map]
  simp only [Function.comp_def, list_sum_range]
  rw [Finset.sum_congr rfl (fun i hi => wall i (Finset.mem_range.1 hi)),
    Finset.sum_congr rfl (fun c hc => congrArg₂ (· + ·) (Finset.sum_congr rfl fun n hn => capB c (Finset.mem_range.1 hc) n (Finset.mem_range.1 hn))
      (Finset.sum_congr rfl fun n hn => capT c (Finset.mem_range.1 hc) n (Finset.mem_range.1 hn))),
    Finset.sum_congr rfl (fun c hc => congrArg₂ (· + ·) (chB c (Finset.mem_range.1 hc)) (chT c (Finset.mem_range.1 hc))),
    Finset.sum_congr rfl (fun c hc => congrArg₂ (· + ·) (Finset.sum_congr rfl fun n hn => rtB c (Finset.mem_range.1 hc) n (Finset.mem_range.1 hn))
      (Finset.sum_congr rfl fun n hn => rtT c (Finset.mem_range.1 hc) n (Finset.mem_range.1 hn)))]
  simp only [Finset.sum_add_distrib, ← Finset.mul_sum] at low high ⊢
  linear_combination w / 12 * low + w / 12 * high

end volume

/-- **C107.** … and that is positive, if the teeth fit: faces are turned outward, and the gear gets a positive mass. -/
theorem C107_volume_pos {m : ℝ} {Z : ℕ} {alpha w : ℝ} (h : TeethFit m Z alpha) (hw : 0 < w) :
    0 < enclosedVolume (make_gear_mesh (make_gear_specs m Z alpha) w).1 (make_gear_mesh (make_gear_specs m Z alpha) w).2 := by
  have hZ : 0 < Z := by have := h.number; omega
  have hz : (0 : ℝ) < Z := by exact_mod_cast hZ
  have hz3 : (3 : ℝ) ≤ Z := by exact_mod_cast h.number
  rw [C107_volume m Z alpha w hZ]
  suffices hs : 0 < shoelace (make_gear_specs m Z alpha).xy by positivity
  obtain ⟨hl, r, a, hp, hmono, hper, hround, hr, hstep, -⟩ := C107_profile h
  obtain ⟨q1, q2, -⟩ := h.radii
  have hr0 : ∀ n, 0 < r n := fun n => lt_of_lt_of_le (lt_min q2 q1) (hr n).1
  have hpz : 0 < Real.pi / Z := by have := Real.pi_pos; positivity
  have hp2 : 2 * (Real.pi / Z) < Real.pi := by
    have : Real.pi / Z ≤ Real.pi / 3 := div_le_div_of_nonneg_left Real.pi_pos.le (by norm_num) hz3
    linarith [Real.pi_pos]
  have hsin : ∀ n, 0 ≤ Real.sin (a (n + 1) - a n) := by
    intro n
    have h1 := hmono (Nat.le_succ n)
    have h2 := hmono (show n + 1 ≤ n + 34 by omega)
    have h3 := (hper n).2
    exact Real.sin_nonneg_of_nonneg_of_le_pi (sub_nonneg.2 h1) (by linarith)
  have term : ∀ i ∈ Finset.range (34 * Z), ((make_gear_specs m Z alpha).xy.getD i 0).1 * ((make_gear_specs m Z alpha).xy.getD ((i + 1) % (34 * Z)) 0).2 -
      ((make_gear_specs m Z alpha).xy.getD i 0).2 * ((make_gear_specs m Z alpha).xy.getD ((i + 1) % (34 * Z)) 0).1 =
      r i * r ((i + 1) % (34 * Z)) * Real.sin (a (i + 1) - a i) := by
    intro i hi
    have hi := Finset.mem_range.1 hi
    rw [hp i hi, hp _ (Nat.mod_lt _ (by omega))]
    have e : Real.sin (a (i + 1) - a i) = Real.sin (a ((i + 1) % (34 * Z)) - a i) := by
      rcases next_spec hi with ⟨e, _⟩ | ⟨e, e2⟩
      · rw [e]
      · rw [e, e2, hround, show a 0 + 2 * Real.pi - a i = a 0 - a i + 2 * Real.pi by ring, Real.sin_add_two_pi]
    rw [e, Real.sin_sub]
    simp only [polar]
    ring
  unfold shoelace
  rw [hl, Finset.sum_congr rfl term]
  refine Finset.sum_pos' (fun i _ => mul_nonneg (mul_pos (hr0 _) (hr0 _)).le (hsin i)) ⟨11, Finset.mem_range.2 (by omega), ?_⟩
  refine mul_pos (mul_pos (hr0 _) (hr0 _)) ?_
  have h2 := hmono (show 12 ≤ 11 + 34 by omega)
  have h3 := (hper 11).2
  exact Real.sin_pos_of_pos_of_lt_pi (by linarith) (by linarith)

end Verif
