import Verif.Model.SurfaceMesh

/-! C33: the generated surface meshes are closed and consistently oriented. -/

namespace Verif

open SMesh
open VMesh (Tri)

/-- The directed edges of a triangle list. -/
def dirEdges (T : List Tri) : List (ℕ × ℕ) := T.flatMap fun t => [(t.a, t.b), (t.b, t.c), (t.c, t.a)]

/-- Closed and consistently oriented: every directed edge is used at most once and its reverse is used too. -/
def ClosedOriented (T : List Tri) : Prop :=
  (dirEdges T).Nodup ∧ ∀ a b, (a, b) ∈ dirEdges T → (b, a) ∈ dirEdges T

/-- all corner indices refer to one of n vertices -/
def IndicesBelow (T : List Tri) (n : ℕ) : Prop := ∀ t ∈ T, t.a < n ∧ t.b < n ∧ t.c < n

/-- the three directed edges of a triangle with corners of any kind -/
def edges3 {ν : Type*} (t : ν × ν × ν) : List (ν × ν) := [(t.1, t.2.1), (t.2.1, t.2.2), (t.2.2, t.1)]

/-- A triangle list given by tags, each with three abstract corners numbered by `idx`. -/
theorem closedOriented_of_tags {τ ν : Type*} (tags : List τ) (tri : τ → ν × ν × ν) (idx : ν → ℕ) (P : ν → Prop)
    (hinj : ∀ a b, P a → P b → idx a = idx b → a = b)
    (hP : ∀ t ∈ tags, P (tri t).1 ∧ P (tri t).2.1 ∧ P (tri t).2.2)
    (hnd : tags.Nodup)
    (hself : ∀ t ∈ tags, (edges3 (tri t)).Nodup)
    (hdis : ∀ s ∈ tags, ∀ t ∈ tags, ∀ e ∈ edges3 (tri s), e ∈ edges3 (tri t) → s = t)
    (hrev : ∀ s ∈ tags, ∀ e ∈ edges3 (tri s), ∃ t ∈ tags, e.swap ∈ edges3 (tri t)) :
    ClosedOriented (tags.map fun t => (⟨idx (tri t).1, idx (tri t).2.1, idx (tri t).2.2⟩ : Tri)) := by
  have hE : dirEdges (tags.map fun t => (⟨idx (tri t).1, idx (tri t).2.1, idx (tri t).2.2⟩ : Tri)) =
      (tags.flatMap fun t => edges3 (tri t)).map (fun e => (idx e.1, idx e.2)) := by
    unfold dirEdges edges3
    rw [List.flatMap_map, List.map_flatMap]
    rfl
  have hmem : ∀ e ∈ tags.flatMap (fun t => edges3 (tri t)), P e.1 ∧ P e.2 := by
    intro e he
    obtain ⟨t, ht, h⟩ := List.mem_flatMap.1 he
    obtain ⟨h1, h2, h3⟩ := hP t ht
    simp only [edges3, List.mem_cons, List.not_mem_nil, or_false] at h
    rcases h with rfl | rfl | rfl <;> exact ⟨by assumption, by assumption⟩
  constructor
  · rw [hE]
    apply List.Nodup.map_on
    · intro x hx y hy h
      have h1 := congrArg Prod.fst h
      have h2 := congrArg Prod.snd h
      exact Prod.ext (hinj _ _ (hmem x hx).1 (hmem y hy).1 h1) (hinj _ _ (hmem x hx).2 (hmem y hy).2 h2)
    · rw [List.nodup_flatMap]
      refine ⟨hself, ?_⟩
      rw [List.pairwise_iff_getElem]
      intro i j hi hj hij e he1 he2
      have := hdis _ (List.getElem_mem hi) _ (List.getElem_mem hj) e he1 he2
      have h2 := (hnd.getElem_inj_iff).1 this
      omega
  · intro a b h
    rw [hE] at h ⊢
    obtain ⟨e, he, h2⟩ := List.mem_map.1 h
    obtain ⟨s, hs, h3⟩ := List.mem_flatMap.1 he
    obtain ⟨t, ht, h4⟩ := hrev s hs e h3
    refine List.mem_map.2 ⟨e.swap, List.mem_flatMap.2 ⟨t, ht, h4⟩, ?_⟩
    simp only [Prod.mk.injEq] at h2
    simp [h2]

/-! ### profile_sweep -/

/-- vertices of a sweep: the two poles and the ring vertices -/
inductive SV
  | top
  | bottom
  | ring (i j : ℕ)
  deriving DecidableEq

/-- triangles of a sweep -/
inductive STag
  | bot (j : ℕ)
  | lo (i j : ℕ)
  | hi (i j : ℕ)
  | top (j : ℕ)
  deriving DecidableEq

def sweepTri (H J : ℕ) : STag → SV × SV × SV
  | .bot j => (.bottom, .ring 0 ((j + 1) % J), .ring 0 j)
  | .lo i j => (.ring i j, .ring i ((j + 1) % J), .ring (i + 1) ((j + 1) % J))
  | .hi i j => (.ring i j, .ring (i + 1) ((j + 1) % J), .ring (i + 1) j)
  | .top j => (.top, .ring (H - 1) j, .ring (H - 1) ((j + 1) % J))

def sweepIdx (H J : ℕ) : SV → ℕ
  | .top => H * J
  | .bottom => H * J + 1
  | .ring i j => j * H + i

def sweepTags (H J : ℕ) : List STag :=
  (List.range J).map .bot ++
  (List.range (H - 1)).flatMap (fun i => (List.range J).flatMap fun j => [.lo i j, .hi i j]) ++
  (List.range J).map .top

def STag.ok (H J : ℕ) : STag → Prop
  | .bot j => j < J
  | .lo i j => i + 1 < H ∧ j < J
  | .hi i j => i + 1 < H ∧ j < J
  | .top j => j < J

theorem mem_sweepTags {H J : ℕ} {t : STag} : t ∈ sweepTags H J ↔ t.ok H J := by
  cases t <;> simp [sweepTags, STag.ok] <;> omega

theorem sweepTags_nodup (H J : ℕ) : (sweepTags H J).Nodup := by
  unfold sweepTags
  rw [List.nodup_append, List.nodup_append]
  refine ⟨⟨List.nodup_range.map (by intro a b h; simpa using h), ?_, ?_⟩,
    List.nodup_range.map (by intro a b h; simpa using h), ?_⟩
  · rw [List.nodup_flatMap]
    constructor
    · intro i _
      rw [List.nodup_flatMap]
      refine ⟨by intro j _; simp, ?_⟩
      refine (List.pairwise_lt_range).imp ?_
      intro a b hab x hx hy
      simp only [List.mem_cons, List.not_mem_nil, or_false] at hx hy
      rcases hx with rfl | rfl <;> simp at hy <;> omega
    · refine (List.pairwise_lt_range).imp ?_
      intro a b hab x hx hy
      simp only [List.mem_flatMap, List.mem_cons, List.not_mem_nil, or_false] at hx hy
      obtain ⟨c, _, hx⟩ := hx
      obtain ⟨d, _, hy⟩ := hy
      rcases hx with rfl | rfl <;> simp at hy <;> omega
  · intro a ha b hb hab
    simp at ha hb
    obtain ⟨j, _, rfl⟩ := ha
    obtain ⟨i, _, j', _, h⟩ := hb
    rcases h with rfl | rfl <;> cases hab
  · intro a ha b hb hab
    simp at ha hb
    obtain ⟨j, _, rfl⟩ := hb
    subst hab
    rcases ha with ⟨j, _, h⟩ | ⟨i, _, j', _, h | h⟩ <;> cases h

theorem sweepT_eq {N J : ℕ} (hN : 3 ≤ N) :
    sweepT N J = (sweepTags (N - 2) J).map fun t =>
      (⟨sweepIdx (N - 2) J (sweepTri (N - 2) J t).1, sweepIdx (N - 2) J (sweepTri (N - 2) J t).2.1,
        sweepIdx (N - 2) J (sweepTri (N - 2) J t).2.2⟩ : Tri) := by
  unfold sweepT sweepTags
  simp only []
  rw [List.map_append, List.map_append, List.map_map, List.map_map, List.map_flatMap]
  congr 1
  · congr 1
    · apply List.map_congr_left
      intro j _
      simp [botTri, sweepTri, sweepIdx, Nat.mul_comm]
    · congr 1
      funext i
      rw [List.map_flatMap]
      congr 1

theorem next_spec {J j : ℕ} (hj : j < J) :
    ((j + 1) % J = j + 1 ∧ j + 1 < J) ∨ ((j + 1) % J = 0 ∧ j + 1 = J) := by
  by_cases h : j + 1 < J
  · exact Or.inl ⟨Nat.mod_eq_of_lt h, h⟩
  · have : j + 1 = J := by omega
    exact Or.inr ⟨by rw [this]; exact Nat.mod_self _, this⟩

/-- every index is the successor (mod J) of one -/
theorem exists_prev {J j : ℕ} (hj : j < J) : ∃ k, k < J ∧ (k + 1) % J = j := by
  by_cases h : j = 0
  · exact ⟨J - 1, by omega, by rw [show J - 1 + 1 = J by omega, Nat.mod_self, h]⟩
  · exact ⟨j - 1, by omega, by rw [show j - 1 + 1 = j by omega, Nat.mod_eq_of_lt hj]⟩

def SV.ok (H J : ℕ) : SV → Prop
  | .top => True
  | .bottom => True
  | .ring i j => i < H ∧ j < J

theorem ring_idx_lt {H J i j : ℕ} (hi : i < H) (hj : j < J) : j * H + i < H * J := by
  have : (j + 1) * H ≤ J * H := Nat.mul_le_mul_right _ hj
  nlinarith

theorem ring_idx_inj {H i j i' j' : ℕ} (hi : i < H) (hi' : i' < H) (h : j * H + i = j' * H + i') :
    i = i' ∧ j = j' := by
  have h1 : (j * H + i) % H = (j' * H + i') % H := by rw [h]
  rw [Nat.mul_add_mod', Nat.mul_add_mod', Nat.mod_eq_of_lt hi, Nat.mod_eq_of_lt hi'] at h1
  subst h1
  refine ⟨rfl, ?_⟩
  have : j * H = j' * H := by omega
  exact Nat.eq_of_mul_eq_mul_right (by omega) this

theorem sweepIdx_inj {H J : ℕ} (a b : SV) (ha : a.ok H J) (hb : b.ok H J)
    (h : sweepIdx H J a = sweepIdx H J b) : a = b := by
  cases a <;> cases b <;> simp only [sweepIdx, SV.ok] at * <;> try omega
  · have := ring_idx_lt hb.1 hb.2; omega
  · have := ring_idx_lt hb.1 hb.2; omega
  · have := ring_idx_lt ha.1 ha.2; omega
  · have := ring_idx_lt ha.1 ha.2; omega
  · obtain ⟨rfl, rfl⟩ := ring_idx_inj ha.1 hb.1 h
    rfl

theorem sweepTri_ok {H J : ℕ} (hH : 1 ≤ H) (t : STag) (ht : t.ok H J) :
    (sweepTri H J t).1.ok H J ∧ (sweepTri H J t).2.1.ok H J ∧ (sweepTri H J t).2.2.ok H J := by
  cases t with
  | bot j => have := next_spec (J := J) (j := j) ht; simp only [sweepTri, SV.ok, STag.ok, true_and] at *; omega
  | lo i j => have := next_spec (J := J) (j := j) ht.2; simp only [sweepTri, SV.ok, STag.ok, true_and] at *; omega
  | hi i j => have := next_spec (J := J) (j := j) ht.2; simp only [sweepTri, SV.ok, STag.ok, true_and] at *; omega
  | top j => have := next_spec (J := J) (j := j) ht; simp only [sweepTri, SV.ok, STag.ok, true_and] at *; omega

/-- the slice number of a tag -/
def STag.slice : STag → ℕ
  | .bot j => j
  | .lo _ j => j
  | .hi _ j => j
  | .top j => j

theorem STag.slice_lt {H J : ℕ} {t : STag} (h : t.ok H J) : t.slice < J := by
  cases t <;> simp only [STag.ok, STag.slice] at * <;> omega

theorem sweep_self {H J : ℕ} (hJ : 3 ≤ J) (t : STag) (ht : t.ok H J) : (edges3 (sweepTri H J t)).Nodup := by
  have hn := next_spec (STag.slice_lt ht)
  cases t <;> simp only [STag.ok, STag.slice] at ht hn <;>
    simp [edges3, sweepTri] <;> omega

theorem sweep_disjoint {H J : ℕ} (hJ : 3 ≤ J) (s t : STag) (hs : s.ok H J) (ht : t.ok H J) (e : SV × SV)
    (h1 : e ∈ edges3 (sweepTri H J s)) (h2 : e ∈ edges3 (sweepTri H J t)) : s = t := by
  have hn := next_spec (STag.slice_lt hs)
  have hm := next_spec (STag.slice_lt ht)
  simp only [edges3, List.mem_cons, List.not_mem_nil, or_false] at h1
  rcases h1 with rfl | rfl | rfl <;>
  simp only [edges3, List.mem_cons, List.not_mem_nil, or_false] at h2 <;>
  rcases h2 with h2 | h2 | h2 <;> cases s <;> cases t <;>
  simp only [STag.ok, STag.slice, sweepTri, Prod.mk.injEq, SV.ring.injEq, reduceCtorEq, false_and, and_false,
    true_and, and_true, STag.bot.injEq, STag.lo.injEq, STag.hi.injEq, STag.top.injEq] at * <;> omega

theorem sweep_rev {H J : ℕ} (hH : 1 ≤ H) (s : STag) (hs : s.ok H J) (e : SV × SV)
    (h1 : e ∈ edges3 (sweepTri H J s)) : ∃ t : STag, t.ok H J ∧ e.swap ∈ edges3 (sweepTri H J t) := by
  obtain ⟨p, hp, hpe⟩ := exists_prev (STag.slice_lt hs)
  have hn := next_spec (STag.slice_lt hs)
  have hnl : (s.slice + 1) % J < J := by omega
  have key : ∀ t : STag, t.ok H J → e.swap ∈ edges3 (sweepTri H J t) →
      ∃ t : STag, t.ok H J ∧ e.swap ∈ edges3 (sweepTri H J t) := fun t h1 h2 => ⟨t, h1, h2⟩
  simp only [edges3, List.mem_cons, List.not_mem_nil, or_false] at h1
  cases s with
  | bot j =>
    simp only [STag.slice, STag.ok, sweepTri] at *
    rcases h1 with rfl | rfl | rfl
    · exact key (.bot ((j + 1) % J)) hnl (by simp [edges3, sweepTri])
    · by_cases h : H = 1
      · exact key (.top j) hs (by simp [edges3, sweepTri, h])
      · exact key (.lo 0 j) ⟨by omega, hs⟩ (by simp [edges3, sweepTri])
    · exact key (.bot p) hp (by simp [edges3, sweepTri, hpe])
  | lo i j =>
    simp only [STag.slice, STag.ok, sweepTri] at *
    rcases h1 with rfl | rfl | rfl
    · by_cases h : i = 0
      · exact key (.bot j) hs.2 (by simp [edges3, sweepTri, h])
      · exact key (.hi (i - 1) j) ⟨by omega, hs.2⟩
          (by simp [edges3, sweepTri, show i - 1 + 1 = i by omega])
    · exact key (.hi i ((j + 1) % J)) ⟨hs.1, hnl⟩ (by simp [edges3, sweepTri])
    · exact key (.hi i j) hs (by simp [edges3, sweepTri])
  | hi i j =>
    simp only [STag.slice, STag.ok, sweepTri] at *
    rcases h1 with rfl | rfl | rfl
    · exact key (.lo i j) hs (by simp [edges3, sweepTri])
    · by_cases h : i + 2 = H
      · exact key (.top j) hs.2 (by simp [edges3, sweepTri, show H - 1 = i + 1 by omega])
      · exact key (.lo (i + 1) j) ⟨by omega, hs.2⟩ (by simp [edges3, sweepTri])
    · exact key (.lo i p) ⟨hs.1, hp⟩ (by simp [edges3, sweepTri, hpe])
  | top j =>
    simp only [STag.slice, STag.ok, sweepTri] at *
    rcases h1 with rfl | rfl | rfl
    · exact key (.top p) hp (by simp [edges3, sweepTri, hpe])
    · by_cases h : H = 1
      · exact key (.bot j) hs (by simp [edges3, sweepTri, h])
      · exact key (.hi (H - 2) j) ⟨by omega, hs⟩
          (by simp [edges3, sweepTri, show H - 2 + 1 = H - 1 by omega])
    · exact key (.top ((j + 1) % J)) hnl (by simp [edges3, sweepTri])

theorem sweepT_closed {N J : ℕ} (hN : 3 ≤ N) (hJ : 3 ≤ J) : ClosedOriented (sweepT N J) := by
  rw [sweepT_eq hN]
  refine closedOriented_of_tags (sweepTags (N - 2) J) (sweepTri (N - 2) J) (sweepIdx (N - 2) J) (SV.ok (N - 2) J)
    sweepIdx_inj ?_ (sweepTags_nodup _ _) ?_ ?_ ?_
  · exact fun t ht => sweepTri_ok (by omega) t (mem_sweepTags.1 ht)
  · exact fun t ht => sweep_self hJ t (mem_sweepTags.1 ht)
  · exact fun s hs t ht e h1 h2 => sweep_disjoint hJ s t (mem_sweepTags.1 hs) (mem_sweepTags.1 ht) e h1 h2
  · intro s hs e he
    obtain ⟨t, h1, h2⟩ := sweep_rev (by omega) s (mem_sweepTags.1 hs) e he
    exact ⟨t, mem_sweepTags.2 h1, h2⟩

theorem sweepT_length {N J : ℕ} (hN : 3 ≤ N) : (sweepT N J).length = 2 * J * (N - 2) := by
  rw [sweepT_eq hN, List.length_map]
  unfold sweepTags
  simp only [List.length_append, List.length_map, List.length_range, List.length_flatMap, List.length_cons,
    List.length_nil, List.map_const', List.sum_replicate, smul_eq_mul]
  obtain ⟨k, rfl⟩ : ∃ k, N = k + 3 := ⟨N - 3, by omega⟩
  simp only [show k + 3 - 2 = k + 1 by omega, show k + 1 - 1 = k by omega]
  ring

theorem sweepV_length (profile : List V3) (J : ℕ) : (sweepV profile J).length = (profile.length - 2) * J + 2 := by
  unfold sweepV
  simp [List.length_flatMap, Nat.mul_comm]

theorem sweepT_below {N J : ℕ} (hN : 3 ≤ N) : IndicesBelow (sweepT N J) ((N - 2) * J + 2) := by
  intro t ht
  rw [sweepT_eq hN] at ht
  obtain ⟨s, hs, rfl⟩ := List.mem_map.1 ht
  have hlt : ∀ v : SV, v.ok (N - 2) J → sweepIdx (N - 2) J v < (N - 2) * J + 2 := by
    intro v hv
    cases v with
    | top => simp [sweepIdx]
    | bottom => simp [sweepIdx]
    | ring i j => have := ring_idx_lt hv.1 hv.2; simp only [sweepIdx]; omega
  obtain ⟨h1, h2, h3⟩ := sweepTri_ok (by omega) s (mem_sweepTags.1 hs)
  exact ⟨hlt _ h1, hlt _ h2, hlt _ h3⟩

/-- `profile_sweep` raises exactly for fewer than three profile points or fewer than three slices. -/
theorem C33_sweep_raises (profile : List V3) (slices : ℕ) :
    (profile.length ≤ 2 ∨ slices ≤ 2) ↔ profile_sweep profile slices = .error .runtimeError := by
  unfold profile_sweep
  by_cases h1 : profile.length ≤ 2 <;> by_cases h2 : slices ≤ 2 <;> simp [h1, h2]

/-- Whatever the profile: the swept mesh has (N-2)·J+2 vertices and 2·J·(N-2) triangles with valid indices, and it
is closed and consistently oriented. -/
theorem C33_sweep_closed (profile : List V3) (slices : ℕ) (V : List V3) (T : List Tri)
    (h : profile_sweep profile slices = .ok (V, T)) :
    V.length = (profile.length - 2) * slices + 2 ∧ T.length = 2 * slices * (profile.length - 2) ∧
      IndicesBelow T V.length ∧ ClosedOriented T := by
  unfold profile_sweep at h
  simp only at h
  split at h
  · cases h
  split at h
  · cases h
  rename_i h1 h2
  cases h
  rw [sweepV_length]
  exact ⟨rfl, sweepT_length (by omega), sweepT_below (by omega), sweepT_closed (by omega) (by omega)⟩

/-! ### torus -/

/-- triangles of the torus: quad (i, k), first or second half -/
inductive TTag
  | lo (i k : ℕ)
  | hi (i k : ℕ)
  deriving DecidableEq

def TTag.quad : TTag → ℕ × ℕ
  | .lo i k => (i, k)
  | .hi i k => (i, k)

def torusTri (I K : ℕ) : TTag → (ℕ × ℕ) × (ℕ × ℕ) × (ℕ × ℕ)
  | .lo i k => ((i, k), (i, (k + 1) % K), ((i + 1) % I, (k + 1) % K))
  | .hi i k => ((i, k), ((i + 1) % I, (k + 1) % K), ((i + 1) % I, k))

def torusTags (I K : ℕ) : List TTag :=
  (List.range K).flatMap fun k => (List.range I).flatMap fun i => [.lo i k, .hi i k]

theorem mem_torusTags {I K : ℕ} {t : TTag} : t ∈ torusTags I K ↔ t.quad.1 < I ∧ t.quad.2 < K := by
  cases t <;> simp [torusTags, TTag.quad, and_comm]

theorem torusTags_nodup (I K : ℕ) : (torusTags I K).Nodup := by
  unfold torusTags
  rw [List.nodup_flatMap]
  constructor
  · intro i _
    rw [List.nodup_flatMap]
    refine ⟨by intro j _; simp, ?_⟩
    refine (List.pairwise_lt_range).imp ?_
    intro a b hab x hx hy
    simp only [List.mem_cons, List.not_mem_nil, or_false] at hx hy
    rcases hx with rfl | rfl <;> simp at hy <;> omega
  · refine (List.pairwise_lt_range).imp ?_
    intro a b hab x hx hy
    simp only [List.mem_flatMap, List.mem_cons, List.not_mem_nil, or_false] at hx hy
    obtain ⟨c, _, hx⟩ := hx
    obtain ⟨d, _, hy⟩ := hy
    rcases hx with rfl | rfl <;> simp at hy <;> omega

theorem torusT_eq (I K : ℕ) : torusT I K = (torusTags I K).map fun t =>
    (⟨(torusTri I K t).1.2 * I + (torusTri I K t).1.1, (torusTri I K t).2.1.2 * I + (torusTri I K t).2.1.1,
      (torusTri I K t).2.2.2 * I + (torusTri I K t).2.2.1⟩ : Tri) := by
  unfold torusT torusTags
  simp only [List.map_flatMap]
  rfl

theorem torus_self {I K : ℕ} (hI : 3 ≤ I) (hK : 3 ≤ K) (t : TTag) (ht : t.quad.1 < I ∧ t.quad.2 < K) :
    (edges3 (torusTri I K t)).Nodup := by
  have hn := next_spec ht.1
  have hm := next_spec ht.2
  cases t <;> simp only [TTag.quad] at ht hn hm <;> simp [edges3, torusTri] <;> omega

theorem torus_disjoint {I K : ℕ} (hI : 3 ≤ I) (hK : 3 ≤ K) (s t : TTag) (hs : s.quad.1 < I ∧ s.quad.2 < K)
    (ht : t.quad.1 < I ∧ t.quad.2 < K) (e : (ℕ × ℕ) × (ℕ × ℕ))
    (h1 : e ∈ edges3 (torusTri I K s)) (h2 : e ∈ edges3 (torusTri I K t)) : s = t := by
  have hn := next_spec hs.1
  have hm := next_spec hs.2
  have hn' := next_spec ht.1
  have hm' := next_spec ht.2
  simp only [edges3, List.mem_cons, List.not_mem_nil, or_false] at h1
  rcases h1 with rfl | rfl | rfl <;>
  simp only [edges3, List.mem_cons, List.not_mem_nil, or_false] at h2 <;>
  rcases h2 with h2 | h2 | h2 <;> cases s <;> cases t <;>
  simp only [TTag.quad, torusTri, Prod.mk.injEq, TTag.lo.injEq, TTag.hi.injEq, reduceCtorEq] at * <;> omega

theorem torus_rev {I K : ℕ} (s : TTag) (hs : s.quad.1 < I ∧ s.quad.2 < K) (e : (ℕ × ℕ) × (ℕ × ℕ))
    (h1 : e ∈ edges3 (torusTri I K s)) :
    ∃ t : TTag, (t.quad.1 < I ∧ t.quad.2 < K) ∧ e.swap ∈ edges3 (torusTri I K t) := by
  obtain ⟨p, hp, hpe⟩ := exists_prev hs.1
  obtain ⟨r, hr, hre⟩ := exists_prev hs.2
  have hn := next_spec hs.1
  have hm := next_spec hs.2
  have hnl : (s.quad.1 + 1) % I < I := by omega
  have hml : (s.quad.2 + 1) % K < K := by omega
  have key : ∀ t : TTag, (t.quad.1 < I ∧ t.quad.2 < K) → e.swap ∈ edges3 (torusTri I K t) →
      ∃ t : TTag, (t.quad.1 < I ∧ t.quad.2 < K) ∧ e.swap ∈ edges3 (torusTri I K t) := fun t h1 h2 => ⟨t, h1, h2⟩
  simp only [edges3, List.mem_cons, List.not_mem_nil, or_false] at h1
  cases s with
  | lo i k =>
    simp only [TTag.quad, torusTri] at *
    rcases h1 with rfl | rfl | rfl
    · exact key (.hi p k) ⟨hp, hs.2⟩ (by simp [edges3, torusTri, hpe])
    · exact key (.hi i ((k + 1) % K)) ⟨hs.1, hml⟩ (by simp [edges3, torusTri])
    · exact key (.hi i k) hs (by simp [edges3, torusTri])
  | hi i k =>
    simp only [TTag.quad, torusTri] at *
    rcases h1 with rfl | rfl | rfl
    · exact key (.lo i k) hs (by simp [edges3, torusTri])
    · exact key (.lo ((i + 1) % I) k) ⟨hnl, hs.2⟩ (by simp [edges3, torusTri])
    · exact key (.lo i r) ⟨hs.1, hr⟩ (by simp [edges3, torusTri, hre])

/-- For at least three segments and slices the torus is closed and consistently oriented; it has as many
vertices and triangles as announced, with valid indices. -/
theorem C33_torus_closed (R r : ℝ) (segments slices : ℕ) (hI : 3 ≤ segments) (hK : 3 ≤ slices) :
    (create_torus R r segments slices).1.length = segments * slices ∧
    (create_torus R r segments slices).2.length = segments * slices * 2 ∧
    IndicesBelow (create_torus R r segments slices).2 (create_torus R r segments slices).1.length ∧
    ClosedOriented (create_torus R r segments slices).2 := by
  have hl : (create_torus R r segments slices).1.length = segments * slices := by
    simp [create_torus, torusV, Nat.mul_comm]
  refine ⟨hl, ?_, ?_, ?_⟩
  · simp [create_torus, torusT, torusTris, List.length_flatMap]
    ring
  · intro t ht
    simp only [create_torus, torusT_eq] at ht
    obtain ⟨s, hs, rfl⟩ := List.mem_map.1 ht
    rw [hl]
    rw [mem_torusTags] at hs
    have hn := next_spec hs.1
    have hm := next_spec hs.2
    have hnl : (s.quad.1 + 1) % segments < segments := by omega
    have hml : (s.quad.2 + 1) % slices < slices := by omega
    cases s with
    | lo i k => exact ⟨ring_idx_lt hs.1 hs.2, ring_idx_lt hs.1 hml, ring_idx_lt hnl hml⟩
    | hi i k => exact ⟨ring_idx_lt hs.1 hs.2, ring_idx_lt hnl hml, ring_idx_lt hnl hs.2⟩
  · simp only [create_torus, torusT_eq]
    refine closedOriented_of_tags (torusTags segments slices) (torusTri segments slices)
      (fun v => v.2 * segments + v.1) (fun v => v.1 < segments) ?_ ?_ (torusTags_nodup _ _) ?_ ?_ ?_
    · intro a b ha hb h
      obtain ⟨h1, h2⟩ := ring_idx_inj ha hb h
      exact Prod.ext h1 h2
    · intro t ht
      rw [mem_torusTags] at ht
      have hn := next_spec ht.1
      cases t <;> simp only [TTag.quad, torusTri] at * <;> omega
    · exact fun t ht => torus_self hI hK t (mem_torusTags.1 ht)
    · exact fun s hs t ht e h1 h2 => torus_disjoint hI hK s t (mem_torusTags.1 hs) (mem_torusTags.1 ht) e h1 h2
    · intro s hs e he
      obtain ⟨t, h1, h2⟩ := torus_rev s (mem_torusTags.1 hs) e he
      exact ⟨t, mem_torusTags.2 h1, h2⟩

/-- Unlike `profile_sweep`, `create_torus` accepts two slices and returns a mesh in which directed edges are used
twice. -/
theorem C33_torus_two_slices (R r : ℝ) : ¬ ClosedOriented (create_torus R r 3 2).2 := by
  intro h
  exact absurd h.1 (by show ¬ (dirEdges (torusT 3 2)).Nodup; decide)

/-! ### box and cuboid -/

theorem closed_of_decide {T : List Tri} (h1 : (dirEdges T).Nodup)
    (h2 : ∀ e ∈ dirEdges T, e.swap ∈ dirEdges T) : ClosedOriented T :=
  ⟨h1, fun a b h => h2 (a, b) h⟩

theorem C33_box_closed (w h d : ℝ) :
    IndicesBelow (create_box w h d).2 (create_box w h d).1.length ∧ ClosedOriented (create_box w h d).2 := by
  refine ⟨?_, closed_of_decide ?_ ?_⟩
  · show ∀ t ∈ boxT, t.a < 8 ∧ t.b < 8 ∧ t.c < 8
    decide
  · show (dirEdges boxT).Nodup
    decide
  · show ∀ e ∈ dirEdges boxT, e.swap ∈ dirEdges boxT
    decide

/-- the triangle list of every cuboid -/
def cuboidT : List Tri := quads.flatMap fun q => [⟨q.1, q.2.1, q.2.2.1⟩, ⟨q.1, q.2.2.1, q.2.2.2⟩]

theorem C33_cuboid_closed (p0 p1 p2 p3 p4 p5 p6 p7 : V3) :
    IndicesBelow (create_cuboid p0 p1 p2 p3 p4 p5 p6 p7).2 (create_cuboid p0 p1 p2 p3 p4 p5 p6 p7).1.length ∧
      ClosedOriented (create_cuboid p0 p1 p2 p3 p4 p5 p6 p7).2 := by
  refine ⟨?_, closed_of_decide ?_ ?_⟩
  · show ∀ t ∈ cuboidT, t.a < 8 ∧ t.b < 8 ∧ t.c < 8
    decide
  · show (dirEdges cuboidT).Nodup
    decide
  · show ∀ e ∈ dirEdges cuboidT, e.swap ∈ dirEdges cuboidT
    decide

end Verif
