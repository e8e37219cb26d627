import Verif.Props.SceneMail

/-! C106: the rings of the chain mail are apart, and linked. -/

namespace Verif

open Rigid Rigid.SceneM SMesh
open VMesh (Tri)

/-- The ring at the place (a, b) of the mail. -/
noncomputable def hoopAt (D : ℝ) (columns rows : ℕ) (t : ℕ × ℕ) : Hoop :=
  ⟨⟨D * (t.1 - columns), 0, D * (rows - t.2)⟩, if t.1 % 2 = 1 then ⟨0, 0, 1⟩ else if t.2 % 2 = 1 then ⟨1, 0, 0⟩ else ⟨0, 1, 0⟩⟩

def mailTags (columns rows : ℕ) : List (ℕ × ℕ) :=
  ((List.range (rows + 1)).flatMap fun (j : ℕ) => (List.range (columns + 1)).map fun (i : ℕ) => (2 * i, 2 * j)) ++
  ((List.range (rows + 1)).flatMap fun (j : ℕ) => (List.range columns).map fun (i : ℕ) => (2 * i + 1, 2 * j)) ++
  ((List.range rows).flatMap fun (j : ℕ) => (List.range (columns + 1)).map fun (i : ℕ) => (2 * i, 2 * j + 1))

theorem mailTags_hoops (D : ℝ) (columns rows : ℕ) : mailHoops D columns rows = (mailTags columns rows).map (hoopAt D columns rows) := by
  unfold mailHoops mailTags
  simp only [List.map_append, List.map_flatMap, List.map_map]
  congr 1
  · congr 1
    · congr 1; funext j; congr 1; funext i
      simp [hoopAt]
    · congr 1; funext j; congr 1; funext i
      simp [hoopAt, Nat.add_mod]
  · congr 1; funext j; congr 1; funext i
    simp [hoopAt, Nat.add_mod]

theorem grid_nodup {α : Type} (f : ℕ → ℕ → α) (hf : ∀ i j i' j', f j i = f j' i' → i = i' ∧ j = j') (m n : ℕ) :
    ((List.range m).flatMap fun (j : ℕ) => (List.range n).map fun (i : ℕ) => f j i).Nodup := by
  rw [List.nodup_flatMap]
  constructor
  · intro j _
    exact List.Nodup.map (fun i i' h => (hf _ _ _ _ h).1) List.nodup_range
  · refine (List.pairwise_lt_range).imp ?_
    intro a b hab x hx hy
    obtain ⟨i, _, rfl⟩ := List.mem_map.1 hx
    obtain ⟨i', _, h⟩ := List.mem_map.1 hy
    have := (hf _ _ _ _ h).2
    omega

theorem mailTags_nodup (columns rows : ℕ) : (mailTags columns rows).Nodup := by
  unfold mailTags
  rw [List.nodup_append, List.nodup_append]
  refine ⟨⟨grid_nodup (fun j i => (2 * i, 2 * j)) (by simp) _ _, grid_nodup (fun j i => (2 * i + 1, 2 * j)) (by simp) _ _, ?_⟩,
    grid_nodup (fun j i => (2 * i, 2 * j + 1)) (by simp) _ _, ?_⟩
  · intro x hx y hy
    simp only [List.mem_flatMap, List.mem_map] at hx hy
    obtain ⟨_, _, _, _, rfl⟩ := hx
    obtain ⟨_, _, _, _, rfl⟩ := hy
    simp; omega
  · intro x hx y hy
    simp only [List.mem_append, List.mem_flatMap, List.mem_map] at hx hy
    obtain ⟨_, _, _, _, rfl⟩ := hy
    rcases hx with hx | hx
    · obtain ⟨_, _, _, _, rfl⟩ := hx
      simp; omega
    · obtain ⟨_, _, _, _, rfl⟩ := hx
      simp; omega

theorem mailTags_odd {columns rows : ℕ} {t : ℕ × ℕ} (h : t ∈ mailTags columns rows) : ¬ (t.1 % 2 = 1 ∧ t.2 % 2 = 1) := by
  unfold mailTags at h
  simp only [List.mem_append, List.mem_flatMap, List.mem_map] at h
  rcases h with (h | h) | h
  all_goals
    obtain ⟨_, _, _, _, rfl⟩ := h
    simp; try omega

/-! ### The three kinds of rings -/

theorem near_of_sq {x y R : ℝ} (hR : 0 ≤ R) (h : x ^ 2 + y ^ 2 = R ^ 2) : -R ≤ x ∧ x ≤ R ∧ -R ≤ y ∧ y ≤ R := by
  have h1 := abs_le_of_sq_le_sq' (show x ^ 2 ≤ R ^ 2 by nlinarith [sq_nonneg y]) hR
  have h2 := abs_le_of_sq_le_sq' (show y ^ 2 ≤ R ^ 2 by nlinarith [sq_nonneg x]) hR
  exact ⟨h1.1, h1.2, h2.1, h2.2⟩

/-- The coordinates of the points of a ring. -/
theorem hoopAt_on {D R : ℝ} {columns rows : ℕ} {t : ℕ × ℕ} {p : V3} (h : (hoopAt D columns rows t).On R p) :
    (t.1 % 2 = 1 ∧ p.z = D * (rows - t.2) ∧ (p.x - D * (t.1 - columns)) ^ 2 + p.y ^ 2 = R ^ 2) ∨
    (t.1 % 2 = 0 ∧ t.2 % 2 = 1 ∧ p.x = D * (t.1 - columns) ∧ (p.z - D * (rows - t.2)) ^ 2 + p.y ^ 2 = R ^ 2) ∨
    (t.1 % 2 = 0 ∧ t.2 % 2 = 0 ∧ p.y = 0 ∧ (p.x - D * (t.1 - columns)) ^ 2 + (p.z - D * (rows - t.2)) ^ 2 = R ^ 2) := by
  obtain ⟨h1, h2⟩ := h
  unfold hoopAt at h1 h2
  simp only [V3.dot, V3.sub_x, V3.sub_y, V3.sub_z, sub_zero] at h1 h2
  rcases Nat.mod_two_eq_zero_or_one t.1 with ha | ha
  · rcases Nat.mod_two_eq_zero_or_one t.2 with hb | hb
    · simp [ha, hb] at h2
      rw [h2] at h1
      exact .inr (.inr ⟨ha, hb, h2, by nlinarith⟩)
    · simp [ha, hb] at h2
      have h3 : p.x = D * (t.1 - columns) := by linarith
      exact .inr (.inl ⟨ha, hb, h3, by rw [h3] at h1; nlinarith⟩)
  · simp [ha] at h2
    have h3 : p.z = D * (rows - t.2) := by linarith
    exact .inl ⟨ha, h3, by rw [h3] at h1; nlinarith⟩

theorem hoopAt_inside {D R : ℝ} {columns rows : ℕ} {t : ℕ × ℕ} {p : V3} : (hoopAt D columns rows t).Inside R p ↔
    (t.1 % 2 = 1 ∧ p.z = D * (rows - t.2) ∧ (p.x - D * (t.1 - columns)) ^ 2 + p.y ^ 2 < R ^ 2) ∨
    (t.1 % 2 = 0 ∧ t.2 % 2 = 1 ∧ p.x = D * (t.1 - columns) ∧ (p.z - D * (rows - t.2)) ^ 2 + p.y ^ 2 < R ^ 2) ∨
    (t.1 % 2 = 0 ∧ t.2 % 2 = 0 ∧ p.y = 0 ∧ (p.x - D * (t.1 - columns)) ^ 2 + (p.z - D * (rows - t.2)) ^ 2 < R ^ 2) := by
  unfold Hoop.Inside hoopAt
  simp only [V3.dot, V3.sub_x, V3.sub_y, V3.sub_z, sub_zero]
  rcases Nat.mod_two_eq_zero_or_one t.1 with ha | ha
  · rcases Nat.mod_two_eq_zero_or_one t.2 with hb | hb
    · simp [ha, hb]
      constructor
      · rintro ⟨h1, h2⟩; exact ⟨h2, by rw [h2] at h1; nlinarith⟩
      · rintro ⟨h2, h1⟩; exact ⟨by rw [h2]; nlinarith, h2⟩
    · simp [ha, hb]
      constructor
      · rintro ⟨h1, h2⟩
        have h3 : p.x = D * (t.1 - columns) := by linarith
        exact ⟨h3, by rw [h3] at h1; nlinarith⟩
      · rintro ⟨h3, h1⟩; exact ⟨by rw [h3]; nlinarith, by rw [h3]; ring⟩
  · simp [ha]
    constructor
    · rintro ⟨h1, h2⟩
      have h3 : p.z = D * (rows - t.2) := by linarith
      exact ⟨h3, by rw [h3] at h1; nlinarith⟩
    · rintro ⟨h3, h1⟩; exact ⟨by rw [h3]; nlinarith, by rw [h3]; ring⟩

/-- coordinates that are k steps apart, up to E -/
theorem gap {D S E e : ℝ} (hS : 0 ≤ S) (hD : 0 ≤ D) {k a a' : ℕ} (h : a + k ≤ a' ∨ a' + k ≤ a) (h1 : -E ≤ e) (h2 : e ≤ E)
    (hk : S + E ≤ k * D) {d : ℝ} (hd : d = e + D * (a - a')) : S ^ 2 ≤ d ^ 2 := by
  rw [hd]
  rcases h with h | h
  · have : (a : ℝ) + k ≤ a' := by exact_mod_cast h
    have h3 : D * ((a : ℝ) - a') ≤ -(k * D) := by nlinarith
    nlinarith
  · have : (a' : ℝ) + k ≤ a := by exact_mod_cast h
    have h3 : k * D ≤ D * ((a : ℝ) - a') := by nlinarith
    nlinarith

/-- two rings that pass through one another -/
theorem linked_gap {D R u w v y : ℝ} (hRD : R ≤ D) (hp : u ^ 2 + w ^ 2 = R ^ 2) (hq : v ^ 2 + y ^ 2 = R ^ 2) (hR : 0 ≤ R) :
    (2 * R - D) ^ 2 ≤ (u - v - D) ^ 2 + y ^ 2 + w ^ 2 := by
  obtain ⟨h1, h2, -⟩ := near_of_sq hR hp
  obtain ⟨h3, h4, -⟩ := near_of_sq hR hq
  have e : (u - v - D) ^ 2 + y ^ 2 + w ^ 2 = (2 * R - D) ^ 2 + 2 * (D - R) * (R - u) + 2 * (D - R) * (R + v) + 2 * ((R - u) * (R + v)) := by
    linear_combination hp + hq
  rw [e]
  have g1 := mul_nonneg (sub_nonneg.2 hRD) (sub_nonneg.2 h2)
  have g2 := mul_nonneg (sub_nonneg.2 hRD) (show 0 ≤ R + v by linarith)
  have g3 := mul_nonneg (sub_nonneg.2 h2) (show 0 ≤ R + v by linarith)
  linarith

set_option maxHeartbeats 1000000 in
/-- the distance between points of two rings: S is at most any gap of the mail -/
theorem hoops_apart {D R S : ℝ} (hR : 0 ≤ R) (hRD : R ≤ D) (hS : 0 ≤ S) (h1 : S ≤ R) (h2 : S ≤ 2 * R - D) (h3 : S ^ 2 ≤ 2 * (D - R) ^ 2)
    {columns rows : ℕ} {t t' : ℕ × ℕ} (ht : ¬ (t.1 % 2 = 1 ∧ t.2 % 2 = 1)) (ht' : ¬ (t'.1 % 2 = 1 ∧ t'.2 % 2 = 1)) (hne : t ≠ t')
    {p q : V3} (hp : (hoopAt D columns rows t).On R p) (hq : (hoopAt D columns rows t').On R q) :
    S ^ 2 ≤ (p.x - q.x) ^ 2 + (p.y - q.y) ^ 2 + (p.z - q.z) ^ 2 := by
  have hD : 0 ≤ D := hR.trans hRD
  have h4 : S ≤ 2 * (D - R) := abs_le_of_sq_le_sq' (by nlinarith [sq_nonneg (D - R)] : S ^ 2 ≤ (2 * (D - R)) ^ 2) (by linarith) |>.2
  -- the order of the two does not matter
  wlog hord : (t.1 % 2 = 0 ∧ t.2 % 2 = 0) ∨ (t.1 % 2 = 1 ∧ ¬ (t'.1 % 2 = 0 ∧ t'.2 % 2 = 0)) ∨ (t.2 % 2 = 1 ∧ t'.2 % 2 = 1) generalizing t t' p q with H
  · have := H ht' ht hne.symm hq hp (by omega)
    nlinarith
  have hdiff : t.1 ≠ t'.1 ∨ t.2 ≠ t'.2 := by
    by_contra hc
    push Not at hc
    exact hne (Prod.ext hc.1 hc.2)
  obtain ⟨a, b⟩ := t
  obtain ⟨a', b'⟩ := t'
  simp only at ht ht' hord hdiff
  have hp' := hoopAt_on hp
  have hq' := hoopAt_on hq
  simp only at hp' hq'
  have fx : ∀ d : ℝ, S ^ 2 ≤ (p.x - q.x) ^ 2 → S ^ 2 ≤ (p.x - q.x) ^ 2 + (p.y - q.y) ^ 2 + (p.z - q.z) ^ 2 := by
    intro _ h; nlinarith [sq_nonneg (p.y - q.y), sq_nonneg (p.z - q.z)]
  have fz : ∀ d : ℝ, S ^ 2 ≤ (p.z - q.z) ^ 2 → S ^ 2 ≤ (p.x - q.x) ^ 2 + (p.y - q.y) ^ 2 + (p.z - q.z) ^ 2 := by
    intro _ h; nlinarith [sq_nonneg (p.y - q.y), sq_nonneg (p.x - q.x)]
  rcases hp' with ⟨p1, p2, p3⟩ | ⟨p1, p2, p3, p4⟩ | ⟨p1, p2, p3, p4⟩
  · -- across
    obtain ⟨n1, n2, -⟩ := near_of_sq hR p3
    rcases hq' with ⟨q1, q2, q3⟩ | ⟨q1, q2, q3, q4⟩ | ⟨q1, q2, q3, q4⟩
    · obtain ⟨m1, m2, -⟩ := near_of_sq hR q3
      by_cases hb : b = b'
      · exact fx 0 (gap (k := 2) (a := a) (a' := a') (E := 2 * R) (e := (p.x - D * (a - columns)) - (q.x - D * (a' - columns))) hS hD (by omega)
          (by linarith) (by linarith) (by push_cast; linarith) (by ring))
      · exact fz 0 (gap (k := 2) (a := b') (a' := b) (E := 0) (e := 0) hS hD (by omega) (by simp) (by simp) (by push_cast; linarith)
          (by rw [p2, q2]; ring))
    · obtain ⟨m1, m2, -⟩ := near_of_sq hR q4
      have gx : (D - R) ^ 2 ≤ (p.x - q.x) ^ 2 := gap (k := 1) (a := a) (a' := a') (E := R) (e := p.x - D * (a - columns)) (by linarith) hD
        (by omega) n1 n2 (by push_cast; linarith) (by rw [q3]; ring)
      have gz : (D - R) ^ 2 ≤ (p.z - q.z) ^ 2 := gap (k := 1) (a := b') (a' := b) (E := R) (e := -(q.z - D * (rows - b'))) (by linarith) hD
        (by omega) (by linarith) (by linarith) (by push_cast; linarith) (by rw [p2]; ring)
      nlinarith [sq_nonneg (p.y - q.y)]
    · omega
  · -- along
    obtain ⟨n1, n2, -⟩ := near_of_sq hR p4
    rcases hq' with ⟨q1, q2, q3⟩ | ⟨q1, q2, q3, q4⟩ | ⟨q1, q2, q3, q4⟩
    · omega
    · obtain ⟨m1, m2, -⟩ := near_of_sq hR q4
      by_cases ha : a = a'
      · exact fz 0 (gap (k := 2) (a := b') (a' := b) (E := 2 * R) (e := (p.z - D * (rows - b)) - (q.z - D * (rows - b'))) hS hD (by omega)
          (by linarith) (by linarith) (by push_cast; linarith) (by ring))
      · exact fx 0 (gap (k := 2) (a := a) (a' := a') (E := 0) (e := 0) hS hD (by omega) (by simp) (by simp) (by push_cast; linarith)
          (by rw [p3, q3]; ring))
    · omega
  · -- flat
    obtain ⟨n1, n2, n3, n4⟩ := near_of_sq hR p4
    rcases hq' with ⟨q1, q2, q3⟩ | ⟨q1, q2, q3, q4⟩ | ⟨q1, q2, q3, q4⟩
    · obtain ⟨m1, m2, -⟩ := near_of_sq hR q3
      by_cases hb : b = b'
      · by_cases hfar : a + 3 ≤ a' ∨ a' + 3 ≤ a
        · exact fx 0 (gap (k := 3) (a := a) (a' := a') (E := 2 * R) (e := (p.x - D * (a - columns)) - (q.x - D * (a' - columns))) hS hD hfar
            (by linarith) (by linarith) (by push_cast; linarith) (by ring))
        · have hS2 : S ^ 2 ≤ (2 * R - D) ^ 2 := by nlinarith
          subst hb
          rcases (show a' = a + 1 ∨ a = a' + 1 by omega) with rfl | rfl
          · have := linked_gap hRD p4 q3 hR
            push_cast at this
            rw [p3, q2]
            refine hS2.trans (this.trans (le_of_eq ?_)); ring
          · have := linked_gap (u := -(p.x - D * (((a' + 1 : ℕ) : ℝ) - columns))) (v := -(q.x - D * (a' - columns)))
              (w := p.z - D * (rows - b)) (y := q.y) hRD
              (by rw [neg_sq]; exact p4) (by rw [neg_sq]; exact q3) hR
            push_cast at this
            rw [p3, q2]
            refine hS2.trans (this.trans (le_of_eq ?_)); ring
      · exact fz 0 (gap (k := 2) (a := b') (a' := b) (E := R) (e := p.z - D * (rows - b)) hS hD (by omega) n3 n4 (by push_cast; linarith)
          (by rw [q2]; ring))
    · obtain ⟨m1, m2, -⟩ := near_of_sq hR q4
      by_cases ha : a = a'
      · by_cases hfar : b' + 3 ≤ b ∨ b + 3 ≤ b'
        · exact fz 0 (gap (k := 3) (a := b') (a' := b) (E := 2 * R) (e := (p.z - D * (rows - b)) - (q.z - D * (rows - b'))) hS hD hfar
            (by linarith) (by linarith) (by push_cast; linarith) (by ring))
        · have hS2 : S ^ 2 ≤ (2 * R - D) ^ 2 := by nlinarith
          subst ha
          rcases (show b' = b + 1 ∨ b = b' + 1 by omega) with rfl | rfl
          · have := linked_gap (u := -(p.z - D * (rows - b))) (v := -(q.z - D * (rows - ((b + 1 : ℕ) : ℝ)))) (w := p.x - D * (a - columns))
              (y := q.y) hRD
              (by rw [neg_sq]; linarith) (by rw [neg_sq]; exact q4) hR
            push_cast at this
            rw [p3, q3]
            refine hS2.trans (this.trans (le_of_eq ?_)); ring
          · have := linked_gap (u := p.z - D * (rows - ((b' + 1 : ℕ) : ℝ))) (v := q.z - D * (rows - b')) (w := p.x - D * (a - columns))
              (y := q.y) hRD
              (by linarith) q4 hR
            push_cast at this
            rw [p3, q3]
            refine hS2.trans (this.trans (le_of_eq ?_)); ring
      · exact fx 0 (gap (k := 2) (a := a) (a' := a') (E := R) (e := p.x - D * (a - columns)) hS hD (by omega) n1 n2 (by push_cast; linarith)
          (by rw [q3]; ring))
    · obtain ⟨m1, m2, m3, m4⟩ := near_of_sq hR q4
      rcases hdiff with ha | hb
      · exact fx 0 (gap (k := 2) (a := a) (a' := a') (E := 2 * R) (e := (p.x - D * (a - columns)) - (q.x - D * (a' - columns))) hS hD (by omega)
          (by linarith) (by linarith) (by push_cast; linarith) (by ring))
      · exact fz 0 (gap (k := 2) (a := b') (a' := b) (E := 2 * R) (e := (p.z - D * (rows - b)) - (q.z - D * (rows - b'))) hS hD (by omega)
          (by linarith) (by linarith) (by push_cast; linarith) (by ring))

theorem mail_get {D : ℝ} {columns rows i : ℕ} {h : Hoop} (hi : (mailHoops D columns rows)[i]? = some h) :
    ∃ t, (mailTags columns rows)[i]? = some t ∧ h = hoopAt D columns rows t := by
  rw [mailTags_hoops, List.getElem?_map] at hi
  cases ht : (mailTags columns rows)[i]? with
  | none => rw [ht] at hi; cases hi
  | some t => rw [ht] at hi; exact ⟨t, rfl, by simpa using hi.symm⟩

theorem mail_ne {columns rows i j : ℕ} {t t' : ℕ × ℕ} (hij : i ≠ j) (hi : (mailTags columns rows)[i]? = some t)
    (hj : (mailTags columns rows)[j]? = some t') : t ≠ t' := by
  rw [List.getElem?_eq_some_iff] at hi hj
  obtain ⟨l1, e1⟩ := hi
  obtain ⟨l2, e2⟩ := hj
  rw [← e1, ← e2]
  intro h
  exact hij ((mailTags_nodup columns rows).getElem_inj_iff.1 h)

/-- **C106.** The clearance: if √2·(R - 2r)·stretch ≥ 2r and R ≥ 2r, the circles in the middle of any two rings are at least 2r apart
everywhere, so that rings of thickness r around them do not overlap. -/
theorem C106_apart {R r stretch : ℝ} (hr : 0 < r) (hR : 2 * r ≤ R) (hs : 2 * r ^ 2 ≤ ((R - 2 * r) * min (max stretch 0) 1) ^ 2)
    {columns rows : ℕ} {i j : ℕ} (hij : i ≠ j) {h h' : Hoop}
    (hi : (mailHoops (R + (R - 2 * r) * min (max stretch 0) 1) columns rows)[i]? = some h)
    (hj : (mailHoops (R + (R - 2 * r) * min (max stretch 0) 1) columns rows)[j]? = some h') {p q : V3} (hp : h.On R p) (hq : h'.On R q) :
    (2 * r) ^ 2 ≤ (p.x - q.x) ^ 2 + (p.y - q.y) ^ 2 + (p.z - q.z) ^ 2 := by
  have h0 : 0 ≤ min (max stretch 0) 1 := le_min (le_max_right _ _) zero_le_one
  have h1 : min (max stretch 0) 1 ≤ 1 := min_le_right _ _
  generalize min (max stretch 0) 1 = σ at *
  obtain ⟨t, ht, rfl⟩ := mail_get hi
  obtain ⟨t', ht', rfl⟩ := mail_get hj
  refine hoops_apart (by linarith) (by nlinarith) (by linarith) hR (by nlinarith) ?_ (mailTags_odd (List.mem_of_getElem? ht))
    (mailTags_odd (List.mem_of_getElem? ht')) (mail_ne hij ht ht') hp hq
  have : R + (R - 2 * r) * σ - R = (R - 2 * r) * σ := by ring
  rw [this]
  nlinarith

/-- **C106.** The condition is necessary: in a mail of at least one row and column, two rings come closer than 2r if
√2·(R - 2r)·stretch < 2r.  This is so for the default stretch 0.5 unless R > 4.8·r, and for no stretch at all. -/
theorem C106_tight_finding {R r stretch : ℝ} (hR : 2 * r ≤ R) (hs : ((R - 2 * r) * min (max stretch 0) 1) ^ 2 < 2 * r ^ 2)
    {columns rows : ℕ} (hc : 1 ≤ columns) (hw : 1 ≤ rows) :
    ∃ (i j : ℕ) (h h' : Hoop) (p q : V3), i ≠ j ∧ (mailHoops (R + (R - 2 * r) * min (max stretch 0) 1) columns rows)[i]? = some h ∧
      (mailHoops (R + (R - 2 * r) * min (max stretch 0) 1) columns rows)[j]? = some h' ∧ h.On R p ∧ h'.On R q ∧
      (p.x - q.x) ^ 2 + (p.y - q.y) ^ 2 + (p.z - q.z) ^ 2 < (2 * r) ^ 2 := by
  generalize min (max stretch 0) 1 = σ at *
  obtain ⟨D, hD⟩ : ∃ D, D = R + (R - 2 * r) * σ := ⟨_, rfl⟩
  rw [← hD]
  have m1 : (1, 0) ∈ mailTags columns rows := by
    unfold mailTags
    simp only [List.mem_append, List.mem_flatMap, List.mem_map, List.mem_range]
    exact .inl (.inr ⟨0, by omega, 0, by omega, rfl⟩)
  have m2 : (0, 1) ∈ mailTags columns rows := by
    unfold mailTags
    simp only [List.mem_append, List.mem_flatMap, List.mem_map, List.mem_range]
    exact .inr ⟨0, by omega, 0, by omega, rfl⟩
  obtain ⟨i, hi⟩ := List.mem_iff_getElem?.1 m1
  obtain ⟨j, hj⟩ := List.mem_iff_getElem?.1 m2
  refine ⟨i, j, hoopAt D columns rows (1, 0), hoopAt D columns rows (0, 1), ⟨D * (1 - columns) - R, 0, D * rows⟩,
    ⟨D * (0 - columns), 0, D * (rows - 1) + R⟩, ?_, ?_, ?_, ?_, ?_, ?_⟩
  · rintro rfl
    rw [hi] at hj
    cases hj
  · rw [mailTags_hoops, List.getElem?_map, hi]; rfl
  · rw [mailTags_hoops, List.getElem?_map, hj]; rfl
  · unfold Hoop.On hoopAt
    simp [V3.dot]
    ring
  · unfold Hoop.On hoopAt
    simp [V3.dot]
    ring
  · simp only
    have : (D * (1 - columns) - R - D * (0 - columns)) ^ 2 + (0 - 0) ^ 2 + (D * rows - (D * (rows - 1) + R)) ^ 2 = 2 * ((R - 2 * r) * σ) ^ 2 := by
      rw [hD]; ring
    rw [this]
    nlinarith

/-! ### Links -/

theorem one_way {D R X X' x : ℝ} (hR : 0 < R) (hRD : R ≤ D) (h1 : (x - X) ^ 2 = R ^ 2) (h2 : (x - X') ^ 2 < R ^ 2)
    (h : X' = X + D ∨ X' = X - D) : x = X + R / D * (X' - X) := by
  have hD : 0 < D := hR.trans_le hRD
  have h3 : (x - X - R) * (x - X + R) = 0 := by nlinarith
  rcases h with rfl | rfl
  · have e : R / D * (X + D - X) = R := by field_simp; ring
    rw [e]
    rcases mul_eq_zero.1 h3 with h4 | h4
    · linarith
    · have : x = X - R := by linarith
      rw [this] at h2
      nlinarith
  · have e : R / D * (X - D - X) = -R := by field_simp; ring
    rw [e]
    rcases mul_eq_zero.1 h3 with h4 | h4
    · have : x = X + R := by linarith
      rw [this] at h2
      nlinarith
    · linarith

theorem strict_near {x y R : ℝ} (hR : 0 ≤ R) (h : x ^ 2 + y ^ 2 < R ^ 2) : -R < x ∧ x < R ∧ -R < y ∧ y < R := by
  have h1 := abs_lt_of_sq_lt_sq' (show x ^ 2 < R ^ 2 by nlinarith [sq_nonneg y]) hR
  have h2 := abs_lt_of_sq_lt_sq' (show y ^ 2 < R ^ 2 by nlinarith [sq_nonneg x]) hR
  exact ⟨h1.1, h1.2, h2.1, h2.2⟩

theorem steps_lt {D R e f : ℝ} {a a' : ℕ} {k : ℕ} (hD : 0 ≤ D) (h : f - e = D * (a - a')) (h1 : -R < f - e) (h2 : f - e < R) (hk : R ≤ k * D) :
    a < a' + k ∧ a' < a + k := by
  constructor
  · by_contra hc
    push Not at hc
    have : (a' : ℝ) + k ≤ a := by exact_mod_cast hc
    have h3 : k * D ≤ D * ((a : ℝ) - a') := by nlinarith
    linarith
  · by_contra hc
    push Not at hc
    have : (a : ℝ) + k ≤ a' := by exact_mod_cast hc
    have h3 : D * ((a : ℝ) - a') ≤ -(k * D) := by nlinarith
    linarith

/-- A point of one ring inside another: the rings are neighbours, and the point is between their centres. -/
theorem hoops_meet {D R : ℝ} (hR : 0 < R) (hRD : R ≤ D) {columns rows : ℕ} {t t' : ℕ × ℕ} (ht : ¬ (t.1 % 2 = 1 ∧ t.2 % 2 = 1))
    (ht' : ¬ (t'.1 % 2 = 1 ∧ t'.2 % 2 = 1)) (hne : t ≠ t') {p : V3} (hp : (hoopAt D columns rows t).On R p)
    (hq : (hoopAt D columns rows t').Inside R p) :
    (t.2 = t'.2 ∧ (t'.1 = t.1 + 1 ∨ t.1 = t'.1 + 1) ∨ t.1 = t'.1 ∧ (t'.2 = t.2 + 1 ∨ t.2 = t'.2 + 1)) ∧
    p.y = 0 ∧ (t.2 = t'.2 → p.z = D * (rows - t.2) ∧ (p.x - D * (t.1 - columns)) ^ 2 = R ^ 2 ∧ (p.x - D * (t'.1 - columns)) ^ 2 < R ^ 2) ∧
    (t.1 = t'.1 → p.x = D * (t.1 - columns) ∧ (p.z - D * (rows - t.2)) ^ 2 = R ^ 2 ∧ (p.z - D * (rows - t'.2)) ^ 2 < R ^ 2) := by
  have hD : 0 ≤ D := hR.le.trans hRD
  have hdiff : t.1 ≠ t'.1 ∨ t.2 ≠ t'.2 := by
    by_contra hc
    push Not at hc
    exact hne (Prod.ext hc.1 hc.2)
  obtain ⟨a, b⟩ := t
  obtain ⟨a', b'⟩ := t'
  have hp' := hoopAt_on hp
  have hq' := hoopAt_inside.1 hq
  simp only at ht ht' hdiff hp' hq' ⊢
  have hRR := hR.le
  have hy0 : p.y ^ 2 = 0 → p.y = 0 := fun h => by simpa using h
  rcases hp' with ⟨p1, p2, p3⟩ | ⟨p1, p2, p3, p4⟩ | ⟨p1, p2, p3, p4⟩
  · obtain ⟨n1, n2, -⟩ := near_of_sq hRR p3
    rcases hq' with ⟨q1, q2, q3⟩ | ⟨q1, q2, q3, q4⟩ | ⟨q1, q2, q3, q4⟩
    · exfalso
      obtain ⟨m1, m2, -⟩ := strict_near hRR q3
      obtain ⟨s1, s2⟩ := steps_lt (k := 2) (R := 2 * R) (a := a) (a' := a') (e := p.x - D * (a - columns)) (f := p.x - D * (a' - columns)) hD (by ring)
        (by linarith) (by linarith) (by push_cast; linarith)
      obtain ⟨s3, s4⟩ := steps_lt (k := 2) (R := 2 * R) (a := b') (a' := b) (e := 0) (f := 0) hD (by linarith) (by linarith) (by linarith)
        (by push_cast; linarith)
      omega
    · exfalso
      obtain ⟨m1, m2, -⟩ := strict_near hRR q4
      obtain ⟨s3, s4⟩ := steps_lt (k := 1) (R := R) (a := b') (a' := b) (e := 0) (f := p.z - D * (rows - b')) hD (by rw [p2]; ring) (by linarith)
        (by linarith) (by push_cast; linarith)
      omega
    · obtain ⟨m1, m2, m3, m4⟩ := strict_near hRR q4
      obtain ⟨s1, s2⟩ := steps_lt (k := 2) (R := 2 * R) (a := a) (a' := a') (e := p.x - D * (a - columns)) (f := p.x - D * (a' - columns)) hD (by ring)
        (by linarith) (by linarith) (by push_cast; linarith)
      obtain ⟨s3, s4⟩ := steps_lt (k := 1) (R := R) (a := b') (a' := b) (e := 0) (f := p.z - D * (rows - b')) hD (by rw [p2]; ring) (by linarith)
        (by linarith) (by push_cast; linarith)
      refine ⟨by omega, q3, fun _ => ⟨p2, by rw [q3] at p3; linarith, by nlinarith [sq_nonneg (p.z - D * (rows - b'))]⟩, fun h => by omega⟩
  · obtain ⟨n1, n2, -⟩ := near_of_sq hRR p4
    rcases hq' with ⟨q1, q2, q3⟩ | ⟨q1, q2, q3, q4⟩ | ⟨q1, q2, q3, q4⟩
    · exfalso
      obtain ⟨m1, m2, -⟩ := strict_near hRR q3
      obtain ⟨s3, s4⟩ := steps_lt (k := 1) (R := R) (a := a) (a' := a') (e := 0) (f := p.x - D * (a' - columns)) hD (by rw [p3]; ring) (by linarith)
        (by linarith) (by push_cast; linarith)
      omega
    · exfalso
      obtain ⟨m1, m2, -⟩ := strict_near hRR q4
      obtain ⟨s1, s2⟩ := steps_lt (k := 2) (R := 2 * R) (a := b') (a' := b) (e := p.z - D * (rows - b)) (f := p.z - D * (rows - b')) hD (by ring)
        (by linarith) (by linarith) (by push_cast; linarith)
      obtain ⟨s3, s4⟩ := steps_lt (k := 2) (R := 2 * R) (a := a) (a' := a') (e := 0) (f := 0) hD (by linarith) (by linarith) (by linarith)
        (by push_cast; linarith)
      omega
    · obtain ⟨m1, m2, m3, m4⟩ := strict_near hRR q4
      obtain ⟨s1, s2⟩ := steps_lt (k := 2) (R := 2 * R) (a := b') (a' := b) (e := p.z - D * (rows - b)) (f := p.z - D * (rows - b')) hD (by ring)
        (by linarith) (by linarith) (by push_cast; linarith)
      obtain ⟨s3, s4⟩ := steps_lt (k := 1) (R := R) (a := a) (a' := a') (e := 0) (f := p.x - D * (a' - columns)) hD (by rw [p3]; ring) (by linarith)
        (by linarith) (by push_cast; linarith)
      refine ⟨by omega, q3, fun h => by omega, fun _ => ⟨p3, by rw [q3] at p4; linarith, by nlinarith [sq_nonneg (p.x - D * (a' - columns))]⟩⟩
  · obtain ⟨n1, n2, n3, n4⟩ := near_of_sq hRR p4
    rcases hq' with ⟨q1, q2, q3⟩ | ⟨q1, q2, q3, q4⟩ | ⟨q1, q2, q3, q4⟩
    · obtain ⟨m1, m2, -⟩ := strict_near hRR q3
      obtain ⟨s1, s2⟩ := steps_lt (k := 2) (R := 2 * R) (a := a) (a' := a') (e := p.x - D * (a - columns)) (f := p.x - D * (a' - columns)) hD (by ring)
        (by linarith) (by linarith) (by push_cast; linarith)
      obtain ⟨s3, s4⟩ := steps_lt (k := 2) (R := 2 * R) (a := b') (a' := b) (e := p.z - D * (rows - b)) (f := 0) hD (by rw [q2]; ring) (by linarith)
        (by linarith) (by push_cast; linarith)
      have hb : b = b' := by omega
      subst hb
      refine ⟨by omega, p3, fun _ => ⟨q2, by rw [q2] at p4; linarith, by rw [p3] at q3; linarith⟩, fun h => by omega⟩
    · obtain ⟨m1, m2, -⟩ := strict_near hRR q4
      obtain ⟨s1, s2⟩ := steps_lt (k := 2) (R := 2 * R) (a := b') (a' := b) (e := p.z - D * (rows - b)) (f := p.z - D * (rows - b')) hD (by ring)
        (by linarith) (by linarith) (by push_cast; linarith)
      obtain ⟨s3, s4⟩ := steps_lt (k := 2) (R := 2 * R) (a := a) (a' := a') (e := p.x - D * (a - columns)) (f := 0) hD (by rw [q3]; ring) (by linarith)
        (by linarith) (by push_cast; linarith)
      have ha : a = a' := by omega
      subst ha
      refine ⟨by omega, p3, fun h => by omega, fun _ => ⟨q3, by rw [q3] at p4; linarith, by rw [p3] at q4; linarith⟩⟩
    · exfalso
      obtain ⟨m1, m2, m3, m4⟩ := strict_near hRR q4
      obtain ⟨s1, s2⟩ := steps_lt (k := 2) (R := 2 * R) (a := a) (a' := a') (e := p.x - D * (a - columns)) (f := p.x - D * (a' - columns)) hD (by ring)
        (by linarith) (by linarith) (by push_cast; linarith)
      obtain ⟨s3, s4⟩ := steps_lt (k := 2) (R := 2 * R) (a := b') (a' := b) (e := p.z - D * (rows - b)) (f := p.z - D * (rows - b')) hD (by ring)
        (by linarith) (by linarith) (by push_cast; linarith)
      omega

theorem near_grid {D : ℝ} (hD : 0 < D) {a a' b b' : ℕ} (h : (D * ((a : ℝ) - a')) ^ 2 + (D * ((b : ℝ) - b')) ^ 2 = D ^ 2) :
    (b = b' ∧ (a' = a + 1 ∨ a = a' + 1)) ∨ (a = a' ∧ (b' = b + 1 ∨ b = b' + 1)) := by
  have h1 : D ^ 2 * ((((a : ℤ) - a') ^ 2 + ((b : ℤ) - b') ^ 2 : ℤ) : ℝ) = D ^ 2 * 1 := by push_cast; linarith
  have h2 : ((((a : ℤ) - a') ^ 2 + ((b : ℤ) - b') ^ 2 : ℤ) : ℝ) = ((1 : ℤ) : ℝ) := by
    push_cast at h1 ⊢; exact mul_left_cancel₀ (by positivity) h1
  have h3 : ((a : ℤ) - a') ^ 2 + ((b : ℤ) - b') ^ 2 = 1 := by exact_mod_cast h2
  obtain ⟨x, hx⟩ : ∃ x, x = (a : ℤ) - a' := ⟨_, rfl⟩
  obtain ⟨y, hy⟩ : ∃ y, y = (b : ℤ) - b' := ⟨_, rfl⟩
  rw [← hx, ← hy] at h3
  have x1 : x ≤ 1 := by nlinarith [sq_nonneg y]
  have x2 : -1 ≤ x := by nlinarith [sq_nonneg y]
  have y1 : y ≤ 1 := by nlinarith [sq_nonneg x]
  have y2 : -1 ≤ y := by nlinarith [sq_nonneg x]
  have hxc : x = -1 ∨ x = 0 ∨ x = 1 := by omega
  have hyc : y = -1 ∨ y = 0 ∨ y = 1 := by omega
  rcases hxc with hx1 | hx1 | hx1 <;> rcases hyc with hy1 | hy1 | hy1 <;> rw [hx1, hy1] at h3 <;> simp at h3 <;> omega

/-- The point of one ring inside its neighbour. -/
theorem hoops_link {D R : ℝ} (hR : 0 < R) (hRD : R ≤ D) (hD2 : D < 2 * R) {columns rows : ℕ} {a b a' b' : ℕ}
    (ht : ¬ (a % 2 = 1 ∧ b % 2 = 1)) (ht' : ¬ (a' % 2 = 1 ∧ b' % 2 = 1))
    (h : (b = b' ∧ (a' = a + 1 ∨ a = a' + 1)) ∨ (a = a' ∧ (b' = b + 1 ∨ b = b' + 1))) :
    ∃ p : V3, (hoopAt D columns rows (a, b)).On R p ∧ (hoopAt D columns rows (a', b')).Inside R p := by
  have hin : (D - R) ^ 2 < R ^ 2 := by nlinarith
  rcases h with ⟨rfl, h⟩ | ⟨rfl, h⟩
  · have hb : b % 2 = 0 := by omega
    have ho : ∀ x : ℝ, (x - D * (a - columns)) ^ 2 = R ^ 2 → (hoopAt D columns rows (a, b)).On R ⟨x, 0, D * (rows - b)⟩ := by
      intro x hx
      unfold Hoop.On hoopAt
      rcases Nat.mod_two_eq_zero_or_one a with ha | ha <;> simp [ha, hb, V3.dot] <;> linarith
    have hi : ∀ x : ℝ, (x - D * (a' - columns)) ^ 2 < R ^ 2 → (hoopAt D columns rows (a', b)).Inside R ⟨x, 0, D * (rows - b)⟩ := by
      intro x hx
      unfold Hoop.Inside hoopAt
      rcases Nat.mod_two_eq_zero_or_one a' with ha | ha <;> simp [ha, hb, V3.dot] <;> linarith
    rcases h with rfl | rfl
    · refine ⟨⟨D * (a - columns) + R, 0, D * (rows - b)⟩, ho _ (by ring), hi _ ?_⟩
      push_cast
      calc (D * ((a : ℝ) - columns) + R - D * ((a : ℝ) + 1 - columns)) ^ 2 = (D - R) ^ 2 := by ring
        _ < R ^ 2 := hin
    · refine ⟨⟨D * ((a' + 1 : ℕ) - columns) - R, 0, D * (rows - b)⟩, ho _ (by ring), hi _ ?_⟩
      push_cast
      calc (D * ((a' : ℝ) + 1 - columns) - R - D * ((a' : ℝ) - columns)) ^ 2 = (D - R) ^ 2 := by ring
        _ < R ^ 2 := hin
  · have ha : a % 2 = 0 := by omega
    have ho : ∀ z : ℝ, (z - D * (rows - b)) ^ 2 = R ^ 2 → (hoopAt D columns rows (a, b)).On R ⟨D * (a - columns), 0, z⟩ := by
      intro x hx
      unfold Hoop.On hoopAt
      rcases Nat.mod_two_eq_zero_or_one b with hb | hb <;> simp [ha, hb, V3.dot] <;> linarith
    have hi : ∀ z : ℝ, (z - D * (rows - b')) ^ 2 < R ^ 2 → (hoopAt D columns rows (a, b')).Inside R ⟨D * (a - columns), 0, z⟩ := by
      intro x hx
      unfold Hoop.Inside hoopAt
      rcases Nat.mod_two_eq_zero_or_one b' with hb | hb <;> simp [ha, hb, V3.dot] <;> linarith
    rcases h with rfl | rfl
    · refine ⟨⟨D * (a - columns), 0, D * (rows - b) - R⟩, ho _ (by ring), hi _ ?_⟩
      push_cast
      calc (D * ((rows : ℝ) - b) - R - D * ((rows : ℝ) - (b + 1))) ^ 2 = (D - R) ^ 2 := by ring
        _ < R ^ 2 := hin
    · refine ⟨⟨D * (a - columns), 0, D * (rows - (b' + 1 : ℕ)) + R⟩, ho _ (by ring), hi _ ?_⟩
      push_cast
      calc (D * ((rows : ℝ) - (b' + 1)) + R - D * ((rows : ℝ) - b')) ^ 2 = (D - R) ^ 2 := by ring
        _ < R ^ 2 := hin

/-- **C106.** The rings are linked: of two different rings, the circle of the first goes through the disc of the second in exactly one point if
their centres are at the distance D of neighbours, and otherwise it does not meet the disc. -/
theorem C106_linked {R r stretch : ℝ} (hr : 0 < r) (hR : 2 * r ≤ R) {columns rows : ℕ} {i j : ℕ} (hij : i ≠ j) {h h' : Hoop} {D : ℝ}
    (hD : D = R + (R - 2 * r) * min (max stretch 0) 1) (hi : (mailHoops D columns rows)[i]? = some h)
    (hj : (mailHoops D columns rows)[j]? = some h') :
    (V3.dot (h.c - h'.c) (h.c - h'.c) = D ^ 2 → ∃! p, h.On R p ∧ h'.Inside R p) ∧
    (V3.dot (h.c - h'.c) (h.c - h'.c) ≠ D ^ 2 → ¬ ∃ p, h.On R p ∧ h'.Inside R p) := by
  have h0 : 0 ≤ min (max stretch 0) 1 := le_min (le_max_right _ _) zero_le_one
  have h1 : min (max stretch 0) 1 ≤ 1 := min_le_right _ _
  generalize min (max stretch 0) 1 = σ at *
  have hR0 : 0 < R := by linarith
  have hRD : R ≤ D := by rw [hD]; nlinarith
  have hD2 : D < 2 * R := by rw [hD]; nlinarith
  clear hD
  have hD0 : 0 < D := hR0.trans_le hRD
  obtain ⟨t, ht, rfl⟩ := mail_get hi
  obtain ⟨t', ht', rfl⟩ := mail_get hj
  have o1 := mailTags_odd (List.mem_of_getElem? ht)
  have o2 := mailTags_odd (List.mem_of_getElem? ht')
  have hne := mail_ne hij ht ht'
  have hdist : V3.dot ((hoopAt D columns rows t).c - (hoopAt D columns rows t').c) ((hoopAt D columns rows t).c - (hoopAt D columns rows t').c) =
      (D * ((t.1 : ℝ) - t'.1)) ^ 2 + (D * ((t.2 : ℝ) - t'.2)) ^ 2 := by
    simp only [hoopAt, V3.dot, V3.sub_x, V3.sub_y, V3.sub_z]; ring
  rw [hdist]
  constructor
  · intro hd
    have hn := near_grid hD0 hd
    obtain ⟨p, hp, hq⟩ := hoops_link hR0 hRD hD2 (columns := columns) (rows := rows) o1 o2 hn
    refine ⟨p, ⟨hp, hq⟩, ?_⟩
    rintro p' ⟨hp', hq'⟩
    obtain ⟨-, m1, m2, m3⟩ := hoops_meet hR0 hRD o1 o2 hne hp hq
    obtain ⟨-, n1, n2, n3⟩ := hoops_meet hR0 hRD o1 o2 hne hp' hq'
    rcases hn with ⟨e, hn⟩ | ⟨e, hn⟩
    · obtain ⟨a1, a2, a3⟩ := m2 e
      obtain ⟨b1, b2, b3⟩ := n2 e
      have hX : D * ((t'.1 : ℝ) - columns) = D * (t.1 - columns) + D ∨ D * ((t'.1 : ℝ) - columns) = D * (t.1 - columns) - D := by
        rcases hn with hn | hn
        · left; rw [hn]; push_cast; ring
        · right; rw [hn]; push_cast; ring
      exact V3.ext ((one_way hR0 hRD b2 b3 hX).trans (one_way hR0 hRD a2 a3 hX).symm) (n1.trans m1.symm) (b1.trans a1.symm)
    · obtain ⟨a1, a2, a3⟩ := m3 e
      obtain ⟨b1, b2, b3⟩ := n3 e
      have hX : D * ((rows : ℝ) - t'.2) = D * (rows - t.2) + D ∨ D * ((rows : ℝ) - t'.2) = D * (rows - t.2) - D := by
        rcases hn with hn | hn
        · right; rw [hn]; push_cast; ring
        · left; rw [hn]; push_cast; ring
      exact V3.ext (b1.trans a1.symm) (n1.trans m1.symm) ((one_way hR0 hRD b2 b3 hX).trans (one_way hR0 hRD a2 a3 hX).symm)
  · rintro hd ⟨p, hp, hq⟩
    apply hd
    rcases (hoops_meet hR0 hRD o1 o2 hne hp hq).1 with ⟨e, hn⟩ | ⟨e, hn⟩
    · rw [e]; rcases hn with hn | hn <;> rw [hn] <;> push_cast <;> ring
    · rw [e]; rcases hn with hn | hn <;> rw [hn] <;> push_cast <;> ring

end Verif
