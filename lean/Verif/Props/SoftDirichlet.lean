import Verif.Lemmas.SoftGlobal
import Verif.Props.SoftAssembly

/-! C55: Dirichlet conditions and the global mass matrix of several bodies. -/

namespace Verif

open Soft

theorem StepData.pins {P : Plugins} {W : ℕ × (ℕ → ℕ → ℝ)} {dt : ℝ} {e e' : Soft.Engine} (hok : SoftOk e) (D : StepData P W dt e e')
    {k : String} {b : SoftBody} (hb : HasBody e k b) {i : Fin b.n} (hi : Pinned b i) :
    D.x (b.offset + i) = b.x0 i ∧ D.u (b.offset + i) = 0 := by
  have hB := bodyList_apart hok D.hB
  have hmem : b ∈ D.B := (mem_bodyList hok.nodup D.hB b).2 ⟨k, hb⟩
  have hd : ∀ b ∈ D.B, ∀ d ∈ b.dirichlet_conditions, d.2 = b.x0 d.1 := by
    intro c hc
    obtain ⟨k', hk'⟩ := (mem_bodyList hok.nodup D.hB c).1 hc
    exact (hok.bodyOk hk').dirichlet
  constructor
  · rw [D.hx]
    exact (bc_position hB hd _).1 b hmem i hi
  · rw [D.hu]
    exact (bc_velocity hB _).1 b hmem i hi

/-- **C55** (Dirichlet conditions). In every step, whatever the forces, contacts and contact solver do, a node with a Dirichlet condition ends
at its undeformed position with velocity zero; nothing but positions and velocities of the body changes. -/
theorem C55_dirichlet {P : Plugins} {W : ℕ × (ℕ → ℕ → ℝ)} {dt : ℝ} {e e' : Soft.Engine} (hok : SoftOk e) (h : Soft.step P W dt e = .ok e')
    {k : String} {b : SoftBody} (hb : HasBody e k b) :
    ∃ x' u' : Fin b.n → V3, HasBody e' k { b with x := x', u := u' } ∧ ∀ i, Pinned b i → x' i = b.x0 i ∧ u' i = 0 := by
  obtain ⟨D⟩ := softStep_ok h
  exact ⟨_, _, (D.hasBody k _).2 ⟨b, hb, rfl⟩, fun i hi => D.pins hok hb hi⟩

/-- All pinned nodes are at rest where they are pinned. -/
def PinsHold (e : Soft.Engine) : Prop := ∀ k b, HasBody e k b → ∀ i, Pinned b i → b.x i = b.x0 i ∧ b.u i = 0

/-- **C55** (Dirichlet conditions, `simulate`). After a successful `simulate` of any built engine, for any duration, every pinned node is at its
undeformed position with velocity zero. -/
theorem C55_dirichlet_simulate {eigh : M3 → V3 × M3} {P : Plugins} {e e' : Soft.Engine} (hb : Built eigh e) {T : ℝ}
    (h : Soft.simulate P e T = .ok e') : PinsHold e' := by
  obtain ⟨W, dt, e1, -, hI, hs⟩ := simulate_last h SoftOk (fun W _ => (C71_history hb).congr rfl rfl rfl rfl)
    fun W dt e e' h h' => softOk_step h h'
  intro k c hc i hi
  obtain ⟨D⟩ := softStep_ok hs
  obtain ⟨b, hb, rfl⟩ := (D.hasBody k c).1 hc
  exact D.pins hI hb hi

/-! ### The global mass matrix -/

theorem csr_flatten (Ls : List (List (ℕ × ℕ × ℝ))) (r c : ℕ) : csr Ls.flatten r c = (Ls.map fun L => csr L r c).sum := by
  induction Ls with
  | nil => simp [csr]
  | cons L Ls ih => rw [List.flatten_cons, csr_append, ih, List.map_cons, List.sum_cons]

theorem csr_shift (L : List (ℕ × ℕ × ℝ)) (s r c : ℕ) :
    csr (L.map fun t => (t.1 + s, t.2.1 + s, t.2.2)) r c = if s ≤ r ∧ s ≤ c then csr L (r - s) (c - s) else 0 := by
  unfold csr
  induction L with
  | nil => simp
  | cons t L ih =>
    rw [List.map_cons]
    by_cases h : s ≤ r ∧ s ≤ c
    · rw [if_pos h] at ih ⊢
      by_cases h2 : t.1 = r - s ∧ t.2.1 = c - s
      · rw [List.filter_cons_of_pos (by simp; omega), List.filter_cons_of_pos (by simpa using h2), List.map_cons, List.map_cons,
          List.sum_cons, List.sum_cons, ih]
      · rw [List.filter_cons_of_neg (by simp; omega), List.filter_cons_of_neg (by simpa using h2), ih]
    · rw [if_neg h] at ih ⊢
      rw [List.filter_cons_of_neg (by simp; omega), ih]

/-- The entry of the global mass matrix due to one body. -/
noncomputable def bodyBlock (b : SoftBody) (A : Fin b.K → Fin 4 → Fin 4 → M3) (r c : ℕ) : ℝ :=
  if b.offset * 3 ≤ r ∧ b.offset * 3 ≤ c then assembly_csr b.T A (r - b.offset * 3) (c - b.offset * 3) else 0

theorem bodyBlock_in (b : SoftBody) (A : Fin b.K → Fin 4 → Fin 4 → M3) (a a' : Fin b.n) (i j : Fin 3) :
    bodyBlock b A ((b.offset + a) * 3 + i) ((b.offset + a') * 3 + j) = blockEntry b.T A a a' i j := by
  unfold bodyBlock
  rw [if_pos ⟨by omega, by omega⟩, ← assembly_entry]
  congr 1 <;> omega

theorem bodyBlock_out (b : SoftBody) (A : Fin b.K → Fin 4 → Fin 4 → M3) (q q' : ℕ) (i j : Fin 3) (h : ¬ InRange b q ∨ ¬ InRange b q') :
    bodyBlock b A (q * 3 + i) (q' * 3 + j) = 0 := by
  unfold bodyBlock InRange at *
  split_ifs with h2
  · apply assembly_outside
    have := i.2; have := j.2
    omega
  · rfl

theorem massMatrix_sum {B : List SoftBody} {M : ℕ → ℕ → ℝ} (h : compute_mass_matrix B = .ok M) :
    ∃ A : (b : SoftBody) → Fin b.K → Fin 4 → Fin 4 → M3, (∀ b ∈ B, b.M_array = some (A b)) ∧
      ∀ r c, M r c = (B.map fun b => bodyBlock b (A b) r c).sum := by
  unfold compute_mass_matrix at h
  simp only [bind, Except.bind] at h
  cases hE : B.mapM massEntries with
  | error err => rw [hE] at h; cases h
  | ok E =>
    rw [hE] at h
    simp only [pure, Except.pure, Except.ok.injEq] at h
    refine ⟨fun b => b.M_array.getD (fun _ _ _ => 0), ?_, ?_⟩
    · have := mapM_ok hE
      intro b hb
      obtain ⟨es, -, he⟩ := forall₂_mem_left this b hb
      unfold massEntries at he
      cases hA : b.M_array with
      | none => rw [hA] at he; cases he
      | some A => simp only [hA, Option.getD_some]
    · intro r c
      rw [← h, csr_flatten]
      have := mapM_ok hE
      clear hE h
      induction this with
      | nil => rfl
      | @cons b es B E he _ ih =>
        rw [List.map_cons, List.map_cons, List.sum_cons, List.sum_cons, ih]
        congr 1
        unfold massEntries at he
        cases hA : b.M_array with
        | none => rw [hA] at he; cases he
        | some A =>
          rw [hA] at he
          simp only [getArray, bind, Except.bind, pure, Except.pure, Except.ok.injEq] at he
          rw [← he, csr_shift]
          simp only [bodyBlock, assembly_csr, hA, Option.getD_some]

theorem sum_only {B : List SoftBody} (hB : B.Pairwise Apart) {b : SoftBody} (hb : b ∈ B) (hn : 0 < b.n) (f : SoftBody → ℝ)
    (hf : ∀ c ∈ B, c ≠ b → f c = 0) : (B.map f).sum = f b := by
  induction B with
  | nil => cases hb
  | cons a B ih =>
    rw [List.pairwise_cons] at hB
    rw [List.map_cons, List.sum_cons]
    by_cases hab : a = b
    · subst hab
      have : (B.map f).sum = 0 := by
        apply List.sum_eq_zero
        intro y hy
        obtain ⟨c, hc, rfl⟩ := List.mem_map.1 hy
        refine hf c (List.mem_cons_of_mem _ hc) ?_
        rintro rfl
        have := hB.1 c hc
        unfold Apart at this
        omega
      rw [this, add_zero]
    · rw [hf a (List.mem_cons_self ..) hab, zero_add]
      refine ih hB.2 ?_ fun c hc => hf c (List.mem_cons_of_mem _ hc)
      rcases List.mem_cons.1 hb with h | h
      · exact absurd h.symm hab
      · exact h

/-- **C55** (global mass matrix). In a built engine the global mass matrix is block diagonal: between two nodes of one body it has the entry
assembled from that body's element matrices, and between nodes of different bodies (or outside all bodies) zero. -/
theorem C55_global_mass {e : Soft.Engine} (hok : SoftOk e) {B : List SoftBody} (hB : bodyList e = .ok B) {M : ℕ → ℕ → ℝ}
    (h : compute_mass_matrix B = .ok M) :
    (∀ k b, HasBody e k b → ∃ A, b.M_array = some A ∧ ∀ (a a' : Fin b.n) (i j : Fin 3),
      M ((b.offset + a) * 3 + i) ((b.offset + a') * 3 + j) = blockEntry b.T A a a' i j) ∧
    ∀ (q q' : ℕ) (i j : Fin 3), (∀ k b, HasBody e k b → ¬ InRange b q ∨ ¬ InRange b q') → M (q * 3 + i) (q' * 3 + j) = 0 := by
  obtain ⟨A, hA, hM⟩ := massMatrix_sum h
  have hap := bodyList_apart hok hB
  constructor
  · intro k b hb
    have hmem := (mem_bodyList hok.nodup hB b).2 ⟨k, hb⟩
    refine ⟨A b, hA b hmem, fun a a' i j => ?_⟩
    rw [hM, sum_only hap hmem (by have := a.2; omega), bodyBlock_in]
    intro c hc hne
    apply bodyBlock_out
    left
    intro hr
    exact hne (apart_unique hap hc hmem hr ⟨by omega, by have := a.2; omega⟩)
  · intro q q' i j hq
    rw [hM]
    apply List.sum_eq_zero
    intro y hy
    obtain ⟨c, hc, rfl⟩ := List.mem_map.1 hy
    obtain ⟨k, hk⟩ := (mem_bodyList hok.nodup hB c).1 hc
    exact bodyBlock_out _ _ _ _ _ _ (hq k c hk)

end Verif
