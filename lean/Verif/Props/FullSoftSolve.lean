import Verif.Props.FullSoftRun
import Verif.Props.ProxFeasible
import Verif.Props.Blocking

/-! C100: what the contact solvers of the whole soft body simulator return. -/

namespace Verif

open Soft

/-- The friction cone, for contact number k of a solution vector with four entries per contact. -/
def ConeAt (sol : ℕ → ℝ) (mu : ℝ) (k : ℕ) : Prop :=
  0 ≤ sol (4 * k) ∧ Real.sqrt (sol (4 * k + 1) ^ 2 + sol (4 * k + 2) ^ 2 + sol (4 * k + 3) ^ 2) ≤ mu * sol (4 * k)

/-- **C100.** With the schemes "gauss_seidel", "parallel_gauss_seidel" and (as it must be spelled) "parallel_jacboi_hybrid", the contact forces found
in a step of the soft body simulator do not pull and lie in the friction cones. -/
theorem C100_friction {P : FullParams} (hs : P.proximal_solver ∈ ["gauss_seidel", "parallel_gauss_seidel", "parallel_jacboi_hybrid"])
    {e : Soft.Engine} {K : ℕ} {J WJT : ℕ → ℕ → ℝ} {b : ℕ → ℝ} {mu : List ℝ} (hmu : ∀ m ∈ mu, 0 ≤ m) {sol : ℕ → ℝ}
    (h : contactSolve P e K J WJT b mu = .ok sol) : ∀ k < K, ConeAt sol (mu.getD k 0) k := by
  have hmu' : ∀ k : Fin K, 0 ≤ mu.getD k 0 := by
    intro k
    rw [List.getD_eq_getElem?_getD]
    cases hk : mu[(k : ℕ)]? with
    | none => simp
    | some m => exact hmu m (List.mem_of_getElem? hk)
  unfold contactSolve at h
  generalize ({ J := Matrix.of fun q i => J (q.1 * 4 + q.2) i, WJT := Matrix.of fun i q => WJT i (q.1 * 4 + q.2), b := fun q => b (q.1 * 4 + q.2) } :
    ProxSolver.Data K 4 (Fin (e.number_of_nodes * 3))) = D at h
  simp only [bind, Except.bind] at h
  cases hsw : schemeSweep P.proximal_solver e D (fun k => mu.getD k 0) with
  | error er => rw [hsw] at h; cases h
  | ok sw =>
  rw [hsw] at h
  simp only at h
  cases hr : ProxSolver.solve P.solver sw (ProxSolver.compute_initial_r_factor D) with
  | error er => rw [hr] at h; cases h
  | ok r =>
  rw [hr] at h
  simp only [pure, Except.pure, Except.ok.injEq] at h
  have hF : Feasible (fun k : Fin K => mu.getD k 0) r.sol := by
    simp only [List.mem_cons, List.not_mem_nil, or_false] at hs
    unfold schemeSweep at hsw
    rcases hs with h1 | h1 | h1
    · rw [if_pos h1] at hsw
      cases hsw
      exact C36_gauss_seidel _ D _ hmu' _ r hr
    · rw [h1, if_neg (by decide), if_pos rfl] at hsw
      simp only [bind, Except.bind] at hsw
      split at hsw
      · cases hsw
      · cases hsw
        exact C36_parallel_gauss_seidel _ D _ hmu' _ _ r hr
    · rw [h1, if_neg (by decide), if_neg (by decide), if_neg (by decide), if_pos rfl] at hsw
      cases hsw
      exact C36_jacobi_hybrid _ D _ hmu' _ r hr
  intro k hk
  have hk4 := hF ⟨k, hk⟩
  have e : ∀ c : Fin 4, sol (4 * k + c) = r.sol (⟨k, hk⟩, c) := by
    intro c
    rw [← h]
    have hd : (4 * k + (c : ℕ)) / 4 = k := by omega
    have hm : (4 * k + (c : ℕ)) % 4 = c := by omega
    simp only [hd, hm, dif_pos hk]
  have e0 := e 0
  have e1 := e 1
  have e2 := e 2
  have e3 := e 3
  simp only [Fin.val_zero, add_zero] at e0
  change sol (4 * k + 1) = _ at e1
  change sol (4 * k + 2) = _ at e2
  change sol (4 * k + 3) = _ at e3
  unfold ConeAt
  rw [e0, e1, e2, e3]
  exact hk4

/-- Node number q of the whole scene is a corner of one of the two tetrahedra of the contact point. -/
def TouchesNode (e : Soft.Engine) (cp : ContactPoint) (q : ℕ) : Prop :=
  ∃ n a, (globalTet e cp.bodyA cp.idx_tetA = .ok n ∨ globalTet e cp.bodyB cp.idx_tetB = .ok n) ∧ n a = q

/-- what the contact graph sees of a contact are the nodes it touches -/
theorem graphContact_nodes {e : Soft.Engine} {cp : ContactPoint} {c : Blocking.SoftContact} (h : graphContact e cp = .ok c) (q : ℕ) :
    TouchesNode e cp q ↔ q ∈ c.tetA.map (· + c.offsetA) ∨ q ∈ c.tetB.map (· + c.offsetB) := by
  unfold graphContact at h
  unfold TouchesNode globalTet
  simp only [bind, Except.bind] at h ⊢
  cases hA : e.findBody cp.bodyA with
  | error er => rw [hA] at h; cases h
  | ok A =>
  rw [hA] at h
  simp only at h
  cases hB : e.findBody cp.bodyB with
  | error er => rw [hB] at h; cases h
  | ok B =>
  rw [hB] at h
  simp only at h
  split at h
  · rename_i h1
    split at h
    · rename_i h2
      simp only [pure, Except.pure, Except.ok.injEq] at h
      rw [← h]
      simp only [dif_pos h1, dif_pos h2, pure, Except.pure, Except.ok.injEq, List.mem_map, List.mem_finRange, true_and]
      constructor
      · rintro ⟨n, a, (rfl | rfl), rfl⟩
        · exact Or.inl ⟨_, ⟨a, rfl⟩, rfl⟩
        · exact Or.inr ⟨_, ⟨a, rfl⟩, rfl⟩
      · rintro (⟨_, ⟨a, rfl⟩, rfl⟩ | ⟨_, ⟨a, rfl⟩, rfl⟩)
        · exact ⟨_, a, Or.inl rfl, rfl⟩
        · exact ⟨_, a, Or.inr rfl, rfl⟩
    · cases h
  · cases h

theorem graph_irrefl (cs : List Blocking.SoftContact) (v : ℕ) : (Blocking.build_contact_graph_soft cs).adj v v = false := by
  rw [← Bool.not_eq_true, C39_soft_graph]
  rintro ⟨h, -⟩
  exact h rfl

/-- **C100.** The scheme "parallel_gauss_seidel" works on all contacts, each in one group, and contacts that it works on at the same time touch no common
node. -/
theorem C100_colours {e : Soft.Engine} {cs : List Blocking.SoftContact} (h : e.contact_points.mapM (graphContact e) = .ok cs) :
    let groups := colorGroups e.contact_points.length (Blocking.build_contact_graph_soft cs)
    (groups.flatMap Prod.snd).Perm (List.finRange e.contact_points.length) ∧
    ∀ g ∈ groups, g.2.head? = some g.1 ∧ ∀ k ∈ g.2, ∀ l ∈ g.2, k ≠ l → ∀ q, ¬ (TouchesNode e e.contact_points[k] q ∧ TouchesNode e e.contact_points[l] q) := by
  intro groups
  have hF := mapM_ok h
  have hlen := hF.length_eq
  obtain ⟨hp, hg⟩ := C39_greedy_groups (Blocking.build_contact_graph_soft cs) (graph_irrefl cs)
  have hn : (Blocking.build_contact_graph_soft cs).n = e.contact_points.length := by rw [hlen]; rfl
  rw [hn] at hp
  obtain ⟨conv, hconv⟩ : ∃ conv : ℕ × ℕ → Option (Fin e.contact_points.length), conv = fun se => if h : se.1 / 4 < e.contact_points.length then some ⟨se.1 / 4, h⟩ else none := ⟨_, rfl⟩
  have hgroups : groups = (Blocking.greedy_graph_coloring (Blocking.build_contact_graph_soft cs)).values.filterMap fun g =>
      match g.filterMap conv with
      | [] => none
      | k :: ks => some (k, k :: ks) := by
    rw [hconv]
    refine List.filterMap_congr fun g _ => ?_
    cases List.filterMap (fun se : ℕ × ℕ => if h : se.1 / 4 < e.contact_points.length then some (⟨se.1 / 4, h⟩ : Fin e.contact_points.length) else none) g <;> rfl
  have hconvk : ∀ k : Fin e.contact_points.length, conv (4 * (k : ℕ), 4 * k + 4) = some k := by
    intro k
    rw [hconv]
    have : 4 * (k : ℕ) / 4 = k := by omega
    simp only [this, dif_pos k.2]
  have hflat : ∀ L : List (List (ℕ × ℕ)), (L.filterMap fun g => match g.filterMap conv with
      | [] => none
      | k :: ks => some (k, k :: ks)).flatMap Prod.snd = L.flatten.filterMap conv := by
    intro L
    induction L with
    | nil => rfl
    | cons g L ih =>
      rw [List.flatten_cons, List.filterMap_append, ← ih, List.filterMap_cons]
      cases hgc : g.filterMap conv with
      | nil => simp
      | cons k ks => simp
  refine ⟨?_, ?_⟩
  · rw [hgroups, hflat]
    refine (hp.filterMap conv).trans (List.Perm.of_eq ?_)
    rw [List.filterMap_map, ← List.map_coe_finRange_eq_range, List.filterMap_map]
    have : ((conv ∘ fun k => (4 * k, 4 * k + 4)) ∘ fun k : Fin e.contact_points.length => (k : ℕ)) = some := by
      funext k; exact hconvk k
    rw [this]
    simp
  · intro g hgm
    rw [hgroups, List.mem_filterMap] at hgm
    obtain ⟨g0, hg0, hgg⟩ := hgm
    obtain ⟨-, -, hadj⟩ := hg g0 hg0
    cases hgc : g0.filterMap conv with
    | nil => rw [hgc] at hgg; cases hgg
    | cons k0 ks =>
    rw [hgc] at hgg
    simp only [Option.some.injEq] at hgg
    rw [← hgg]
    refine ⟨rfl, ?_⟩
    have hmem : ∀ k ∈ k0 :: ks, (4 * (k : ℕ), 4 * (k : ℕ) + 4) ∈ g0 := by
      intro k hk
      rw [← hgc, List.mem_filterMap] at hk
      obtain ⟨se, hse, hc⟩ := hk
      have hin : se ∈ (List.range e.contact_points.length).map fun k => (4 * k, 4 * k + 4) := hp.mem_iff.1 (List.mem_flatten.2 ⟨g0, hg0, hse⟩)
      obtain ⟨j, hj, rfl⟩ := List.mem_map.1 hin
      have := hconvk ⟨j, List.mem_range.1 hj⟩
      rw [show (4 * ((⟨j, List.mem_range.1 hj⟩ : Fin _) : ℕ), 4 * ((⟨j, List.mem_range.1 hj⟩ : Fin _) : ℕ) + 4) = (4 * j, 4 * j + 4) from rfl, hc] at this
      cases this
      exact hse
    rintro k hk l hl hkl q ⟨hq1, hq2⟩
    have hno := hadj _ (hmem k hk) _ (hmem l hl) k l rfl rfl
    rw [← Bool.not_eq_true, C39_soft_graph] at hno
    have hck := List.Forall₂.get hF (i := k) k.2 (by rw [← hlen]; exact k.2)
    have hcl := List.Forall₂.get hF (i := l) l.2 (by rw [← hlen]; exact l.2)
    refine hno ⟨fun h => hkl (Fin.ext h), _, _, q, List.getElem?_eq_getElem (by rw [← hlen]; exact k.2), List.getElem?_eq_getElem (by rw [← hlen]; exact l.2), ?_, ?_⟩
    · exact (graphContact_nodes hck q).1 hq1
    · exact (graphContact_nodes hcl q).1 hq2

end Verif
