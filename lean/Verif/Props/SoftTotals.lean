import Verif.Props.SoftFindings
import Verif.Props.SoftEnergy

/-! Property C75: the energies the soft body engine reports are the sums of the energies of its bodies that are not fixed, with the expected signs and
balances. -/

open scoped BigOperators

namespace Verif

open Soft Soft.Engine Mech

/-! ### Specification -/

/-- E is the sum over all bodies that are not marked fixed of what g gives for the body. -/
def IsTotal (e : Soft.Engine) (g : SoftBody → ℝ → Prop) (E : ℝ) : Prop :=
  ∃ t : String → ℝ, (∀ k b, HasBody e k b → (b.is_fixed = true → t k = 0) ∧ (b.is_fixed = false → g b (t k))) ∧
    E = (e.bodies.keys.map t).sum

/-! ### Proofs -/

theorem dict_entry_get {d : Dict String Slot} (hn : d.keys.Nodup) {k : String} {s : Slot} (h : (k, s) ∈ d.entries) : d.get? k = some s := by
  obtain ⟨i, hi, he⟩ := List.getElem_of_mem h
  have := Dict.get?_entry hn hi
  rw [he] at this
  exact this

theorem foldlM_total {g : SoftBody → Except PyErr ℝ} (B : List SoftBody) (s E : ℝ) :
    B.foldlM (fun s b => if b.is_fixed then .ok s else (g b).map fun v => s + v) s = .ok E ↔
      ∃ L : List ℝ, List.Forall₂ (fun b v => (b.is_fixed = true → v = 0) ∧ (b.is_fixed = false → g b = .ok v)) B L ∧ E = s + L.sum := by
  induction B generalizing s with
  | nil =>
    simp only [List.foldlM_nil, pure, Except.pure, Except.ok.injEq]
    constructor
    · rintro rfl; exact ⟨[], .nil, by simp⟩
    · rintro ⟨L, h, rfl⟩; cases h; simp
  | cons b B ih =>
    simp only [List.foldlM_cons, bind, Except.bind]
    by_cases hf : b.is_fixed = true
    · rw [if_pos hf]
      simp only
      rw [ih]
      constructor
      · rintro ⟨L, h, rfl⟩
        exact ⟨0 :: L, .cons ⟨fun _ => rfl, fun h => by rw [hf] at h; cases h⟩ h, by simp⟩
      · rintro ⟨L, h, rfl⟩
        cases h with
        | cons h1 h2 => exact ⟨_, h2, by rw [h1.1 hf]; simp⟩
    · have hf' : b.is_fixed = false := by simpa using hf
      rw [if_neg hf]
      cases hg : g b with
      | error err =>
        simp only [Except.map]
        constructor
        · rintro h; cases h
        · rintro ⟨L, h, rfl⟩
          cases h with
          | cons h1 h2 => have := h1.2 hf'; rw [hg] at this; cases this
      | ok v =>
        refine (ih (s + v)).trans ?_
        constructor
        · rintro ⟨L, h, rfl⟩
          exact ⟨v :: L, .cons ⟨fun h => absurd h hf, fun _ => hg⟩ h, by simp [add_assoc]⟩
        · rintro ⟨L, h, rfl⟩
          cases h with
          | cons h1 h2 =>
            have := h1.2 hf'
            rw [hg] at this
            injection this with this
            exact ⟨_, h2, by rw [← this]; simp [add_assoc]⟩

theorem total_iff {e : Soft.Engine} (hn : e.bodies.keys.Nodup) {B : List SoftBody} (hB : bodyList e = .ok B) (g : SoftBody → Except PyErr ℝ) (E : ℝ) :
    B.foldlM (fun s b => if b.is_fixed then .ok s else (g b).map fun v => s + v) 0 = .ok E ↔ IsTotal e (fun b v => g b = .ok v) E := by
  rw [foldlM_total]
  have hv := bodyList_entries hB
  have hget : ∀ k s, (k, s) ∈ e.bodies.entries → e.bodies.get? k = some s := fun k s h => dict_entry_get hn h
  unfold Dict.values at hv
  unfold IsTotal Dict.keys
  constructor
  · rintro ⟨L, hL, rfl⟩
    -- look the value up by name
    have key : ∀ (en : List (String × Slot)) (B : List SoftBody) (L : List ℝ), (en.map Prod.fst).Nodup → en.map Prod.snd = B.map Slot.ready →
        List.Forall₂ (fun b v => (b.is_fixed = true → v = 0) ∧ (b.is_fixed = false → g b = .ok v)) B L →
        ∃ t : String → ℝ, (∀ k b, (k, Slot.ready b) ∈ en → (b.is_fixed = true → t k = 0) ∧ (b.is_fixed = false → g b = .ok (t k))) ∧
          L = en.map fun kv => t kv.1 := by
      intro en
      induction en with
      | nil =>
        intro B L _ h1 h2
        cases B with
        | nil => cases h2; exact ⟨fun _ => 0, by simp, rfl⟩
        | cons _ _ => cases h1
      | cons kv en ih =>
        intro B L hnd h1 h2
        cases B with
        | nil => cases h1
        | cons b B =>
          cases h2 with
          | cons h3 h4 =>
            rename_i v L
            simp only [List.map_cons, List.cons.injEq] at h1
            simp only [List.map_cons, List.nodup_cons] at hnd
            obtain ⟨t, ht, hLt⟩ := ih B L hnd.2 h1.2 h4
            have hne : ∀ kw ∈ en, kw.1 ≠ kv.1 := fun kw hkw h => hnd.1 (h ▸ List.mem_map_of_mem hkw)
            refine ⟨fun k => if k = kv.1 then v else t k, ?_, ?_⟩
            · intro k c hc
              rcases List.mem_cons.1 hc with hc' | hc'
              · have e1 : k = kv.1 := congrArg Prod.fst hc'
                have e2 : Slot.ready c = kv.2 := congrArg Prod.snd hc'
                rw [h1.1] at e2
                injection e2 with e2
                simp only [if_pos e1, e2]
                exact h3
              · simp only [if_neg (hne _ hc')]
                exact ht k c hc'
            · simp only [List.map_cons, if_true]
              congr 1
              rw [hLt]
              refine List.map_congr_left fun kw hkw => ?_
              rw [if_neg (hne kw hkw)]
    obtain ⟨t, ht, rfl⟩ := key _ _ _ hn hv hL
    refine ⟨t, fun k b hb => ?_, ?_⟩
    · refine ht k b ?_
      unfold HasBody at hb
      obtain ⟨i, hi, he⟩ := Dict.get?_some hb
      rw [← he]
      exact List.getElem_mem hi
    · rw [List.map_map, zero_add]; rfl
  · rintro ⟨t, ht, rfl⟩
    refine ⟨(e.bodies.entries.map fun kv => t kv.1), ?_, by rw [List.map_map, zero_add]; rfl⟩
    have : ∀ (en : List (String × Slot)) (B : List SoftBody), en.map Prod.snd = B.map Slot.ready → (∀ kv ∈ en, kv ∈ e.bodies.entries) →
        List.Forall₂ (fun b v => (b.is_fixed = true → v = 0) ∧ (b.is_fixed = false → g b = .ok v)) B (en.map fun kv => t kv.1) := by
      intro en
      induction en with
      | nil =>
        intro B h1 _
        cases B with
        | nil => exact .nil
        | cons _ _ => cases h1
      | cons kv en ih =>
        intro B h1 h2
        cases B with
        | nil => cases h1
        | cons b B =>
          simp only [List.map_cons, List.cons.injEq] at h1
          refine .cons (ht kv.1 b ?_) (ih B h1.2 fun kw hkw => h2 kw (List.mem_cons_of_mem _ hkw))
          unfold HasBody
          refine hget _ _ ?_
          rw [← h1.1]
          exact h2 kv List.mem_cons_self
    exact this _ _ hv fun _ h => h

theorem total_iff' {e : Soft.Engine} (hn : e.bodies.keys.Nodup) {B : List SoftBody} (hB : bodyList e = .ok B) (g : SoftBody → Except PyErr ℝ)
    (f : ℝ → SoftBody → Except PyErr ℝ) (hf : ∀ s b, f s b = if b.is_fixed then .ok s else (g b).map fun v => s + v) (E : ℝ) :
    B.foldlM f 0 = .ok E ↔ IsTotal e (fun b v => g b = .ok v) E := by
  rw [show f = fun s b => if b.is_fixed then .ok s else (g b).map fun v => s + v from funext fun s => funext fun b => hf s b]
  exact total_iff hn hB g E

theorem IsTotal.congr {e : Soft.Engine} {g g' : SoftBody → ℝ → Prop} (h : ∀ b v, g b v ↔ g' b v) (E : ℝ) : IsTotal e g E ↔ IsTotal e g' E := by
  unfold IsTotal
  simp only [h]

theorem material_total {e : Soft.Engine} (hn : e.bodies.keys.Nodup) {B : List SoftBody} (hB : bodyList e = .ok B) (w : SoftBody → Material → ℝ)
    (f : ℝ → SoftBody → Except PyErr ℝ)
    (hf : ∀ s b, f s b = if b.is_fixed then .ok s else (material e b >>= fun m => .ok (s + w b m))) (E : ℝ) :
    B.foldlM f 0 = .ok E ↔ IsTotal e (fun b v => ∃ m, material e b = .ok m ∧ v = w b m) E := by
  refine (total_iff' hn hB (fun b => (material e b).map (w b)) f (fun s b => ?_) E).trans (IsTotal.congr (fun b v => ?_) E)
  · rw [hf]
    cases material e b <;> rfl
  · cases material e b with
    | error err => simp [Except.map]
    | ok m => simp [Except.map, eq_comm]

theorem material_ranges {e : Soft.Engine} (hok : SoftOk e) {b : SoftBody} {m : Material} (hm : material e b = .ok m) :
    0 < m.E ∧ 0 ≤ m.nu ∧ m.nu ≤ 1 / 2 ∧ 0 ≤ m.c ∧ 0 ≤ m.rho := by
  unfold material at hm
  split at hm
  · cases hm
  · split at hm
    · cases hm
    · rename_i h2
      injection hm with hm
      rw [← hm]
      exact (hok.materials _ _ h2).2

theorem keys_hasBody {e : Soft.Engine} (hn : e.bodies.keys.Nodup) {B : List SoftBody} (hB : bodyList e = .ok B) {k : String} (hk : k ∈ e.bodies.keys) :
    ∃ b, HasBody e k b := by
  unfold Dict.keys at hk
  obtain ⟨⟨k', s⟩, hkv, rfl⟩ := List.mem_map.1 hk
  have hs : s ∈ e.bodies.values := List.mem_map_of_mem (f := Prod.snd) hkv
  rw [bodyList_entries hB] at hs
  obtain ⟨b, -, rfl⟩ := List.mem_map.1 hs
  exact ⟨b, dict_entry_get hn hkv⟩

/-- **C75** (kinetic energy). The reported kinetic energy is the sum over the bodies that are not fixed of the sum over the tetrahedra of half the mass
times the square of the mean velocity of the corners; it is not negative. Without a body that failed to be created it is defined exactly when every
body that is not fixed has a material. -/
theorem C75_kinetic {e : Soft.Engine} (hok : SoftOk e) {B : List SoftBody} (hB : bodyList e = .ok B) (E : ℝ) :
    (compute_kinetic_energy e = .ok E ↔ IsTotal e (fun b v => ∃ m, material e b = .ok m ∧
      v = ∑ t, m.rho * b.vol0 t / 2 * V3.dot ((1 / 4 : ℝ) • ∑ p, b.u (b.T t p)) ((1 / 4 : ℝ) • ∑ p, b.u (b.T t p))) E) ∧
    (compute_kinetic_energy e = .ok E → 0 ≤ E) := by
  have h1 : compute_kinetic_energy e = .ok E ↔ IsTotal e (fun b v => ∃ m, material e b = .ok m ∧ v = body_kinetic_energy b.T b.vol0 m.rho b.u) E := by
    unfold compute_kinetic_energy
    rw [hB]
    exact material_total hok.nodup hB (fun b m => body_kinetic_energy b.T b.vol0 m.rho b.u) _ (fun s b => rfl) E
  have hform : ∀ (b : SoftBody) (rho : ℝ), body_kinetic_energy b.T b.vol0 rho b.u =
      ∑ t, rho * b.vol0 t / 2 * V3.dot ((1 / 4 : ℝ) • ∑ p, b.u (b.T t p)) ((1 / 4 : ℝ) • ∑ p, b.u (b.T t p)) := by
    intro b rho
    rw [kinetic_sum]
    refine Finset.sum_congr rfl fun t _ => ?_
    rw [Fin.sum_univ_four, V3.dot_smul_left, V3.dot_smul_right]
    ring
  refine ⟨h1.trans ?_, fun hE => ?_⟩
  · simp only [hform]
  · obtain ⟨t, ht, rfl⟩ := h1.1 hE
    refine List.sum_nonneg fun v hv => ?_
    obtain ⟨k, hk, rfl⟩ := List.mem_map.1 hv
    obtain ⟨b, hb⟩ := keys_hasBody hok.nodup hB hk
    cases hf : b.is_fixed with
    | true => exact ((ht k b hb).1 hf).ge
    | false =>
      obtain ⟨m, hm, hv⟩ := (ht k b hb).2 hf
      rw [hv]
      have hbo := hok.bodyOk hb
      exact (C54_kinetic_energy b.T b.vol0 m.rho (material_ranges hok hm).2.2.2.2
        (fun t => by rw [hbo.vol0]; exact (C54_volume_pos _ _ _ hbo.prepared t).le) true b.u).1

/-- **C75** (potential energy). The reported potential energy is the sum over the bodies that are not fixed of the sum over the tetrahedra of minus the
mass times gravity times the mean position of the corners. -/
theorem C75_potential {e : Soft.Engine} (hok : SoftOk e) {B : List SoftBody} (hB : bodyList e = .ok B) (E : ℝ) :
    compute_potential_energy e = .ok E ↔ IsTotal e (fun b v => ∃ m, material e b = .ok m ∧
      v = ∑ t, -(m.rho * b.vol0 t * V3.dot b.gravity ((1 / 4 : ℝ) • ∑ p, b.x (b.T t p)))) E := by
  have h1 : compute_potential_energy e = .ok E ↔
      IsTotal e (fun b v => ∃ m, material e b = .ok m ∧ v = body_potential_energy b.T b.vol0 m.rho b.gravity b.x) E := by
    unfold compute_potential_energy
    rw [hB]
    exact material_total hok.nodup hB (fun b m => body_potential_energy b.T b.vol0 m.rho b.gravity b.x) _ (fun s b => rfl) E
  refine h1.trans (IsTotal.congr (fun b v => exists_congr fun m => and_congr_right fun _ => ?_) E)
  refine Eq.congr_right ?_
  unfold body_potential_energy
  rw [foldl_real_sum (fun t => m.rho * b.vol0 t * V3.dot (-b.gravity) (V3.divs (b.x (b.T t 0) + b.x (b.T t 1) + b.x (b.T t 2) + b.x (b.T t 3)) 4.0))]
  refine Finset.sum_congr rfl fun t _ => ?_
  rw [Fin.sum_univ_four, V3.divs_eq_smul, V3.dot_smul_right, V3.dot_smul_right, show (4.0 : ℝ) = 4 by norm_num]
  simp [V3.dot]; ring

/-- **C75** (elastic energy). The reported elastic energy is the sum over the bodies that are not fixed of the sum over the tetrahedra of volume times the
energy density at the deformation gradient F, the matrix with F times the undeformed edges = the deformed edges; if every material is Saint
Venant-Kirchhoff it is not negative. -/
theorem C75_elastic {e : Soft.Engine} (hok : SoftOk e) {B : List SoftBody} (hB : bodyList e = .ok B) (E : ℝ) :
    (global_elastic_energy e = .ok E ↔ IsTotal e (fun b v => ∃ (m : Material) (F : Fin b.K → M3) (lam mu : ℝ) (psi : Fin b.K → ℝ), material e b = .ok m ∧
      compute_deformation_gradient b.x b.T b.invD0 = .ok F ∧ first_lame m.E m.nu = .ok lam ∧ second_lame m.E m.nu = .ok mu ∧
      (∀ t, m.energy_density (F t) lam mu = .ok (psi t)) ∧ v = ∑ t, psi t * b.vol0 t) E) ∧
    ((∀ k m, e.materials.get? k = some m → m.energy_density = SVK.energy_density) → global_elastic_energy e = .ok E → 0 ≤ E) := by
  have h0 : ∀ {K : ℕ} (vol0 : Fin K → ℝ) (F : Fin K → M3) (lam mu : ℝ) (ed : M3 → ℝ → ℝ → Except PyErr ℝ) (v : ℝ),
      Soft.compute_elastic_energy vol0 F lam mu ed = .ok v ↔ ∃ psi : Fin K → ℝ, (∀ t, ed (F t) lam mu = .ok (psi t)) ∧ v = ∑ t, psi t * vol0 t := by
    intro K vol0 F lam mu ed v
    unfold Soft.compute_elastic_energy
    have : ∀ (L : List (Fin K)) (s : ℝ), L.foldlM (fun energy e => do
        let psi_mid ← ed (F e) lam mu
        return energy + psi_mid * vol0 e) s = .ok v ↔ (∀ t ∈ L, ∃ p, ed (F t) lam mu = .ok p) ∧
          ∀ psi : Fin K → ℝ, (∀ t ∈ L, ed (F t) lam mu = .ok (psi t)) → v = s + (L.map fun t => psi t * vol0 t).sum := by
      intro L
      induction L with
      | nil => intro s; simp [pure, Except.pure, eq_comm]
      | cons t L ih =>
        intro s
        simp only [List.foldlM_cons, bind, Except.bind]
        cases hp : ed (F t) lam mu with
        | error err => simp [hp]
        | ok p =>
          refine (ih (s + p * vol0 t)).trans ?_
          constructor
          · rintro ⟨h1, h2⟩
            refine ⟨fun t' ht' => ?_, fun psi hpsi => ?_⟩
            · rcases List.mem_cons.1 ht' with h | h
              · exact ⟨p, h ▸ hp⟩
              · exact h1 t' h
            · have := hpsi t List.mem_cons_self
              rw [hp] at this
              injection this with this
              rw [h2 psi fun t' ht' => hpsi t' (List.mem_cons_of_mem _ ht'), List.map_cons, List.sum_cons, ← this, add_assoc]
          · rintro ⟨h1, h2⟩
            refine ⟨fun t' ht' => h1 t' (List.mem_cons_of_mem _ ht'), fun psi hpsi => ?_⟩
            have hpsi' : ∀ t' ∈ t :: L, ed (F t') lam mu = .ok ((fun t' => if t' = t then p else psi t') t') := by
              intro t' ht'
              by_cases htt : t' = t
              · simp only [if_pos htt]; rw [htt]; exact hp
              · simp only [if_neg htt]; exact hpsi t' ((List.mem_cons.1 ht').resolve_left htt)
            rw [h2 _ hpsi', List.map_cons, List.sum_cons, if_pos rfl, ← add_assoc]
            congr 2
            refine List.map_congr_left fun t' ht' => ?_
            by_cases htt : t' = t
            · simp only [if_pos htt]
              have := hpsi t' ht'
              rw [htt, hp] at this
              injection this with this
              rw [htt, this]
            · simp only [if_neg htt]
    rw [this]
    constructor
    · rintro ⟨h1, h2⟩
      choose psi hpsi using fun t => h1 t (List.mem_finRange t)
      refine ⟨psi, hpsi, ?_⟩
      rw [h2 psi fun t _ => hpsi t, zero_add, Fin.sum_univ_def]
    · rintro ⟨psi, h1, rfl⟩
      refine ⟨fun t _ => ⟨psi t, h1 t⟩, fun psi' h2 => ?_⟩
      rw [zero_add, Fin.sum_univ_def]
      congr 1
      refine List.map_congr_left fun t ht => ?_
      have := h2 t ht
      rw [h1 t] at this
      injection this with this
      rw [this]
  have h1 : global_elastic_energy e = .ok E ↔ IsTotal e (fun b v => ∃ (m : Material) (F : Fin b.K → M3) (lam mu : ℝ) (psi : Fin b.K → ℝ), material e b = .ok m ∧
      compute_deformation_gradient b.x b.T b.invD0 = .ok F ∧ first_lame m.E m.nu = .ok lam ∧ second_lame m.E m.nu = .ok mu ∧
      (∀ t, m.energy_density (F t) lam mu = .ok (psi t)) ∧ v = ∑ t, psi t * b.vol0 t) E := by
    unfold global_elastic_energy
    rw [hB]
    refine (total_iff' hok.nodup hB (bodyElasticEnergy e) _ (fun s b => ?_) E).trans (IsTotal.congr (fun b v => ?_) E)
    · cases bodyElasticEnergy e b <;> rfl
    · unfold bodyElasticEnergy
      simp only [bind, Except.bind]
      cases hF : compute_deformation_gradient b.x b.T b.invD0 with
      | error err => simp [hF]
      | ok F =>
        cases hm : material e b with
        | error err => simp [hm]
        | ok m =>
          cases hl : first_lame m.E m.nu with
          | error err => simp [hl]
          | ok lam =>
            cases hmu : second_lame m.E m.nu with
            | error err => simp [hl, hmu]
            | ok mu =>
              simp only [hl, hmu]
              rw [h0]
              constructor
              · rintro ⟨psi, h1, h2⟩
                exact ⟨m, F, lam, mu, psi, rfl, rfl, hl, hmu, h1, h2⟩
              · rintro ⟨m', F', lam', mu', psi, h1, h2, h3, h4, h5, h6⟩
                injection h1 with h1
                injection h2 with h2
                subst h1 h2
                rw [hl] at h3
                rw [hmu] at h4
                injection h3 with h3
                injection h4 with h4
                subst h3 h4
                exact ⟨psi, h5, h6⟩
  refine ⟨h1, fun hsvk hE => ?_⟩
  obtain ⟨t, ht, rfl⟩ := h1.1 hE
  refine List.sum_nonneg fun v hv => ?_
  obtain ⟨k, hk, rfl⟩ := List.mem_map.1 hv
  obtain ⟨b, hb⟩ := keys_hasBody hok.nodup hB hk
  cases hf : b.is_fixed with
  | true => exact ((ht k b hb).1 hf).ge
  | false =>
    obtain ⟨m, F, lam, mu, psi, hm, hF, hl, hmu, hpsi, hv⟩ := (ht k b hb).2 hf
    rw [hv]
    have hbo := hok.bodyOk hb
    have hr := material_ranges hok hm
    obtain ⟨p1, p2⟩ := lame_pos hr.1 hr.2.1 hr.2.2.1 hl hmu
    have hed : m.energy_density = SVK.energy_density := by
      unfold material at hm
      split at hm
      · cases hm
      · split at hm
        · cases hm
        · rename_i h2
          injection hm with hm
          rw [← hm]
          exact hsvk _ _ h2
    refine Finset.sum_nonneg fun i _ => mul_nonneg ?_ (by rw [hbo.vol0]; exact (C54_volume_pos _ _ _ hbo.prepared i).le)
    obtain ⟨q, hq, hq0, -⟩ := C53_svk_energy_nonneg (F i) lam mu p1 p2
    have := hpsi i
    rw [hed, hq] at this
    injection this with this
    rw [← this]
    exact hq0

/-- **C75** (energy in free fall). One contact-free step of a body in free flight changes its kinetic plus potential energy by exactly minus half its
mass times |gravity|² dt²: the semi-implicit scheme never adds energy to a falling body. -/
theorem C75_free_fall {P : Plugins} {W : ℕ × (ℕ → ℕ → ℝ)} {dt : ℝ} {e e' : Soft.Engine} (hok : SoftOk e)
    (hW : compute_inverse_mass_matrix e = .ok W.2) (h : Soft.step P W dt e = .ok e') (hc : e'.contact_points = []) {k : String} {b : SoftBody}
    {R : M3} {t v : V3} (hf : FreeFlight e k b R t v) : ∃ (m : Material) (x' u' : Fin b.n → V3), material e b = .ok m ∧
      HasBody e' k { b with x := x', u := u' } ∧
      body_kinetic_energy b.T b.vol0 m.rho u' + body_potential_energy b.T b.vol0 m.rho b.gravity x' =
        body_kinetic_energy b.T b.vol0 m.rho b.u + body_potential_energy b.T b.vol0 m.rho b.gravity b.x -
          softMass b.vol0 m.rho * V3.dot b.gravity b.gravity * dt ^ 2 / 2 := by
  obtain ⟨m, hm, -, hrho, -⟩ := hf.material
  have hbo := hok.bodyOk hf.body
  have hvol : ∀ i, 0 ≤ b.vol0 i := fun i => by rw [hbo.vol0]; exact (C54_volume_pos _ _ _ hbo.prepared i).le
  refine ⟨m, _, _, hm, (C72_free_fall hok hW h hc hf).body, ?_⟩
  have hx : rigidMove R (t + dt • (v + dt • b.gravity)) b.x0 = b.x + fun _ => dt • (v + dt • b.gravity) := by
    rw [hf.x]
    funext a
    unfold rigidMove
    simp only [Pi.add_apply]
    rw [add_assoc]
  rw [hx, C54_potential_energy, hf.u, (C54_kinetic_energy b.T b.vol0 m.rho hrho.le hvol true b.u).2.2,
    (C54_kinetic_energy b.T b.vol0 m.rho hrho.le hvol true b.u).2.2]
  have hsum : ∑ a, V3.dot (compute_gravity_forces b.T b.vol0 m.rho b.gravity a) (dt • (v + dt • b.gravity)) =
      V3.dot (∑ a, compute_gravity_forces b.T b.vol0 m.rho b.gravity a) (dt • (v + dt • b.gravity)) := by
    rw [V3.dot_sum_left]
  rw [hsum, C54_total_gravity]
  simp only [V3.dot, V3.smul_x, V3.smul_y, V3.smul_z, V3.add_x, V3.add_y, V3.add_z]
  ring

end Verif
