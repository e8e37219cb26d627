import Verif.Model.SoftProfile
import Verif.Props.FullSoftRun
import Verif.Props.SoftTotals
import Verif.Props.SoftSetters

/-! C127: the debug log of the soft body simulator. -/

namespace Verif

open Soft Mech
open Rigid (GeoParams)

/-! ### The specification -/

/-- A record of the log describes the step of size `dt` that left the engine `e`: the number of its contact points, the sums of the kinetic, the
potential and the elastic energies of the tetrahedra of the bodies that are not fixed, and the depth of the deepest contact point. -/
structure RecordDescribes (r : SoftEntry) (dt : ℝ) (e : Soft.Engine) : Prop where
  dt_eq : r.dt = dt
  contact_points : r.contact_points = e.contact_points.length
  kinetic : IsTotal e (fun b v => ∃ m, material e b = .ok m ∧
    v = ∑ t, m.rho * b.vol0 t / 2 * V3.dot ((1 / 4 : ℝ) • ∑ p, b.u (b.T t p)) ((1 / 4 : ℝ) • ∑ p, b.u (b.T t p))) r.kinetic_energy
  potential : IsTotal e (fun b v => ∃ m, material e b = .ok m ∧
    v = ∑ t, -(m.rho * b.vol0 t * V3.dot b.gravity ((1 / 4 : ℝ) • ∑ p, b.x (b.T t p)))) r.potential_energy
  elastic : IsTotal e (fun b v => ∃ (m : Material) (F : Fin b.K → M3) (lam mu : ℝ) (psi : Fin b.K → ℝ), material e b = .ok m ∧
    compute_deformation_gradient b.x b.T b.invD0 = .ok F ∧ first_lame m.E m.nu = .ok lam ∧ second_lame m.E m.nu = .ok mu ∧
    (∀ t, m.energy_density (F t) lam mu = .ok (psi t)) ∧ v = ∑ t, psi t * b.vol0 t) r.elastic_energy
  penetration : 0 ≤ r.max_penetration ∧ (∀ cp ∈ e.contact_points, -cp.g ≤ r.max_penetration) ∧
    (r.max_penetration = 0 ∨ ∃ cp ∈ e.contact_points, r.max_penetration = -cp.g)

/-- No tetrahedron of a body that is not fixed is flat or inverted. -/
def FreeUpright (e : Soft.Engine) : Prop :=
  ∀ k b, HasBody e k b → b.is_fixed = false → ∀ t : Fin b.K, 0 < edgeTriple fun a => b.x (b.T t a)

/-- The energies of the materials in use are those of the two laws that work. -/
def EnergyKnown (e : Soft.Engine) : Prop :=
  ∀ k b m, HasBody e k b → material e b = .ok m → m.energy_density = SVK.energy_density ∨ m.energy_density = SNH.energy_density

/-- The world `w` goes through the steps whose records and results are listed, and ends as `w'`. -/
def RecordedRun (eps : ℝ) (listOf : Finset (ℤ × ℤ) → List (ℤ × ℤ)) (P : FullParams) (W : ℕ × (ℕ → ℕ → ℝ)) :
    World → List (SoftEntry × World) → World → Prop
  | w, [], w' => w' = w
  | w, (r, v) :: L, w' => w.step eps listOf P W r.dt = .ok v ∧ RecordDescribes r r.dt v.eng ∧ RecordedRun eps listOf P W v L w'

/-! ### Proofs: one step -/

variable {eps : ℝ} {listOf : Finset (ℤ × ℤ) → List (ℤ × ℤ)} {P : FullParams}

theorem record_spec {dt : ℝ} {e : Soft.Engine} (hok : SoftOk e) {B : List SoftBody} (hB : bodyList e = .ok B) {r : SoftEntry} (h : record dt e = .ok r) :
    RecordDescribes r dt e := by
  unfold record at h
  simp only [bind, Except.bind] at h
  cases hk : compute_kinetic_energy e with
  | error err => rw [hk] at h; cases h
  | ok k =>
    rw [hk] at h
    cases hp : compute_potential_energy e with
    | error err => rw [hp] at h; cases h
    | ok p =>
      rw [hp] at h
      cases hg : global_elastic_energy e with
      | error err => rw [hg] at h; cases h
      | ok g =>
        rw [hg] at h
        replace h := Except.ok.inj h
        subst h
        exact ⟨rfl, rfl, ((C75_kinetic hok hB k).1).1 hk, (C75_potential hok hB p).1 hp, ((C75_elastic hok hB g).1).1 hg, C104_penetration e⟩

theorem foldlM_runs {α σ : Type*} {f : σ → α → Except PyErr σ} (L : List α) (h : ∀ a ∈ L, ∀ s, ∃ s', f s a = .ok s') (s : σ) :
    ∃ s', L.foldlM f s = .ok s' := by
  induction L generalizing s with
  | nil => exact ⟨s, rfl⟩
  | cons a L ih =>
    obtain ⟨s', hs'⟩ := h a List.mem_cons_self s
    rw [List.foldlM_cons, hs']
    exact ih (fun a ha => h a (List.mem_cons_of_mem _ ha)) s'

theorem lame_ok {w : World} (hw : SoftReady P w) {k : String} {b : SoftBody} (hb : HasBody w.eng k b) :
    ∃ m lam mu, material w.eng b = .ok m ∧ first_lame m.E m.nu = .ok lam ∧ second_lame m.E m.nu = .ok mu ∧ snhLambda lam mu ≠ 0 := by
  obtain ⟨m, hm, -, hn⟩ := hw.elastic k b hb
  have hr := material_ranges hw.ok hm
  have hl : ∃ lam, first_lame m.E m.nu = .ok lam := by
    unfold first_lame
    rw [if_neg]
    · exact ⟨_, rfl⟩
    · have h1 : 0 < 1 + m.nu := by linarith [hr.2.1]
      have h2 : 0 < 1 - 2 * m.nu := by linarith
      exact (mul_pos h1 h2).ne'
  have hm2 : ∃ mu, second_lame m.E m.nu = .ok mu := by
    unfold second_lame
    rw [if_neg]
    · exact ⟨_, rfl⟩
    · have h1 : 0 < 1 + m.nu := by linarith [hr.2.1]
      positivity
  obtain ⟨lam, hl⟩ := hl
  obtain ⟨mu, hm2⟩ := hm2
  obtain ⟨l1, l2⟩ := lame_pos hr.1 hr.2.1 hr.2.2.1 hl hm2
  refine ⟨m, lam, mu, hm, hl, hm2, ?_⟩
  unfold snhLambda
  positivity

/-- The record of a step can be made exactly when no free tetrahedron is flat or inverted. -/
theorem record_total {w : World} (hw : SoftReady P w) (hen : EnergyKnown w.eng) (dt : ℝ) :
    (FreeUpright w.eng → ∃ r, record dt w.eng = .ok r) ∧ (¬ FreeUpright w.eng → record dt w.eng = .error .runtimeError) := by
  obtain ⟨B, hB⟩ := hw.finished
  have hk : ∃ k, compute_kinetic_energy w.eng = .ok k := by
    unfold compute_kinetic_energy
    rw [hB]
    refine foldlM_runs B (fun b hb s => ?_) 0
    obtain ⟨n, hn⟩ := (mem_bodyList hw.ok.nodup hB b).1 hb
    obtain ⟨m, hm, -⟩ := hw.elastic n b hn
    by_cases hf : b.is_fixed = true
    · rw [if_pos hf]; exact ⟨_, rfl⟩
    · rw [if_neg hf, hm]; exact ⟨_, rfl⟩
  have hp : ∃ k, compute_potential_energy w.eng = .ok k := by
    unfold compute_potential_energy
    rw [hB]
    refine foldlM_runs B (fun b hb s => ?_) 0
    obtain ⟨n, hn⟩ := (mem_bodyList hw.ok.nodup hB b).1 hb
    obtain ⟨m, hm, -⟩ := hw.elastic n b hn
    by_cases hf : b.is_fixed = true
    · rw [if_pos hf]; exact ⟨_, rfl⟩
    · rw [if_neg hf, hm]; exact ⟨_, rfl⟩
  obtain ⟨k, hk⟩ := hk
  obtain ⟨p, hp⟩ := hp
  have good : ∀ b ∈ B, (b.is_fixed = true ∨ ∀ t : Fin b.K, 0 < edgeTriple fun a => b.x (b.T t a)) → ∀ s : ℝ, ∃ s',
      (if b.is_fixed then .ok s else do
        let E ← bodyElasticEnergy w.eng b
        return s + E : Except PyErr ℝ) = .ok s' := by
    intro b hb hg s
    by_cases hf : b.is_fixed = true
    · rw [if_pos hf]; exact ⟨_, rfl⟩
    · rw [if_neg hf]
      have hu := hg.resolve_left hf
      obtain ⟨n, hn⟩ := (mem_bodyList hw.ok.nodup hB b).1 hb
      obtain ⟨m, lam, mu, hm, hl, hmu, hsn⟩ := lame_ok hw hn
      obtain ⟨F, hF⟩ : ∃ F, compute_deformation_gradient b.x b.T b.invD0 = .ok F := ⟨_, gradient_iff.2 ⟨hu, rfl⟩⟩
      have hE : ∃ E, Soft.compute_elastic_energy b.vol0 F lam mu m.energy_density = .ok E := by
        refine foldlM_runs _ (fun t _ s => ?_) 0
        rcases hen n b m hn hm with h | h
        · rw [h]; exact ⟨_, rfl⟩
        · rw [h]
          unfold SNH.energy_density
          rw [if_neg hsn]
          exact ⟨_, rfl⟩
      obtain ⟨E, hE⟩ := hE
      unfold bodyElasticEnergy
      simp only [bind, Except.bind, hF, hm, hl, hmu, hE]
      exact ⟨_, rfl⟩
  constructor
  · intro hu
    have hg : ∃ g, global_elastic_energy w.eng = .ok g := by
      unfold global_elastic_energy
      rw [hB]
      refine foldlM_runs B (fun b hb s => good b hb ?_ s) 0
      obtain ⟨n, hn⟩ := (mem_bodyList hw.ok.nodup hB b).1 hb
      by_cases hf : b.is_fixed = true
      · exact Or.inl hf
      · exact Or.inr (hu n b hn (by simpa using hf))
    obtain ⟨g, hg⟩ := hg
    unfold record
    simp only [bind, Except.bind, hk, hp, hg]
    exact ⟨_, rfl⟩
  · intro hu
    have hg : global_elastic_energy w.eng = .error .runtimeError := by
      unfold global_elastic_energy
      rw [hB]
      refine foldlM_raises B (fun b => ¬ (b.is_fixed = true ∨ ∀ t : Fin b.K, 0 < edgeTriple fun a => b.x (b.T t a))) (fun b hb hgood s => good b hb (not_not.1 hgood) s)
        (fun b hb hbad s => ?_) ?_ 0
      · rw [not_or] at hbad
        obtain ⟨h1, h2⟩ := hbad
        push Not at h2
        rw [if_neg h1]
        unfold bodyElasticEnergy compute_deformation_gradient compute_D
        rw [if_pos h2]
        rfl
      · unfold FreeUpright at hu
        push Not at hu
        obtain ⟨n, b, hb, hf, t, ht⟩ := hu
        refine ⟨b, (mem_bodyList hw.ok.nodup hB b).2 ⟨n, hb⟩, ?_⟩
        rw [not_or]
        exact ⟨by simp [hf], fun h => absurd (h t) (not_lt.2 ht)⟩
    unfold record
    simp only [bind, Except.bind, hk, hp, hg]

theorem stepLogged_off (W : ℕ × (ℕ → ℕ → ℝ)) (dt : ℝ) (wl : World × SoftLog) :
    World.stepLogged eps listOf P W false dt wl = (wl.1.step eps listOf P W dt).map fun w => (w, wl.2) := by
  unfold World.stepLogged
  cases wl.1.step eps listOf P W dt <;> rfl

theorem stepLogged_on {W : ℕ × (ℕ → ℕ → ℝ)} {dt : ℝ} {w w' : World} {log log' : SoftLog} (h : World.stepLogged eps listOf P W true dt (w, log) = .ok (w', log')) :
    w.step eps listOf P W dt = .ok w' ∧ ∃ r, record dt w'.eng = .ok r ∧ log' = log ++ [some r] := by
  unfold World.stepLogged at h
  simp only [bind, Except.bind] at h
  cases hs : w.step eps listOf P W dt with
  | error err => rw [hs] at h; cases h
  | ok v =>
    rw [hs] at h
    simp only [if_true] at h
    cases hr : record dt v.eng with
    | error err => rw [hr] at h; cases h
    | ok r =>
      rw [hr] at h
      replace h := Except.ok.inj h
      rw [Prod.mk.injEq] at h
      obtain ⟨rfl, rfl⟩ := h
      exact ⟨rfl, r, hr, rfl⟩

/-! ### Many steps -/

/-- Steps of the given sizes with the log. -/
noncomputable def worldRunLogged (eps : ℝ) (listOf : Finset (ℤ × ℤ) → List (ℤ × ℤ)) (P : FullParams) (W : ℕ × (ℕ → ℕ → ℝ)) (debug : Bool) :
    List ℝ → World × SoftLog → Except PyErr (World × SoftLog)
  | [], w => .ok w
  | dt :: dts, w => match World.stepLogged eps listOf P W debug dt w with
    | .error err => .error err
    | .ok w' => worldRunLogged eps listOf P W debug dts w'

theorem stepLogged_fst {W : ℕ × (ℕ → ℕ → ℝ)} {debug : Bool} {dt : ℝ} {wl wl' : World × SoftLog} (h : World.stepLogged eps listOf P W debug dt wl = .ok wl') :
    wl.1.step eps listOf P W dt = .ok wl'.1 := by
  cases debug with
  | true => exact (stepLogged_on h).1
  | false =>
    rw [stepLogged_off] at h
    cases hs : wl.1.step eps listOf P W dt with
    | error err => rw [hs] at h; cases h
    | ok w => rw [hs] at h; rw [← Except.ok.inj h]

theorem worldLoopLogged (W : ℕ × (ℕ → ℕ → ℝ)) (debug : Bool) (n : ℕ) (w : World × SoftLog) (T ts : ℝ)
    (hts : w.1.eng.params.time_step = ts) (h0 : 0 < ts) (h1 : n * ts < T) (h2 : T ≤ (n + 1) * ts) :
    LoopEnds (World.tripLogged eps listOf P W debug) (w, T)
      ((worldRunLogged eps listOf P W debug (List.replicate n ts ++ [T - n * ts]) w).map fun w' => (w', 0)) := by
  induction n generalizing w T with
  | zero =>
    simp only [Nat.cast_zero, zero_mul, zero_add, one_mul] at h1 h2
    simp only [Nat.cast_zero, zero_mul, sub_zero, List.replicate_zero, List.nil_append, worldRunLogged]
    have hmin : min T w.1.eng.params.time_step = T := by rw [hts]; exact min_eq_left h2
    cases hs : World.stepLogged eps listOf P W debug T w with
    | error e =>
      refine .raised ?_
      simp only [World.tripLogged, if_neg h1.ne', hmin, hs]
    | ok w' =>
      refine .next (s' := (w', 0)) ?_ (.done ?_)
      · simp only [World.tripLogged, if_neg h1.ne', hmin, hs, sub_self]
      · simp [World.tripLogged]
  | succ n ih =>
    push_cast at h1 h2
    have hT : 0 < T := by nlinarith [(Nat.cast_nonneg n : (0 : ℝ) ≤ n)]
    have hmin : min T w.1.eng.params.time_step = ts := by
      rw [hts]
      exact min_eq_right (by nlinarith [(Nat.cast_nonneg n : (0 : ℝ) ≤ n)])
    rw [List.replicate_succ, List.cons_append]
    unfold worldRunLogged
    cases hs : World.stepLogged eps listOf P W debug ts w with
    | error e =>
      refine .raised ?_
      simp only [World.tripLogged, if_neg hT.ne', hmin, hs]
    | ok w' =>
      have e : T - ((n + 1 : ℕ) : ℝ) * ts = (T - ts) - n * ts := by push_cast; ring
      rw [e]
      refine .next (s' := (w', T - ts)) ?_ (ih w' (T - ts) (by rw [(worldStep_params (stepLogged_fst hs)).1]; exact hts) (by linarith) (by linarith))
      simp only [World.tripLogged, if_neg hT.ne', hmin, hs]

/-- The sizes of the steps of `simulate(T)`. -/
noncomputable def stepSizes (T ts : ℝ) : List ℝ := List.replicate (⌈T / ts⌉₊ - 1) ts ++ [T - ((⌈T / ts⌉₊ - 1 : ℕ) : ℝ) * ts]

theorem stepSizes_bounds {T ts : ℝ} (hT : 0 < T) (hts : 0 < ts) : (((⌈T / ts⌉₊ - 1 : ℕ) : ℝ) * ts < T) ∧ T ≤ (((⌈T / ts⌉₊ - 1 : ℕ) : ℝ) + 1) * ts := by
  have hn0 : 0 < ⌈T / ts⌉₊ := Nat.ceil_pos.2 (div_pos hT hts)
  constructor
  · have : ((⌈T / ts⌉₊ - 1 : ℕ) : ℝ) < T / ts := by
      rw [← Nat.lt_ceil]
      exact Nat.sub_lt hn0 one_pos
    rwa [lt_div_iff₀ hts] at this
  · have h3 := Nat.le_ceil (T / ts)
    rw [div_le_iff₀ hts] at h3
    have h4 : ((⌈T / ts⌉₊ - 1 : ℕ) : ℝ) + 1 = (⌈T / ts⌉₊ : ℝ) := by
      rw [← Nat.cast_succ]; congr 1; omega
    rw [h4]
    exact h3

theorem stepSizes_spec {T ts : ℝ} (hT : 0 < T) (hts : 0 < ts) :
    (stepSizes T ts).length = ⌈T / ts⌉₊ ∧ (stepSizes T ts).sum = T ∧ (∀ dt ∈ stepSizes T ts, 0 < dt ∧ dt ≤ ts) ∧ ∀ dt ∈ (stepSizes T ts).dropLast, dt = ts := by
  have hn0 : 0 < ⌈T / ts⌉₊ := Nat.ceil_pos.2 (div_pos hT hts)
  obtain ⟨h1, h2⟩ := stepSizes_bounds hT hts
  unfold stepSizes
  refine ⟨?_, ?_, ?_, ?_⟩
  · simp only [List.length_append, List.length_replicate, List.length_singleton]
    omega
  · simp only [List.sum_append, List.sum_replicate, List.sum_singleton, nsmul_eq_mul]
    ring
  · intro dt hdt
    rcases List.mem_append.1 hdt with h | h
    · rw [(List.mem_replicate.1 h).2]
      exact ⟨hts, le_rfl⟩
    · rw [List.mem_singleton.1 h]
      exact ⟨by linarith, by linarith⟩
  · intro dt hdt
    rw [List.dropLast_concat] at hdt
    exact (List.mem_replicate.1 hdt).2

theorem simulateLogged_run (debug : Bool) (w : World) (log : SoftLog) {W : ℕ × (ℕ → ℕ → ℝ)} (hst : getStepper w.eng = .ok W) {T : ℝ} (hT : 0 < T)
    (hts : 0 < w.eng.params.time_step) : World.simulateLogged eps listOf P debug (w, log) T =
      worldRunLogged eps listOf P W debug (stepSizes T w.eng.params.time_step)
        ({ w with eng := { w.eng with stepper := some W } }, startLog debug (w, log)) := by
  obtain ⟨h1, h2⟩ := stepSizes_bounds hT hts
  unfold World.simulateLogged
  rw [if_neg (not_le.2 hT)]
  dsimp only
  rw [hst]
  simp only [bind, Except.bind]
  rw [whileLoop_eq (worldLoopLogged W debug _ ({ w with eng := { w.eng with stepper := some W } }, startLog debug (w, log)) T w.eng.params.time_step rfl hts h1 h2)]
  unfold stepSizes
  cases worldRunLogged eps listOf P W debug (List.replicate (⌈T / w.eng.params.time_step⌉₊ - 1) w.eng.params.time_step ++
    [T - ((⌈T / w.eng.params.time_step⌉₊ - 1 : ℕ) : ℝ) * w.eng.params.time_step])
    ({ w with eng := { w.eng with stepper := some W } }, startLog debug (w, log)) <;> rfl

theorem simulate_run (w : World) {W : ℕ × (ℕ → ℕ → ℝ)} (hst : getStepper w.eng = .ok W) {T : ℝ} (hT : 0 < T)
    (hts : 0 < w.eng.params.time_step) : w.simulate eps listOf P T =
      worldRun eps listOf P W (stepSizes T w.eng.params.time_step) { w with eng := { w.eng with stepper := some W } } := by
  obtain ⟨h1, h2⟩ := stepSizes_bounds hT hts
  unfold World.simulate
  rw [if_neg (not_le.2 hT), hst]
  simp only [bind, Except.bind]
  rw [whileLoop_eq (worldLoop eps listOf P W _ { w with eng := { w.eng with stepper := some W } } T w.eng.params.time_step rfl hts h1 h2)]
  unfold stepSizes
  cases worldRun eps listOf P W (List.replicate (⌈T / w.eng.params.time_step⌉₊ - 1) w.eng.params.time_step ++
    [T - ((⌈T / w.eng.params.time_step⌉₊ - 1 : ℕ) : ℝ) * w.eng.params.time_step])
    { w with eng := { w.eng with stepper := some W } } <;> rfl

theorem worldRunLogged_off (W : ℕ × (ℕ → ℕ → ℝ)) (dts : List ℝ) (w : World) (log : SoftLog) :
    worldRunLogged eps listOf P W false dts (w, log) = (worldRun eps listOf P W dts w).map fun w' => (w', log) := by
  induction dts generalizing w with
  | nil => rfl
  | cons dt dts ih =>
    unfold worldRunLogged worldRun
    rw [stepLogged_off]
    dsimp only
    cases w.step eps listOf P W dt with
    | error err => rfl
    | ok v => exact ih v

theorem worldStep_ready {W : ℕ × (ℕ → ℕ → ℝ)} {dt : ℝ} {w w' : World} (hok : SoftOk w.eng) (h : w.step eps listOf P W dt = .ok w') :
    SoftOk w'.eng ∧ (∃ B, bodyList w'.eng = .ok B) ∧ w'.eng.stepper = w.eng.stepper := by
  unfold World.step at h
  simp only [bind, Except.bind] at h
  split at h
  · cases h
  rename_i e' he'
  split at h
  · cases h
  simp only [pure, Except.pure, Except.ok.injEq] at h
  rw [← h]
  exact ⟨softOk_step hok he', bodyList_step he', (C76_frame he').1.stepper⟩

theorem worldRunLogged_on {W : ℕ × (ℕ → ℕ → ℝ)} (dts : List ℝ) {w w' : World} {log log' : SoftLog} (hok : SoftOk w.eng)
    (h : worldRunLogged eps listOf P W true dts (w, log) = .ok (w', log')) :
    worldRun eps listOf P W dts w = .ok w' ∧ w'.eng.stepper = w.eng.stepper ∧ ∃ run : List (SoftEntry × World), log' = log ++ run.map (fun x => some x.1) ∧
      run.map (fun x => x.1.dt) = dts ∧ RecordedRun eps listOf P W w run w' := by
  induction dts generalizing w log with
  | nil =>
    replace h := Except.ok.inj h
    rw [Prod.mk.injEq] at h
    obtain ⟨rfl, rfl⟩ := h
    exact ⟨rfl, rfl, [], by simp, rfl, rfl⟩
  | cons dt dts ih =>
    unfold worldRunLogged at h
    cases hs : World.stepLogged eps listOf P W true dt (w, log) with
    | error err => rw [hs] at h; cases h
    | ok v =>
      rw [hs] at h
      obtain ⟨v, vlog⟩ := v
      obtain ⟨h1, r, hr, h2⟩ := stepLogged_on hs
      obtain ⟨hok', ⟨B, hB⟩, hst⟩ := worldStep_ready hok h1
      obtain ⟨i1, i2, run, i3, i4, i5⟩ := ih hok' h
      have hdesc := record_spec hok' hB hr
      refine ⟨by unfold worldRun; rw [h1]; exact i1, i2.trans hst, (r, v) :: run, ?_, ?_, ?_⟩
      · rw [i3, h2]; simp
      · simp [i4, hdesc.dt_eq]
      · have hd := hdesc.dt_eq
        unfold RecordedRun
        rw [hd]
        exact ⟨h1, hdesc, i5⟩

theorem energyKnown_step {W : ℕ × (ℕ → ℕ → ℝ)} {dt : ℝ} {w w' : World} (h : w.step eps listOf P W dt = .ok w') (hen : EnergyKnown w.eng) : EnergyKnown w'.eng := by
  unfold World.step at h
  simp only [bind, Except.bind] at h
  split at h
  · cases h
  rename_i e' he'
  split at h
  · cases h
  simp only [pure, Except.pure, Except.ok.injEq] at h
  rw [← h]
  intro k c m hc hm
  have hS := (C76_frame he').1
  obtain ⟨b, hb, x, u, rfl, -⟩ := (hS.bodies k c).1 hc
  refine hen k b m hb ?_
  unfold material at hm ⊢
  rw [hS.materials] at hm
  exact hm

theorem worldRunLogged_total (hlist : ∀ s x, x ∈ listOf s ↔ x ∈ s) (hP : GoodGeo P.toGeoParams) {W : ℕ × (ℕ → ℕ → ℝ)} (dts : List ℝ) (hne : dts ≠ [])
    {w : World} (hw : SoftReady P w) (hen : EnergyKnown w.eng) (hW : W.1 = w.eng.number_of_nodes * 3) (log : SoftLog) :
    (∀ w', worldRun eps listOf P W dts w = .ok w' → FreeUpright w'.eng → ∃ log', worldRunLogged eps listOf P W true dts (w, log) = .ok (w', log')) ∧
    ((∀ w', worldRun eps listOf P W dts w = .ok w' → ¬ FreeUpright w'.eng) → worldRunLogged eps listOf P W true dts (w, log) = .error .runtimeError) := by
  induction dts generalizing w log with
  | nil => exact absurd rfl hne
  | cons dt dts ih =>
    obtain ⟨hup, hdown⟩ := C100_step (eps := eps) hlist hP hw hW dt
    by_cases hu : Upright w.eng
    · obtain ⟨v, hs, hv, -⟩ := hup hu
      have henv := energyKnown_step hs hen
      have hrun : ∀ l, worldRun eps listOf P W (dt :: l) w = worldRun eps listOf P W l v := fun l => by simp only [worldRun, hs]
      obtain ⟨r1, r2⟩ := record_total hv henv dt
      by_cases hf : FreeUpright v.eng
      · obtain ⟨r, hr⟩ := r1 hf
        have hsl : World.stepLogged eps listOf P W true dt (w, log) = .ok (v, log ++ [some r]) := by
          unfold World.stepLogged
          simp only [bind, Except.bind, hs, if_true, hr]
          rfl
        have hrunl : ∀ l, worldRunLogged eps listOf P W true (dt :: l) (w, log) = worldRunLogged eps listOf P W true l (v, log ++ [some r]) := fun l => by
          conv_lhs => unfold worldRunLogged
          rw [hsl]
        rw [hrun, hrunl]
        by_cases hd : dts = []
        · subst hd
          refine ⟨fun w' h _ => ?_, fun h => absurd hf (h v rfl)⟩
          rw [← Except.ok.inj h]
          exact ⟨_, rfl⟩
        · exact ih hd hv henv (by rw [(worldStep_params hs).2]; exact hW) _
      · have hsl : worldRunLogged eps listOf P W true (dt :: dts) (w, log) = .error .runtimeError := by
          unfold worldRunLogged World.stepLogged
          simp only [bind, Except.bind, hs, if_true, r2 hf]
        refine ⟨fun w' h hfw => ?_, fun _ => hsl⟩
        exfalso
        rw [hrun] at h
        cases dts with
        | nil =>
          rw [← Except.ok.inj h] at hfw
          exact hf hfw
        | cons d ds =>
          have hnu : ¬ Upright v.eng := fun hc => hf fun k b hb _ => hc k b hb
          have := (C100_step (eps := eps) hlist hP hv (W := W) (by rw [(worldStep_params hs).2]; exact hW) d).2 hnu
          unfold worldRun at h
          rw [this] at h
          cases h
    · have h1 := hdown hu
      refine ⟨fun w' h => ?_, fun _ => ?_⟩
      · unfold worldRun at h
        rw [h1] at h
        cases h
      · unfold worldRunLogged World.stepLogged
        simp only [bind, Except.bind, h1]

/-! ### The theorems -/

/-- **C127** (without debugging). `simulate(T)` does the same with and without a log, and adds nothing to it; a stepper made by it has an empty log. -/
theorem C127_off (w : World) (log : SoftLog) {T : ℝ} (hT : 0 < T) (hts : 0 < w.eng.params.time_step) :
    World.simulateLogged eps listOf P false (w, log) T = (w.simulate eps listOf P T).map fun w' => (w', if w.eng.stepper = none then [] else log) := by
  cases hst : getStepper w.eng with
  | error err =>
    unfold World.simulateLogged World.simulate
    rw [if_neg (not_le.2 hT), if_neg (not_le.2 hT)]
    dsimp only
    rw [hst]
    rfl
  | ok W =>
    rw [simulateLogged_run false w log hst hT hts, simulate_run w hst hT hts, worldRunLogged_off]
    have : startLog false (w, log) = if w.eng.stepper = none then [] else log := by
      unfold startLog
      dsimp only
      cases w.eng.stepper <;> simp
    rw [this]

/-- **C127** (the log). A `simulate(T, debug_on=True)` that returns has done what `simulate(T)` does; it has added one record per step, in order, after a record
without entries if it made the stepper; the sizes are time_step for all but the last one and sum to T; and every record describes its step. -/
theorem C127_log {w w' : World} {log log' : SoftLog} (hok : SoftOk w.eng) {T : ℝ} (hT : 0 < T) (hts : 0 < w.eng.params.time_step)
    (h : World.simulateLogged eps listOf P true (w, log) T = .ok (w', log')) :
    w.simulate eps listOf P T = .ok w' ∧ World.get_log (w', log') = .ok log' ∧
    ∃ (W : ℕ × (ℕ → ℕ → ℝ)) (run : List (SoftEntry × World)), getStepper w.eng = .ok W ∧
      log' = (if w.eng.stepper = none then [none] else log) ++ run.map (fun x => some x.1) ∧
      RecordedRun eps listOf P W { w with eng := { w.eng with stepper := some W } } run w' ∧
      run.length = ⌈T / w.eng.params.time_step⌉₊ ∧ (run.map fun x => x.1.dt).sum = T ∧
      (∀ x ∈ run, 0 < x.1.dt ∧ x.1.dt ≤ w.eng.params.time_step) ∧ ∀ x ∈ run.dropLast, x.1.dt = w.eng.params.time_step := by
  cases hst : getStepper w.eng with
  | error err =>
    unfold World.simulateLogged at h
    rw [if_neg (not_le.2 hT)] at h
    dsimp only at h
    rw [hst] at h
    cases h
  | ok W =>
    rw [simulateLogged_run true w log hst hT hts] at h
    obtain ⟨h1, h2, run, h3, h4, h5⟩ := worldRunLogged_on _ (w := { w with eng := { w.eng with stepper := some W } }) (hok.congr rfl rfl rfl rfl) h
    obtain ⟨s1, s2, s3, s4⟩ := stepSizes_spec hT hts
    have hstart : startLog true (w, log) = if w.eng.stepper = none then [none] else log := by
      unfold startLog
      dsimp only
      cases w.eng.stepper <;> simp
    rw [hstart] at h3
    refine ⟨by rw [simulate_run w hst hT hts]; exact h1, ?_, W, run, rfl, h3, h5, ?_, ?_, ?_, ?_⟩
    · unfold World.get_log
      dsimp only at h2 ⊢
      rw [h2]
    · rw [← s1, ← h4]; simp
    · rw [h4]; exact s2
    · intro x hx
      exact s3 _ (by rw [← h4]; exact List.mem_map_of_mem (f := fun x : SoftEntry × World => x.1.dt) hx)
    · intro x hx
      refine s4 _ ?_
      rw [← h4, ← List.map_dropLast]
      exact List.mem_map_of_mem (f := fun x : SoftEntry × World => x.1.dt) hx

/-- **C127** (when debugging changes the outcome). In a scene that can be run, `simulate(T, debug_on=True)` returns exactly when `simulate(T)` does and
leaves no tetrahedron of a body that is not fixed flat or inverted.  Otherwise it raises RuntimeError: also where `simulate(T)` returns. -/
theorem C127_outcome (hlist : ∀ s x, x ∈ listOf s ↔ x ∈ s) (hP : GoodGeo P.toGeoParams) {w : World} (hw : SoftReady P w) (hen : EnergyKnown w.eng)
    {W : ℕ × (ℕ → ℕ → ℝ)} (hst : getStepper w.eng = .ok W) (hW : W.1 = w.eng.number_of_nodes * 3) (hts : 0 < w.eng.params.time_step) {T : ℝ} (hT : 0 < T)
    (log : SoftLog) :
    (∀ w', w.simulate eps listOf P T = .ok w' → FreeUpright w'.eng → ∃ log', World.simulateLogged eps listOf P true (w, log) T = .ok (w', log')) ∧
    (∀ w', w.simulate eps listOf P T = .ok w' → ¬ FreeUpright w'.eng → World.simulateLogged eps listOf P true (w, log) T = .error .runtimeError) ∧
    ∀ err, w.simulate eps listOf P T = .error err → World.simulateLogged eps listOf P true (w, log) T = .error .runtimeError := by
  have hne : stepSizes T w.eng.params.time_step ≠ [] := by unfold stepSizes; simp
  have hready : SoftReady P { w with eng := { w.eng with stepper := some W } } :=
    ⟨hw.ok.congr rfl rfl rfl rfl, hw.finished, hw.geo, hw.elastic, hw.friction, hw.plain, hw.pins, hw.hash, hw.scheme⟩
  obtain ⟨a1, a2⟩ := worldRunLogged_total (eps := eps) hlist hP (W := W) (stepSizes T w.eng.params.time_step) hne hready hen hW (startLog true (w, log))
  rw [simulateLogged_run true w log hst hT hts, simulate_run w hst hT hts]
  refine ⟨a1, fun w' h hn => a2 fun v hv => ?_, fun err h => a2 fun v hv => ?_⟩
  · rw [h] at hv
    rw [← Except.ok.inj hv]
    exact hn
  · rw [h] at hv; cases hv

/-- **C127** (the first record). After the first `simulate` of an engine, if it was made with debugging, the log starts with a record that has no "dt": reading
the sizes of all steps from the log is a KeyError.  Before the first call `get_log` is an AttributeError. -/
theorem C127_first {w w' : World} {log log' : SoftLog} {T : ℝ} (hok : SoftOk w.eng) (hT : 0 < T) (hts : 0 < w.eng.params.time_step) (hst : w.eng.stepper = none)
    (h : World.simulateLogged eps listOf P true (w, log) T = .ok (w', log')) :
    World.get_log (w, log) = .error .attributeError ∧ World.get_log (w', log') = .ok log' ∧ readSteps log' = .error .keyError := by
  obtain ⟨-, h1, W, run, -, h2, -⟩ := C127_log hok hT hts h
  refine ⟨?_, h1, ?_⟩
  · unfold World.get_log
    dsimp only
    rw [hst]
  · rw [h2, if_pos hst]
    rfl

end Verif
