import Verif.Lemmas.SoftStep
import Verif.Props.SoftMass

/-! C71: what every history of calls of the soft body API guarantees. -/

namespace Verif

open Soft Soft.Engine

/-- The calls of the soft body API that change an engine, other than `create_soft_body` and `simulate`: `Setter e e'` says that one of
them, called on e, returned and left e'. -/
inductive Setter (eigh : M3 → V3 × M3) : Soft.Engine → Soft.Engine → Prop
  | dirichlet {e e' name phi} : create_dirichlet_conditions e name phi = .ok e' → Setter eigh e e'
  | traction {e e' name phi load} : create_traction_conditions e name phi load = .ok e' → Setter eigh e e'
  | velocity {e e' name v} : set_velocity e name v = .ok e' → Setter eigh e e'
  | spatial {e e' name x} : set_spatial_coordinates e name x = .ok e' → Setter eigh e e'
  | type {e e' name f} : set_type e name f = .ok e' → Setter eigh e e'
  | gravity {e e' name g} : set_gravity e name g = .ok e' → Setter eigh e e'
  | interaction {e e' A B mu} : create_surfaces_interaction e A B mu = .ok e' → Setter eigh e e'
  | newMaterial {e e' name} : create_material eigh e name = .ok e' → Setter eigh e e'
  | material {e e' name m} : set_material e name m = .ok e' → Setter eigh e e'
  | elasticity {e e' m E nu} : set_elasticity e m E nu = .ok e' → Setter eigh e e'
  | viscosity {e e' m c} : set_viscosity e m c = .ok e' → Setter eigh e e'
  | density {e e' m rho} : set_mass_density e m rho = .ok e' → Setter eigh e e'
  | constitutive {e e' m p d} : set_constitutive_model e m p d = .ok e' → Setter eigh e e'

/-- The engines a program can build: a new engine, and whatever the API calls leave (`create_soft_body` also when it raises; a setter that
raises leaves the engine as it was).  The user may also change the parameters at any time. -/
inductive Built (eigh : M3 → V3 × M3) : Soft.Engine → Prop
  | new : Built eigh (create_engine eigh)
  | body {e} (name : String) {n K : ℕ} (V : Fin n → V3) (T : Fin K → Fin 4 → Fin n) (surface : List (Fin n × Fin n × Fin n)) :
      Built eigh e → Built eigh (create_soft_body e name V T surface).1
  | set {e e'} : Built eigh e → Setter eigh e e' → Built eigh e'
  | params {e} (p : Soft.Params) : Built eigh e → Built eigh { e with params := p }
  | simulate {e e'} (P : Plugins) (T : ℝ) : Built eigh e → Soft.simulate P e T = .ok e' → Built eigh e'

/-- What holds of one body stored under the name k. -/
structure BodyOk (e : Soft.Engine) (k : String) (b : SoftBody) : Prop where
  name : b.name = k
  /-- the material space data belong to the undeformed mesh -/
  prepared : Prepared b.x0 b.T b.invD0
  vol0 : b.vol0 = compute_volumes b.x0 b.T
  gradN0 : b.gradN0 = compute_outward_face_vectors b.x0 b.T
  /-- nothing in the API switches mass lumping off -/
  lumped : b.is_lumped = true
  /-- a pinned node is pinned to its undeformed position -/
  dirichlet : ∀ d ∈ b.dirichlet_conditions, d.2 = b.x0 d.1
  /-- loads sit on surface triangles -/
  traction : ∀ t ∈ b.traction_conditions, (t.i, t.j, t.k) ∈ b.surface
  /-- the mass and damping arrays are set together with an existing material, for a density and a viscosity in the legal range -/
  material : (b.material_description = none ∧ b.M_array = none ∧ b.C_array = none) ∨
    ∃ m rho c, b.material_description = some m ∧ e.materials.mem m = true ∧ 0 ≤ rho ∧ 0 ≤ c ∧
      b.M_array = some (compute_mass_element_array rho b.vol0 b.is_lumped) ∧
      b.C_array = some (compute_damping_element_array c b.vol0 b.is_lumped)

/-- `e.bodies[k]` is a finished body. -/
def HasBody (e : Soft.Engine) (k : String) (b : SoftBody) : Prop := e.bodies.get? k = some (.ready b)

/-- What every built engine satisfies. -/
structure SoftOk (e : Soft.Engine) : Prop where
  nodup : e.bodies.keys.Nodup
  bodies : e.bodies.All fun i k s => ∀ b, s = .ready b → b.idx = i ∧ BodyOk e k b
  /-- every body has its own range of global node numbers, and together they are the numbers below `number_of_nodes` -/
  below : ∀ k b, HasBody e k b → b.offset + b.n ≤ e.number_of_nodes
  disjoint : ∀ k b k' b', HasBody e k b → HasBody e k' b' → k ≠ k' → b.offset + b.n ≤ b'.offset ∨ b'.offset + b'.n ≤ b.offset
  cover : ∀ q < e.number_of_nodes, ∃ k b, HasBody e k b ∧ b.offset ≤ q ∧ q < b.offset + b.n
  materials : ∀ k m, e.materials.get? k = some m → m.name = k ∧ 0 < m.E ∧ 0 ≤ m.nu ∧ m.nu ≤ 1 / 2 ∧ 0 ≤ m.c ∧ 0 ≤ m.rho
  default_material : e.materials.mem "default" = true
  interactions : ∀ A B mu, e.get_interaction A B = some mu → 0 ≤ mu

theorem BodyOk.mono {e e' : Soft.Engine} {k : String} {b : SoftBody} (h : BodyOk e k b)
    (hm : ∀ m, e.materials.mem m = true → e'.materials.mem m = true) : BodyOk e' k b where
  name := h.name
  prepared := h.prepared
  vol0 := h.vol0
  gradN0 := h.gradN0
  lumped := h.lumped
  dirichlet := h.dirichlet
  traction := h.traction
  material := by
    rcases h.material with h | ⟨m, rho, c, h1, h2, h3⟩
    · exact .inl h
    · exact .inr ⟨m, rho, c, h1, hm m h2, h3⟩

theorem softFindBody_ok {e : Soft.Engine} {name : String} {b : SoftBody} (h : e.findBody name = .ok b) : HasBody e name b := by
  unfold findBody at h
  unfold HasBody
  split at h
  · cases h
  · cases h
  · rename_i b' hb
    injection h with h
    rw [hb, h]

theorem hasBody_findBody {e : Soft.Engine} {name : String} {b : SoftBody} (h : HasBody e name b) : e.findBody name = .ok b := by
  unfold findBody
  rw [show e.bodies.get? name = _ from h]

theorem findMaterial_ok {e : Soft.Engine} {name : String} {m : Material} (h : e.findMaterial name = .ok m) :
    e.materials.get? name = some m := by
  unfold findMaterial at h
  split at h
  · cases h
  · rename_i b' hb
    injection h with h
    rw [hb, h]

theorem SoftOk.bodyOk {e : Soft.Engine} (h : SoftOk e) {k : String} {b : SoftBody} (hb : HasBody e k b) : BodyOk e k b := by
  obtain ⟨i, -, hi⟩ := h.bodies.get? hb
  exact (hi b rfl).2

/-- Replacing a body by one with the same place in the global arrays. -/
theorem SoftOk.putBody {e : Soft.Engine} (h : SoftOk e) {name : String} {b b' : SoftBody} (hb : HasBody e name b)
    (hn : b'.n = b.n) (ho : b'.offset = b.offset) (hi : b'.idx = b.idx) (hok : BodyOk e name b') : SoftOk (e.putBody name b') := by
  have hget : ∀ k c, HasBody (e.putBody name b') k c → (k = name ∧ c = b') ∨ (k ≠ name ∧ HasBody e k c) := by
    intro k c hc
    unfold HasBody Engine.putBody at hc
    simp only at hc
    rw [Dict.get?_setItem] at hc
    split_ifs at hc with hk
    · injection hc with hc
      injection hc with hc
      exact .inl ⟨hk, hc.symm⟩
    · exact .inr ⟨hk, hc⟩
  have hput : ∀ k c, HasBody e k c → k ≠ name → HasBody (e.putBody name b') k c := by
    intro k c hc hk
    unfold HasBody Engine.putBody
    simp only
    rw [Dict.get?_setItem, if_neg hk]
    exact hc
  have hself : HasBody (e.putBody name b') name b' := by
    unfold HasBody Engine.putBody
    simp only
    rw [Dict.get?_setItem_self]
  refine ⟨?_, ?_, ?_, ?_, ?_, h.materials, h.default_material, h.interactions⟩
  · exact Dict.nodup_setItem _ _ _ h.nodup
  · refine Dict.All.replace (h.bodies.mono fun i k s hs c hc => ⟨(hs c hc).1, (hs c hc).2.mono fun _ h => h⟩) h.nodup hb ?_
    intro i hP c hc
    injection hc with hc
    subst hc
    exact ⟨hi.trans (hP b rfl).1, hok.mono fun _ h => h⟩
  · intro k c hc
    rcases hget k c hc with ⟨rfl, rfl⟩ | ⟨hk, hc⟩
    · rw [hn, ho]; exact h.below _ _ hb
    · exact h.below _ _ hc
  · intro k c k' c' hc hc' hne
    rcases hget k c hc with ⟨h1, h2⟩ | ⟨hk, h2⟩ <;> rcases hget k' c' hc' with ⟨h1', h2'⟩ | ⟨hk', h2'⟩
    · exact absurd (h1.trans h1'.symm) hne
    · rw [h2, hn, ho]; exact h.disjoint _ _ _ _ hb h2' (h1 ▸ hne)
    · rw [h2', hn, ho]; exact h.disjoint _ _ _ _ h2 hb (h1' ▸ hne)
    · exact h.disjoint _ _ _ _ h2 h2' hne
  · intro q hq
    obtain ⟨k, c, hc, h1, h2⟩ := h.cover q hq
    by_cases hk : k = name
    · subst hk
      have : c = b := by
        unfold HasBody at hc hb
        rw [hc] at hb
        injection hb with hb
        injection hb
      subst this
      exact ⟨k, b', hself, by omega, by omega⟩
    · exact ⟨k, c, hput k c hc hk, h1, h2⟩

/-- Replacing the parameters of a material by legal ones. -/
theorem SoftOk.putMaterial {e : Soft.Engine} (h : SoftOk e) {name : String} {m : Material} 
    (hok : m.name = name ∧ 0 < m.E ∧ 0 ≤ m.nu ∧ m.nu ≤ 1 / 2 ∧ 0 ≤ m.c ∧ 0 ≤ m.rho) : SoftOk (e.putMaterial name m) := by
  have hmem : ∀ k, e.materials.mem k = true → (e.putMaterial name m).materials.mem k = true := by
    intro k hk
    obtain ⟨v, hv⟩ := Dict.mem_iff_get?.1 hk
    refine Dict.mem_iff_get?.2 ?_
    unfold Engine.putMaterial
    simp only
    rw [Dict.get?_setItem]
    split_ifs
    · exact ⟨_, rfl⟩
    · exact ⟨_, hv⟩
  refine ⟨h.nodup, ?_, h.below, h.disjoint, h.cover, ?_, hmem _ h.default_material, h.interactions⟩
  · exact h.bodies.mono fun i k s hs c hc => ⟨(hs c hc).1, (hs c hc).2.mono hmem⟩
  · intro k m' hm'
    unfold Engine.putMaterial at hm'
    simp only at hm'
    rw [Dict.get?_setItem] at hm'
    split_ifs at hm' with hk
    · injection hm' with hm'
      subst hm' hk
      exact hok
    · exact h.materials k m' hm'

theorem softOk_create (eigh : M3 → V3 × M3) : SoftOk (create_engine eigh) := by
  have hb : ∀ k b, ¬ HasBody (create_engine eigh) k b := by
    intro k b h
    unfold HasBody create_engine at h
    simp at h
  refine ⟨?_, Dict.all_empty _, fun k b h => absurd h (hb k b), fun k b _ _ h => absurd h (hb k b), ?_, ?_, ?_, ?_⟩
  · simp [create_engine, Dict.empty, Dict.keys]
  · intro q hq
    simp [create_engine] at hq
  · intro k m hm
    unfold create_engine at hm
    simp only at hm
    rw [Dict.get?_setItem] at hm
    split_ifs at hm with hk
    · injection hm with hm
      subst hm hk
      refine ⟨rfl, ?_, ?_, ?_, ?_, ?_⟩ <;> norm_num [Material.init]
    · simp at hm
  · exact Dict.mem_iff_get?.2 ⟨Material.init eigh, Dict.get?_setItem_self _ _ _⟩
  · intro A B mu hmu
    unfold get_interaction create_engine at hmu
    simp only at hmu
    rw [Dict.get?_setItem] at hmu
    split_ifs at hmu
    · injection hmu with hmu
      rw [← hmu]; norm_num
    · simp at hmu

theorem dirichletLoop_mem {n : ℕ} (x0 : Fin n → V3) (phi : V3 → ℝ) (L : List (Fin n × V3)) :
    dirichletLoop x0 phi L = L ++ (((List.finRange n).filter fun i => decide (phi (x0 i) ≤ 0)).map fun i => (i, x0 i)) := by
  unfold dirichletLoop
  generalize List.finRange n = R
  induction R generalizing L with
  | nil => simp
  | cons i R ih =>
    rw [List.foldl_cons, ih]
    by_cases h : phi (x0 i) ≤ 0
    · rw [if_pos h, List.filter_cons_of_pos (by simpa using h)]
      simp
    · rw [if_neg h, List.filter_cons_of_neg (by simpa using h)]

theorem tractionLoop_mem {n : ℕ} (x0 : Fin n → V3) (surface : List (Fin n × Fin n × Fin n)) (phi : V3 → ℝ) (load : V3)
    (L : List (TractionCondition n)) :
    tractionLoop x0 surface phi load L = L ++ ((surface.filter fun t => decide (phi (x0 t.1) ≤ 0 ∧ phi (x0 t.2.1) ≤ 0 ∧
      phi (x0 t.2.2) ≤ 0)).map fun t => ⟨t.1, t.2.1, t.2.2, load⟩) := by
  unfold tractionLoop
  induction surface generalizing L with
  | nil => simp
  | cons t R ih =>
    rw [List.foldl_cons, ih]
    by_cases h : phi (x0 t.1) ≤ 0 ∧ phi (x0 t.2.1) ≤ 0 ∧ phi (x0 t.2.2) ≤ 0
    · rw [if_pos h, List.filter_cons_of_pos (by simpa using h)]
      simp
    · rw [if_neg h, List.filter_cons_of_neg (by simpa using h)]

/-- A setter of a body field. -/
theorem bodySetter_ok {e e' : Soft.Engine} {name : String} {f : SoftBody → SoftBody}
    (h : (do let b ← e.findBody name; return e.putBody name (f b) : Except PyErr Soft.Engine) = .ok e') :
    ∃ b, HasBody e name b ∧ e' = e.putBody name (f b) := by
  simp only [bind, Except.bind] at h
  cases hb : e.findBody name with
  | error err => rw [hb] at h; cases h
  | ok b =>
    rw [hb] at h
    simp only [pure, Except.pure, Except.ok.injEq] at h
    exact ⟨b, softFindBody_ok hb, h.symm⟩

theorem softOk_setter {eigh : M3 → V3 × M3} {e e' : Soft.Engine} (h : SoftOk e) (hs : Setter eigh e e') : SoftOk e' := by
  cases hs with
  | @dirichlet name phi hc =>
    obtain ⟨b, hb, rfl⟩ := bodySetter_ok (f := fun b => { b with dirichlet_conditions := dirichletLoop b.x0 phi b.dirichlet_conditions }) hc
    have hbo := h.bodyOk hb
    refine h.putBody hb rfl rfl rfl ⟨hbo.name, hbo.prepared, hbo.vol0, hbo.gradN0, hbo.lumped, ?_, hbo.traction, hbo.material⟩
    intro d hd
    simp only [dirichletLoop_mem, List.mem_append, List.mem_map] at hd
    rcases hd with hd | ⟨i, -, rfl⟩
    · exact hbo.dirichlet d hd
    · rfl
  | @traction name phi load hc =>
    obtain ⟨b, hb, rfl⟩ := bodySetter_ok
      (f := fun b => { b with traction_conditions := tractionLoop b.x0 b.surface phi load b.traction_conditions }) hc
    have hbo := h.bodyOk hb
    refine h.putBody hb rfl rfl rfl ⟨hbo.name, hbo.prepared, hbo.vol0, hbo.gradN0, hbo.lumped, hbo.dirichlet, ?_, hbo.material⟩
    intro t ht
    simp only [tractionLoop_mem, List.mem_append, List.mem_map, List.mem_filter] at ht
    rcases ht with ht | ⟨i, ⟨hi, -⟩, rfl⟩
    · exact hbo.traction t ht
    · exact hi
  | @velocity name v hc =>
    obtain ⟨b, hb, rfl⟩ := bodySetter_ok (f := fun b => { b with u := fun _ => v }) hc
    have hbo := h.bodyOk hb
    exact h.putBody hb rfl rfl rfl ⟨hbo.name, hbo.prepared, hbo.vol0, hbo.gradN0, hbo.lumped, hbo.dirichlet, hbo.traction, hbo.material⟩
  | @spatial name x hc =>
    unfold set_spatial_coordinates at hc
    simp only [bind, Except.bind] at hc
    cases hb : e.findBody name with
    | error err => rw [hb] at hc; cases hc
    | ok b =>
      rw [hb] at hc
      simp only at hc
      split_ifs at hc
      simp only [pure, Except.pure, Except.ok.injEq] at hc
      subst hc
      have hb := softFindBody_ok hb
      have hbo := h.bodyOk hb
      exact h.putBody hb rfl rfl rfl ⟨hbo.name, hbo.prepared, hbo.vol0, hbo.gradN0, hbo.lumped, hbo.dirichlet, hbo.traction, hbo.material⟩
  | @type name f hc =>
    unfold set_type at hc
    simp only [bind, Except.bind] at hc
    cases hb : e.findBody name with
    | error err => rw [hb] at hc; cases hc
    | ok b =>
      rw [hb] at hc
      cases f with
      | none => cases hc
      | some f =>
        simp only [pure, Except.pure, Except.ok.injEq] at hc
        subst hc
        have hb := softFindBody_ok hb
        have hbo := h.bodyOk hb
        exact h.putBody hb rfl rfl rfl ⟨hbo.name, hbo.prepared, hbo.vol0, hbo.gradN0, hbo.lumped, hbo.dirichlet, hbo.traction, hbo.material⟩
  | @gravity name g hc =>
    obtain ⟨b, hb, rfl⟩ := bodySetter_ok (f := fun b => { b with gravity := g }) hc
    have hbo := h.bodyOk hb
    exact h.putBody hb rfl rfl rfl ⟨hbo.name, hbo.prepared, hbo.vol0, hbo.gradN0, hbo.lumped, hbo.dirichlet, hbo.traction, hbo.material⟩
  | @interaction A B mu hc =>
    unfold create_surfaces_interaction at hc
    split_ifs at hc with h1 h2 h3 h4
    injection hc with hc
    subst hc
    refine ⟨h.nodup, h.bodies.mono fun i k s hs c hc => ⟨(hs c hc).1, (hs c hc).2.mono fun _ h => h⟩, h.below, h.disjoint, h.cover,
      h.materials, h.default_material, ?_⟩
    intro A' B' mu' hmu
    unfold get_interaction at hmu
    simp only at hmu
    rw [Dict.get?_setItem] at hmu
    split_ifs at hmu
    · injection hmu with hmu
      rw [← hmu]
      norm_num at h4
      exact h4
    · exact h.interactions A' B' mu' hmu
  | @newMaterial name hc =>
    unfold create_material at hc
    split_ifs at hc
    injection hc with hc
    subst hc
    refine h.putMaterial ⟨rfl, ?_, ?_, ?_, ?_, ?_⟩ <;> norm_num [Material.init]
  | @material name m hc =>
    unfold set_material at hc
    simp only [bind, Except.bind] at hc
    cases hb : e.findBody name with
    | error err => rw [hb] at hc; cases hc
    | ok b =>
      rw [hb] at hc
      simp only at hc
      cases hm : e.findMaterial m with
      | error err => rw [hm] at hc; cases hc
      | ok mat =>
        rw [hm] at hc
        simp only [pure, Except.pure, Except.ok.injEq] at hc
        subst hc
        have hb := softFindBody_ok hb
        have hm := findMaterial_ok hm
        have hbo := h.bodyOk hb
        have hmo := h.materials _ _ hm
        exact h.putBody hb rfl rfl rfl ⟨hbo.name, hbo.prepared, hbo.vol0, hbo.gradN0, hbo.lumped, hbo.dirichlet, hbo.traction,
          .inr ⟨m, mat.rho, mat.c, rfl, Dict.mem_of_get? hm, hmo.2.2.2.2.2, hmo.2.2.2.2.1, rfl, rfl⟩⟩
  | @elasticity m E nu hc =>
    unfold set_elasticity at hc
    simp only [bind, Except.bind] at hc
    cases hm : e.findMaterial m with
    | error err => rw [hm] at hc; cases hc
    | ok mat =>
      rw [hm] at hc
      simp only at hc
      split_ifs at hc with h1 h2
      simp only [pure, Except.pure, Except.ok.injEq] at hc
      subst hc
      have hmo := h.materials _ _ (findMaterial_ok hm)
      push Not at h1 h2
      exact h.putMaterial ⟨hmo.1, h1, h2.1, by norm_num at h2 ⊢; exact h2.2, hmo.2.2.2.2.1, hmo.2.2.2.2.2⟩
  | @viscosity m c hc =>
    unfold set_viscosity at hc
    simp only [bind, Except.bind] at hc
    cases hm : e.findMaterial m with
    | error err => rw [hm] at hc; cases hc
    | ok mat =>
      rw [hm] at hc
      simp only at hc
      split_ifs at hc with h1
      simp only [pure, Except.pure, Except.ok.injEq] at hc
      subst hc
      have hmo := h.materials _ _ (findMaterial_ok hm)
      push Not at h1
      exact h.putMaterial ⟨hmo.1, hmo.2.1, hmo.2.2.1, hmo.2.2.2.1, h1, hmo.2.2.2.2.2⟩
  | @density m rho hc =>
    unfold set_mass_density at hc
    simp only [bind, Except.bind] at hc
    cases hm : e.findMaterial m with
    | error err => rw [hm] at hc; cases hc
    | ok mat =>
      rw [hm] at hc
      simp only at hc
      split_ifs at hc with h1
      simp only [pure, Except.pure, Except.ok.injEq] at hc
      subst hc
      have hmo := h.materials _ _ (findMaterial_ok hm)
      push Not at h1
      exact h.putMaterial ⟨hmo.1, hmo.2.1, hmo.2.2.1, hmo.2.2.2.1, hmo.2.2.2.2.1, h1⟩
  | @constitutive m p d hc =>
    unfold set_constitutive_model at hc
    simp only [bind, Except.bind] at hc
    cases hm : e.findMaterial m with
    | error err => rw [hm] at hc; cases hc
    | ok mat =>
      rw [hm] at hc
      simp only [pure, Except.pure, Except.ok.injEq] at hc
      subst hc
      have hmo := h.materials _ _ (findMaterial_ok hm)
      exact h.putMaterial ⟨hmo.1, hmo.2.1, hmo.2.2.1, hmo.2.2.2.1, hmo.2.2.2.2.1, hmo.2.2.2.2.2⟩

theorem softOk_body {e : Soft.Engine} (h : SoftOk e) (name : String) {n K : ℕ} (V : Fin n → V3) (T : Fin K → Fin 4 → Fin n)
    (surface : List (Fin n × Fin n × Fin n)) : SoftOk (create_soft_body e name V T surface).1 := by
  unfold create_soft_body
  split_ifs with hmem
  · exact h
  have hmem : e.bodies.mem name = false := by simpa using hmem
  have hnone : e.bodies.get? name = none := (Dict.get?_eq_none _ _).2 hmem
  cases hmk : makeBody e name V T surface with
  | error err =>
    simp only
    have hget : ∀ k c, HasBody { e with bodies := e.bodies.setItem name .broken } k c ↔ HasBody e k c := by
      intro k c
      unfold HasBody
      simp only
      rw [Dict.get?_setItem]
      split_ifs with hk
      · subst hk
        simp [hnone]
      · rfl
    refine ⟨Dict.nodup_setItem _ _ _ h.nodup, ?_, fun k b hb => h.below k b ((hget k b).1 hb),
      fun k b k' b' hb hb' => h.disjoint k b k' b' ((hget k b).1 hb) ((hget k' b').1 hb'), ?_, h.materials, h.default_material, h.interactions⟩
    · refine Dict.All.insert (h.bodies.mono fun i k s hs c hc => ⟨(hs c hc).1, (hs c hc).2.mono fun _ h => h⟩) hmem ?_
      intro b hb
      cases hb
    · intro q hq
      obtain ⟨k, b, hb, h1⟩ := h.cover q hq
      exact ⟨k, b, (hget k b).2 hb, h1⟩
  | ok b =>
    simp only
    unfold makeBody at hmk
    simp only [bind, Except.bind] at hmk
    cases hinv : compute_inverse_D0 V T with
    | error err => rw [hinv] at hmk; cases hmk
    | ok invD0 =>
      rw [hinv] at hmk
      simp only [pure, Except.pure, Except.ok.injEq] at hmk
      have hbn : b.n = n := by rw [← hmk]
      have hbo : b.offset = e.number_of_nodes := by rw [← hmk]
      have hbi : b.idx = e.bodies.len := by rw [← hmk]
      have hbok : BodyOk e name b := by
        rw [← hmk]
        refine ⟨rfl, hinv, rfl, rfl, rfl, ?_, ?_, .inl ⟨rfl, rfl, rfl⟩⟩
        · intro d hd; simp at hd
        · intro d hd; simp at hd
      clear hmk hinv
      have hget : ∀ k c, HasBody { e with bodies := e.bodies.setItem name (.ready b), number_of_nodes := e.number_of_nodes + n } k c →
          (k = name ∧ c = b) ∨ (k ≠ name ∧ HasBody e k c) := by
        intro k c hc
        unfold HasBody at hc
        simp only at hc
        rw [Dict.get?_setItem] at hc
        split_ifs at hc with hk
        · injection hc with hc
          injection hc with hc
          exact .inl ⟨hk, hc.symm⟩
        · exact .inr ⟨hk, hc⟩
      have hself : HasBody { e with bodies := e.bodies.setItem name (.ready b), number_of_nodes := e.number_of_nodes + n } name b :=
        Dict.get?_setItem_self _ _ _
      refine ⟨Dict.nodup_setItem _ _ _ h.nodup, ?_, ?_, ?_, ?_, h.materials, h.default_material, h.interactions⟩
      · refine Dict.All.insert (h.bodies.mono fun i k s hs c hc => ⟨(hs c hc).1, (hs c hc).2.mono fun _ h => h⟩) hmem ?_
        intro c hc
        injection hc with hc
        subst hc
        exact ⟨hbi, hbok.mono fun _ h => h⟩
      · intro k c hc
        simp only
        rcases hget k c hc with ⟨rfl, rfl⟩ | ⟨hk, hc⟩
        · omega
        · have := h.below k c hc
          omega
      · intro k c k' c' hc hc' hne
        rcases hget k c hc with ⟨h1, h2⟩ | ⟨hk, h2⟩ <;> rcases hget k' c' hc' with ⟨h1', h2'⟩ | ⟨hk', h2'⟩
        · exact absurd (h1.trans h1'.symm) hne
        · have := h.below _ _ h2'; rw [h2]; omega
        · have := h.below _ _ h2; rw [h2']; omega
        · exact h.disjoint _ _ _ _ h2 h2' hne
      · intro q hq
        simp only at hq
        by_cases hq' : q < e.number_of_nodes
        · obtain ⟨k, c, hc, h1⟩ := h.cover q hq'
          exact ⟨k, c, Dict.get?_insert_of_some hmem hc, h1⟩
        · exact ⟨name, b, hself, by omega, by omega⟩

/-- The body after new positions and velocities were stored. -/
def movedBody (x u : ℕ → V3) (b : SoftBody) : SoftBody := { b with u := readSlice b.n u b.offset, x := readSlice b.n x b.offset }

/-- A dict with its values mapped. -/
theorem get?_mapValues {κ υ : Type*} [DecidableEq κ] (d : Dict κ υ) (f : υ → υ) (k : κ) :
    (⟨d.entries.map fun kv => (kv.1, f kv.2)⟩ : Dict κ υ).get? k = (d.get? k).map f := by
  unfold Dict.get?
  simp only
  induction d.entries with
  | nil => simp
  | cons a L ih =>
    rw [List.map_cons]
    by_cases hk : a.1 = k
    · rw [List.find?_cons_of_pos (by simpa using hk), List.find?_cons_of_pos (by simpa using hk)]
      simp
    · rw [List.find?_cons_of_neg (by simpa using hk), List.find?_cons_of_neg (by simpa using hk)]
      exact ih

def movedSlot (x u : ℕ → V3) : Slot → Slot
  | .ready b => .ready (movedBody x u b)
  | .broken => .broken

theorem StepData.bodies {P : Plugins} {W : ℕ × (ℕ → ℕ → ℝ)} {dt : ℝ} {e e' : Soft.Engine} (D : StepData P W dt e e') :
    e'.bodies = ⟨e.bodies.entries.map fun kv => (kv.1, movedSlot D.x D.u kv.2)⟩ := by
  refine (congrArg Soft.Engine.bodies D.he').trans ?_
  simp only
  congr 1

theorem StepData.hasBody {P : Plugins} {W : ℕ × (ℕ → ℕ → ℝ)} {dt : ℝ} {e e' : Soft.Engine} (D : StepData P W dt e e') (k : String)
    (c : SoftBody) : HasBody e' k c ↔ ∃ b, HasBody e k b ∧ c = movedBody D.x D.u b := by
  unfold HasBody
  rw [D.bodies, get?_mapValues]
  cases e.bodies.get? k with
  | none => simp
  | some s =>
    cases s with
    | broken => simp [movedSlot]
    | ready b =>
      simp only [Option.map_some, movedSlot, Option.some.injEq, Slot.ready.injEq]
      constructor
      · intro h; exact ⟨b, rfl, h.symm⟩
      · rintro ⟨b', rfl, rfl⟩; rfl

theorem softOk_step {P : Plugins} {W : ℕ × (ℕ → ℕ → ℝ)} {dt : ℝ} {e e' : Soft.Engine} (h : SoftOk e) (hs : Soft.step P W dt e = .ok e') :
    SoftOk e' := by
  obtain ⟨D⟩ := softStep_ok hs
  have hN : e'.number_of_nodes = e.number_of_nodes := by rw [D.he']
  have hM : e'.materials = e.materials := by rw [D.he']
  have hI : e'.surfaces_interactions = e.surfaces_interactions := by rw [D.he']
  refine ⟨?_, ?_, ?_, ?_, ?_, ?_, ?_, ?_⟩
  · rw [D.bodies]
    have := h.nodup
    unfold Dict.keys at this ⊢
    simpa [List.map_map, Function.comp_def] using this
  · rw [D.bodies]
    intro i hi c hc
    have hi' : i < e.bodies.entries.length := by simpa using hi
    have := h.bodies i hi'
    simp only [List.getElem_map] at hc ⊢
    generalize e.bodies.entries[i] = kv at *
    obtain ⟨k, s⟩ := kv
    cases s with
    | broken => cases hc
    | ready b =>
      simp only [movedSlot, Slot.ready.injEq] at hc
      subst hc
      obtain ⟨h1, h2⟩ := this b rfl
      exact ⟨h1, ⟨h2.name, h2.prepared, h2.vol0, h2.gradN0, h2.lumped, h2.dirichlet, h2.traction, by rw [hM]; exact h2.material⟩⟩
  · intro k c hc
    obtain ⟨b, hb, rfl⟩ := (D.hasBody k c).1 hc
    rw [hN]
    exact h.below k b hb
  · intro k c k' c' hc hc' hne
    obtain ⟨b, hb, rfl⟩ := (D.hasBody k c).1 hc
    obtain ⟨b', hb', rfl⟩ := (D.hasBody k' c').1 hc'
    exact h.disjoint k b k' b' hb hb' hne
  · intro q hq
    rw [hN] at hq
    obtain ⟨k, b, hb, h1⟩ := h.cover q hq
    exact ⟨k, _, (D.hasBody k _).2 ⟨b, hb, rfl⟩, h1⟩
  · rw [hM]; exact h.materials
  · rw [hM]; exact h.default_material
  · intro A B mu hmu
    unfold get_interaction at hmu
    rw [hI] at hmu
    exact h.interactions A B mu hmu

theorem SoftOk.congr {e e' : Soft.Engine} (h : SoftOk e) (hb : e'.bodies = e.bodies) (hm : e'.materials = e.materials)
    (hi : e'.surfaces_interactions = e.surfaces_interactions) (hn : e'.number_of_nodes = e.number_of_nodes) : SoftOk e' := by
  obtain ⟨m, s, p, b, c, n, st⟩ := e
  obtain ⟨m', s', p', b', c', n', st'⟩ := e'
  simp only at hb hm hi hn
  subst hb hm hi hn
  exact ⟨h.nodup, h.bodies.mono fun i k s hs c hc => ⟨(hs c hc).1, (hs c hc).2.mono fun _ h => h⟩, h.below, h.disjoint, h.cover, h.materials,
    h.default_material, h.interactions⟩

/-- **C71** (histories). Every engine built by any sequence of API calls, with steps of `simulate` in between (whatever collision detection and
the contact solver return), satisfies `SoftOk`: body names and indices are unique, the global node ranges of the bodies are disjoint and
exactly fill the numbers below `number_of_nodes`, undeformed data stay those of the mesh the body was created with, pinned nodes are pinned
to undeformed positions, loads are on surface triangles, and all material parameters are in their legal ranges. -/
theorem C71_history {eigh : M3 → V3 × M3} {e : Soft.Engine} (h : Built eigh e) : SoftOk e := by
  induction h with
  | new => exact softOk_create eigh
  | body name V T surface _ ih => exact softOk_body ih name V T surface
  | set _ hs ih => exact softOk_setter ih hs
  | params p _ ih => exact ih.congr rfl rfl rfl rfl
  | simulate P T _ hs ih =>
    exact simulate_invariant hs SoftOk (fun W _ => ih.congr rfl rfl rfl rfl) fun W dt e e' h h' => softOk_step h h'

end Verif
