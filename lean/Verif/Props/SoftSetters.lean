import Verif.Props.SoftFindings

/-! C104: what each call of the soft body API does, and when it raises. -/

namespace Verif

open Soft Mech Soft.Engine

/-- The call changed the body called k into b' and nothing else. -/
def ChangesBody (e e' : Soft.Engine) (k : String) (b' : SoftBody) : Prop :=
  HasBody e' k b' ∧ (∀ k', k' ≠ k → e'.bodies.get? k' = e.bodies.get? k') ∧ e'.bodies.keys = e.bodies.keys ∧
    e'.materials = e.materials ∧ e'.surfaces_interactions = e.surfaces_interactions ∧ e'.params = e.params ∧
    e'.contact_points = e.contact_points ∧ e'.number_of_nodes = e.number_of_nodes ∧ e'.stepper = e.stepper

/-- The call changed the material called k into m' and nothing else. -/
def ChangesMaterial (e e' : Soft.Engine) (k : String) (m' : Material) : Prop :=
  e'.materials.get? k = some m' ∧ (∀ k', k' ≠ k → e'.materials.get? k' = e.materials.get? k') ∧ e'.materials.keys = e.materials.keys ∧
    e'.bodies = e.bodies ∧ e'.surfaces_interactions = e.surfaces_interactions ∧ e'.params = e.params ∧
    e'.contact_points = e.contact_points ∧ e'.number_of_nodes = e.number_of_nodes ∧ e'.stepper = e.stepper

theorem changesBody_put {e : Soft.Engine} {k : String} {b : SoftBody} (hb : HasBody e k b) (b' : SoftBody) :
    ChangesBody e (e.putBody k b') k b' :=
  ⟨Dict.get?_setItem_self _ _ _, fun _ h => Dict.get?_setItem_ne _ _ h, Dict.keys_replace hb, rfl, rfl, rfl, rfl, rfl, rfl⟩

theorem changesMaterial_put {e : Soft.Engine} {k : String} {m : Material} (hm : e.materials.get? k = some m) (m' : Material) :
    ChangesMaterial e (e.putMaterial k m') k m' :=
  ⟨Dict.get?_setItem_self _ _ _, fun _ h => Dict.get?_setItem_ne _ _ h, Dict.keys_replace hm, rfl, rfl, rfl, rfl, rfl, rfl⟩

theorem soft_findBody_none {e : Soft.Engine} {k : String} (h : e.bodies.get? k = none) : e.findBody k = .error .valueError := by
  unfold Soft.Engine.findBody; rw [h]

theorem soft_findMaterial_none {e : Soft.Engine} {k : String} (h : e.materials.get? k = none) : e.findMaterial k = .error .valueError := by
  unfold Soft.Engine.findMaterial; rw [h]

theorem soft_findMaterial_some {e : Soft.Engine} {k : String} {m : Material} (h : e.materials.get? k = some m) : e.findMaterial k = .ok m := by
  unfold Soft.Engine.findMaterial; rw [h]

/-- **C104.** A call with the name of a body that does not exist raises ValueError. -/
theorem C104_unknown_body {e : Soft.Engine} {k : String} (h : e.bodies.get? k = none) (v : V3) (x : List V3) (t : Option Bool) (phi : V3 → ℝ)
    (material : String) :
    set_velocity e k v = .error .valueError ∧ get_material_coordinates e k = .error .valueError ∧
    set_spatial_coordinates e k x = .error .valueError ∧ set_type e k t = .error .valueError ∧ set_gravity e k v = .error .valueError ∧
    set_material e k material = .error .valueError ∧ create_dirichlet_conditions e k phi = .error .valueError ∧
    create_traction_conditions e k phi v = .error .valueError := by
  have := soft_findBody_none h
  refine ⟨?_, ?_, ?_, ?_, ?_, ?_, ?_, ?_⟩
  · unfold set_velocity; rw [this]; rfl
  · unfold get_material_coordinates; rw [this]; rfl
  · unfold set_spatial_coordinates; rw [this]; rfl
  · unfold set_type; rw [this]; rfl
  · unfold set_gravity; rw [this]; rfl
  · unfold set_material; rw [this]; rfl
  · unfold create_dirichlet_conditions; rw [this]; rfl
  · unfold create_traction_conditions; rw [this]; rfl

/-- **C104.** `set_velocity` gives all nodes the velocity v, and changes nothing else. -/
theorem C104_set_velocity {e : Soft.Engine} {k : String} {b : SoftBody} (hb : HasBody e k b) (v : V3) :
    ∃ e' u, set_velocity e k v = .ok e' ∧ ChangesBody e e' k { b with u := u } ∧ ∀ a, u a = v := by
  refine ⟨_, fun _ => v, ?_, changesBody_put hb _, fun _ => rfl⟩
  unfold set_velocity; rw [hasBody_findBody hb]; rfl

/-- **C104.** `get_material_coordinates` returns the undeformed positions of the nodes, in order. -/
theorem C104_get_coordinates {e : Soft.Engine} {k : String} {b : SoftBody} (hb : HasBody e k b) :
    ∃ x, get_material_coordinates e k = .ok x ∧ x.length = b.n ∧ ∀ a : Fin b.n, x[a.1]? = some (b.x0 a) := by
  refine ⟨(List.finRange b.n).map b.x0, ?_, by simp, ?_⟩
  · unfold get_material_coordinates; rw [hasBody_findBody hb]; rfl
  · intro a; simp

/-- **C104.** `set_spatial_coordinates` moves the nodes to the given positions and changes nothing else, if it gets one position per
node; otherwise it raises ValueError. -/
theorem C104_set_coordinates {e : Soft.Engine} {k : String} {b : SoftBody} (hb : HasBody e k b) (x : List V3) :
    (x.length ≠ b.n → set_spatial_coordinates e k x = .error .valueError) ∧
    (x.length = b.n → ∃ e' y, set_spatial_coordinates e k x = .ok e' ∧ ChangesBody e e' k { b with x := y } ∧
      ∀ a : Fin b.n, x[a.1]? = some (y a)) := by
  refine ⟨fun h => ?_, fun h => ?_⟩
  · unfold set_spatial_coordinates; rw [hasBody_findBody hb]
    simp only [bind, Except.bind]
    rw [if_pos h]
  · refine ⟨_, fun a => x.getD a 0, ?_, changesBody_put hb _, ?_⟩
    · unfold set_spatial_coordinates; rw [hasBody_findBody hb]
      simp only [bind, Except.bind]
      rw [if_neg (not_not.2 h)]; rfl
    · intro a
      have ha : a.1 < x.length := by rw [h]; exact a.2
      show x[a.1]? = some (x.getD a.1 0)
      rw [List.getD_eq_getElem?_getD, List.getElem?_eq_getElem ha]; rfl

/-- **C104.** Reading the coordinates, moving them and writing them back: what is written is what the nodes get. -/
theorem C104_coordinates_round_trip {e : Soft.Engine} {k : String} {b : SoftBody} (hb : HasBody e k b) (f : V3 → V3) :
    ∃ x e', get_material_coordinates e k = .ok x ∧ set_spatial_coordinates e k (x.map f) = .ok e' ∧
      ChangesBody e e' k { b with x := fun a => f (b.x0 a) } := by
  obtain ⟨x, h1, h2, h3⟩ := C104_get_coordinates hb
  obtain ⟨e', y, h4, h5, h6⟩ := (C104_set_coordinates hb (x.map f)).2 (by simpa using h2)
  refine ⟨x, e', h1, h4, ?_⟩
  have : y = fun a => f (b.x0 a) := by
    funext a
    have := h6 a
    rw [List.getElem?_map, h3 a] at this
    simpa using this.symm
  rw [← this]; exact h5

/-- **C104.** `set_type` with "fixed" or "free" sets the type and nothing else; any other word raises ValueError. -/
theorem C104_set_type {e : Soft.Engine} {k : String} {b : SoftBody} (hb : HasBody e k b) :
    set_type e k none = .error .valueError ∧
    ∀ f : Bool, ∃ e', set_type e k (some f) = .ok e' ∧ ChangesBody e e' k { b with is_fixed := f } := by
  refine ⟨?_, fun f => ⟨_, ?_, changesBody_put hb _⟩⟩
  · unfold set_type; rw [hasBody_findBody hb]; rfl
  · unfold set_type; rw [hasBody_findBody hb]; rfl

/-- **C104.** `set_gravity` sets the gravitational acceleration of the body and nothing else. -/
theorem C104_set_gravity {e : Soft.Engine} {k : String} {b : SoftBody} (hb : HasBody e k b) (g : V3) :
    ∃ e', set_gravity e k g = .ok e' ∧ ChangesBody e e' k { b with gravity := g } := by
  refine ⟨_, ?_, changesBody_put hb _⟩
  unfold set_gravity; rw [hasBody_findBody hb]; rfl

/-- **C104.** `set_material` with an existing material names it in the body and fills the body's mass and damping arrays from the
material's density and viscosity at this moment; with an unknown material it raises ValueError. -/
theorem C104_set_material {e : Soft.Engine} {k : String} {b : SoftBody} (hb : HasBody e k b) (material : String) :
    (e.materials.get? material = none → set_material e k material = .error .valueError) ∧
    ∀ m, e.materials.get? material = some m → ∃ e', set_material e k material = .ok e' ∧ ChangesBody e e' k { b with material_description := some material, M_array := some (compute_mass_element_array m.rho b.vol0 b.is_lumped), C_array := some (compute_damping_element_array m.c b.vol0 b.is_lumped) } := by
  refine ⟨fun h => ?_, fun m hm => ⟨_, ?_, changesBody_put hb _⟩⟩
  · unfold set_material; rw [hasBody_findBody hb]
    simp only [bind, Except.bind]
    rw [soft_findMaterial_none h]
  · unfold set_material; rw [hasBody_findBody hb]
    simp only [bind, Except.bind]
    rw [soft_findMaterial_some hm]; rfl

/-- **C104.** `create_material` makes a material with the default values under a new name; with a name in use it raises ValueError. -/
theorem C104_create_material (eigh : M3 → V3 × M3) (e : Soft.Engine) (k : String) :
    (∀ m, e.materials.get? k = some m → create_material eigh e k = .error .valueError) ∧
    (e.materials.get? k = none → ∃ e' m, create_material eigh e k = .ok e' ∧ e'.materials.get? k = some m ∧ m.name = k ∧ m.rho = 1000 ∧
      m.c = 0 ∧ m.E = 100000 ∧ m.nu = 3 / 10 ∧ (∀ k', k' ≠ k → e'.materials.get? k' = e.materials.get? k') ∧ e'.bodies = e.bodies ∧
      e'.surfaces_interactions = e.surfaces_interactions ∧ e'.params = e.params ∧ e'.contact_points = e.contact_points ∧
      e'.number_of_nodes = e.number_of_nodes ∧ e'.stepper = e.stepper) := by
  unfold create_material
  refine ⟨fun m hm => ?_, fun h => ?_⟩
  · rw [if_pos (Dict.mem_of_get? hm)]
  · rw [if_neg (by rw [(Dict.get?_eq_none _ _).1 h]; simp)]
    refine ⟨_, _, rfl, Dict.get?_setItem_self _ _ _, rfl, rfl, rfl, ?_, ?_, fun k' hk => Dict.get?_setItem_ne _ _ hk, rfl, rfl, rfl, rfl, rfl, rfl⟩
    · unfold Material.init; norm_num
    · unfold Material.init; norm_num

/-- **C104.** The parameters of a material can be set exactly to E > 0, 0 ≤ ν ≤ 1/2, viscosity ≥ 0 and density ≥ 0; everything else
raises ValueError, and so does an unknown material.  Nothing but the parameter changes. -/
theorem C104_material_parameters (e : Soft.Engine) (k : String) :
    (e.materials.get? k = none → ∀ (E nu c rho : ℝ), set_elasticity e k E nu = .error .valueError ∧ set_viscosity e k c = .error .valueError ∧
      set_mass_density e k rho = .error .valueError) ∧
    ∀ m, e.materials.get? k = some m → ∀ E nu c rho : ℝ,
      ((∃ e', set_elasticity e k E nu = .ok e') ↔ 0 < E ∧ 0 ≤ nu ∧ nu ≤ 1 / 2) ∧
      (∀ e', set_elasticity e k E nu = .ok e' → ChangesMaterial e e' k { m with E := E, nu := nu }) ∧
      (∀ err, set_elasticity e k E nu = .error err → err = .valueError) ∧
      ((∃ e', set_viscosity e k c = .ok e') ↔ 0 ≤ c) ∧
      (∀ e', set_viscosity e k c = .ok e' → ChangesMaterial e e' k { m with c := c }) ∧
      (∀ err, set_viscosity e k c = .error err → err = .valueError) ∧
      ((∃ e', set_mass_density e k rho = .ok e') ↔ 0 ≤ rho) ∧
      (∀ e', set_mass_density e k rho = .ok e' → ChangesMaterial e e' k { m with rho := rho }) ∧
      (∀ err, set_mass_density e k rho = .error err → err = .valueError) := by
  refine ⟨fun h E nu c rho => ?_, fun m hm E nu c rho => ?_⟩
  · have := soft_findMaterial_none h
    refine ⟨?_, ?_, ?_⟩
    · unfold set_elasticity; rw [this]; rfl
    · unfold set_viscosity; rw [this]; rfl
    · unfold set_mass_density; rw [this]; rfl
  have hf := soft_findMaterial_some hm
  have h5 : (0.5 : ℝ) = 1 / 2 := by norm_num
  refine ⟨?_, ?_, ?_, ?_, ?_, ?_, ?_, ?_, ?_⟩
  · unfold set_elasticity
    rw [hf]
    simp only [bind, Except.bind, h5]
    split_ifs with h1 h2
    · simp; intro h; linarith
    · simp only [reduceCtorEq, exists_false, false_iff, not_and]
      rintro - h3 h4
      rcases h2 with h2 | h2 <;> linarith
    · push Not at h1 h2
      simp only [pure, Except.pure, Except.ok.injEq, exists_eq', true_iff]
      exact ⟨h1, h2⟩
  · intro e' h
    unfold set_elasticity at h
    rw [hf] at h
    simp only [bind, Except.bind] at h
    split_ifs at h with h1 h2
    simp only [pure, Except.pure, Except.ok.injEq] at h
    rw [← h]; exact changesMaterial_put hm _
  · intro err h
    unfold set_elasticity at h
    rw [hf] at h
    simp only [bind, Except.bind] at h
    split_ifs at h with h1 h2
    · exact (Except.error.inj h).symm
    · exact (Except.error.inj h).symm
    · cases h
  · unfold set_viscosity
    rw [hf]
    simp only [bind, Except.bind]
    split_ifs with h1
    · simp; exact h1
    · push Not at h1
      simp only [pure, Except.pure, Except.ok.injEq, exists_eq', true_iff]
      exact h1
  · intro e' h
    unfold set_viscosity at h
    rw [hf] at h
    simp only [bind, Except.bind] at h
    split_ifs at h with h1
    simp only [pure, Except.pure, Except.ok.injEq] at h
    rw [← h]; exact changesMaterial_put hm _
  · intro err h
    unfold set_viscosity at h
    rw [hf] at h
    simp only [bind, Except.bind] at h
    split_ifs at h with h1
    · exact (Except.error.inj h).symm
    · cases h
  · unfold set_mass_density
    rw [hf]
    simp only [bind, Except.bind]
    split_ifs with h1
    · simp; exact h1
    · push Not at h1
      simp only [pure, Except.pure, Except.ok.injEq, exists_eq', true_iff]
      exact h1
  · intro e' h
    unfold set_mass_density at h
    rw [hf] at h
    simp only [bind, Except.bind] at h
    split_ifs at h with h1
    simp only [pure, Except.pure, Except.ok.injEq] at h
    rw [← h]; exact changesMaterial_put hm _
  · intro err h
    unfold set_mass_density at h
    rw [hf] at h
    simp only [bind, Except.bind] at h
    split_ifs at h with h1
    · exact (Except.error.inj h).symm
    · cases h

/-- **C104.** `set_constitutive_model` replaces the two functions of an existing material and nothing else. -/
theorem C104_constitutive_model (e : Soft.Engine) (k : String) (P : M3 → ℝ → ℝ → Except PyErr M3) (psi : M3 → ℝ → ℝ → Except PyErr ℝ) :
    (e.materials.get? k = none → set_constitutive_model e k P psi = .error .valueError) ∧
    ∀ m, e.materials.get? k = some m → ∃ e', set_constitutive_model e k P psi = .ok e' ∧
      ChangesMaterial e e' k { m with pk1_stress := P, energy_density := psi } := by
  refine ⟨fun h => ?_, fun m hm => ⟨_, ?_, changesMaterial_put hm _⟩⟩
  · unfold set_constitutive_model; rw [soft_findMaterial_none h]; rfl
  · unfold set_constitutive_model; rw [soft_findMaterial_some hm]; rfl

/-- **C104.** `create_surfaces_interaction` succeeds exactly for two existing materials without an interaction and a coefficient that is
not negative; it then adds this one interaction, in both orders of the materials, and changes nothing else. -/
theorem C104_create_interaction (e : Soft.Engine) (A B : String) (mu : ℝ) :
    ((∃ e', create_surfaces_interaction e A B mu = .ok e') ↔ e.materials.get? A ≠ none ∧ e.materials.get? B ≠ none ∧
      e.get_interaction A B = none ∧ 0 ≤ mu) ∧
    (∀ e', create_surfaces_interaction e A B mu = .ok e' →
      (∀ C D, e'.get_interaction C D = if (C = A ∧ D = B) ∨ (C = B ∧ D = A) then some mu else e.get_interaction C D) ∧
      e'.bodies = e.bodies ∧ e'.materials = e.materials ∧ e'.params = e.params ∧ e'.contact_points = e.contact_points ∧
      e'.number_of_nodes = e.number_of_nodes ∧ e'.stepper = e.stepper) ∧
    (∀ err, create_surfaces_interaction e A B mu = .error err →
      (e.materials.get? A = none ∨ e.materials.get? B = none) ∧ err = .valueError ∨ err = .runtimeError) := by
  have hmem : ∀ C, ¬ (e.materials.mem C = true) ↔ e.materials.get? C = none := by
    intro C
    rw [Dict.get?_eq_none]
    simp
  have hkey : ∀ C D A B : String, interactionKey C D = interactionKey A B ↔ (C = A ∧ D = B) ∨ (C = B ∧ D = A) := by
    intro C D A B
    unfold interactionKey
    constructor
    · intro h
      split_ifs at h <;> simp only [Prod.mk.injEq] at h <;> tauto
    · rintro (⟨rfl, rfl⟩ | ⟨rfl, rfl⟩)
      · rfl
      · by_cases h : C < D
        · rw [if_pos h, if_neg (String.lt_asymm h)]
        · by_cases h' : D < C
          · rw [if_neg h, if_pos h']
          · rw [String.le_antisymm h' h]
  unfold create_surfaces_interaction
  simp only [show (0.0 : ℝ) = 0 by norm_num]
  refine ⟨?_, ?_, ?_⟩
  · split_ifs with h1 h2 h3 h4
    · simp only [reduceCtorEq, exists_false, false_iff, not_and]
      intro _ _ h
      unfold get_interaction at h
      unfold exist_interaction at h3
      rw [(Dict.get?_eq_none _ _).1 h] at h3
      cases h3
    · simp only [reduceCtorEq, exists_false, false_iff, not_and]
      intro _ _ _ h; linarith
    · simp only [Except.ok.injEq, exists_eq', true_iff]
      refine ⟨fun h => (hmem A).2 h h1, fun h => (hmem B).2 h h2, ?_, not_lt.1 h4⟩
      unfold get_interaction
      unfold exist_interaction at h3
      exact (Dict.get?_eq_none _ _).2 (by simpa using h3)
    · simp only [reduceCtorEq, exists_false, false_iff, not_and]
      intro _ h; exact absurd ((hmem B).1 h2) h
    · simp only [reduceCtorEq, exists_false, false_iff, not_and]
      intro h; exact absurd ((hmem A).1 h1) h
  · intro e' h
    split_ifs at h with h1 h2 h3 h4
    cases h
    refine ⟨?_, rfl, rfl, rfl, rfl, rfl, rfl⟩
    intro C D
    unfold get_interaction
    simp only
    rw [Dict.get?_setItem]
    by_cases hc : interactionKey C D = interactionKey A B
    · rw [if_pos hc, if_pos ((hkey _ _ _ _).1 hc)]
    · rw [if_neg hc, if_neg (fun h => hc ((hkey _ _ _ _).2 h))]
  · intro err h
    split_ifs at h with h1 h2 h3 h4
    · exact Or.inr (Except.error.inj h).symm
    · exact Or.inr (Except.error.inj h).symm
    · exact Or.inl ⟨Or.inr ((hmem B).1 h2), (Except.error.inj h).symm⟩
    · exact Or.inl ⟨Or.inl ((hmem A).1 h1), (Except.error.inj h).symm⟩

/-- **C104.** `get_largest_penetration_error` is zero when no contact penetrates, and otherwise the depth of the deepest one. -/
theorem C104_penetration (e : Soft.Engine) :
    0 ≤ get_largest_penetration_error e ∧ (∀ cp ∈ e.contact_points, -cp.g ≤ get_largest_penetration_error e) ∧
    (get_largest_penetration_error e = 0 ∨ ∃ cp ∈ e.contact_points, get_largest_penetration_error e = -cp.g) := by
  have key : ∀ (L : List ContactPoint) (p : ℝ), L.foldl (fun p cp => min p cp.g) p ≤ p ∧
      (∀ cp ∈ L, L.foldl (fun p cp => min p cp.g) p ≤ cp.g) ∧
      (L.foldl (fun p cp => min p cp.g) p = p ∨ ∃ cp ∈ L, L.foldl (fun p cp => min p cp.g) p = cp.g) := by
    intro L
    induction L with
    | nil => intro p; simp
    | cons c L ih =>
      intro p
      simp only [List.foldl_cons]
      obtain ⟨h1, h2, h3⟩ := ih (min p c.g)
      refine ⟨h1.trans (min_le_left _ _), ?_, ?_⟩
      · intro cp hcp
        rcases List.mem_cons.1 hcp with rfl | hcp
        · exact h1.trans (min_le_right _ _)
        · exact h2 cp hcp
      · rcases h3 with h3 | ⟨cp, hcp, h3⟩
        · rcases min_choice p c.g with h | h
          · left; rw [h3, h]
          · right; exact ⟨c, by simp, by rw [h3, h]⟩
        · right; exact ⟨cp, by simp [hcp], h3⟩
  obtain ⟨h1, h2, h3⟩ := key e.contact_points 0
  unfold get_largest_penetration_error
  refine ⟨by linarith, fun cp hcp => by linarith [h2 cp hcp], ?_⟩
  rcases h3 with h3 | ⟨cp, hcp, h3⟩
  · left; rw [h3, neg_zero]
  · right; exact ⟨cp, hcp, by rw [h3]⟩

/-- A new engine has the material "default"; its Poisson ratio can be set to 0.45 and not to 0.6. -/
example (eigh : M3 → V3 × M3) : ∃ m, (create_engine eigh).materials.get? "default" = some m ∧
    (∃ e', set_elasticity (create_engine eigh) "default" 2000 0.45 = .ok e') ∧
    ¬ ∃ e', set_elasticity (create_engine eigh) "default" 2000 0.6 = .ok e' := by
  refine ⟨Material.init eigh, Dict.get?_setItem_self _ _ _, ?_, ?_⟩
  · rw [((C104_material_parameters _ "default").2 (Material.init eigh) (Dict.get?_setItem_self _ _ _) 2000 0.45 0 0).1]; norm_num
  · rw [((C104_material_parameters _ "default").2 (Material.init eigh) (Dict.get?_setItem_self _ _ _) 2000 0.6 0 0).1]; norm_num

end Verif
