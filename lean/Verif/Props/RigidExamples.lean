import Verif.Props.ContactSolve
import Verif.Props.StateStorage

/-! A concrete two-body world that meets the hypotheses of the C40 theorems: a movable body falls on a fixed one. -/

namespace Verif.RigidExample

open Matrix ProxSolver Rigid

/-- The fixed ground and a unit body that approaches it with speed one. -/
noncomputable def bodies : Fin 2 → RigidBody := fun k =>
  if k = 0 then { RigidBody.init "ground" with is_fixed := true }
  else { RigidBody.init "body" with v := ⟨0, 0, -1⟩, mass := 1, inertia := ⟨1, 1, 1⟩ }

noncomputable def world : World 2 :=
  { bodies := bodies, forces := [], hinges := [], contact_points := [⟨0, 1, 0, ⟨0, 0, 1⟩, 0⟩],
    surfaces_interactions := SurfacesInteractionLibrary.init, params := Params.init }

theorem library_get : SurfacesInteractionLibrary.init.get_interaction "default" "default" = .ok ⟨V3.ones, 0.0⟩ := by
  rfl

theorem state_exists : ∃ s, copy_from_engine bodies = .ok s := by
  apply (C46_mass_required bodies).2
  intro k hk
  unfold bodies at hk ⊢
  split_ifs at hk ⊢
  exact one_ne_zero

theorem material (k : Fin 2) : (world.bodies k).material = "default" := by
  change (bodies k).material = _
  unfold bodies
  split_ifs <;> rfl

theorem contacts_exists (s : StateStorage 2) (dt : ℝ) : ∃ C, Contacts.initialize dt s world = .ok C := by
  have hfr : frictionVector world.surfaces_interactions world.bodies world.contact_points = .ok [1] := by
    unfold frictionVector
    simp only [material]
    rfl
  have hre : restitutionVector world.surfaces_interactions world.params world.bodies world.contact_points = .ok [0] := rfl
  unfold Contacts.initialize
  simp only [bind, Except.bind, hfr, hre]
  exact ⟨_, rfl⟩

theorem unit_k : V3.unit (⟨0, 0, 1⟩ : V3) = ⟨0, 0, 1⟩ := by
  unfold V3.unit V3.norm V3.dot
  ext <;> simp [V3.divs]

/-- C40, non-vacuity: the falling body is stopped by a contact force of size one. -/
theorem resting_contact : ∃ (s : StateStorage 2) (C : ContactProblem 2 world.contact_points.length)
    (x : Fin world.contact_points.length × Fin 4 → ℝ),
    copy_from_engine world.bodies = .ok s ∧ Contacts.initialize 0.01 s world = .ok C ∧ (∀ k, 0 ≤ C.mu k) ∧
    gsSweep C.data (contactProx Prox.prox_sphere C.mu) (fun _ => 1) x = x ∧
    (∀ k, 0 < x (k, 0)) ∧ (∀ k, (C.data.J *ᵥ s.u) (k, 0) = -1) := by
  obtain ⟨s, hs⟩ := state_exists
  obtain ⟨C, hC⟩ := contacts_exists s 0.01
  have hcoef := C40_coefficients hC
  obtain ⟨hx, hu, hf, hW, hd, -⟩ := copy_fields hs
  obtain ⟨hJ, hWJ, hg, he, hb⟩ := contacts_init hC
  set x : Fin world.contact_points.length × Fin 4 → ℝ := fun q => if q.2 = 0 then 1 else 0 with hxx
  have hcp : ∀ k, world.contact_points.get k = ⟨0, 1, 0, ⟨0, 0, 1⟩, 0⟩ := by
    intro k
    have : k = ⟨0, Nat.one_pos⟩ := Subsingleton.elim (α := Fin 1) k ⟨0, Nat.one_pos⟩
    rw [this]
    rfl
  have hmat : ∀ k, (world.bodies k).material = "default" := by
    intro k
    change (bodies k).material = _
    unfold bodies
    split_ifs <;> rfl
  have hmu : ∀ k, C.mu k = 1 ∧ C.e (k, 0) = 0 := by
    intro k
    obtain ⟨I, hI, h1, h2, -⟩ := hcoef k
    rw [hmat, hmat] at hI
    have : I = ⟨V3.ones, 0.0⟩ := by
      have h3 := library_get
      change SurfacesInteractionLibrary.init.get_interaction _ _ = _ at hI
      rw [hI] at h3
      exact Except.ok.inj h3
    rw [h1, h2, this]
    refine ⟨rfl, ?_⟩
    rw [if_neg]
    change ¬ (false = true)
    decide
  have he0 : C.e = 0 := by
    funext ⟨k, i⟩
    by_cases hi : i = 0
    · rw [hi]; exact (hmu k).2
    · exact he _ hi
  have hg0 : C.g = 0 := by
    rw [hg]
    unfold contactError
    exact if_pos rfl
  -- the external forces vanish
  have hbw : ∀ k, (world.bodies k).w = 0 ∧ (world.bodies k).forces = [] ∧ (world.bodies k).r = 0 := by
    intro k
    change (bodies k).w = 0 ∧ (bodies k).forces = [] ∧ (bodies k).r = 0
    unfold bodies
    split_ifs <;> exact ⟨rfl, rfl, rfl⟩
  have hf0 : s.f_ext = 0 := by
    rw [hf]
    funext ⟨k, c⟩
    unfold compute_total_external_forces
    split
    · rfl
    · have h1 : ang s.u k = 0 := by
        rw [hu, (state_vectors _ _).2.2.2]; exact (hbw k).1
      have h2 : (bodies k).forces = [] := (hbw k).2.1
      simp only [h1, bodyForce, h2, List.foldl_nil]
      fin_cases c <;> simp [six, V3.zero, V3.cross]
  have hd0 : s.delta_u_ext = 0 := by rw [hd, hf0, Matrix.mulVec_zero]
  have hb' : C.data.b = C.data.J *ᵥ s.u := by
    rw [hb, he0, hg0, hd0]
    simp
  have hrow : ∀ (k : Fin world.contact_points.length) (u : Vel 2 → ℝ),
      lin u 0 = 0 → ang u 0 = 0 → ang u 1 = 0 → (∃ c : ℝ, lin u 1 = ⟨0, 0, c⟩ ∧
        (C.data.J *ᵥ u) (k, 0) = c ∧ (C.data.J *ᵥ u) (k, 1) = 0 ∧ (C.data.J *ᵥ u) (k, 2) = 0 ∧ (C.data.J *ᵥ u) (k, 3) = 0)
      ∨ ¬ ∃ c : ℝ, lin u 1 = ⟨0, 0, c⟩ := by
    intro k u h0 h1 h2
    by_cases hc : ∃ c : ℝ, lin u 1 = ⟨0, 0, c⟩
    · left
      obtain ⟨c, hc⟩ := hc
      refine ⟨c, hc, ?_⟩
      have hnz : (world.contact_points.get k).n ≠ 0 := by
        rw [hcp]; intro h; have := congrArg V3.z h; simp at this
      obtain ⟨a, b, hF, hv⟩ := C40_contact_velocity world.bodies world.contact_points k hnz
      obtain ⟨v0, v1, v2, v3⟩ := hv u
      rw [hJ, v0, v1, v2, v3]
      have hrel : relVelocity world.bodies (world.contact_points.get k) u = ⟨0, 0, c⟩ := by
        rw [hcp]
        unfold relVelocity pointVelocity
        simp only [h0, h1, h2, hc, (hbw _).2.2]
        ext <;> simp [V3.cross]
      rw [hrel]
      obtain ⟨-, -, -, -, htn, hsn, -⟩ := hF
      rw [hcp] at htn hsn ⊢
      simp only [unit_k] at htn hsn ⊢
      refine ⟨by simp [V3.dot], ?_, ?_, by simp [h1, h2, V3.dot]⟩
      · simp [V3.dot] at hsn ⊢; left; exact hsn
      · simp [V3.dot] at htn ⊢; left; exact htn
    · exact Or.inr hc
  have hu0 := state_vectors world.bodies
  have hJu : ∀ k, (C.data.J *ᵥ s.u) (k, 0) = -1 ∧ ∀ i : Fin 4, i ≠ 0 → (C.data.J *ᵥ s.u) (k, i) = 0 := by
    intro k
    have hl : lin s.u 1 = ⟨0, 0, -1⟩ := by
      rw [hu]
      exact (hu0 1).2.2.1
    rcases hrow k s.u (by rw [hu]; exact (hu0 0).2.2.1) (by rw [hu]; exact (hu0 0).2.2.2)
      (by rw [hu]; exact (hu0 1).2.2.2) with ⟨c, h1, h2, h3, h4, h5⟩ | hn
    · rw [hl] at h1
      have : c = -1 := by have := congrArg V3.z h1; simpa using this.symm
      refine ⟨by rw [h2, this], ?_⟩
      intro i hi
      fin_cases i
      · exact absurd rfl hi
      · exact h3
      · exact h4
      · exact h5
    · exact absurd ⟨-1, hl⟩ hn
  have hcf := C40_contact_force world.bodies world.contact_points x
  have hfin : ∀ f : Fin world.contact_points.length → V3, ∑ k, f k = f ⟨0, Nat.one_pos⟩ := by
    intro f
    exact Fin.sum_univ_one (f : Fin 1 → V3)
  set y := s.W *ᵥ (C.data.Jᵀ *ᵥ x) with hy
  have hWm := inverse_mass_mulVec hW (C.data.Jᵀ *ᵥ x)
  have hFk : ∀ k, contactForce world.contact_points x k = ⟨0, 0, 1⟩ := by
    intro k
    unfold contactForce
    rw [frameN_eq, hcp]
    simp only [unit_k, hxx]
    ext <;> simp
  have hl1 : lin (C.data.Jᵀ *ᵥ x) 1 = ⟨0, 0, 1⟩ := by
    rw [hJ, (hcf 1).1, hfin, hFk, hcp]
    ext <;> simp
  have ha1 : ang (C.data.Jᵀ *ᵥ x) 1 = 0 := by
    rw [hJ, (hcf 1).2, hfin, hFk, hcp, (hbw 1).2.2]
    ext <;> simp [V3.cross, hxx]
  have hm0 : massBlocks (bodies 0) (xq s.x 0) = (M3.zero, M3.zero) := rfl
  have hm1 : (massBlocks (bodies 1) (xq s.x 1)).1 = M3.diag (1.0 / 1) (1.0 / 1) (1.0 / 1) := rfl
  have hy1 : lin y 1 = ⟨0, 0, 1⟩ := by
    rw [hy, (hWm 1).1, hl1]
    rw [hm1]
    ext <;> simp [M3.mulVec, M3.diag] <;> norm_num
  have hya : ang y 1 = 0 := by
    rw [hy, (hWm 1).2, ha1]
    ext <;> simp [M3.mulVec]
  have hy0 : lin y 0 = 0 ∧ ang y 0 = 0 := by
    rw [hy, (hWm 0).1, (hWm 0).2]
    rw [hm0]
    constructor <;> ext <;> simp [M3.mulVec, M3.zero]
  have hJy : ∀ k, (C.data.J *ᵥ y) (k, 0) = 1 ∧ ∀ i : Fin 4, i ≠ 0 → (C.data.J *ᵥ y) (k, i) = 0 := by
    intro k
    rcases hrow k y hy0.1 hy0.2 hya with ⟨c, h1, h2, h3, h4, h5⟩ | hn
    · rw [hy1] at h1
      have : c = 1 := by have := congrArg V3.z h1; simpa using this.symm
      refine ⟨by rw [h2, this], ?_⟩
      intro i hi
      fin_cases i
      · exact absurd rfl hi
      · exact h3
      · exact h4
      · exact h5
    · exact absurd ⟨1, hy1⟩ hn
  refine ⟨s, C, x, hs, hC, fun k => by rw [(hmu k).1]; norm_num, ?_, fun k => by simp [hxx], fun k => (hJu k).1⟩
  rw [sweep_fixed_iff]
  intro k
  unfold BlockFixed
  have hres : ∀ i : Fin 4, ((C.data.J * C.data.WJT) *ᵥ x) (k, i) + C.data.b (k, i) = 0 := by
    intro i
    rw [hb', hWJ, ← Matrix.mulVec_mulVec, ← Matrix.mulVec_mulVec, ← hy]
    by_cases hi : i = 0
    · rw [hi, (hJu k).1, (hJy k).1]; norm_num
    · rw [(hJu k).2 i hi, (hJy k).2 i hi]; norm_num
  simp only [hres, mul_zero, sub_zero]
  unfold contactProx Prox.prox_sphere
  rw [(hmu k).1]
  funext i
  fin_cases i <;> simp [hxx] <;> norm_num

end Verif.RigidExample
