{
 "claims": [
  {
   "property": "C01",
   "status": "proved",
   "theorems": [
    "C01_prod_is_hamilton",
    "C01_conjugate_is_star",
    "C01_identity_is_one",
    "C01_prod_assoc",
    "C01_identity_unit",
    "C01_conjugate_antihom",
    "C01_norm_mul",
    "C01_unit_group",
    "C01_unit_spec"
   ],
   "note": ""
  },
  {
   "property": "C02",
   "status": "proved",
   "theorems": [
    "C02_rotate_prod",
    "C02_rotate_linear",
    "C02_rotate_dot",
    "C02_rotate_isometry",
    "C02_rotate_cross",
    "C02_rotate_fixes_axis",
    "C02_rotate_conjugate"
   ],
   "note": ""
  },
  {
   "property": "C03",
   "status": "proved",
   "theorems": [
    "C03_to_matrix_rotation",
    "C03_to_matrix_zero",
    "C03_to_matrix_scale",
    "C03_to_matrix_acts"
   ],
   "note": ""
  },
  {
   "property": "C04",
   "status": "proved",
   "theorems": [
    "C04_from_matrix_correct",
    "C04_from_to_matrix"
   ],
   "note": ""
  },
  {
   "property": "C05",
   "status": "proved",
   "theorems": [
    "C05_prod_array_left",
    "C05_prod_array_right",
    "C05_prod_array_errors",
    "C05_rotate_array"
   ],
   "note": ""
  },
  {
   "property": "C06",
   "status": "partial",
   "theorems": [
    "C06_slerp_unit",
    "C06_slerp_clamps",
    "C06_slerp_endpoints",
    "C06_slerp_constant_speed_partial",
    "C06_slerp_neg_partial",
    "C06_slerp_short_way_fails"
   ],
   "note": "Unit, clamping and end points hold in full. The short-way part fails in the near-linear branch (C06_slerp_short_way_fails); constant speed and sign-independence proved outside it."
  },
  {
   "property": "C07",
   "status": "proved",
   "theorems": [
    "C07_orthonormal_frame"
   ],
   "note": ""
  },
  {
   "property": "C08",
   "status": "proved",
   "theorems": [
    "C08_less_iff_lex",
    "C08_other_comparisons",
    "C08_less_strict_total_order",
    "C08_max_abs_component"
   ],
   "note": ""
  },
  {
   "property": "C09",
   "status": "proved",
   "theorems": [
    "C09_inverse",
    "C09_concat",
    "C09_isometry",
    "C09_xform_matrix",
    "C09_from_to",
    "C09_concat_inverse"
   ],
   "note": ""
  },
  {
   "property": "C10",
   "status": "proved",
   "theorems": [
    "C10_star",
    "C10_axis_rotations",
    "C10_Ru_matrix_eq_quaternion",
    "C10_Ru_rotation",
    "C10_Ru_add",
    "C10_axis_special",
    "C10_ortonormalize",
    "C10_ortonormalize_mutates_argument",
    "C10_angle_roundtrip"
   ],
   "note": "ortonormalize also overwrites its argument (C10_ortonormalize_mutates_argument)."
  },
  {
   "property": "C11",
   "status": "proved",
   "theorems": [
    "C11_euler_correct",
    "C11_euler_from_quaternion",
    "C11_euler_ranges"
   ],
   "note": "Both gimbal branches included."
  },
  {
   "property": "C12",
   "status": "partial",
   "theorems": [
    "C12_reparameterization",
    "C12_exp_exact",
    "C12_exp_taylor",
    "C12_log_exp",
    "C12_exp_log_partial",
    "C12_log_half_turn_fails",
    "C12_log_exp_pi_fails",
    "C12_log_identity_raises"
   ],
   "note": "exp, reparameterization and log(exp v)=v in full; exp(log q) fails at half turns and log raises at the identity, proved as such; positive part C12_exp_log_partial."
  },
  {
   "property": "C13",
   "status": "proved",
   "theorems": [
    "C13_power_table",
    "C13_power_table_negative",
    "C13_evaluate",
    "C13_derivative",
    "C13_interpolate"
   ],
   "note": "The code supports two variables only; stated for every order."
  },
  {
   "property": "C14",
   "status": "proved",
   "theorems": [
    "C14_heap_refines_priority_queue",
    "C14_pop_count",
    "C14_consecutive_pops_sorted"
   ],
   "note": ""
  },
  {
   "property": "C15",
   "status": "proved",
   "theorems": [
    "C15_timer",
    "C15_timer_monotone"
   ],
   "note": ""
  },
  {
   "property": "C16",
   "status": "proved",
   "theorems": [
    "C16_smallest_box",
    "C16_empty_raises",
    "C16_overlap_iff",
    "C16_no_false_negative"
   ],
   "note": ""
  },
  {
   "property": "C17",
   "status": "proved",
   "theorems": [
    "C17_convex",
    "C17_make",
    "C17_make_unsupported",
    "C17_make_contains_hull",
    "C17_union",
    "C17_overlap",
    "C17_overlap_exact_boxes"
   ],
   "note": ""
  },
  {
   "property": "C18",
   "status": "proved",
   "theorems": [
    "C18_make_bvh",
    "C18_zero_chunk_size"
   ],
   "note": ""
  },
  {
   "property": "C19",
   "status": "proved",
   "theorems": [
    "C19_refit"
   ],
   "note": ""
  },
  {
   "property": "C20",
   "status": "proved",
   "theorems": [
    "C20_traversal",
    "C20_no_missed_pair",
    "C20_mismatch"
   ],
   "note": ""
  },
  {
   "property": "C21",
   "status": "partial",
   "theorems": [
    "C21_insert_returns",
    "C21_reports_same_stamp",
    "C21_no_stale_partial",
    "C21_first_insert_reports_stale",
    "C21_insert_frame",
    "C21_hash_spreads",
    "C21_hash_not_perfect",
    "C21_hash_range"
   ],
   "note": "insert's result is characterised for every history; the property fails for the first insertion into a bucket after the time stamp moved on (C21_first_insert_reports_stale)."
  },
  {
   "property": "C22",
   "status": "proved",
   "theorems": [
    "C22_no_missed_pair",
    "C22_bad_cell_size",
    "C22_history",
    "C22_no_false_pair_fresh",
    "C22_stale_pair_reported"
   ],
   "note": "Completeness for every history. The converse holds on a fresh grid only (C22_stale_pair_reported)."
  },
  {
   "property": "C23",
   "status": "proved",
   "theorems": [
    "C23_constructor",
    "C23_linear_index_bijective",
    "C23_valid_index",
    "C23_eval_on_grid"
   ],
   "note": ""
  },
  {
   "property": "C24",
   "status": "proved",
   "theorems": [
    "C24_trilinear",
    "C24_nodes",
    "C24_multilinear_exact",
    "C24_bounds",
    "C24_total",
    "C24_is_inside"
   ],
   "note": ""
  },
  {
   "property": "C25",
   "status": "partial",
   "theorems": [
    "C25_gradient_affine_partial",
    "C25_gradient_wrong",
    "C25_zero_corner"
   ],
   "note": "get_gradient divides local coordinates by min_coord, so the property fails (C25_gradient_wrong); exact for affine fields. With a zero corner coordinate the division is undefined (C25_zero_corner)."
  },
  {
   "property": "C26",
   "status": "proved",
   "theorems": [
    "C26_edge",
    "C26_triangle",
    "C26_tetrahedron",
    "C26_degenerate",
    "C26_derivatives"
   ],
   "note": ""
  },
  {
   "property": "C27",
   "status": "partial",
   "theorems": [
    "C27_samples",
    "C27_interior_returns_faces",
    "C27_interior_wrong"
   ],
   "note": "generate_sample_points proved in full. generate_interior_sample_points keeps rows with three nonzero weights, so its claim fails for every N: C27_interior_returns_faces, C27_interior_wrong."
  },
  {
   "property": "C28",
   "status": "proved",
   "theorems": [
    "C28_volume_alternating",
    "C28_volume_zero_iff",
    "C28_circumscribed",
    "C28_inscribed"
   ],
   "note": ""
  },
  {
   "property": "C29",
   "status": "proved",
   "theorems": [
    "C29_shape",
    "C29_cell_volumes",
    "C29_create_beam",
    "C29_from_grid3d",
    "C29_cell_covered",
    "C29_no_overlap",
    "C29_conforming",
    "C29_nodup"
   ],
   "note": ""
  },
  {
   "property": "C30",
   "status": "partial",
   "theorems": [
    "C30_structure",
    "C30_volumes",
    "C30_orientation_wrong",
    "C30_covered"
   ],
   "note": "Everything except orientation: the child written first into the appended rows is inverted on every mesh (C30_volumes, C30_orientation_wrong); absolute volumes sum and the children fill the parent."
  },
  {
   "property": "C31",
   "status": "proved",
   "theorems": [
    "C31_nonoverlapping",
    "C31_cube_mesh",
    "C31_beam_surface",
    "C31_surface_volume",
    "C31_neighbors",
    "C31_surface",
    "C31_surface_closed"
   ],
   "note": "Neighbour lookup, surface extraction (exact unshared faces, outward, in order) and closedness of the surface, for every mesh in which a face has at most two sides; shown to hold for every mesh of non-overlapping positive tetrahedra and hence for every cube mesh."
  },
  {
   "property": "C32",
   "status": "proved",
   "theorems": [
    "C32_axis_sort",
    "C32_bad_index"
   ],
   "note": "any row length; rows keep their corner points in order"
  },
  {
   "property": "C33",
   "status": "proved",
   "theorems": [
    "C33_sweep_raises",
    "C33_sweep_closed",
    "C33_torus_closed",
    "C33_torus_two_slices",
    "C33_box_closed",
    "C33_cuboid_closed",
    "C33_cone",
    "C33_conical",
    "C33_cylinder",
    "C33_sphere",
    "C33_ellipsoid",
    "C33_capsule",
    "C33_torus_points",
    "C33_box",
    "C33_cuboid_volume",
    "C33_round_raises",
    "C33_torus_volume",
    "C33_torus_solid",
    "C33_sweep_volume"
   ],
   "note": "closedness, positions and volumes of all generators; torus needs >=3 segments and slices (counterexample for two slices proved)"
  },
  {
   "property": "C34",
   "status": "proved",
   "theorems": [
    "C34_prox_sphere_projects",
    "C34_prox_sphere_basic",
    "C34_prox_sphere_nonexpansive",
    "C34_prox_origin"
   ],
   "note": "Both copies of prox_sphere (proximal_contact and prox_rigid_bodies) have the same body; real arithmetic."
  },
  {
   "property": "C35",
   "status": "proved",
   "theorems": [
    "C35_special_cases",
    "C35_zero_coefficient",
    "C35_prox_ellipsoid",
    "C35_may_stay_outside"
   ],
   "note": "Full accuracy theorem; C35_may_stay_outside records that the result can lie outside the ellipsoid by less than the tolerance."
  },
  {
   "property": "C36",
   "status": "proved",
   "theorems": [
    "C36_gauss_seidel",
    "C36_parallel_gauss_seidel",
    "C36_jacobi_hybrid",
    "C36_jacobi_infeasible",
    "C36_jacobi_weak",
    "C36_rigid_contacts",
    "C36_post_stabilization"
   ],
   "note": "Holds for four solvers; C36_jacobi_infeasible refutes it for ParallelJacobiSolver (C36_jacobi_weak is what remains)."
  },
  {
   "property": "C37",
   "status": "proved",
   "theorems": [
    "C37_rigid_step",
    "C37_rigid_solve",
    "C37_single_problem_stops",
    "C37_solve_history",
    "C37_invariant"
   ],
   "note": "solver_interface.solve and the multi-problem solve of prox_rigid_bodies; abstract sweep."
  },
  {
   "property": "C38",
   "status": "proved",
   "theorems": [
    "C38_parallel_velocity",
    "C38_parallel_exact_if",
    "C38_parallel_stale",
    "C38_velocity_consistent",
    "C38_sweep_exact",
    "C38_block_local"
   ],
   "note": "C38_parallel_stale: the parallel solver uses a stale velocity on a three-contact chain."
  },
  {
   "property": "C39",
   "status": "proved",
   "theorems": [
    "C39_rigid_graph",
    "C39_soft_graph",
    "C39_other_type",
    "C39_greedy_groups",
    "C39_random_groups",
    "C39_graphs_loopless",
    "C39_chain_groups",
    "C39_rigid_groups_decoupled",
    "C39_schedule_irrelevant",
    "C39_parallel_group"
   ],
   "note": "networkx greedy_color modelled by its documented algorithm; random choices and set enumeration order are parameters."
  },
  {
   "property": "C40",
   "status": "proved",
   "theorems": [
    "C40_equilibrium",
    "C40_stabilization",
    "C40_coefficients",
    "C40_decoupled",
    "C40_largest_penetration",
    "C40_contact_velocity",
    "C40_contact_force",
    "C40_action_reaction",
    "C40_contact_point"
   ],
   "note": "Extended with equilibrium conditions (impact law, friction), decoupling and coefficient lookup."
  },
  {
   "property": "C41",
   "status": "proved",
   "theorems": [
    "C41_hinge_velocity",
    "C41_hinge_kernel",
    "C41_hinge_force",
    "C41_action_reaction",
    "C41_hinge_solved",
    "C41_prestabilization_diverges",
    "C41_set_hinge"
   ],
   "note": "C41_prestabilization_diverges is a finding: the hinge pre-stabilization term has the wrong sign."
  },
  {
   "property": "C42",
   "status": "proved",
   "theorems": [
    "C42_interactions",
    "C42_default",
    "C42_nonneg"
   ],
   "note": ""
  },
  {
   "property": "C43",
   "status": "proved",
   "theorems": [
    "C43_history",
    "C43_raises",
    "C43_world"
   ],
   "note": "Shape mass properties and collision data structures are arguments of the modelled calls."
  },
  {
   "property": "C44",
   "status": "proved",
   "theorems": [
    "C44_set_position",
    "C44_set_orientation",
    "C44_get_set"
   ],
   "note": ""
  },
  {
   "property": "C45",
   "status": "proved",
   "theorems": [
    "C45_simulate",
    "C45_simulate_invalid",
    "C45_simulate_history"
   ],
   "note": "Exact real arithmetic; in floating point T_left reaches exactly 0 as well because the last dt equals T_left."
  },
  {
   "property": "C46",
   "status": "proved",
   "theorems": [
    "C46_round_trip",
    "C46_only_state",
    "C46_mass_required",
    "C46_inertia_tensor",
    "C46_inertia_inverse"
   ],
   "note": ""
  },
  {
   "property": "C47",
   "status": "proved",
   "theorems": [
    "C47_history",
    "C47_fixed"
   ],
   "note": ""
  },
  {
   "property": "C48",
   "status": "proved",
   "theorems": [
    "C48_unit_history",
    "C48_frame",
    "C48_unit",
    "C48_newton_euler",
    "C48_free_flight"
   ],
   "note": ""
  },
  {
   "property": "C49",
   "status": "proved",
   "theorems": [
    "C49_parallel_axis",
    "C49_principal_axes",
    "C49_xform",
    "C49_world_inertia_posDef"
   ],
   "note": "Parallel-axis translation gives the centroidal integrals; principal axes: unit quaternion with R diag(I) R^T = A, moments descending, under the stated contract for np.linalg.eig (orthonormal eigenvectors; numpy does not promise this for repeated eigenvalues); world inertia positive definite (inverse: C46_inertia_inverse)."
  },
  {
   "property": "C50",
   "status": "proved",
   "theorems": [
    "C50_reduction",
    "C50_idempotent",
    "C50_soft_reduction",
    "C50_soft_idempotent"
   ],
   "note": "rigid bodies"
  },
  {
   "property": "C51",
   "status": "proved",
   "theorems": [
    "C51_step",
    "C51_in_triangle"
   ],
   "note": "rigid bodies"
  },
  {
   "property": "C52",
   "status": "partial",
   "theorems": [
    "C52_forces_sum_zero",
    "C52_no_torque",
    "C52_rigid_gradient",
    "C52_rotation_stress_free",
    "C52_rigid_no_force",
    "C52_frame_indifference",
    "C52_cor_always_fails"
   ],
   "note": "Sum-zero for any material; no torque, stress free rest/rotations, frame indifference for SVK and SNH. COR (the default material) always raises, so its part of the claim is refuted by C52_cor_always_fails."
  },
  {
   "property": "C53",
   "status": "partial",
   "theorems": [
    "C53_svk_stress_is_gradient",
    "C53_snh_gradient_partial",
    "C53_snh_not_gradient",
    "C53_svk_force_is_gradient",
    "C53_svk_energy_nonneg"
   ],
   "note": "Holds for SVK (stress and whole-body forces). Fails for SNH (log2 in the energy): exact gradient given and the mismatch proved. COR always raises (C52_cor_always_fails)."
  },
  {
   "property": "C54",
   "status": "partial",
   "theorems": [
    "C54_element_mass",
    "C54_volume_pos",
    "C54_total_gravity",
    "C54_gravity_is_weight",
    "C54_mass_symmetric",
    "C54_mass_positive",
    "C54_damping_dissipates",
    "C54_traction_total_partial",
    "C54_traction_not_full",
    "C54_kinetic_energy",
    "C54_potential_energy"
   ],
   "note": "Mass, gravity, damping, energies proved; the total traction force is proved to be half of area times load (finding)."
  },
  {
   "property": "C55",
   "status": "proved",
   "theorems": [
    "C55_assembly",
    "C55_coo_unique",
    "C55_product",
    "C55_product_flat",
    "C55_dirichlet",
    "C55_dirichlet_simulate",
    "C55_global_mass"
   ],
   "note": "Assembly, COO, CSR and matrix-free products agree."
  },
  {
   "property": "C56",
   "status": "proved",
   "theorems": [
    "C56_chains",
    "C56_tree",
    "C56_success",
    "C56_new_bone",
    "C56_euler_codes"
   ],
   "note": "Every skeleton built by any history of create_root, add_bone, set_joint_angles, set_angle and update_skeleton is a tree (parents first, children lists exact); success conditions; make_chains = unique root-to-leaf paths, covering every bone."
  },
  {
   "property": "C57",
   "status": "proved",
   "theorems": [
    "C57_update",
    "C57_unique",
    "C57_success",
    "C57_rigid"
   ],
   "note": "update_skeleton = forward kinematics, changes poses only, result independent of stale poses, succeeds iff a root exists and no path exceeds the recursion limit; unit orientations and bone lengths."
  },
  {
   "property": "C58",
   "status": "proved",
   "theorems": [
    "C58_get",
    "C58_set",
    "C58_get_set",
    "C58_angle"
   ],
   "note": "get/set_joint_angles and get/set_angle read and write exactly the angles; round trips both ways; success conditions."
  },
  {
   "property": "C59",
   "status": "proved",
   "theorems": [
    "C59_objective",
    "C59_gradient",
    "C59_motion",
    "C59_jacobian"
   ],
   "note": "Jacobian, gradient and objective of inverse kinematics: derivatives of what set_angle + update_skeleton do."
  },
  {
   "property": "C60",
   "status": "partial",
   "theorems": [
    "C60_decides",
    "C60_blind",
    "C60_self_collision_partial",
    "C60_share_vertex_wrong",
    "C60_intersection_false_negative",
    "C60_intersection_false_positive"
   ],
   "note": "The property fails: proved counterexamples for the common-vertex test, a missed intersection and a false alarm; C60_decides says exactly what the intersection test decides (a sign error in one barycentric coordinate), C60_blind that it answers no for every pair where the first edge of the first triangle pierces the second triangle; positive part C60_self_collision_partial."
  },
  {
   "property": "C61",
   "status": "proved",
   "theorems": [
    "C61_circulator"
   ],
   "note": ""
  },
  {
   "property": "C62",
   "status": "proved",
   "theorems": [
    "C62_to_triangles",
    "C62_to_tetrahedrons"
   ],
   "note": ""
  },
  {
   "property": "C63",
   "status": "proved",
   "theorems": [
    "C63_translate",
    "C63_rotate",
    "C63_scale",
    "C63_aabb",
    "C63_scale_to_unit"
   ],
   "note": ""
  },
  {
   "property": "C64",
   "status": "proved",
   "theorems": [
    "C64_convex_hull"
   ],
   "note": "scipy.spatial.ConvexHull by contract"
  },
  {
   "property": "C65",
   "status": "proved",
   "theorems": [
    "C65_simulate",
    "C65_centre_of_mass",
    "C65_centre_falls",
    "C65_full_simulate",
    "C65_linear_momentum",
    "C65_angular_momentum"
   ],
   "note": ""
  },
  {
   "property": "C66",
   "status": "proved",
   "theorems": [
    "C66_step_raises"
   ],
   "note": "Collision detection is a parameter of the step."
  },
  {
   "property": "C67",
   "status": "proved",
   "theorems": [
    "C67_energy",
    "C67_kinetic_nonneg",
    "C67_potential",
    "C67_unconnected_gravity"
   ],
   "note": "C67_unconnected_gravity is a finding."
  },
  {
   "property": "C68",
   "status": "proved",
   "theorems": [
    "C68_mass_integrals",
    "C68_rejects_volume",
    "C68_rejects_degenerate"
   ],
   "note": "Integrals are defined as iterated interval integrals over the signed tetrahedra (origin, triangle); exact real arithmetic."
  },
  {
   "property": "C69",
   "status": "proved",
   "theorems": [
    "C69_sound",
    "C69_small_box",
    "C69_complete"
   ],
   "note": ""
  },
  {
   "property": "C71",
   "status": "proved",
   "theorems": [
    "C71_history"
   ],
   "note": "for all histories of API calls"
  },
  {
   "property": "C73",
   "status": "proved",
   "theorems": [
    "C73_frame",
    "C73_relative_velocity",
    "C73_nodal_impulse",
    "C73_action_reaction",
    "C73_moment"
   ],
   "note": ""
  },
  {
   "property": "C72",
   "status": "proved",
   "theorems": [
    "C72_momentum",
    "C72_angular_momentum",
    "C72_contacts_conserve",
    "C72_node_mass",
    "C72_invertible",
    "C72_newton",
    "C72_free_fall"
   ],
   "note": ""
  },
  {
   "property": "C74",
   "status": "proved",
   "theorems": [
    "C74_dirichlet_selects",
    "C74_traction_selects",
    "C74_put_body",
    "C74_interaction",
    "C74_step_succeeds",
    "C74_late_body",
    "C74_failed_body_poisons",
    "C74_default_material_fails",
    "C74_incompressible_fails",
    "C74_contact_failures",
    "C74_fixed_moves",
    "C74_stale_density",
    "C74_density_only_material"
   ],
   "note": "set-up calls, success criterion of a step and the set-ups that cannot be simulated"
  },
  {
   "property": "C76",
   "status": "proved",
   "theorems": [
    "C76_free_fall_succeeds",
    "C76_simulate",
    "C76_simulate_invalid",
    "C76_frame",
    "C76_history",
    "C76_free_fall"
   ],
   "note": "step plan, frame of a run, free fall"
  },
  {
   "property": "C75",
   "status": "proved",
   "theorems": [
    "C75_kinetic",
    "C75_potential",
    "C75_elastic",
    "C75_free_fall"
   ],
   "note": "engine totals, signs, energy balance in free fall"
  },
  {
   "property": "C77",
   "status": "partial",
   "theorems": [
    "C77_second_symmetric",
    "C77_hessian_partial",
    "C77_hessian_wrong"
   ],
   "note": "Second derivatives exist and are symmetric; compute_hessian returns them for the entries listed in C77_hessian_partial. The other entries are wrong in general (the 3x3 block of each pair of bones is transposed): C77_hessian_wrong."
  },
  {
   "property": "C78",
   "status": "proved",
   "theorems": [
    "C78_gradient",
    "C78_hessian",
    "C78_gradient_limit",
    "C78_hessian_limit",
    "C78_stale"
   ],
   "note": "Exact central differences, angles restored, limits; C78_stale: the poses are left at the last evaluation."
  },
  {
   "property": "C70",
   "status": "proved",
   "theorems": [
    "C70_polar",
    "C70_raises",
    "C70_unique",
    "C70_rotation",
    "C70_array",
    "C70_reflection"
   ],
   "note": "relative to the documented contract of np.linalg.eigh; C70_reflection: the docstring claim det R = 1 fails for mirrored matrices"
  },
  {
   "property": "C79",
   "status": "partial",
   "theorems": [
    "C79_dQdv",
    "C79_dvdt",
    "C79_dRdv_partial",
    "C79_dvdt_series",
    "C79_dRdv_wrong",
    "C79_dvdt_series_sign"
   ],
   "note": "dRdv_i has the wrong sign for pi < |v| < 2 pi (C79_dRdv_wrong); proved with the exact sign; the series branch of dvdt (|v| < 1e-6) is proved up to second order, with a wrong sign of the second order term shown in C79_dvdt_series_sign"
  },
  {
   "property": "C80",
   "status": "proved",
   "theorems": [
    "C80_ortonormalize",
    "C80_rotation_fixed",
    "C80_degenerate"
   ],
   "note": "C80_degenerate: for dependent rows no rotation is returned"
  },
  {
   "property": "C81",
   "status": "proved",
   "theorems": [
    "C81_to_angle_axis",
    "C81_to_angle",
    "C81_hat"
   ],
   "note": ""
  },
  {
   "property": "C82",
   "status": "proved",
   "theorems": [
    "C82_sound_bvh",
    "C82_sound_hash",
    "C82_complete_bvh",
    "C82_complete_hash"
   ],
   "note": "Both narrow phases (hierarchies: C82_sound_bvh, C82_complete_bvh; spatial hashing: C82_sound_hash, C82_complete_hash). Completeness is relative to the point the Frank-Wolfe search finds (C51)."
  },
  {
   "property": "C83",
   "status": "partial",
   "theorems": [
    "C83_translated_partial",
    "C83_rotated_wrong"
   ],
   "note": "Proved when the body is only translated (C83_translated_partial); the exact formula the code uses is part of IsSoftContact (PushedNormal). Not proved in general because it is false: D.dot(solve(D0, n)) with edge rows turns the normal the wrong way; C83_rotated_wrong exhibits valid bodies turned by a quarter turn whose reported normal is exactly opposite to the correct one."
  },
  {
   "property": "C84",
   "status": "proved",
   "theorems": [
    "C84_create_mesh",
    "C84_bad_index"
   ],
   "note": "np.linalg.eig by contract (EigSpec)"
  },
  {
   "property": "C85",
   "status": "proved",
   "theorems": [
    "C85_primitives",
    "C85_create_shape",
    "C85_create_shape_succeeds",
    "C85_create_shape_raises"
   ],
   "note": "np.linalg.eig by contract"
  },
  {
   "property": "C86",
   "status": "proved",
   "theorems": [
    "C86_box_stack_succeeds",
    "C86_box_stack"
   ],
   "note": "generated names as an arbitrary stream; success for new names"
  },
  {
   "property": "C87",
   "status": "proved",
   "theorems": [
    "C87_tower_succeeds",
    "C87_tower"
   ],
   "note": "no overlap for calls that return, and success"
  },
  {
   "property": "C88",
   "status": "proved",
   "theorems": [
    "C88_arch",
    "C88_arch_succeeds",
    "C88_arch_raises"
   ],
   "note": "also all raising conditions; no pier stones gives ZeroDivisionError"
  },
  {
   "property": "C89",
   "status": "proved",
   "theorems": [
    "C89_dome",
    "C89_dome_succeeds"
   ],
   "note": "no overlap for calls that return, and success"
  },
  {
   "property": "C90",
   "status": "proved",
   "theorems": [
    "C90_pillar",
    "C90_ground",
    "C90_pillar_succeeds",
    "C90_ground_succeeds"
   ],
   "note": "no overlap for calls that return, and success"
  },
  {
   "property": "C91",
   "status": "proved",
   "theorems": [
    "C91_pantheon",
    "C91_colosseum",
    "C91_pantheon_succeeds",
    "C91_colosseum_succeeds"
   ],
   "note": "no overlap for calls that return, and success"
  },
  {
   "property": "C92",
   "status": "partial",
   "theorems": [
    "C92_built",
    "C92_placement_partial",
    "C92_base_frame",
    "C92_placement_fails",
    "C92_succeeds",
    "C92_cycle_diverges"
   ],
   "note": "Full description for every tree of joints (C92_built, C92_succeeds). The placement claim holds when the base link has its inertial frame at its link frame (C92_placement_partial); otherwise the code uses the base inertial frame as link frame for the children and the robot is assembled wrongly: negation proved in general (C92_base_frame) and on a concrete robot (C92_placement_fails). Cycles make it run for ever (C92_cycle_diverges)."
  },
  {
   "property": "C93",
   "status": "partial",
   "theorems": [
    "C93_frame_rigid",
    "C93_frame",
    "C93_frame_short",
    "C93_parse_rigid",
    "C93_scale_ignored",
    "C93_no_inertial",
    "C93_unknown_link",
    "C93_no_root",
    "C93_frame_reads",
    "C93_inertial",
    "C93_joint",
    "C93_mesh_file",
    "C93_link"
   ],
   "note": "Frames, masses, principal moments, joints and links proved as read (C93_frame, C93_frame_reads, C93_inertial, C93_joint, C93_link, ...). The code drops the mesh scale and the products of inertia: C93_scale_ignored shows that two files differing only in these give the same engine."
  },
  {
   "property": "C94",
   "status": "proved",
   "theorems": [
    "C94_mass_psd",
    "C94_diagonal_pos",
    "C94_touches_nothing",
    "C94_equilibrium",
    "C94_decoupled_exact"
   ],
   "note": "first-order displacement; exact arithmetic"
  },
  {
   "property": "C95",
   "status": "proved",
   "theorems": [
    "C95_centroid_in_hull",
    "C95_history",
    "C95_scene",
    "C95_box_stack",
    "C95_collider",
    "C95_step",
    "C95_simulate",
    "C95_solid_mesh"
   ],
   "note": ""
  },
  {
   "property": "C96",
   "status": "proved",
   "theorems": [
    "C96_accuracy",
    "C96_contact_gap",
    "C96_create_signed_distance",
    "C96_rejects",
    "C96_shape_field"
   ],
   "note": ""
  },
  {
   "property": "C97",
   "status": "partial",
   "theorems": [
    "C97_surface_covered_partial",
    "C97_surface_not_covered",
    "C97_thin_bodies_pass",
    "C97_small_boxes_pass"
   ],
   "note": "the code violates the property for meshes shorter than five units with an envelope below a quarter: C97_surface_not_covered, C97_thin_bodies_pass and C97_small_boxes_pass prove the failure, C97_surface_covered_partial the part that holds"
  },
  {
   "property": "C98",
   "status": "proved",
   "theorems": [
    "C98_create",
    "C98_raises",
    "C98_create_mesh",
    "C98_create_beam"
   ],
   "note": "create_soft_body of the whole soft body simulator"
  },
  {
   "property": "C99",
   "status": "proved",
   "theorems": [
    "C99_gravity",
    "C99_damping",
    "C99_mass",
    "C99_type"
   ],
   "note": "forces and setters of the rigid engine"
  },
  {
   "property": "C100",
   "status": "proved",
   "theorems": [
    "C100_step",
    "C100_simulate",
    "C100_stepper",
    "C100_empty",
    "C100_add",
    "C100_add_beam",
    "C100_friction",
    "C100_colours"
   ],
   "note": "C100_step: one step; C100_simulate: the loop; C100_stepper, C100_empty, C100_add, C100_add_beam: the scenes that meet the hypotheses."
  },
  {
   "property": "C101",
   "status": "proved",
   "theorems": [
    "C101_field",
    "C101_sign_level",
    "C101_quadratic",
    "C101_small_gradient",
    "C101_flat",
    "C101_sphere",
    "C101_limit"
   ],
   "note": "C101_sphere shows that the values are twice the mean curvature"
  },
  {
   "property": "C102",
   "status": "proved",
   "theorems": [
    "C102_chain",
    "C102_chain_succeeds",
    "C102_no_links",
    "C102_chain_complete",
    "C102_chain_simulates"
   ],
   "note": "chain of hinged cubes: built as described for every successful run, succeeds for all a > 0, K >= 1, complete, simulates; K = 0 raises IndexError. Real arithmetic."
  },
  {
   "property": "C103",
   "status": "proved",
   "theorems": [
    "C103_lattice_raises",
    "C103_lattice",
    "C103_lattice_cells",
    "C103_lattice_succeeds",
    "C103_lattice_complete"
   ],
   "note": "The numpy random stream is an arbitrary function of the cell. Shapes are arbitrary closed meshes stored by create_shape."
  },
  {
   "property": "C104",
   "status": "proved",
   "theorems": [
    "C104_unknown_body",
    "C104_set_velocity",
    "C104_get_coordinates",
    "C104_set_coordinates",
    "C104_coordinates_round_trip",
    "C104_set_type",
    "C104_set_gravity",
    "C104_set_material",
    "C104_create_material",
    "C104_material_parameters",
    "C104_constitutive_model",
    "C104_create_interaction",
    "C104_penetration"
   ],
   "note": "Type tests of arguments (numbers, arrays of length 3) are left out of the model."
  },
  {
   "property": "C105",
   "status": "proved",
   "theorems": [
    "C105_jack_lattice",
    "C105_sandbox",
    "C105_funnel",
    "C105_glasses",
    "C105_poles",
    "C105_rock_slide",
    "C105_raises",
    "C105_succeeds",
    "C105_complete",
    "C105_padding_finding"
   ],
   "note": "findings: padding of 0.9 does not avoid overlap of randomly turned bodies (C105_padding_finding); create_rock_slide returns a nested list"
  },
  {
   "property": "C106",
   "status": "proved",
   "theorems": [
    "C106_chainmail",
    "C106_apart",
    "C106_tight_finding",
    "C106_linked",
    "C106_disjoint",
    "C106_succeeds",
    "C106_simulates"
   ],
   "note": "All counts, radii and stretches; includes the finding that small stretches make rings overlap."
  },
  {
   "property": "C107",
   "status": "proved",
   "theorems": [
    "C107_involute",
    "C107_span",
    "C107_curve",
    "C107_dimensions",
    "C107_delta",
    "C107_profile",
    "C107_thickness",
    "C107_mesh_closed",
    "C107_scene_gears",
    "C107_assembly_raises",
    "C107_assembly_touch",
    "C107_assembly_mesh",
    "C107_solid",
    "C107_volume",
    "C107_volume_pos",
    "C107_gear_train",
    "C107_scene_solid",
    "C107_volume_lower",
    "C107_train_succeeds",
    "C107_train_simulates"
   ],
   "note": "Teeth fit for all the tooth counts the scene uses (C107_scene_gears, C107_scene_solid); the train is always built and simulated (C107_train_succeeds, C107_train_simulates)."
  },
  {
   "property": "C108",
   "status": "partial",
   "theorems": [
    "C108_no_gear_turns",
    "C108_spin"
   ],
   "note": "The code violates it: the negation C108_no_gear_turns is proved for every train. The gears are turned from z-up to y-up, the hinge axis is not (it stays the world z axis)."
  },
  {
   "property": "C109",
   "status": "proved",
   "theorems": [
    "C109_temple",
    "C109_temple_raises",
    "C109_temple_succeeds"
   ],
   "note": "hull library is a parameter constrained by TempleHulls; square pillars and I >= 3 (with I = 2 or with depth < width the code lets bricks overlap)"
  },
  {
   "property": "C110",
   "status": "proved",
   "theorems": [
    "C110_forces",
    "C110_once",
    "C110_unknown",
    "C110_ur5",
    "C110_builds",
    "C110_no_overlap",
    "C110_no_overlap_temple",
    "C110_simulates"
   ],
   "note": "The reading of the UR5 file is an input of the model (an error or an XML tree); log messages are not modelled."
  },
  {
   "property": "C111",
   "status": "proved",
   "theorems": [
    "C111_raises",
    "C111_contents",
    "C111_lossless",
    "C111_scene",
    "C111_hinge",
    "C111_drift_lost"
   ],
   "note": "document level; eight-decimal formatting of numbers is outside the model"
  },
  {
   "property": "C112",
   "status": "partial",
   "theorems": [
    "C112_string_read_back",
    "C112_string_safe",
    "C112_well_formed_partial",
    "C112_not_well_formed",
    "C112_type_error"
   ],
   "note": "holds for all names but those of materials; the code violates it for material names with < & or quotes (C112_not_well_formed, C112_type_error)"
  },
  {
   "property": "C113",
   "status": "proved",
   "theorems": [
    "C113_rotation",
    "C113_array",
    "C113_vector",
    "C113_rand",
    "C113_axis",
    "C113_identity",
    "C113_example"
   ],
   "note": "numerals without leading zeros in fraction or exponent; reals instead of doubles"
  },
  {
   "property": "C114",
   "status": "partial",
   "theorems": [
    "C114_language",
    "C114_reads_partial",
    "C114_misread",
    "C114_trailing",
    "C114_blank",
    "C114_example"
   ],
   "note": "The language without white space is exact (C114_language) and there a result is always what the text denotes up to an exponent fraction (C114_reads_partial). The full claim is false of the code: C114_misread, C114_trailing, C114_blank"
  },
  {
   "property": "C115",
   "status": "partial",
   "theorems": [
    "C115_writable_partial",
    "C115_not_str"
   ],
   "note": "Some text exists for every number (C115_writable_partial); the text str() gives is refused for 1.05 and 1e-05 (C115_not_str), so the full claim is false of the code"
  },
  {
   "property": "C116",
   "status": "partial",
   "theorems": [
    "C116_pca_partial",
    "C116_row_wrong"
   ],
   "note": "PCA proved for all points; direction_of_most_variance returns a row instead of a column: for six concrete points and every lawful eigen-decomposition the returned direction is not of most variance (C116_row_wrong). Points on coordinate axes are unaffected; the direction is only used to sort vertices."
  },
  {
   "property": "C117",
   "status": "partial",
   "theorems": [
    "C117_last_write",
    "C117_between",
    "C117_outside",
    "C117_default",
    "C117_never_unset",
    "C117_others",
    "C117_errors",
    "C117_atomic_partial",
    "C117_not_atomic",
    "C117_pose",
    "C117_save"
   ],
   "note": "Partial only because the code violates it: C117_never_unset (the documented ValueError of get_mesh_positions never comes), C117_not_atomic (update_rigid_body with a bad orientation moves the body, add_mesh without faces replaces the vertices, and both raise). All other clauses are proved for every history."
  },
  {
   "property": "C118",
   "status": "proved",
   "theorems": [
    "C118_film",
    "C118_written",
    "C118_scene"
   ],
   "note": "C118_film for every session and engine, C118_written that the file is written, C118_scene for the catalogue with the package's engine; which names Pixar's library accepts is a hypothesis."
  },
  {
   "property": "C119",
   "status": "proved",
   "theorems": [
    "C119_sinc"
   ],
   "note": "exact real arithmetic; the remainder bound of the sine series is proved from Mathlib"
  },
  {
   "property": "C120",
   "status": "proved",
   "theorems": [
    "C120_materials",
    "C120_names",
    "C120_cauchy",
    "C120_objective"
   ],
   "note": "stacks of equal length; a zero determinant is an error here, where numpy warns and returns infinities"
  },
  {
   "property": "C121",
   "status": "partial",
   "theorems": [
    "C121_text_partial",
    "C121_leading_minus_lost",
    "C121_text_wrong"
   ],
   "note": "the code violates it: a leading minus sign is dropped (C121_leading_minus_lost, C121_text_wrong); proved for polynomials whose first nonzero coefficient is positive"
  },
  {
   "property": "C122",
   "status": "proved",
   "theorems": [
    "C122_unique",
    "C122_identifier"
   ],
   "note": "the texts of random numbers and of date and time are described by their formats (NumberText, ClockText)"
  },
  {
   "property": "C123",
   "status": "proved",
   "theorems": [
    "C123_pins",
    "C123_loads",
    "C123_hanging_beam",
    "C123_midpoint_traction",
    "C123_frames",
    "C123_simulate",
    "C123_film",
    "C123_errors",
    "C123_bad_time_step",
    "C123_time_step_ignored",
    "C123_material",
    "C123_viscosity_ignored",
    "C123_material_not_atomic",
    "C123_damping",
    "C123_outcome",
    "C123_body",
    "C123_soft_sheet"
   ],
   "note": "SoftBodyApplication: frames, film, scene building, both beam scripts; findings: constructor time step and viscosity ignored, refused material stays, midpoint load acts everywhere"
  },
  {
   "property": "C124",
   "status": "proved",
   "theorems": [
    "C124_simulate",
    "C124_no_steps",
    "C124_main",
    "C124_scene",
    "C124_scene_twice"
   ],
   "note": "rigid_bodies_app_cmd.py; plotting and printing left out; contracts: EigSpec for the eigen solver, OnePerNode for the signed distance function"
  },
  {
   "property": "C125",
   "status": "proved",
   "theorems": [
    "C125_reach",
    "C125_unreachable",
    "C125_attained",
    "C125_straight",
    "C125_tree",
    "C125_demo"
   ],
   "note": "reach bound (upper and lower), sharpness in every direction for all Euler codes, goals out of reach, straight arms, small methods, demo"
  },
  {
   "property": "C126",
   "status": "proved",
   "theorems": [
    "C126_unchanged",
    "C126_log",
    "C126_off",
    "C126_total",
    "C126_history",
    "C126_main"
   ],
   "note": "Timings are left out; the log after an exception is left out."
  },
  {
   "property": "C127",
   "status": "partial",
   "theorems": [
    "C127_off",
    "C127_log",
    "C127_outcome",
    "C127_first",
    "C127_changes",
    "C127_changes_cube"
   ],
   "note": "The records describe every step of every run (C127_log), and without debug_on nothing changes (C127_off). The rest of the property is false of the code: with debug_on the elastic energy is computed after the step, and a run whose last step leaves a free tetrahedron flat or inverted raises RuntimeError although it returns without debug_on (C127_outcome says exactly when; C127_changes and C127_changes_cube show such runs from legal calls); the first record has no step data (C127_first)."
  },
  {
   "property": "C128",
   "status": "proved",
   "theorems": [
    "C128_scene",
    "C128_behind",
    "C128_view",
    "C128_unchanged",
    "C128_no_mesh"
   ],
   "note": "C128_view: the screen after every session; C128_unchanged: the viewer changes nothing else; C128_scene: with the package's engine and every scene of the catalogue (except ur5); C128_behind: a session after which the shown pose differs from the engine's."
  },
  {
   "property": "C129",
   "status": "partial",
   "theorems": [
    "C129_gui_partial",
    "C129_first_lost",
    "C129_no_engine",
    "C129_colours",
    "C129_cmd"
   ],
   "note": "Energies and convergence lines are shown for every step (C129_gui_partial, C129_cmd, C129_colours); the property fails for the profiling data, which skip the first step and are shifted by one (C129_first_lost). The timings and the overlaps are not modelled. C129_no_engine: without a scene the program ends with an AttributeError."
  },
  {
   "property": "C130",
   "status": "partial",
   "theorems": [
    "C130_equal_partial",
    "C130_never_false",
    "C130_not_symmetric",
    "C130_not_equal",
    "C130_random_size",
    "C130_limits_ignored"
   ],
   "note": "True exactly when all entries are close, but AssertionError instead of False (C130_equal_partial, C130_never_false); not symmetric; is_array_not_equal exact; random arrays have the size asked for but ignore the limits: no entry is ever within the default ones (C130_limits_ignored)."
  },
  {
   "property": "C131",
   "status": "proved",
   "theorems": [
    "C131_step",
    "C131_simulate",
    "C131_collision_detection",
    "C131_full_step",
    "C131_full_simulate",
    "C131_contacts",
    "C131_from_start"
   ],
   "note": "step and simulate for every collision detection that commutes with the move (C131_step, C131_simulate), the own collision detection and the whole simulator (C131_collision_detection, C131_full_step, C131_full_simulate), and from the start with the hierarchies connect_shape makes (C131_contacts, C131_from_start)"
  },
  {
   "property": "C132",
   "status": "proved",
   "theorems": [
    "C132_split",
    "C132_resume",
    "C132_checkpoint",
    "C132_scene",
    "C132_soft_split"
   ],
   "note": "C132_split, C132_resume, C132_checkpoint for the whole rigid body simulator; C132_scene: the hypothesis on hierarchies holds for every scene set up with create_shape and connect_shape; C132_soft_split: the soft body simulator"
  },
  {
   "property": "C133",
   "status": "proved",
   "theorems": [
    "C133_step",
    "C133_full_step",
    "C133_full_simulate",
    "C133_simulate",
    "C133_fixed_body"
   ],
   "note": "exact equality in the real-number model, for worlds without fixed bodies and damping (with them the property is false physically); step, simulate, and both with the own collision detection"
  }
 ]
}