{
 "C01": [
  "proved",
  ""
 ],
 "C02": [
  "proved",
  ""
 ],
 "C03": [
  "proved",
  ""
 ],
 "C04": [
  "proved",
  ""
 ],
 "C05": [
  "proved",
  ""
 ],
 "C06": [
  "partial",
  "Unit, clamping and end points hold in full. The short-way part fails in the near-linear branch (C06_slerp_short_way_fails); constant speed and sign-independence proved outside it."
 ],
 "C07": [
  "proved",
  ""
 ],
 "C08": [
  "proved",
  ""
 ],
 "C09": [
  "proved",
  ""
 ],
 "C10": [
  "proved",
  "ortonormalize also overwrites its argument (C10_ortonormalize_mutates_argument)."
 ],
 "C100": [
  "proved",
  "C100_step: one step; C100_simulate: the loop; C100_stepper, C100_empty, C100_add, C100_add_beam: the scenes that meet the hypotheses."
 ],
 "C101": [
  "proved",
  "C101_sphere shows that the values are twice the mean curvature"
 ],
 "C102": [
  "proved",
  "chain of hinged cubes: built as described for every successful run, succeeds for all a > 0, K >= 1, complete, simulates; K = 0 raises IndexError. Real arithmetic."
 ],
 "C103": [
  "proved",
  "The numpy random stream is an arbitrary function of the cell. Shapes are arbitrary closed meshes stored by create_shape."
 ],
 "C104": [
  "proved",
  "Type tests of arguments (numbers, arrays of length 3) are left out of the model."
 ],
 "C105": [
  "proved",
  "findings: padding of 0.9 does not avoid overlap of randomly turned bodies (C105_padding_finding); create_rock_slide returns a nested list"
 ],
 "C106": [
  "proved",
  "All counts, radii and stretches; includes the finding that small stretches make rings overlap."
 ],
 "C107": [
  "proved",
  "Teeth fit for all the tooth counts the scene uses (C107_scene_gears, C107_scene_solid); the train is always built and simulated (C107_train_succeeds, C107_train_simulates)."
 ],
 "C108": [
  "partial",
  "The code violates it: the negation C108_no_gear_turns is proved for every train. The gears are turned from z-up to y-up, the hinge axis is not (it stays the world z axis)."
 ],
 "C109": [
  "proved",
  "hull library is a parameter constrained by TempleHulls; square pillars and I >= 3 (with I = 2 or with depth < width the code lets bricks overlap)"
 ],
 "C11": [
  "proved",
  "Both gimbal branches included."
 ],
 "C110": [
  "proved",
  "The reading of the UR5 file is an input of the model (an error or an XML tree); log messages are not modelled."
 ],
 "C111": [
  "proved",
  "document level; eight-decimal formatting of numbers is outside the model"
 ],
 "C112": [
  "partial",
  "holds for all names but those of materials; the code violates it for material names with < & or quotes (C112_not_well_formed, C112_type_error)"
 ],
 "C113": [
  "proved",
  "numerals without leading zeros in fraction or exponent; reals instead of doubles"
 ],
 "C114": [
  "partial",
  "The language without white space is exact (C114_language) and there a result is always what the text denotes up to an exponent fraction (C114_reads_partial). The full claim is false of the code: C114_misread, C114_trailing, C114_blank"
 ],
 "C115": [
  "partial",
  "Some text exists for every number (C115_writable_partial); the text str() gives is refused for 1.05 and 1e-05 (C115_not_str), so the full claim is false of the code"
 ],
 "C116": [
  "partial",
  "PCA proved for all points; direction_of_most_variance returns a row instead of a column: for six concrete points and every lawful eigen-decomposition the returned direction is not of most variance (C116_row_wrong). Points on coordinate axes are unaffected; the direction is only used to sort vertices."
 ],
 "C117": [
  "partial",
  "Partial only because the code violates it: C117_never_unset (the documented ValueError of get_mesh_positions never comes), C117_not_atomic (update_rigid_body with a bad orientation moves the body, add_mesh without faces replaces the vertices, and both raise). All other clauses are proved for every history."
 ],
 "C118": [
  "proved",
  "C118_film for every session and engine, C118_written that the file is written, C118_scene for the catalogue with the package's engine; which names Pixar's library accepts is a hypothesis."
 ],
 "C119": [
  "proved",
  "exact real arithmetic; the remainder bound of the sine series is proved from Mathlib"
 ],
 "C12": [
  "partial",
  "exp, reparameterization and log(exp v)=v in full; exp(log q) fails at half turns and log raises at the identity, proved as such; positive part C12_exp_log_partial."
 ],
 "C120": [
  "proved",
  "stacks of equal length; a zero determinant is an error here, where numpy warns and returns infinities"
 ],
 "C121": [
  "partial",
  "the code violates it: a leading minus sign is dropped (C121_leading_minus_lost, C121_text_wrong); proved for polynomials whose first nonzero coefficient is positive"
 ],
 "C122": [
  "proved",
  "the texts of random numbers and of date and time are described by their formats (NumberText, ClockText)"
 ],
 "C123": [
  "proved",
  "SoftBodyApplication: frames, film, scene building, both beam scripts; findings: constructor time step and viscosity ignored, refused material stays, midpoint load acts everywhere"
 ],
 "C124": [
  "proved",
  "rigid_bodies_app_cmd.py; plotting and printing left out; contracts: EigSpec for the eigen solver, OnePerNode for the signed distance function"
 ],
 "C125": [
  "proved",
  "reach bound (upper and lower), sharpness in every direction for all Euler codes, goals out of reach, straight arms, small methods, demo"
 ],
 "C126": [
  "proved",
  "Timings are left out; the log after an exception is left out."
 ],
 "C127": [
  "partial",
  "The records describe every step of every run (C127_log), and without debug_on nothing changes (C127_off). The rest of the property is false of the code: with debug_on the elastic energy is computed after the step, and a run whose last step leaves a free tetrahedron flat or inverted raises RuntimeError although it returns without debug_on (C127_outcome says exactly when; C127_changes and C127_changes_cube show such runs from legal calls); the first record has no step data (C127_first)."
 ],
 "C128": [
  "proved",
  "C128_view: the screen after every session; C128_unchanged: the viewer changes nothing else; C128_scene: with the package's engine and every scene of the catalogue (except ur5); C128_behind: a session after which the shown pose differs from the engine's."
 ],
 "C129": [
  "partial",
  "Energies and convergence lines are shown for every step (C129_gui_partial, C129_cmd, C129_colours); the property fails for the profiling data, which skip the first step and are shifted by one (C129_first_lost). The timings and the overlaps are not modelled. C129_no_engine: without a scene the program ends with an AttributeError."
 ],
 "C13": [
  "proved",
  "The code supports two variables only; stated for every order."
 ],
 "C130": [
  "partial",
  "True exactly when all entries are close, but AssertionError instead of False (C130_equal_partial, C130_never_false); not symmetric; is_array_not_equal exact; random arrays have the size asked for but ignore the limits: no entry is ever within the default ones (C130_limits_ignored)."
 ],
 "C131": [
  "proved",
  "step and simulate for every collision detection that commutes with the move (C131_step, C131_simulate), the own collision detection and the whole simulator (C131_collision_detection, C131_full_step, C131_full_simulate), and from the start with the hierarchies connect_shape makes (C131_contacts, C131_from_start)"
 ],
 "C132": [
  "proved",
  "C132_split, C132_resume, C132_checkpoint for the whole rigid body simulator; C132_scene: the hypothesis on hierarchies holds for every scene set up with create_shape and connect_shape; C132_soft_split: the soft body simulator"
 ],
 "C133": [
  "proved",
  "exact equality in the real-number model, for worlds without fixed bodies and damping (with them the property is false physically); step, simulate, and both with the own collision detection"
 ],
 "C14": [
  "proved",
  ""
 ],
 "C15": [
  "proved",
  ""
 ],
 "C16": [
  "proved",
  ""
 ],
 "C17": [
  "proved",
  ""
 ],
 "C18": [
  "proved",
  ""
 ],
 "C19": [
  "proved",
  ""
 ],
 "C20": [
  "proved",
  ""
 ],
 "C21": [
  "partial",
  "insert's result is characterised for every history; the property fails for the first insertion into a bucket after the time stamp moved on (C21_first_insert_reports_stale)."
 ],
 "C22": [
  "proved",
  "Completeness for every history. The converse holds on a fresh grid only (C22_stale_pair_reported)."
 ],
 "C23": [
  "proved",
  ""
 ],
 "C24": [
  "proved",
  ""
 ],
 "C25": [
  "partial",
  "get_gradient divides local coordinates by min_coord, so the property fails (C25_gradient_wrong); exact for affine fields. With a zero corner coordinate the division is undefined (C25_zero_corner)."
 ],
 "C26": [
  "proved",
  ""
 ],
 "C27": [
  "partial",
  "generate_sample_points proved in full. generate_interior_sample_points keeps rows with three nonzero weights, so its claim fails for every N: C27_interior_returns_faces, C27_interior_wrong."
 ],
 "C28": [
  "proved",
  ""
 ],
 "C29": [
  "proved",
  ""
 ],
 "C30": [
  "partial",
  "Everything except orientation: the child written first into the appended rows is inverted on every mesh (C30_volumes, C30_orientation_wrong); absolute volumes sum and the children fill the parent."
 ],
 "C31": [
  "proved",
  "Neighbour lookup, surface extraction (exact unshared faces, outward, in order) and closedness of the surface, for every mesh in which a face has at most two sides; shown to hold for every mesh of non-overlapping positive tetrahedra and hence for every cube mesh."
 ],
 "C32": [
  "proved",
  "any row length; rows keep their corner points in order"
 ],
 "C33": [
  "proved",
  "closedness, positions and volumes of all generators; torus needs >=3 segments and slices (counterexample for two slices proved)"
 ],
 "C34": [
  "proved",
  "Both copies of prox_sphere (proximal_contact and prox_rigid_bodies) have the same body; real arithmetic."
 ],
 "C35": [
  "proved",
  "Full accuracy theorem; C35_may_stay_outside records that the result can lie outside the ellipsoid by less than the tolerance."
 ],
 "C36": [
  "proved",
  "Holds for four solvers; C36_jacobi_infeasible refutes it for ParallelJacobiSolver (C36_jacobi_weak is what remains)."
 ],
 "C37": [
  "proved",
  "solver_interface.solve and the multi-problem solve of prox_rigid_bodies; abstract sweep."
 ],
 "C38": [
  "proved",
  "C38_parallel_stale: the parallel solver uses a stale velocity on a three-contact chain."
 ],
 "C39": [
  "proved",
  "networkx greedy_color modelled by its documented algorithm; random choices and set enumeration order are parameters."
 ],
 "C40": [
  "proved",
  "Extended with equilibrium conditions (impact law, friction), decoupling and coefficient lookup."
 ],
 "C41": [
  "proved",
  "C41_prestabilization_diverges is a finding: the hinge pre-stabilization term has the wrong sign."
 ],
 "C42": [
  "proved",
  ""
 ],
 "C43": [
  "proved",
  "Shape mass properties and collision data structures are arguments of the modelled calls."
 ],
 "C44": [
  "proved",
  ""
 ],
 "C45": [
  "proved",
  "Exact real arithmetic; in floating point T_left reaches exactly 0 as well because the last dt equals T_left."
 ],
 "C46": [
  "proved",
  ""
 ],
 "C47": [
  "proved",
  ""
 ],
 "C48": [
  "proved",
  ""
 ],
 "C49": [
  "proved",
  "Parallel-axis translation gives the centroidal integrals; principal axes: unit quaternion with R diag(I) R^T = A, moments descending, under the stated contract for np.linalg.eig (orthonormal eigenvectors; numpy does not promise this for repeated eigenvalues); world inertia positive definite (inverse: C46_inertia_inverse)."
 ],
 "C50": [
  "proved",
  "rigid bodies"
 ],
 "C51": [
  "proved",
  "rigid bodies"
 ],
 "C52": [
  "partial",
  "Sum-zero for any material; no torque, stress free rest/rotations, frame indifference for SVK and SNH. COR (the default material) always raises, so its part of the claim is refuted by C52_cor_always_fails."
 ],
 "C53": [
  "partial",
  "Holds for SVK (stress and whole-body forces). Fails for SNH (log2 in the energy): exact gradient given and the mismatch proved. COR always raises (C52_cor_always_fails)."
 ],
 "C54": [
  "partial",
  "Mass, gravity, damping, energies proved; the total traction force is proved to be half of area times load (finding)."
 ],
 "C55": [
  "proved",
  "Assembly, COO, CSR and matrix-free products agree."
 ],
 "C56": [
  "proved",
  "Every skeleton built by any history of create_root, add_bone, set_joint_angles, set_angle and update_skeleton is a tree (parents first, children lists exact); success conditions; make_chains = unique root-to-leaf paths, covering every bone."
 ],
 "C57": [
  "proved",
  "update_skeleton = forward kinematics, changes poses only, result independent of stale poses, succeeds iff a root exists and no path exceeds the recursion limit; unit orientations and bone lengths."
 ],
 "C58": [
  "proved",
  "get/set_joint_angles and get/set_angle read and write exactly the angles; round trips both ways; success conditions."
 ],
 "C59": [
  "proved",
  "Jacobian, gradient and objective of inverse kinematics: derivatives of what set_angle + update_skeleton do."
 ],
 "C60": [
  "partial",
  "The property fails: proved counterexamples for the common-vertex test, a missed intersection and a false alarm; C60_decides says exactly what the intersection test decides (a sign error in one barycentric coordinate), C60_blind that it answers no for every pair where the first edge of the first triangle pierces the second triangle; positive part C60_self_collision_partial."
 ],
 "C61": [
  "proved",
  ""
 ],
 "C62": [
  "proved",
  ""
 ],
 "C63": [
  "proved",
  ""
 ],
 "C64": [
  "proved",
  "scipy.spatial.ConvexHull by contract"
 ],
 "C65": [
  "proved",
  ""
 ],
 "C66": [
  "proved",
  "Collision detection is a parameter of the step."
 ],
 "C67": [
  "proved",
  "C67_unconnected_gravity is a finding."
 ],
 "C68": [
  "proved",
  "Integrals are defined as iterated interval integrals over the signed tetrahedra (origin, triangle); exact real arithmetic."
 ],
 "C69": [
  "proved",
  ""
 ],
 "C70": [
  "proved",
  "relative to the documented contract of np.linalg.eigh; C70_reflection: the docstring claim det R = 1 fails for mirrored matrices"
 ],
 "C71": [
  "proved",
  "for all histories of API calls"
 ],
 "C72": [
  "proved",
  ""
 ],
 "C73": [
  "proved",
  ""
 ],
 "C74": [
  "proved",
  "set-up calls, success criterion of a step and the set-ups that cannot be simulated"
 ],
 "C75": [
  "proved",
  "engine totals, signs, energy balance in free fall"
 ],
 "C76": [
  "proved",
  "step plan, frame of a run, free fall"
 ],
 "C77": [
  "partial",
  "Second derivatives exist and are symmetric; compute_hessian returns them for the entries listed in C77_hessian_partial. The other entries are wrong in general (the 3x3 block of each pair of bones is transposed): C77_hessian_wrong."
 ],
 "C78": [
  "proved",
  "Exact central differences, angles restored, limits; C78_stale: the poses are left at the last evaluation."
 ],
 "C79": [
  "partial",
  "dRdv_i has the wrong sign for pi < |v| < 2 pi (C79_dRdv_wrong); proved with the exact sign; the series branch of dvdt (|v| < 1e-6) is proved up to second order, with a wrong sign of the second order term shown in C79_dvdt_series_sign"
 ],
 "C80": [
  "proved",
  "C80_degenerate: for dependent rows no rotation is returned"
 ],
 "C81": [
  "proved",
  ""
 ],
 "C82": [
  "proved",
  "Both narrow phases (hierarchies: C82_sound_bvh, C82_complete_bvh; spatial hashing: C82_sound_hash, C82_complete_hash). Completeness is relative to the point the Frank-Wolfe search finds (C51)."
 ],
 "C83": [
  "partial",
  "Proved when the body is only translated (C83_translated_partial); the exact formula the code uses is part of IsSoftContact (PushedNormal). Not proved in general because it is false: D.dot(solve(D0, n)) with edge rows turns the normal the wrong way; C83_rotated_wrong exhibits valid bodies turned by a quarter turn whose reported normal is exactly opposite to the correct one."
 ],
 "C84": [
  "proved",
  "np.linalg.eig by contract (EigSpec)"
 ],
 "C85": [
  "proved",
  "np.linalg.eig by contract"
 ],
 "C86": [
  "proved",
  "generated names as an arbitrary stream; success for new names"
 ],
 "C87": [
  "proved",
  "no overlap for calls that return, and success"
 ],
 "C88": [
  "proved",
  "also all raising conditions; no pier stones gives ZeroDivisionError"
 ],
 "C89": [
  "proved",
  "no overlap for calls that return, and success"
 ],
 "C90": [
  "proved",
  "no overlap for calls that return, and success"
 ],
 "C91": [
  "proved",
  "no overlap for calls that return, and success"
 ],
 "C92": [
  "partial",
  "Full description for every tree of joints (C92_built, C92_succeeds). The placement claim holds when the base link has its inertial frame at its link frame (C92_placement_partial); otherwise the code uses the base inertial frame as link frame for the children and the robot is assembled wrongly: negation proved in general (C92_base_frame) and on a concrete robot (C92_placement_fails). Cycles make it run for ever (C92_cycle_diverges)."
 ],
 "C93": [
  "partial",
  "Frames, masses, principal moments, joints and links proved as read (C93_frame, C93_frame_reads, C93_inertial, C93_joint, C93_link, ...). The code drops the mesh scale and the products of inertia: C93_scale_ignored shows that two files differing only in these give the same engine."
 ],
 "C94": [
  "proved",
  "first-order displacement; exact arithmetic"
 ],
 "C95": [
  "proved",
  ""
 ],
 "C96": [
  "proved",
  ""
 ],
 "C97": [
  "partial",
  "the code violates the property for meshes shorter than five units with an envelope below a quarter: C97_surface_not_covered, C97_thin_bodies_pass and C97_small_boxes_pass prove the failure, C97_surface_covered_partial the part that holds"
 ],
 "C98": [
  "proved",
  "create_soft_body of the whole soft body simulator"
 ],
 "C99": [
  "proved",
  "forces and setters of the rigid engine"
 ]
}