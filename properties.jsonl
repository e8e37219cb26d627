{"id": "C01", "title": "Quaternion product is Hamilton's product", "statement": "prod is the associative Hamilton product with identity() as two-sided unit; conjugate is an involutive anti-automorphism; the norm is multiplicative, so products of unit quaternions are unit quaternions and conjugate inverts unit quaternions.", "quantifier": "all quaternions (all 4-vectors of reals), not only unit ones", "why_tests_cant": "Algebraic identities over a continuum of inputs; unit tests check a few literal quaternions and a sign error that cancels on axis-aligned inputs would survive.", "anchors": ["rainbow/math/quaternion.py: prod, conjugate, identity, unit"]}
{"id": "C02", "title": "Quaternion rotation is a rigid motion", "statement": "For every unit quaternion q, rotate(q, .) preserves dot products, lengths, distances and cross products (no reflection), fixes the rotation axis, and composes: rotate(prod(a,b), r) = rotate(a, rotate(b, r)); rotate(conjugate(q), .) undoes rotate(q, .).", "quantifier": "all unit quaternions and all vectors", "why_tests_cant": "Needs all quaternions and all vectors; sampling cannot exclude a sign error on a measure-zero subset or a non-commutativity slip.", "anchors": ["rainbow/math/quaternion.py: rotate, prod, conjugate"]}
{"id": "C03", "title": "to_matrix always returns a proper rotation", "statement": "to_matrix(Q) is orthogonal with determinant +1 for every quaternion, including non-unit and zero ones (which map to the identity), is invariant under non-zero scaling of Q, and for unit Q acts on vectors exactly as rotate(Q, .).", "quantifier": "all quaternions, all vectors", "why_tests_cant": "Universally quantified identity; the normalisation branch makes the zero quaternion a special case.", "anchors": ["rainbow/math/quaternion.py: to_matrix, unit"]}
{"id": "C04", "title": "Matrix/quaternion conversion round-trips on every rotation", "statement": "For every proper rotation matrix R, from_matrix(R) is a unit quaternion and to_matrix(from_matrix(R)) = R, in all four branches (trace >= 0, and each of the three largest-diagonal branches); for every unit q, from_matrix(to_matrix(q)) is q or -q.", "quantifier": "all proper rotation matrices; all unit quaternions", "why_tests_cant": "The branch structure (trace sign, largest diagonal) splits the input space; division by a square root must be shown non-zero on each branch.", "anchors": ["rainbow/math/quaternion.py: from_matrix, to_matrix"]}
{"id": "C05", "title": "Array quaternion operations agree element by element with the scalar ones", "statement": "prod_array(q, Qs)[i] = prod(q, Qs[i]), prod_array(Qs, q)[i] = prod(Qs[i], q), rotate_array(q, rs)[i] = rotate(q, rs[i]), with the same number of rows; array-array raises NotImplementedError and scalar-scalar raises ValueError.", "quantifier": "all quaternions and all arrays of any length", "why_tests_cant": "Arbitrary array lengths and values; the vectorised formulas are written out separately from prod.", "anchors": ["rainbow/math/quaternion.py: prod_array, rotate_array, prod, rotate"]}
{"id": "C06", "title": "Quaternion interpolation stays on the unit sphere and hits its end points", "statement": "slerp of unit quaternions a, b returns a unit quaternion for every t, clamps t to [0,1], returns a at t<=0 and the rotation of b at t>=1, and takes the short way round (b and -b represent the same rotation and must interpolate along the same path up to sign).", "quantifier": "all unit quaternion pairs and all t", "why_tests_cant": "The near-parallel, near-antipodal and generic branches need different arguments; random tests almost never hit the near-antipodal branch.", "anchors": ["rainbow/math/quaternion.py: slerp, lerp, unit"]}
{"id": "C07", "title": "make_orthonormal_vectors returns a right-handed orthonormal frame", "statement": "For every non-zero n the returned (t, b, n') are unit, mutually orthogonal, right-handed (t x b = n'), and n' is n normalised.", "quantifier": "all non-zero vectors, including those with ties between component magnitudes", "why_tests_cant": "The axis choice has overlapping conditions; ties and axis-aligned inputs must never produce a zero cross product.", "anchors": ["rainbow/math/vector3.py: make_orthonormal_vectors"]}
{"id": "C08", "title": "Vector comparison is a strict total (lexicographic) order", "statement": "less is irreflexive, transitive and total (exactly one of less(a,b), a=b, less(b,a)), equals lexicographic order, greather is its converse, and less_than_equal/greather_than_equal are the matching non-strict orders.", "quantifier": "all pairs and triples of vectors", "why_tests_cant": "Order laws quantify over triples; broken transitivity appears only on particular ties.", "anchors": ["rainbow/math/vector3.py: less, greather, less_than_equal, greather_than_equal"]}
{"id": "C09", "title": "Coordinate transforms compose and invert", "statement": "For coordinate systems with unit orientation: inverse is a two-sided inverse, xform_point(concat(A,B), p) = the composition of the two point maps, vector/matrix/quaternion transforms agree with the same rotation, and the relative frame from A to B maps A-local points to the B-local description of the same world point.", "quantifier": "all rigid coordinate systems and all points", "why_tests_cant": "Order-of-composition errors cancel on identity or commuting examples.", "anchors": ["rainbow/math/coordsys.py: xform_point, xform_vector, concat, inverse, make_coordsys_from_to"]}
{"id": "C10", "title": "Matrix helpers: cross-product matrix, axis rotations, frames", "statement": "star(v) w = v x w for all v,w and star(v) is skew; Rx,Ry,Rz,Ru are proper rotations for every angle and every non-zero axis; Ru(phi,n) equals the matrix of quaternion Ru(phi,n), fixes n, and Ru(a,n)Ru(b,n)=Ru(a+b,n); ortonormalize returns an orthonormal right-handed frame for every invertible input.", "quantifier": "all vectors, angles, axes, matrices", "why_tests_cant": "Trigonometric identities over a continuum.", "anchors": ["rainbow/math/matrix3.py: star, Ru, Rx, Ry, Rz, ortonormalize, make_from_cols, make_from_rows"]}
{"id": "C11", "title": "Euler angle extraction reproduces the matrix", "statement": "For every proper rotation matrix, the angles returned by the Euler extraction rebuild the same matrix in the documented composition order, including both gimbal-lock branches.", "quantifier": "all proper rotation matrices", "why_tests_cant": "Gimbal lock is measure zero: random tests never hit it.", "anchors": ["rainbow/math/euler.py"]}
{"id": "C12", "title": "Exponential and logarithmic map are inverse", "statement": "exp(v) is a unit quaternion rotating by |v| about v for every v; log(exp(v)) = v for 0<|v|<pi; exp(log(q)) represents the same rotation as q for every unit q; reparameterization returns a vector with norm at most pi representing the same rotation.", "quantifier": "all vectors, all unit quaternions", "why_tests_cant": "Special cases (zero angle, half turn) are measure zero.", "anchors": ["rainbow/math/expmap.py: exp, log, reparameterization"]}
{"id": "C13", "title": "Polynomial calculus is exact", "statement": "The monomial power table of a polynomial of any order in two variables lists each exponent vector of total degree at most the order exactly once and has number_of_monomial_terms entries; evaluation is the sum of the terms; derivative(p, d) evaluates to the true partial derivative of p everywhere; interpolate returns a polynomial through all the data points it uses, given an exact linear solve.", "quantifier": "all orders, coefficients, points and variables", "why_tests_cant": "Quantifies over all polynomials and evaluation points; analytic derivative is a limit statement.", "anchors": ["rainbow/math/polynomial.py"]}
{"id": "C14", "title": "Heap is a priority queue with updatable keys", "statement": "After any history of push and pop calls, pop returns the live index with the smallest current value (the value pushed last for that index) and None when nothing is live; each live index is popped exactly once; superseded entries are never returned; the heap is truthy exactly when some index is live.", "quantifier": "all operation histories", "why_tests_cant": "Histories are unbounded; lazy deletion errors show only in particular interleavings of update and pop.", "anchors": ["rainbow/util/heap.py: Heap.push, Heap.pop, Heap.__bool__"]}
{"id": "C15", "title": "Timer accounting", "statement": "For every history of start/end calls: end without a running interval is rejected, total equals the sum of the elapsed values of all completed intervals and elapsed is the last one; with a monotone clock both are non-negative and total never decreases.", "quantifier": "all histories of start/end calls and all clock readings", "why_tests_cant": "Histories are unbounded.", "anchors": ["rainbow/util/timer.py: Timer"]}
{"id": "C16", "title": "AABB construction and overlap are exact", "statement": "create_from_vertices returns the smallest axis-aligned box containing all vertices; is_overlap is symmetric and holds exactly when the boxes (inflated by boundary on every side) share a point; hence two point sets that come within the boundary in max-norm are never reported disjoint.", "quantifier": "all vertex sets, boxes and boundaries >= 0", "why_tests_cant": "Touching and nested configurations, and all boundary values.", "anchors": ["rainbow/geometry/aabb.py: AABB.create_from_vertices, AABB.is_overlap"]}
{"id": "C17", "title": "k-DOP construction, union and overlap are conservative", "statement": "make(K,V,envelope) contains every vertex (and every convex combination of them, and everything within the envelope along each direction) and is the tightest such k-DOP; union contains both arguments and is the least one that does; overlap is symmetric and never reports false for two k-DOPs that share a point; mismatched K raises.", "quantifier": "all vertex sets, K in the supported table, envelopes >= 0", "why_tests_cant": "Conservativeness is a for-all-points statement.", "anchors": ["rainbow/geometry/kdop.py: make, union, overlap, get_direction_table"]}
{"id": "C18", "title": "BVH construction is well formed for every mesh and chunk size", "statement": "make_bvh never indexes outside the allotted nodes, gives a tree in which every mesh element is the payload of exactly one leaf of exactly one chunk, every internal node has exactly two children stored after it, and the height is logarithmic (at most ceil(log2(leaves))).", "quantifier": "all element counts M >= 0 and chunk sizes N >= 1", "why_tests_cant": "Index arithmetic must be right for every M and N, especially non powers of two and even N.", "anchors": ["rainbow/geometry/kdop_bvh.py: make_bvh, _make_sub_tree"]}
{"id": "C19", "title": "BVH refit keeps every node volume conservative", "statement": "After make_bvh or refit_bvh with any new coordinates, the volume of every node contains all vertices of all elements below it (and the root contains the whole mesh), for any element list.", "quantifier": "all meshes, all coordinates, all K in the table, all histories of refits", "why_tests_cant": "Depends on bottom-up order being correct for every tree shape.", "anchors": ["rainbow/geometry/kdop_bvh.py: refit_bvh, _refit_sub_tree"]}
{"id": "C20", "title": "BVH traversal reports exactly the overlapping leaf pairs, once", "statement": "traversal(A,B) terminates and returns each pair of elements (i,j) whose leaf k-DOPs overlap exactly once and no other pair; in particular no pair of intersecting elements is missed.", "quantifier": "all pairs of BVHs built over arbitrary meshes", "why_tests_cant": "The traversal is a work-list loop over two trees of arbitrary shapes; missed pairs show only for specific shapes and geometry.", "anchors": ["rainbow/geometry/kdop_bvh.py: traversal, _iterative_sub_tree_traversal"]}
{"id": "C21", "title": "Spatial hash cells forget old time steps", "statement": "Inserting with a newer time stamp must not report objects of earlier time stamps; within one time stamp each insertion reports every object previously inserted in that same cell.", "quantifier": "all histories of insertions with non-decreasing time stamps", "why_tests_cant": "History property; a bug shows only on the first access of a cell in a new time step.", "anchors": ["rainbow/geometry/spatial_hashing.py: HashCell.add, HashGird.insert"]}
{"id": "C22", "title": "Spatial hashing broad phase misses no overlapping pair", "statement": "If two triangles of different bodies have overlapping bounding boxes, they are inserted in at least one common cell and therefore reported as a candidate pair, whatever the cell size > 0, coordinates (also negative), hash collisions and insertion order.", "quantifier": "all triangle soups, cell sizes, hash tables, offset tables", "why_tests_cant": "Completeness quantifies over all geometry and hash functions.", "anchors": ["rainbow/simulators/prox_soft_bodies/collision_detection.py", "rainbow/geometry/spatial_hashing.py: HashGird.get_prefect_hash_value"]}
{"id": "C23", "title": "Grid node indexing is a bijection", "statement": "get_linear_index maps node triples (i,j,k) in range one-to-one onto 0..I*J*K-1, is consistent with how values are stored and evaluated on the grid, and the constructor raises exactly for boxes with min > max on some axis and for fewer than two nodes on some axis.", "quantifier": "all grid sizes and node indices", "why_tests_cant": "Quantifies over all sizes.", "anchors": ["rainbow/geometry/grid3.py: Grid"]}
{"id": "C24", "title": "Trilinear interpolation is exact at nodes and for multilinear fields", "statement": "get_value returns the stored value at every grid node, reproduces every trilinear field at every inside point, and lies between the minimum and maximum of the eight surrounding nodal values; the enclosing cell index is always valid, also on the upper boundary and for points outside.", "quantifier": "all grids, all nodal values, all points", "why_tests_cant": "Boundary points and clamping need all positions; convexity is a for-all-values statement.", "anchors": ["rainbow/geometry/grid3.py: get_value, get_enclosing_cell_idx"]}
{"id": "C25", "title": "Grid gradient is the gradient of the interpolant", "statement": "get_gradient at an interior point of a cell is the gradient of the trilinear interpolant returned by get_value.", "quantifier": "all grids, nodal values and points", "why_tests_cant": "Derivative statement for all inputs; affine test fields cannot tell wrong weights from right ones.", "anchors": ["rainbow/geometry/grid3.py: get_gradient"]}
{"id": "C26", "title": "Barycentric coordinates reproduce points", "statement": "For every non-degenerate edge, triangle and tetrahedron the computed coordinates sum to 1; for a tetrahedron (of either orientation) they reproduce the point exactly; for triangles and edges they reproduce the orthogonal projection of the point; they are all non-negative exactly when the (projected) point is in the simplex.", "quantifier": "all non-degenerate simplices and all points", "why_tests_cant": "Universally quantified geometric identity.", "anchors": ["rainbow/geometry/barycentric.py"]}
{"id": "C27", "title": "Tetrahedron sample points", "statement": "generate_sample_points(N) returns every barycentric lattice point exactly once: all weights non-negative and summing to 1, binomial(N+2,3) of them; generate_interior_sample_points returns exactly those with all four weights positive.", "quantifier": "all N", "why_tests_cant": "Quantifies over all N; counting claim.", "anchors": ["rainbow/geometry/tetrahedron.py: generate_sample_points, generate_interior_sample_points"]}
{"id": "C28", "title": "Tetrahedron volume and spheres", "statement": "Signed volume is alternating, translation invariant and zero exactly for coplanar points; the circumscribed sphere passes through all four corners and the inscribed sphere touches all four face planes.", "quantifier": "all non-degenerate tetrahedra", "why_tests_cant": "Geometric identities over a continuum.", "anchors": ["rainbow/geometry/tetrahedron.py", "rainbow/geometry/volume_mesh.py: compute_volumes"]}
{"id": "C29", "title": "Cube-to-tetrahedra meshing is conforming", "statement": "The tetrahedral mesh generated from an I x J x K cell block has 5 tetrahedra per cell, all indices in range, every tetrahedron positively oriented, the five volumes of a cell summing to the cell volume, and neighbouring cells use the same diagonal on their shared face.", "quantifier": "all grid sizes I,J,K and cell spacings > 0", "why_tests_cant": "Must hold for all sizes and parities of cells.", "anchors": ["rainbow/geometry/volume_mesh.py: create_tetrahedron_array_from_cube_mesh, create_beam"]}
{"id": "C30", "title": "Subdivision preserves volume and shares midpoints", "statement": "create_loop_subdivision replaces each tetrahedron by eight of the same orientation that fill it and whose volumes sum to the original, keeps the old vertices, introduces exactly one new vertex per edge (shared by all tetrahedra at the edge) at its midpoint.", "quantifier": "all tetrahedral meshes", "why_tests_cant": "Sharing depends on the global mesh connectivity.", "anchors": ["rainbow/geometry/volume_mesh.py: create_loop_subdivision"]}
{"id": "C31", "title": "Neighbour and surface extraction", "statement": "compute_neighbors pairs two tetrahedra across a face exactly when they share that face's three vertices (symmetric); compute_surface returns exactly the faces used by one tetrahedron, once each; the surface encloses exactly the total volume of the tetrahedra.", "quantifier": "all conforming tetrahedral meshes", "why_tests_cant": "Connectivity over arbitrary meshes; sorting/adjacent-equality argument.", "anchors": ["rainbow/geometry/volume_mesh.py: compute_neighbors, compute_surface"]}
{"id": "C32", "title": "axis_sort only renumbers", "statement": "axis_sort reorders vertices by their coordinate along the axis and renumbers the elements so that the geometric elements (the corner points of each, in order) are unchanged.", "quantifier": "all meshes and axes", "why_tests_cant": "Permutation inverse must be right for every permutation; symmetric test permutations hide an inverted map.", "anchors": ["rainbow/geometry/surface_mesh.py: axis_sort"]}
{"id": "C33", "title": "Generated surface meshes are closed and consistently oriented", "statement": "profile_sweep, torus, box and cuboid generators return index-valid triangles where each directed edge occurs exactly once and its reverse exactly once. Spheres, ellipsoids, capsules, cylinders, cones and conical shapes lie on the surfaces their names promise and enclose a positive volume; they refuse exactly the resolutions below three slices or (spheres, ellipsoids and capsules) three segments, one segment being a division by zero.", "quantifier": "all profile sizes, slice counts and dimensions", "why_tests_cant": "Index arithmetic modulo counts for all sizes.", "anchors": ["rainbow/geometry/surface_mesh.py: create_profile_sweep, create_torus, create_box, create_cuboid", "rainbow/geometry/surface_mesh.py: create_sphere, create_ellipsoid, create_capsule, create_cylinder, create_cone, create_conical"]}
{"id": "C34", "title": "Friction proximal operator is the projection onto the friction disk", "statement": "prox_sphere returns the unique closest point of the disk of radius mu*x_n to its argument: the result satisfies |x_f| <= mu*x_n, is idempotent and non-expansive, and is zero whenever x_n <= 0.", "quantifier": "all friction coefficients >= 0, normal forces and tangential vectors", "why_tests_cant": "Optimality is a for-all statement over the disk.", "anchors": ["rainbow/simulators/proximal_contact/proximal_operators.py: prox_sphere", "rainbow/simulators/prox_rigid_bodies/prox_operators.py: prox_sphere"]}
{"id": "C35", "title": "Elliptic friction operator approximates the closest point of the friction ellipsoid", "statement": "For positive coefficients and normal force prox_ellipsoid always returns; it leaves points of the ellipsoid with half-axes mu*x_n unchanged and, for outside points, returns the closest point of the ellipsoid up to a guaranteed accuracy (ellipsoid equation met within the tolerance, or distance to the closest point bounded by a quantity that halves with each allowed iteration until the tolerance). It equals prox_sphere when all coefficients agree and the origin when they vanish or x_n <= 0; a mixture of zero and non-zero coefficients fails. The result may lie slightly outside the ellipsoid.", "quantifier": "all coefficients, normal forces and vectors", "why_tests_cant": "Bisection loop: termination and accuracy need an invariant over all iteration counts.", "anchors": ["rainbow/simulators/proximal_contact/proximal_operators.py: prox_ellipsoid"]}
{"id": "C36", "title": "Proximal solvers return feasible contact forces whatever happens", "statement": "For every problem with nonnegative friction coefficients, every iteration limit and however the run ends (converged, stagnated or iteration limit), the contact forces returned by GaussSeidelSolver, ParallelGaussSeidelSolver, ParallelJacobiHybridSolver and the rigid body solver satisfy x_n >= 0 and |x_f| <= mu*x_n for each contact, and post-stabilization returns non-negative normal displacements only. ParallelJacobiSolver does not have this property: it can return friction outside the cone, and only bounds it by the previous normal force.", "quantifier": "all problems, parameters, and terminations", "why_tests_cant": "Every termination path and step-length history.", "anchors": ["rainbow/simulators/proximal_contact/solver_interface.py: solve", "rainbow/simulators/proximal_contact/gauss_seidel_solver.py: sweep", "rainbow/simulators/proximal_contact/jacobi_solver.py: sweep_worker", "rainbow/simulators/prox_rigid_bodies/gauss_seidel_solver.py: solve", "rainbow/simulators/prox_rigid_bodies/constraints/contacts.py: sweep"]}
{"id": "C37", "title": "Proximal solver never returns a worse iterate and always terminates", "statement": "At most max_iterations sweeps are performed; every sweep starts from the last accepted iterate; it is rejected exactly when its merit exceeds that of the last accepted one, and then leaves no trace but smaller r-factors; merits of accepted iterates and recorded residuals never increase; the returned solution is the last accepted iterate; the exit code tells which test stopped the loop. In the rigid body solver problems develop independently of each other, and with a single problem the run ends at the first rejected iterate.", "quantifier": "all problems, parameters, and numeric behaviours of the sweep", "why_tests_cant": "Loop invariant over all histories.", "anchors": ["rainbow/simulators/prox_rigid_bodies/gauss_seidel_solver.py: solve", "rainbow/simulators/proximal_contact/solver_interface.py: solve"]}
{"id": "C38", "title": "Gauss-Seidel keeps the velocity vector consistent", "statement": "During sweeps the incrementally updated velocity w equals W J^T x for the current forces after each block, so that every sweep is exact block Gauss-Seidel, for every block order (contacts, hinges, post-stabilization). In ParallelGaussSeidelSolver w equals this minus the contributions of contacts processed earlier whose number is not below the group's first contact, so the sweep is exact only if group numbers increase; for three contacts in a row, with the groups the code itself builds, it is not.", "quantifier": "all problems, all block sequences", "why_tests_cant": "Invariant over unbounded loops.", "anchors": ["rainbow/simulators/prox_rigid_bodies/gauss_seidel_solver.py: sweep", "rainbow/simulators/proximal_contact/gauss_seidel_solver.py"]}
{"id": "C39", "title": "Contact graph colouring gives conflict-free blocks", "statement": "build_contact_graph links two contacts exactly when they are different and touch a common body (rigid) or tetrahedron node (soft); for both colouring functions every contact is in exactly one group, groups are non-empty, sorted and contain pairwise unlinked contacts, whatever the random choices; processing a group of mutually independent contacts in parallel equals sequential processing in any order.", "quantifier": "all contact sets and random choices", "why_tests_cant": "All graphs and all random choices.", "anchors": ["rainbow/simulators/proximal_contact/blocking.py"]}
{"id": "C40", "title": "Contact Jacobian conserves momentum", "statement": "The generalised force J^T x of any contact forces applies equal and opposite linear forces to the two bodies and zero net torque about any point, for every contact frame; and J u is the relative velocity at the contact point in the contact frame.", "quantifier": "all contact sets, forces and velocities", "why_tests_cant": "Bilinear identity for all configurations.", "anchors": ["rainbow/simulators/prox_rigid_bodies/constraints/contacts.py"]}
{"id": "C41", "title": "Hinge constraint is satisfied right after creation and its Jacobian is consistent", "statement": "Directly after set_hinge in any of the three modes the hinge position error is zero and both world axes agree; J^T x applies equal and opposite forces; rows of hinge k depend only on hinge k.", "quantifier": "all bodies poses, hinge frames and modes", "why_tests_cant": "All poses.", "anchors": ["rainbow/simulators/prox_rigid_bodies/constraints/hinges.py", "rainbow/simulators/prox_rigid_bodies/api.py: set_hinge"]}
{"id": "C42", "title": "Surface interaction lookup is symmetric with a default", "statement": "get_interaction(A,B) = get_interaction(B,A); it returns what was last stored for the pair, else the default; storing one pair never changes another; storing an existing pair is rejected.", "quantifier": "all histories of creation calls and lookups", "why_tests_cant": "Histories.", "anchors": ["rainbow/simulators/prox_rigid_bodies/types.py: SurfacesInteractionLibrary", "rainbow/simulators/prox_rigid_bodies/api.py: create_surfaces_interaction"]}
{"id": "C43", "title": "Engine bookkeeping: names unique, indices dense", "statement": "After any sequence of create_* calls, body indices are exactly 0..n-1 in creation order (hinges likewise), names are unique, duplicate creations raise and leave the engine unchanged, and operations on unknown names raise without effect.", "quantifier": "all sequences of API calls", "why_tests_cant": "Histories.", "anchors": ["rainbow/simulators/prox_rigid_bodies/api.py: create_rigid_body, create_hinge, create_gravity_force, create_damping_force, connect_force"]}
{"id": "C44", "title": "Pose and velocity accessors round-trip", "statement": "get_position after set_position (same frame flag) returns what was set; set_orientation stores a unit quaternion; setting one body or one attribute leaves all others alone; in the model frame the model origin ends at the given point and orientation changes keep it.", "quantifier": "all bodies, poses and frames", "why_tests_cant": "All poses; frame composition.", "anchors": ["rainbow/simulators/prox_rigid_bodies/api.py: set_position, get_position, set_orientation, get_orientation, set_velocity, set_spin"]}
{"id": "C45", "title": "simulate advances exactly the requested time", "statement": "simulate(engine, T) performs steps none longer than time_step, their sizes sum to exactly T, and it terminates for every T >= 0 and time_step > 0; a non-positive time_step never terminates with T > 0.", "quantifier": "all T and time steps", "why_tests_cant": "Unbounded loop.", "anchors": ["rainbow/simulators/prox_rigid_bodies/api.py: simulate"]}
{"id": "C46", "title": "State vectors round-trip through the engine", "statement": "Writing position and velocity vectors into the engine and reading them back returns the same vectors for any number of bodies, and body i only depends on slots 7i..7i+6 and 6i..6i+5.", "quantifier": "all body counts and states", "why_tests_cant": "All sizes.", "anchors": ["rainbow/simulators/prox_rigid_bodies/state_storage.py"]}
{"id": "C47", "title": "Fixed bodies never move", "statement": "A fixed body keeps position, orientation and zero velocity response through every step, whatever forces, contacts and hinges act: inverse mass rows are zero, no external force is applied.", "quantifier": "all scenes and step histories", "why_tests_cant": "History property over all scenes.", "anchors": ["rainbow/simulators/prox_rigid_bodies/state_storage.py: compute_total_external_forces, compute_inverse_mass_matrix", "rainbow/simulators/prox_rigid_bodies/steppers.py"]}
{"id": "C48", "title": "Time integration keeps orientations unit and free flight is exact", "statement": "Each position update leaves every orientation a unit quaternion; without contacts and hinges a step is semi-implicit Euler: u' = u + dt W f, x' = x + dt u'.", "quantifier": "all states and step sizes, all histories", "why_tests_cant": "Histories of arbitrary length.", "anchors": ["rainbow/simulators/prox_rigid_bodies/state_storage.py: position_update", "rainbow/simulators/prox_rigid_bodies/steppers.py"]}
{"id": "C49", "title": "Mass property transforms", "statement": "The parallel-axis translation is exact and invertible, world inertia R B R^T is symmetric positive definite for positive principal moments, is inverted by R B^-1 R^T.", "quantifier": "all masses, inertia tensors and rotations", "why_tests_cant": "Matrix identities.", "anchors": ["rainbow/simulators/prox_rigid_bodies/mass.py"]}
{"id": "C50", "title": "Contact reduction keeps one contact per body pair and point", "statement": "After reduction no two contacts share the same unordered body pair and position, every original contact is represented, the first occurrence wins and the order is preserved; reduction is idempotent.", "quantifier": "all contact lists", "why_tests_cant": "Arbitrary lists.", "anchors": ["rainbow/simulators/prox_rigid_bodies/collision_detection.py", "rainbow/simulators/prox_soft_bodies/collision_detection.py"]}
{"id": "C51", "title": "Closest-point search on a triangle stays in the triangle", "statement": "Every iterate of the Frank-Wolfe search over a triangle is a convex combination of the triangle's corners, for every signed distance field and iteration count.", "quantifier": "all triangles, fields, iteration counts", "why_tests_cant": "Loop invariant.", "anchors": ["rainbow/simulators/prox_rigid_bodies/collision_detection.py", "rainbow/simulators/prox_soft_bodies/collision_detection.py"]}
{"id": "C52", "title": "Soft body: internal forces conserve momentum and rest state is stress free", "statement": "Elastic nodal forces sum to zero for every deformation and material; at rest (and after any translation) the deformation gradient is the identity and SVK, SNH, COR stresses vanish; rigid rotations produce no SVK stress.", "quantifier": "all meshes, deformations, material parameters", "why_tests_cant": "All deformations.", "anchors": ["rainbow/simulators/prox_soft_bodies/solver.py", "rainbow/simulators/prox_soft_bodies/mechanics.py"]}
{"id": "C53", "title": "Elastic stress is the gradient of the stored energy", "statement": "For each material, pk1_stress(F) is the derivative of energy_density at F.", "quantifier": "all deformation gradients, directions and parameters", "why_tests_cant": "Derivative over all inputs.", "anchors": ["rainbow/simulators/prox_soft_bodies/mechanics.py: SVK, SNH"]}
{"id": "C54", "title": "Soft body: mass, gravity and traction totals", "statement": "Element mass matrices sum to density times volume (lumped and consistent), total gravity force is total mass times gravity, and total traction force is loaded area times load.", "quantifier": "all meshes, densities, loads", "why_tests_cant": "All meshes.", "anchors": ["rainbow/simulators/prox_soft_bodies/solver.py"]}
{"id": "C55", "title": "Soft body matrix assembly equals matrix-free product", "statement": "The element-wise product, the COO and the CSR assembly describe the same matrix; Dirichlet nodes stay at their prescribed positions after each step.", "quantifier": "all meshes and vectors", "why_tests_cant": "All connectivities.", "anchors": ["rainbow/simulators/prox_soft_bodies/solver.py"]}
{"id": "C56", "title": "Skeleton chains are exactly the root-to-leaf paths", "statement": "add_bone keeps a tree with parents created before children; make_chains returns one chain per leaf bone, listing precisely the bones from the root to that leaf in order.", "quantifier": "all skeleton construction histories", "why_tests_cant": "All tree shapes.", "anchors": ["rainbow/simulators/inverse_kinematics/api.py: create_root, add_bone, make_chains"]}
{"id": "C57", "title": "Forward kinematics composes along the chain", "statement": "After update_skeleton each bone's world transform is its parent's world transform composed with its own relative transform, orientations stay unit, and bone lengths are preserved by any joint angles.", "quantifier": "all skeletons and joint angles", "why_tests_cant": "All trees and angles.", "anchors": ["rainbow/simulators/inverse_kinematics/api.py: update_skeleton"]}
{"id": "C58", "title": "Joint angle vectors round-trip", "statement": "set_joint_angles followed by get_joint_angles returns the vector; per-bone set_angle/get_angle round-trip and touch only that joint.", "quantifier": "all skeletons, angle vectors, indices", "why_tests_cant": "All sizes.", "anchors": ["rainbow/simulators/inverse_kinematics/api.py: set_joint_angles, get_joint_angles, set_angle, get_angle"]}
{"id": "C59", "title": "IK Jacobian and gradient", "statement": "The Jacobian column of a joint not on the chain is zero, each column is the derivative of the end effector with respect to that joint angle, and the gradient of the objective is -J^T residual; the objective is non-negative and zero exactly when all end effectors reach their goals.", "quantifier": "all skeletons, chains and goals", "why_tests_cant": "Derivative over all configurations.", "anchors": ["rainbow/simulators/inverse_kinematics/api.py: compute_jacobian, compute_gradient, compute_objective"]}
{"id": "C60", "title": "Self-collision test decides triangle intersection", "statement": "Two triangles of one body without a common corner are reported as self-colliding exactly when they intersect.", "quantifier": "all pairs of triangles", "why_tests_cant": "Quantifies over all pairs of triangles in space; a test sees a few placements.", "anchors": ["rainbow/simulators/prox_soft_bodies/collision_detection.py: _is_self_collision, _is_share_vertex, _triangle_intersection"]}
{"id": "C61", "title": "Vertex circulator lists exactly the incident tetrahedra", "statement": "VertexTetrahedronCirculator(V,T).tetrahedra(v) returns, in increasing order, exactly the tetrahedra that have v as a corner; an isolated vertex gives an empty list, an index beyond V raises IndexError.", "quantifier": "all meshes with valid indices and all vertex indices", "why_tests_cant": "Depends on the sorted incidence table for arbitrary connectivity, including isolated, first and last vertices and Python negative-slice semantics.", "anchors": ["rainbow/geometry/volume_mesh.py: VertexTetrahedronCirculator"]}
{"id": "C62", "title": "Tetrahedra to triangles: outward faces and scaled copies", "statement": "to_triangles gives four outward oriented faces per tetrahedron; to_tetrahedrons gives four new vertices per tetrahedron, shrunk towards the mean by the scale, signed volume multiplied by scale cubed, with four outward faces over these vertices.", "quantifier": "all meshes with valid indices, all scale factors", "why_tests_cant": "Orientation and index offsets must be right for every tetrahedron of every mesh.", "anchors": ["rainbow/geometry/volume_mesh.py: to_triangles, to_tetrahedrons"]}
{"id": "C63", "title": "Surface mesh transforms", "statement": "translate, rotate (unit quaternion) and scale act on every vertex, keep the triangles, and change the enclosed signed volume of a closed mesh by the factor 1, 1 and a*b*c; aabb returns the smallest enclosing box and raises on an empty mesh; scale_to_unit is the uniform scaling about the box centre after which the box has the same centre and largest extent exactly 1.", "quantifier": "all meshes, transforms and sizes", "why_tests_cant": "infinitely many meshes and real transforms; needs a summation argument over closed meshes", "anchors": ["rainbow/geometry/surface_mesh.py:translate", "rainbow/geometry/surface_mesh.py:rotate", "rainbow/geometry/surface_mesh.py:scale", "rainbow/geometry/surface_mesh.py:aabb", "rainbow/geometry/surface_mesh.py:scale_to_unit"]}
{"id": "C64", "title": "Convex hull triangles are oriented outward", "statement": "Whatever simplices scipy returns (subject to its contract: corners are hull vertices, all input points on one side of each simplex plane, full-dimensional), create_convex_hull returns one triangle per simplex with the same corner points, oriented so that no input point lies outside.", "quantifier": "all point sets and all simplex lists meeting the contract", "why_tests_cant": "infinitely many point sets and vertex orders", "anchors": ["rainbow/geometry/surface_mesh.py:create_convex_hull"]}
{"id": "C65", "title": "A step conserves momentum up to the applied forces", "statement": "If all bodies can move, one simulation step changes the total linear momentum by exactly dt times the total applied force, and the total angular momentum about any point by dt times the total applied moment (hinge anchors coinciding), whatever contacts, friction, hinges and solver iterations are involved. Over a whole simulate of duration T with only gravity, momentum changes by T times the total weight; the centre of mass moves uniformly without weight and falls on the scheme's parabola with it, whatever contacts, hinges and stabilization do.", "quantifier": "all worlds, contact sets, step sizes, solver settings", "why_tests_cant": "continuous state, any number of bodies and contacts, any number of solver iterations", "anchors": ["rainbow/simulators/prox_rigid_bodies/steppers.py: SemiImplicitStepper.step", "rainbow/simulators/prox_rigid_bodies/state_storage.py", "rainbow/simulators/prox_rigid_bodies/constraints"]}
{"id": "C66", "title": "Exactly when a step raises", "statement": "A step of the simulator succeeds if and only if every movable body has nonzero mass, collision detection succeeds, and every reported contact has an interaction for its materials (or the default).", "quantifier": "all worlds and collision detection results", "why_tests_cant": "all possible engine states", "anchors": ["rainbow/simulators/prox_rigid_bodies/steppers.py: SemiImplicitStepper.step", "rainbow/simulators/prox_rigid_bodies/state_storage.py"]}
{"id": "C67", "title": "Energy report", "statement": "compute_total_energy returns the sum over movable bodies of the kinetic energies (non-negative for non-negative masses and moments) and of m G.r with G the sum of the engine's gravity accelerations; the potential is consistent with the applied forces when bodies are connected to all gravity forces of the engine, and counts gravity that is connected to no body.", "quantifier": "all states and worlds", "why_tests_cant": "continuous states of any number of bodies", "anchors": ["rainbow/simulators/prox_rigid_bodies/state_storage.py: compute_total_energy"]}
{"id": "C68", "title": "Mass properties are the solid's integrals", "statement": "For every closed, consistently outward oriented triangle mesh without degenerate triangles, compute_mass_properties returns density times the enclosed volume, the centroid, and the inertia tensor with respect to the model origin as exact integrals over the solid (values of magnitude below 1e-10 are reported as 0), whichever plane each triangle is projected onto; inside-out, volumeless or degenerate meshes raise RuntimeError.", "quantifier": "all closed oriented meshes with any number of vertices and triangles, all densities", "why_tests_cant": "The divergence theorem argument must hold for every mesh shape; tests only see boxes and spheres with tolerance.", "anchors": ["rainbow/simulators/prox_rigid_bodies/mass.py:compute_mass_properties", "rainbow/simulators/prox_rigid_bodies/mass.py:__compute_projected_face_integral"]}
{"id": "C69", "title": "Reported contacts are genuine and no touching pair is skipped", "statement": "For valid shapes and hierarchies run_collision_detection finishes without error. Every reported contact joins two different bodies, has a unit normal that is the world-space gradient of the first body's distance field at the contact position, a gap equal to that field's value there and at most the envelope, and a position on a surface triangle of the second body; no two reported contacts are redundant. Every pair of triangles of two bodies that meet is examined from both sides and yields a contact whenever the searched point passes the contact test. The inside test keeps half a length unit from the sides of the field's box, so a body whose box is less than one unit wide never acts as first body of a contact.", "quantifier": "all numbers of bodies, poses, meshes, distance fields, hierarchies, envelopes, tolerances and iteration limits", "why_tests_cant": "an end-to-end statement over all scenes, combining hierarchy, search and reduction", "anchors": ["rainbow/simulators/prox_rigid_bodies/collision_detection.py: run_collision_detection, _update_bvh, _narrow_phase, _compute_contacts, _contact_determination, _contact_reduction", "rainbow/geometry/grid3.py: is_inside"]}
{"id": "C71", "title": "Every history of soft body API calls leaves a consistent engine", "statement": "Starting from create_engine, any sequence of create_soft_body (also failing ones), boundary and traction conditions, setters, materials, interactions, parameter changes and simulate calls leaves an engine in which body names are unique, the bodies own disjoint ranges of global node numbers that together are exactly 0..number_of_nodes-1, every body's rest-state data (inverse edge matrices, volumes, face vectors) belong to its undeformed mesh, pinned nodes are pinned to their undeformed position, loads sit on surface triangles, every material and interaction refers to existing materials and material constants are in range.", "quantifier": "all finite histories of API calls with any arguments, any number and size of bodies, any collision detector and contact solver", "why_tests_cant": "It is an invariant over unbounded call histories, including failed calls; tests run a few fixed scripts.", "anchors": ["rainbow/simulators/prox_soft_bodies/api.py", "rainbow/simulators/prox_soft_bodies/types.py", "rainbow/simulators/prox_soft_bodies/solver.py: SemiImplicitStepper.step"]}
{"id": "C73", "title": "Soft contact Jacobian: relative velocity, action equals reaction", "statement": "For every engine and every list of contacts the contact Jacobian maps nodal velocities to the relative velocity of the two material points in contact, expressed in an orthonormal right-handed frame whose first axis is the contact normal (a fourth row is zero). Its transpose distributes a contact impulse to the eight nodes by the barycentric weights with opposite signs, so the impulses sum to zero whenever the weights of each side sum to one, and their total moment is that of the impulse about the offset between the two material points.", "quantifier": "all engines reachable by API calls, all contact lists, all impulses, all nodal velocities and positions", "why_tests_cant": "Conservation of momentum under contact must hold for every contact configuration; tests inspect single configurations.", "anchors": ["rainbow/simulators/prox_soft_bodies/solver.py: compute_jacobian_matrix"]}
{"id": "C72", "title": "A soft body step obeys Newton's law at every free node", "statement": "Every successful step of a consistent engine, with the inverse of the engine's mass matrix, finds nodal contact impulses (the solver's answer spread by the contact Jacobian, none without contacts) such that at every node without Dirichlet condition the lumped nodal mass times the change of velocity equals the time step times the sum of gravity, elastic, traction and damping force plus the contact impulse, and the new position is the old one plus the time step times the new velocity. Hence the momentum of a body without pinned nodes changes by the weight, the loads, the damping and the contact impulses only. The mass matrix can be inverted exactly when every node belongs to a tetrahedron of positive density.", "quantifier": "all reachable engines, all numbers and sizes of bodies, materials, time steps, contacts and contact solvers", "why_tests_cant": "Equality of a global sparse solve with the node-wise equations of motion for every mesh and scene; tests check one falling object.", "anchors": ["rainbow/simulators/prox_soft_bodies/solver.py: SemiImplicitStepper.step, compute_mass_matrix, compute_inverse_mass_matrix, compute_elastic_forces, compute_external_forces, compute_damping_forces, compute_traction_forces"]}
{"id": "C74", "title": "Soft body setup selects exactly what is asked, and the setups that cannot be simulated", "statement": "Dirichlet conditions pin exactly the nodes whose rest position lies in the given region (boundary included), traction conditions load exactly the surface triangles with all three corners in it; a setter changes only its own body; friction is symmetric in the two materials. A contact-free step succeeds exactly when the stepper has the current size and every body's force can be evaluated. Conversely no simulation ever succeeds: after adding a body once the stepper exists, after a body with a bad tetrahedron was refused (its name is also lost), with the default corotational material, with Poisson ratio 1/2 although it is accepted, with contact stabilisation, or with a contact of two materials without an interaction; a body marked fixed falls freely; changing a density after the material was assigned changes weight but not mass.", "quantifier": "all engines, names, meshes, level set functions, loads, materials, time steps, contact detectors and solvers", "why_tests_cant": "The claims are about every history of API calls and every mesh; a test exercises one scene, and the failures depend on combinations of calls.", "anchors": ["rainbow/simulators/prox_soft_bodies/api.py: create_soft_body, create_dirichlet_conditions, create_traction_conditions, create_surfaces_interaction, set_elasticity, set_mass_density, set_material, set_fixed", "rainbow/simulators/prox_soft_bodies/solver.py: SemiImplicitStepper.step", "rainbow/simulators/prox_soft_bodies/mechanics.py: COR, first_lame"]}
{"id": "C76", "title": "Soft body simulation advances exactly the requested time and otherwise only moves the bodies", "statement": "For positive T and time step, simulate performs ceil(T/time_step) steps, all of the size of the time step except a shorter positive last one, with sizes adding up to T, all with one inverse mass matrix; T not positive is refused and a time step not positive never succeeds. A successful run changes nothing but positions and velocities, the contact points, the stepper and the step counter, which grows by the number of steps. An undamped free body in a rigidly moved rest shape translates without deforming and ends with velocity v + T*gravity, whatever the time step.", "quantifier": "all reachable engines, durations, time steps, bodies, meshes, contact detectors and solvers", "why_tests_cant": "The number of steps and the size of every mesh are unbounded.", "anchors": ["rainbow/simulators/prox_soft_bodies/api.py: simulate", "rainbow/simulators/prox_soft_bodies/solver.py: SemiImplicitStepper.step"]}
{"id": "C75", "title": "Soft body energies are the sums over the bodies that move", "statement": "The kinetic, potential and elastic energies the engine reports are the sums, over the bodies not marked fixed, of the midpoint-rule energies of their tetrahedra, and are defined exactly when the material data of these bodies are; the kinetic energy is never negative, nor is the elastic energy of Saint Venant-Kirchhoff materials. One contact-free step of a freely falling body changes kinetic plus potential energy by exactly minus half its mass times |gravity|^2 dt^2.", "quantifier": "all reachable engines, bodies, meshes, materials, positions, velocities and time steps", "why_tests_cant": "Sums over meshes and scenes of any size and all real data.", "anchors": ["rainbow/simulators/prox_soft_bodies/solver.py: compute_kinetic_energy, compute_potential_energy, compute_elastic_energy, SemiImplicitStepper.step"]}
{"id": "C77", "title": "Inverse kinematics: second derivatives of the objective", "statement": "After an update the objective has all second derivatives with respect to joint angles, and they are symmetric; `compute_hessian` returns them.", "quantifier": "all skeletons built with the API, all joint angles, all lists of chains that are root-to-bone paths, all pairs of angles", "why_tests_cant": "A unit test compares with finite differences for one arm; the claim is an identity between a hand-derived formula and a derivative for every tree of bones and every configuration.", "anchors": ["rainbow/simulators/inverse_kinematics/api.py:compute_hessian"]}
{"id": "C78", "title": "Inverse kinematics: finite differences", "statement": "`compute_finite_difference_gradient` and `compute_finite_difference_hessian` return the central differences of the objective, with all other angles unchanged; they restore all joint angles; the values tend to the derivatives as the step goes to zero; the Hessian is symmetric. (The poses they leave behind are those of the last evaluation.)", "quantifier": "all skeletons built with the API, all joint angles, all chains that are root-to-bone paths, all non-zero steps", "why_tests_cant": "The statements about the limit and about the state left behind range over all steps and all skeletons.", "anchors": ["rainbow/simulators/inverse_kinematics/api.py:compute_finite_difference_gradient", "rainbow/simulators/inverse_kinematics/api.py:compute_finite_difference_hessian", "rainbow/simulators/inverse_kinematics/api.py:set_angle"]}
{"id": "C70", "title": "Polar decomposition", "statement": "polar_decomposition(A) returns R and S with A = R S, R orthogonal and S symmetric positive definite whenever A is invertible, raises exactly when A is singular, is the only such pair, and R is a proper rotation exactly when det A > 0 (the docstring promises a rotation always; for a mirrored A it is a reflection). The array version does this matrix by matrix and raises on a single matrix.", "quantifier": "every real 3x3 matrix and every stack of them, every eigensolver that meets numpy's eigh contract", "why_tests_cant": "Holds for all matrices of the continuum, including nearly singular and mirrored ones; a test sees a few.", "anchors": ["rainbow/math/matrix3.py:polar_decomposition", "rainbow/math/matrix3.py:polar_decomposition_array"]}
{"id": "C79", "title": "Derivatives of the exponential map", "statement": "dQdv_i(v,i) is the partial derivative of the quaternion exp(v), dvdt(omega,v) is the velocity of v that makes the rotation exp(v) spin with omega, and dRdv_i(v,i) is the partial derivative of the rotation matrix of v.", "quantifier": "every v, omega in R^3 outside the declared small-angle threshold and every component i", "why_tests_cant": "Derivatives are limits over all directions; finite-difference tests with tolerances miss a sign that is wrong only for |v| > pi.", "anchors": ["rainbow/math/expmap.py:dQdv_i", "rainbow/math/expmap.py:dvdt", "rainbow/math/expmap.py:dRdv_i"]}
{"id": "C80", "title": "Orthonormalisation", "statement": "ortonormalize(A) returns a rotation whose first row points along the first row of A and whose second row lies in the half plane of the first two rows, whenever these are independent; rotations are fixed points; if they are dependent no rotation is returned. The caller's matrix has its first two rows overwritten.", "quantifier": "every real 3x3 matrix", "why_tests_cant": "A claim over all matrices incl. an aliasing effect on the argument that value tests do not look at.", "anchors": ["rainbow/math/matrix3.py:ortonormalize"]}
{"id": "C81", "title": "Angle and axis of a quaternion", "statement": "to_angle_axis(q) of a unit quaternion gives an angle in [0, 2 pi] and, unless q is real, a unit axis, and Ru of them is q again; to_angle(Ru(phi,u),u) is phi up to a multiple of 2 pi and lies in (-pi, pi]; hat(q) is orthogonal to q and as long as q.", "quantifier": "every unit quaternion, every angle and every unit axis", "why_tests_cant": "Round trips through atan2 over a continuum with branch cuts.", "anchors": ["rainbow/math/quaternion.py:to_angle_axis", "rainbow/math/quaternion.py:to_angle", "rainbow/math/quaternion.py:hat"]}
{"id": "C82", "title": "Soft body collision detection", "statement": "With hierarchies and with spatial hashing, every contact reported lies on a surface triangle of body B, with non-negative weights in the tetrahedron behind it, and its weights in a tetrahedron of body A give the same position; at the material point with these weights the distance field of A has the reported gap, at most the envelope. No two reported contacts are the same. For valid bodies the run does not raise, and every pair of surface triangles of different bodies that meet (with hashing also every self-collision the test accepts) is examined from both sides: if the point found passes the test of the field a contact is reported there.", "quantifier": "all numbers of bodies, meshes, deformed positions, distance fields, parameters and (hashing) earlier contents of the hash table", "why_tests_cant": "Combines tree traversal, hashing, warping and reduction; a missed pair shows only for particular geometry.", "anchors": ["rainbow/simulators/prox_soft_bodies/collision_detection.py:run_collision_detection", "rainbow/simulators/prox_soft_bodies/collision_detection.py:_update_bvh", "rainbow/simulators/prox_soft_bodies/collision_detection.py:_narrow_phase", "rainbow/simulators/prox_soft_bodies/collision_detection.py:_narrow_phase_spatial_hashing", "rainbow/simulators/prox_soft_bodies/collision_detection.py:_compute_contacts", "rainbow/simulators/prox_soft_bodies/collision_detection.py:_xform_triangle_to_model_space", "rainbow/simulators/prox_soft_bodies/collision_detection.py:_xform_contact_to_world", "rainbow/simulators/prox_soft_bodies/collision_detection.py:_contact_determination", "rainbow/simulators/prox_soft_bodies/collision_detection.py:_contact_reduction"]}
{"id": "C83", "title": "Normals of soft body contacts", "statement": "The normal of a reported contact is a unit vector along the gradient of the distance field of body A at the material point of the contact, moved with the body to world coordinates.", "quantifier": "all bodies, deformations and contacts reported", "why_tests_cant": "A continuum of deformations; the error vanishes for bodies that are only translated, the usual test setup.", "anchors": ["rainbow/simulators/prox_soft_bodies/collision_detection.py:_xform_contact_to_world", "rainbow/simulators/prox_soft_bodies/collision_detection.py:_compute_contacts"]}
{"id": "C84", "title": "Meshes made by create_mesh", "statement": "create_mesh reorders the vertices it is given and keeps every triangle: the result has the same points, the same triangles (as triples of points, with multiplicity) and is a closed oriented surface if the input is. A triangle that refers to a missing vertex raises IndexError.", "quantifier": "all vertex and triangle lists", "why_tests_cant": "Sorting by the direction of most variance and relabelling the indices has to be right for every permutation.", "anchors": ["rainbow/simulators/prox_rigid_bodies/api.py: create_mesh", "rainbow/math/functions.py: sort_1d_array, direction_of_most_variance"]}
{"id": "C85", "title": "Shapes made by create_shape", "statement": "create_shape stores the mesh in the body frame: taken back to the model frame with the stored position and orientation it is the mesh given, with the same triangles; the stored mass is the enclosed volume; all other shapes stay. It succeeds for every new name and closed outward mesh without degenerate triangles, and raises RuntimeError for a name in use, a degenerate triangle, or a mesh that encloses no positive volume.", "quantifier": "all engines, names and meshes", "why_tests_cant": "The mass and the frame come from integrals and an eigenvector problem for arbitrary meshes.", "anchors": ["rainbow/simulators/prox_rigid_bodies/api.py: create_shape"]}
{"id": "C86", "title": "Box stack scene", "statement": "create_box_stack adds exactly K free bodies of the given material and of mass volume times density; the i-th occupies the box turned by i*45 degrees between the heights i*h and (i+1)*h; no two of them overlap, and nothing else in the engine changes. The call succeeds for positive sizes, a known material and unused names.", "quantifier": "all sizes, counts, densities, engines and generated names", "why_tests_cant": "Counts, sizes and frames are unbounded; the example scenes use a handful of parameter values.", "anchors": ["rainbow/simulators/prox_rigid_bodies/scenes/create_box_stack.py: create_box_stack"]}
{"id": "C87", "title": "Tower scene", "statement": "create_tower adds layers*segments free bodies, each exactly at its place in the ring of its layer in the given frame, of mass volume times density; no two of them overlap (3 or more segments, safety factor at most one), and nothing else changes.", "quantifier": "all radii, heights, counts, frames, both kinds of bricks", "why_tests_cant": "Counts, sizes and frames are unbounded; the example scenes use a handful of parameter values.", "anchors": ["rainbow/simulators/prox_rigid_bodies/scenes/create_tower.py: create_tower"]}
{"id": "C88", "title": "Arch scene", "statement": "create_arch checks its arguments; when it returns there are 2*piers+stones new free bodies: piers of equal stones and voussoirs whose corners lie on the inner and outer circle at the expected angles; no two overlap, all stay in the box width x height x depth of the frame, and nothing else changes.", "quantifier": "all sizes, counts and frames", "why_tests_cant": "Counts, sizes and frames are unbounded; the example scenes use a handful of parameter values.", "anchors": ["rainbow/simulators/prox_rigid_bodies/scenes/create_arch.py: create_arch"]}
{"id": "C89", "title": "Dome scene", "statement": "create_dome adds layers*segments free bodies; the corners of each are the points of the inner and outer sphere at the angles of its layer and segment; no two overlap, and nothing else changes.", "quantifier": "all radii, counts (3 or more segments) and frames", "why_tests_cant": "Counts, sizes and frames are unbounded; the example scenes use a handful of parameter values.", "anchors": ["rainbow/simulators/prox_rigid_bodies/scenes/create_dome.py: create_dome"]}
{"id": "C90", "title": "Pillar and ground scenes", "statement": "create_pillar adds socle, abacus, base, echinus and the shaft stones as free bodies, stacked without overlap; create_ground adds one fixed box whose top is the plane y=0 of the frame; nothing else changes.", "quantifier": "all sizes, stone counts and frames", "why_tests_cant": "Counts, sizes and frames are unbounded; the example scenes use a handful of parameter values.", "anchors": ["rainbow/simulators/prox_rigid_bodies/scenes/create_pillar.py: create_pillar", "rainbow/simulators/prox_rigid_bodies/scenes/create_ground.py: create_ground"]}
{"id": "C91", "title": "Pantheon and colosseum scenes", "statement": "create_pantheon adds a tower carrying a dome, create_colosseum rings of arches separated by rings of wedges, at every level; no two of all these bodies overlap, and nothing else in the engine changes.", "quantifier": "all radii, heights, counts (3 or more segments or arches), safety factors at most one and frames", "why_tests_cant": "Counts, sizes and frames are unbounded; the example scenes use a handful of parameter values.", "anchors": ["rainbow/simulators/prox_rigid_bodies/scenes/create_pantheon.py: create_pantheon", "rainbow/simulators/prox_rigid_bodies/scenes/create_colosseum.py: create_colosseum"]}
{"id": "C92", "title": "A robot read from a URDF file is assembled as the file says", "statement": "read_urdf adds one free body per link with a mesh and one hinge per revolute joint; every link's body frame is its inertial frame and its mesh is at its collision frame, both relative to a link frame; the link frame of a joint's child is the joint origin in the parent's link frame, and both halves of each hinge meet at the joint origin with the joint axis. Nothing else in the engine changes.", "quantifier": "all files whose revolute joints form trees, all meshes, frames and prior engine states", "why_tests_cant": "The kinematic tree has any shape and depth and the frames are arbitrary; the repository's example robots cover a handful.", "anchors": ["rainbow/simulators/prox_rigid_bodies/scenes/read_urdf.py: read_urdf", "rainbow/simulators/prox_rigid_bodies/api.py: create_shape, create_rigid_body, create_hinge, set_position, set_orientation, set_hinge"]}
{"id": "C93", "title": "URDF data are read as the format defines them", "statement": "Frames are roll, pitch, yaw about fixed axes followed by a translation with missing attributes zero; masses, inertias (with products) , mesh scale, joint names, types, ends and unit axes are those of the file; unusable files are rejected with a definite error rather than half understood.", "quantifier": "all element trees, attribute texts and mesh files", "why_tests_cant": "Attributes may be present or absent in any combination and with any values.", "anchors": ["rainbow/simulators/prox_rigid_bodies/scenes/read_urdf.py: _convert_frame, _parse_geometry_tag, _parse_inertial_tag, parse_urdf_file, read_urdf"]}
{"id": "C94", "title": "Post-stabilization pushes penetrating contacts apart and nothing else", "statement": "After a step, post-stabilization leaves the state untouched when it is off or when no contact is deeper than min_gap_value. Otherwise the bodies are moved only by pushing (never pulling, never tangential) contact corrections; a correction a sweep reproduces separates, to first order, every deep contact by at least its depth and by exactly its depth where it pushes; when no two contacts share a movable body the deep contacts are separated by exactly their depth in every run that is allowed one iteration. The effective mass matrix of every contact problem is positive semidefinite, with positive normal diagonal entries.", "quantifier": "all worlds, contact lists, states, parameters and iteration counts", "why_tests_cant": "the set of contact configurations is infinite and the result of an iterative solve depends on all of them", "anchors": ["rainbow/simulators/prox_rigid_bodies/steppers.py:_apply_post_stabilization", "rainbow/simulators/prox_rigid_bodies/constraints/post_stabilization.py:PostStabilization", "rainbow/simulators/prox_rigid_bodies/state_storage.py:StateStorage"]}
{"id": "C95", "title": "A completely set up scene can be simulated from one end to the other", "statement": "Whatever API calls are made on a fresh engine, in whatever order and whichever of them raise, every shape made from a solid (a closed mesh of positive volume without degenerate triangles whose centroid lies in its hull, e.g. any star shaped mesh or torus) keeps such a mesh, stored in a frame with its origin at the centre of mass (up to 1e-10). If every body has a shape, every movable body a non-zero mass and every hinge two bodies, then the distance fields and bounding volume hierarchies can be made and simulate(T), running the package's own collision detection, solver and integration, returns for every T > 0 after ceil(T/time_step) steps whose sizes add up to T; fixed bodies are exactly where they were, everything except poses and velocities is unchanged, orientations are unit, and the simulation can be continued. In particular every box stack built in a fresh engine can be simulated.", "quantifier": "all histories of API calls, all such meshes, all parameters in the documented ranges, all distance functions of the geometry library, all simulation times", "why_tests_cant": "an end-to-end statement through mesh creation, mass properties, hierarchy building, collision detection, solver and time stepping, for every scene and every number of steps", "anchors": ["rainbow/simulators/prox_rigid_bodies/api.py: create_shape, connect_shape, simulate", "rainbow/simulators/prox_rigid_bodies/steppers.py: SemiImplicitStepper.step", "rainbow/simulators/prox_rigid_bodies/collision_detection.py: run_collision_detection", "rainbow/simulators/prox_rigid_bodies/mass.py"]}
{"id": "C96", "title": "The distance field of a shape covers the shape and is accurate to a cell", "statement": "create_signed_distance returns, for a non-empty mesh, a non-negative margin and at least two nodes per axis, a grid whose box is the bounding box of the vertices grown by exactly the margin on all sides and whose node values are the library's distances at the node coordinates; otherwise it raises ValueError. create_shape uses the margin max(extent/10, 2*envelope). If the library's values come from a distance function (changing by at most the distance travelled), get_value differs from it by at most the diagonal of a cell at every point of the box, and so the gap of every reported contact is within sqrt(3)*(extent + 2*margin)/(resolution - 1) of the true distance.", "quantifier": "all meshes, margins, resolutions, distance functions, points of the box, and reported contacts", "why_tests_cant": "a bound on the interpolation error at every point of every grid", "anchors": ["rainbow/geometry/grid3.py: create_signed_distance, get_value", "rainbow/simulators/prox_rigid_bodies/api.py: create_shape", "rainbow/simulators/prox_rigid_bodies/collision_detection.py: _contact_determination"]}
{"id": "C97", "title": "Contacts are detected on the whole surface of every shape", "statement": "Wherever another body touches the surface of a shape, the distance field of that shape is consulted, so that bodies do not pass through each other. (Holds when the mesh is at least five units long or the envelope at least a quarter. Fails otherwise, because the inside test keeps half a length unit from the sides of the field's box while the margin is only max(extent/10, 2*envelope): the outermost vertices along every axis are then rejected, and a scene of boxes with diagonals below 0.6 is simulated, with default parameters, exactly as if there were no collision detection.)", "quantifier": "all shapes, parameters, scenes and simulation times", "why_tests_cant": "absence of tunnelling is a statement about all scenes; the failing cases depend on a relation between mesh size, envelope and a default argument in another module", "anchors": ["rainbow/geometry/grid3.py: is_inside", "rainbow/simulators/prox_rigid_bodies/api.py: create_shape, simulate", "rainbow/simulators/prox_rigid_bodies/collision_detection.py: _contact_determination"]}
{"id": "C98", "title": "Creating a soft body", "statement": "create_soft_body with an unused name and a mesh with valid indices, positive tetrahedra, no face shared by more than two tetrahedra and at least one boundary face (in particular any non-empty mesh without overlaps, and every create_beam mesh) adds exactly one body to the engine: its vertices and tetrahedra are the given ones, renumbered along the axis of axis_sort; it is undeformed, at rest, without conditions and material; its surface triangles are exactly the faces belonging to one tetrahedron, once each, outward, with their owner; it has a distance field of that surface; the hash grid grows by one place per triangle and its cell size becomes 2.2 times the mean edge length (averaged with the previous size), or the body gets a hierarchy. A used name, an invalid index and a flat or inverted tetrahedron raise RuntimeError, IndexError and RuntimeError; after the last two every later step raises, because the engine keeps the unfinished body.", "quantifier": "all meshes, engines, names, parameters, signed distance and eigenvector results", "why_tests_cant": "all meshes of any size and all engine states; connectivity argument", "anchors": ["rainbow/simulators/prox_soft_bodies/api.py: create_soft_body", "rainbow/geometry/volume_mesh.py: compute_surface", "rainbow/geometry/spatial_hashing.py: compute_optial_cell_size", "rainbow/geometry/surface_mesh.py: axis_sort"]}
{"id": "C99", "title": "Forces, masses and body types act as told", "statement": "A gravity force created with acceleration g > 0 and an up vector of any non-zero length, once connected to a body, adds a force of size mass*g against the up direction and no torque, for whatever mass and velocity the body has by then; a damping force adds -alpha v and -beta w; set_mass_properties gives the body density times the mass and principal moments of its shape; set_body_type makes is_fixed_body answer accordingly. Each call leaves all other bodies, forces, shapes, hinges and surface interactions as they were.", "quantifier": "all engines, names, parameters, and whatever calls happen between creating and connecting a force", "why_tests_cant": "all engine states and call orders", "anchors": ["rainbow/simulators/prox_rigid_bodies/api.py: create_gravity_force, create_damping_force, connect_force, set_mass_properties, set_body_type, is_fixed_body", "rainbow/simulators/prox_rigid_bodies/types.py: Gravity.compute, Damping.compute"]}
{"id": "C100", "title": "Running the whole soft body simulator succeeds or stops at an inverted element", "statement": "Take an engine to which bodies have been added with create_soft_body from meshes whose vertices are distinct, all used, positively oriented, with a boundary and placed so that no least coordinate of the box of the distance field is exactly zero, each given by set_material a compressible Saint Venant-Kirchhoff or stable neo-Hookean material of positive density with known friction coefficients, with an existing proximal solver and no stabilization. Then simulate(T) with the package's own collision detection (spatial hashing or hierarchies) and contact solver makes ceil(T/time_step) steps that sum to T and either all succeed, or RuntimeError is raised because a configuration with a flat or inverted tetrahedron has been reached; no other exception and no infinite loop is possible, and after a success the scene can be run again. Pinned nodes stay, and every contact of a step lies between tetrahedra of two different bodies.", "quantifier": "all scenes built this way with any number of bodies and tetrahedra, all durations and time steps, all hash functions and all signed distance libraries that return one value per node", "why_tests_cant": "the number of bodies, elements and steps is unbounded and the failure can be at any step of any history", "anchors": ["rainbow/simulators/prox_soft_bodies/api.py: create_soft_body, set_material, simulate", "rainbow/simulators/prox_soft_bodies/solver.py: SemiImplicitStepper.step", "rainbow/simulators/prox_soft_bodies/collision_detection.py: run_collision_detection", "rainbow/simulators/proximal_contact/prox_solvers.py: solve"]}
{"id": "C101", "title": "The curvature field of a distance field", "statement": "create_from_sdf returns a field over the grid of its argument. Its values are bounded by the inverse of the smallest spacing and vanish on the boundary of the grid. Negating the distances negates the values and adding a constant does not change them. For a field with the values of a quadratic function the value at an inner node with a gradient of length at least 1/2 is exactly the divergence of the unit normals of the level sets, cut off at the bound; affine fields give 0. For a twice differentiable function sampled on a sequence of grids with spacings shrinking in proportion to 0, the values at a node that all grids share converge to that divergence. The divergence is the sum of the principal curvatures: on a sphere of radius R the result is 2/R, twice the mean curvature the function name promises.", "quantifier": "every grid with positive spacing, every nodal field, every quadratic function, every twice differentiable function and every refining sequence of grids", "why_tests_cant": "exactness and convergence range over all functions and all refinements; the factor two is invisible to tests that compare the code with itself", "anchors": ["rainbow/geometry/mean_curvature.py: create_from_sdf", "rainbow/geometry/grid3.py: Grid, get_node_value, get_linear_index"]}
{"id": "C102", "title": "Chains of hinged cubes are built as described, and can be simulated", "statement": "Whenever create_cube_hinge_chain returns, the engine holds exactly K new bodies (in the order of the returned names): cubes of the given edge length a, turned 45 degrees about the z axis, in a row centred at the origin with a gap of 5 % of the diagonal, no two of which overlap; the first is fixed, the others free; each has the material asked for, the mass a^3*density, and its position is its centre. There are exactly K-1 new hinges, named parent_child, joining consecutive links: both bodies hold the anchor at the point half way between them and the axis along z. Nothing else in the engine changes. For every a > 0 and K >= 1 the call returns when the generated names are new, and the scene can then be simulated for any length of time; for K = 0 it raises IndexError.", "quantifier": "all edge lengths, numbers of links, densities, materials, engine contents, name generators, times", "why_tests_cant": "tests build one chain", "anchors": ["rainbow/simulators/prox_rigid_bodies/scenes/create_cube_hinge_chain.py:create_cube_hinge_chain", "rainbow/simulators/prox_rigid_bodies/api.py:create_hinge", "rainbow/simulators/prox_rigid_bodies/api.py:set_hinge", "rainbow/simulators/prox_rigid_bodies/api.py:get_position"]}
{"id": "C103", "title": "Lattices of bodies fill their cells", "statement": "create_lattice(engine, r, q, shape_names, width, height, depth, I, J, K, ...) adds exactly I*J*K free bodies under new names, in the order of the cells: body number (i*J+j)*K+k is an instance of the shape number (i+j+k) mod len(shape_names), its centre of mass is at the middle of cell (i,j,k) of the grid in the frame (r, q), and its orientation is q times the random rotation, q_body or the identity; it has the requested material and density. Nothing else in the engine changes. If every shape stays within rho of its centre of mass and cells have sides of at least 2*rho, every body stays inside its own cell whatever the random numbers are, so no two overlap. The call succeeds for all sizes, all positive numbers of cells and every non-empty list of existing shapes, raises ZeroDivisionError when a number of cells is zero or there are no shapes, and leaves a scene that can be simulated.", "quantifier": "all frames, sizes, numbers of cells, lists of shapes, random draws, densities, materials and prior engine states", "why_tests_cant": "Tests build one lattice with one seed; the placement for all cells and the guarantee for every random orientation are universal statements.", "anchors": ["rainbow/simulators/prox_rigid_bodies/scenes/create_lattice.py:create_lattice", "rainbow/math/quaternion.py:rand"]}
{"id": "C104", "title": "Calls of the soft body API: exact effects and errors", "statement": "For every engine and every call of the soft body API: set_velocity gives every node of the named body the velocity and changes nothing else; get_material_coordinates returns the undeformed node positions in order; set_spatial_coordinates moves the nodes to the given positions if there is one position per node and raises ValueError otherwise; set_type, set_gravity, set_material, set_constitutive_model change exactly the named attribute (set_material also fills the mass and damping arrays from the material as it is at that moment); create_material adds a material with default values under an unused name only; set_elasticity, set_viscosity, set_mass_density accept exactly E > 0, 0 <= nu <= 1/2, c >= 0, rho >= 0; create_surfaces_interaction accepts exactly two existing materials without interaction and mu >= 0, and is symmetric. A call naming an unknown body or material raises ValueError. get_largest_penetration_error is zero when no contact penetrates and otherwise the depth of the deepest contact.", "quantifier": "all engines, names, values and arrays", "why_tests_cant": "Tests call each setter once; the frame (nothing else changes) and the exact accepted ranges are universal.", "anchors": ["rainbow/simulators/prox_soft_bodies/api.py:set_velocity", "rainbow/simulators/prox_soft_bodies/api.py:set_spatial_coordinates", "rainbow/simulators/prox_soft_bodies/api.py:set_elasticity", "rainbow/simulators/prox_soft_bodies/api.py:create_surfaces_interaction", "rainbow/simulators/prox_soft_bodies/solver.py:get_largest_penetration_error"]}
{"id": "C105", "title": "Scenes in which a lattice of bodies falls on fixed bodies", "statement": "create_sandbox, create_jack_lattice, create_funnel, create_glasses, create_poles and create_rock_slide add exactly the bodies they name: a lattice of I\u00b7J\u00b7K free bodies, one per cell, whose meshes are the given solids scaled so that the longest side of the bounding box is 0.9 (poles: 1) of the shortest side of a cell, with the centre of mass in the middle of the cell; and fixed bodies: five walls of an open box that do not overlap, a funnel or glass that fills a box of the given height and radius, a grid of cylinders that do not overlap if the grid is wider than the poles, a landscape. Under stated bounds on the cell height the falling bodies start clear of the fixed ones. They succeed for all star-shaped solids, positive lengths and positive counts, raise ZeroDivisionError for a zero count, and the scene can then be simulated. The 0.9 padding does not exclude that randomly turned neighbours overlap (finding), and create_rock_slide returns a list whose last element is a list (finding).", "quantifier": "every scene, solids, sizes, counts, random orientations, material and density", "why_tests_cant": "sizes, counts, meshes and random orientations are unbounded; a test builds one scene and does not see overlaps", "anchors": ["rainbow/simulators/prox_rigid_bodies/scenes/create_sandbox.py: create_sandbox", "rainbow/simulators/prox_rigid_bodies/scenes/create_jack_lattice.py: create_jack_lattice", "rainbow/simulators/prox_rigid_bodies/scenes/create_funnel.py: create_funnel", "rainbow/simulators/prox_rigid_bodies/scenes/create_glasses.py: create_glasses", "rainbow/simulators/prox_rigid_bodies/scenes/create_poles.py: create_poles", "rainbow/simulators/prox_rigid_bodies/scenes/create_rock_slide.py: create_rock_slide"]}
{"id": "C106", "title": "Chain mail: the rings are where they should be, linked, and clear of each other", "statement": "create_chainmail adds one torus per ring: (rows+1)(columns+1) flat rings in a square grid in the plane y = 0 centred at the origin, and an upright ring between every two neighbours of a row and of a column; half the distance between neighbouring flat rings is D = R + (R - 2r)\u00b7stretch with the stretch clipped to [0,1]. Every ring has the given material and density; when pinned, exactly the four corner rings are fixed. For 2r <= R every two neighbours are linked (the core circle of one passes through the disc of the other in exactly one point) and no other two are. If 2\u03c1 < R, 2\u03c1 < 2R - D and 2\u03c1 < \u221a2(D - R), where \u03c1 = r + R(1 - cos(\u03c0/24)), the meshes of no two rings share a point; if \u221a2(R-2r)\u00b7stretch < 2r some rings are closer than their thickness (finding: so for the default stretch 0.5 unless R > 4.8 r). Building succeeds for all 0 < r < R and any counts, and the scene can be simulated.", "quantifier": "every R, r, stretch, density, numbers of rows and columns, pinned or not, material and scene", "why_tests_cant": "counts and radii are unbounded, and linkage and clearance are statements about all pairs of points of all pairs of rings", "anchors": ["rainbow/simulators/prox_rigid_bodies/scenes/create_chainmail.py: create_chainmail", "rainbow/geometry/surface_mesh.py: create_torus"]}
{"id": "C107", "title": "Gears mesh: profile, solid and train", "statement": "For every module, number of teeth and pressure angle for which the teeth fit, the profile that make_gear_specs returns is an involute gear: a closed curve around the centre whose points lie on the root arc, on involutes of the base circle and on the tip arc, with the tooth thickness \u03c0\u00b7m/2 at the pitch circle; make_gear_mesh turns it into a closed, consistently oriented surface whose enclosed volume is exactly face width times the area inside the profile (positive); make_gears_assembly raises for gears of different module or pressure angle and otherwise puts the driven gear so that the pitch circles touch at the heading angle and, where they touch, a flank of one gear lies on a flank of the other; and when create_gear_train returns, gear i + 1 is so placed next to gear i, all gears lie flat, each hangs on exactly one hinge to the fixed ground, with the anchor below its position, and nothing else in the engine has changed.", "quantifier": "every module, number of teeth, pressure angle, face width, position, rotation and heading; every number of gears, every outcome of the random draws and every starting state of the engine", "why_tests_cant": "there are infinitely many gear parameters and random trains; a test can look at a few meshes but not at every tooth count, heading and train length", "anchors": ["/repo/rainbow/simulators/prox_rigid_bodies/scenes/create_gear_train.py:GearFactory", "/repo/rainbow/simulators/prox_rigid_bodies/scenes/create_gear_train.py:create_gear_train"]}
{"id": "C108", "title": "Every gear of a train can turn", "statement": "In the scene made by create_gear_train every gear is held by a hinge around its own axis, so that it can turn and drive its neighbours.", "quantifier": "every number of gears, every outcome of the random draws and every starting state of the engine", "why_tests_cant": "it is a statement about every gear of every random train", "anchors": ["/repo/rainbow/simulators/prox_rigid_bodies/scenes/create_gear_train.py:create_gear_train"]}
{"id": "C109", "title": "The temple is the planned building and its stones do not overlap", "statement": "create_temple with I >= 3 pillars in front, 3n+1 pillars along the sides (n >= 1), square pillars and at least one stone per pillar succeeds in every engine that has the material; it adds exactly the stones of the plan (three surrounding steps and one interior step, the pillars around and the rows of pillars inside, the regular, mitred, pointed and junction bricks on top of them, the gables, the roof planks and the ridge stones), each with exactly the planned corners in the world and the given density and material, all free, and the interiors of no two of them meet. With a number of side pillars that is not 3n+1 it raises RuntimeError and adds nothing.", "quantifier": "all numbers of pillars, stones, widths and heights, all engines, all convex hull libraries that return a closed star-shaped surface on the given points", "why_tests_cant": "the number of stones and pairs of stones is unbounded; tests can build only a few temples", "anchors": ["rainbow/simulators/prox_rigid_bodies/scenes/create_temple.py: create_temple", "rainbow/geometry/surface_mesh.py: create_box, create_convex_hull"]}
{"id": "C110", "title": "create_scene builds every listed scene and connects gravity and damping to every body", "statement": "For every name of get_scene_names other than 'ur5', create_scene succeeds in every engine that knows the material 'default', gives new names and has no forces 'earth' and 'air'. Whenever create_scene returns, for whatever name, every body of the engine (also those that were there before) has got the forces 'earth' and 'air' once, so that it is pulled by 9.81 per unit of mass along -y and damped by 0.01 times velocity and spin on top of the forces it had; a second call on the same engine always raises. In the scenes pillar, arch, dome, tower, colosseum, pantheon, temple and box_stack the ground is fixed with its top at height 0, the stated number of free bodies stands above it, and no two of the added bodies, ground included, overlap. A name that is not in the list is not reported: the forces are added and nothing else. Each of these scenes can be simulated: if nothing was missing in the engine, and the meshes of the files fill a hundred millionth of the cube around them, distance fields and hierarchies are made for all bodies and simulate returns for every length of time. The scene 'ur5' passes on the error of reading a file in a home directory.", "quantifier": "all engines built through the API, all scene names, all random draws, all meshes in the package's files that are closed solids, all correct eigenvalue and hull libraries", "why_tests_cant": "A test builds a scene once with one seed and one set of files and cannot see that no pair of the 721 bodies of the colosseum overlaps exactly; the claim about forces ranges over all earlier contents of the engine.", "anchors": ["rainbow/simulators/prox_rigid_bodies/scenes/create_scene.py: create_scene, get_scene_names"]}
{"id": "C111", "title": "Writing a scene to XML keeps the scene", "statement": "For every engine the API can build, write_xml makes a document exactly if every body has a shape and every hinge has been set (otherwise AttributeError). The document lists bodies (state, shape, forces), forces, shapes with all vertices and triangles, material interactions, hinges and parameters in order of creation; a hinge set in mode \"world\" is written with the origin it was set with and its normalised axis. Two engines with the same document have the same bodies, forces, meshes, interactions, parameters and hinges (links, anchor and axis in the parent). What is lost: the drift between the two ends of a joint. All scenes of create_scene (except ur5) can be written.", "quantifier": "all scenes built by any history of API calls (any number of bodies, shapes, hinges, forces, interactions) and all pairs of such scenes", "why_tests_cant": "no test can range over all scenes or compare all pairs of scenes", "anchors": ["rainbow/simulators/prox_rigid_bodies/scenes/write_xml.py:write_xml"]}
{"id": "C112", "title": "The file of write_xml is well-formed XML", "statement": "For every scene the text that write_xml writes is a well-formed XML element, and every name is read back from it unchanged. (False: the pair of material names is put into the attribute \"materials\" unescaped; names with < or quotes give a file no XML reader accepts, and a material named \"&\" makes write_xml raise TypeError, although the API accepts these names.)", "quantifier": "all scenes and all names of bodies, forces, shapes, hinges and materials", "why_tests_cant": "names are arbitrary strings and scenes are unbounded", "anchors": ["rainbow/simulators/prox_rigid_bodies/scenes/write_xml.py:write_xml", "rainbow/simulators/prox_rigid_bodies/api.py:create_surfaces_interaction"]}
{"id": "C113", "title": "from_string reads what is written", "statement": "quaternion.from_string gives the identity for \"identity\", the rotation by d degrees about an axis for \"rx:d\", \"ry:d\", \"rz:d\" and \"ru:d:[a,b,c]\", and the four components for \"[a,b,c,d]\" (what follows the fourth is ignored, fewer than four are an AssertionError); vector3.from_string gives the named vectors, the three components of a list, and for \"rand:lo:hi\" a vector with every component in [lo, hi); capital and small letters are the same.", "quantifier": "every number that can be written as an optional minus, a decimal and an optional exponent with sign, of any length; every list length; every draw of the random generator", "why_tests_cant": "a test reads a handful of strings; the claim is about every numeral of every length and every list", "anchors": ["rainbow/math/quaternion.py:from_string", "rainbow/math/vector3.py:from_string", "rainbow/math/vector3.py:rand", "rainbow/util/parse_string.py:Number"]}
{"id": "C114", "title": "from_string refuses what does not make sense as a whole", "statement": "check_string accepts exactly the texts of its grammar, and from_string gives a quaternion only for a text all of which denotes that quaternion; every other text raises.", "quantifier": "every string", "why_tests_cant": "there are infinitely many malformed strings, and whether the grammar that checks and the functions that read agree is a question about all of them", "anchors": ["rainbow/math/quaternion.py:check_string", "rainbow/math/quaternion.py:from_string", "rainbow/math/vector3.py:check_string", "rainbow/util/parse_string.py:parse_string_to_array_check"]}
{"id": "C115", "title": "A number as Python writes it is accepted", "statement": "Every finite decimal number has a text that from_string reads as that number, and the text str() gives it is one.", "quantifier": "every whole number times every power of ten", "why_tests_cant": "a test tries a few numbers such as 90 or 0.5 and does not meet the ones whose fraction or exponent begins with a zero", "anchors": ["rainbow/util/parse_string.py:Integer", "rainbow/util/parse_string.py:Float", "rainbow/math/quaternion.py:from_string"]}
{"id": "C116", "title": "Principal directions and variance", "statement": "PCA returns the mean of the points, three perpendicular unit directions (the columns of the returned matrix) and for each the sample variance of the points along it; no direction has more variance than the one with the largest value, and direction_of_most_variance returns that direction. The last clause is false of the code: it returns a row of the matrix, not a column.", "quantifier": "every list of points in space and every lawful symmetric eigen-decomposition", "why_tests_cant": "the unit test uses points on an axis, where rows and columns of the eigenvector matrix coincide; the property is about every point set and every choice of eigenvectors", "anchors": ["rainbow/math/functions.py:PCA", "rainbow/math/functions.py:direction_of_most_variance"]}
{"id": "C117", "title": "The USD recorder keeps what was recorded", "statement": "After any history of add_mesh, set_mesh_positions, add_rigid_body, update_rigid_body, set_animation_time, set_frames_per_second and save calls, raising ones included: get_mesh_positions at a recorded time returns the positions recorded last for that mesh and time (rounded to single precision); between recorded times they are interpolated, outside the nearest hold, with nothing recorded the mesh stands where it was added; a rigid body is shown at q p + r at each recorded time; calls for other names do not matter; the file holds the stage of the last save; each call raises exactly as documented, and a call that raises changes nothing. The code violates two clauses: get_mesh_positions never raises the documented ValueError for a time without positions, and two raising calls do change the stage.", "quantifier": "every history of calls, every name, time, list of positions and pose", "why_tests_cant": "histories are unbounded, with overwriting, re-adding and failing calls interleaved; tests make one call each", "anchors": ["rainbow/util/USD.py:USD", "rainbow/util/USD.py:_XFormableWrapper"]}
{"id": "C118", "title": "The application writes the animation it simulated", "statement": "Whatever the user does with the simulate check box and the create scene button, frame after frame, the animation file, when there is one, is the complete animation of one created scene: vertices of its bodies, start, end and frame rate, and at every step every body where the simulation run from that scene has it; and if the box stays on, the file is written after the last step. This holds for every scene of the catalogue except ur5 simulated by the package's engine.", "quantifier": "every session of frames with user actions, every engine with distinct body names, every number of steps, every scene name", "why_tests_cant": "the property is about interleavings of user actions and simulation steps over whole sessions; there are no tests of the application", "anchors": ["rigid_bodies_app_gui.py:simulate", "rigid_bodies_app_gui.py:create_gui", "rigid_bodies_app_gui.py:callback", "rainbow/util/USD.py:USD"]}
{"id": "C119", "title": "sinc is sin x / x everywhere, with no cancellation and no division by zero", "statement": "For every real x, sinc(x) differs from sin(x)/x by at most 2e-18, equals it exactly when |x| >= 1e-4, is 1 at 0, is even, and never leaves [-1, 1].", "quantifier": "every real argument, on both sides of the switching threshold", "why_tests_cant": "the series branch and the quotient branch meet at a threshold; only an error bound over the whole interval shows that the switch is invisible", "anchors": ["rainbow/math/functions.py:sinc"]}
{"id": "C120", "title": "Materials are usable and the Cauchy stress is a stress", "statement": "create_material_parameters(name) gives, for every name and for none, a positive Young modulus and density and a Poisson ratio strictly between 0 and 1/2, so that both Lame parameters exist and are positive; case does not matter, an unknown name silently means the default, the nine names give different materials. cauchy_stress_tensor(F, S) succeeds exactly when every F is invertible, returns one stress per element with det F * sigma = F S F^T, symmetric when S is, giving the same force on a deformed area as the first Piola-Kirchhoff stress F S on the undeformed one, and turning with the observer: F -> R F gives R sigma R^T.", "quantifier": "all names; all stacks of deformation gradients and stresses of equal length, all rotations", "why_tests_cant": "names and matrices are unbounded; symmetry, Nanson's relation and objectivity are identities over all matrices", "anchors": ["rainbow/simulators/prox_soft_bodies/mechanics.py:create_material_parameters", "rainbow/simulators/prox_soft_bodies/mechanics.py:cauchy_stress_tensor", "rainbow/simulators/prox_soft_bodies/mechanics.py:first_lame", "rainbow/simulators/prox_soft_bodies/mechanics.py:second_lame"]}
{"id": "C121", "title": "The text of a polynomial denotes the polynomial", "statement": "Reading str(P) as a sum of signed terms gives, at every point (x, y), the value that P(x, y) evaluates to; zero coefficients are left out, a coefficient one and powers one are not written.", "quantifier": "all polynomials in two variables of any order, all coefficients, all points", "why_tests_cant": "the text depends on all combinations of signs, zeros, ones and powers, and its meaning ranges over all points", "anchors": ["rainbow/math/polynomial.py:to_str", "rainbow/math/polynomial.py:Poly.__str__", "rainbow/math/polynomial.py:evaluate"]}
{"id": "C122", "title": "Generated names are unique and legal", "statement": "Two calls of generate_unique_name with the same base return different names whenever their random numbers or their clock readings differ, although four kinds of characters are merged into one; and the name is a legal USD identifier exactly when the base has only letters, digits, underscores, spaces, dots, colons and dashes and does not begin with a digit.", "quantifier": "all base names, random numbers and times", "why_tests_cant": "the replacement of characters could merge different names; only an argument over all texts of the formats excludes it", "anchors": ["rainbow/simulators/prox_rigid_bodies/api.py:generate_unique_name"]}
{"id": "C123", "title": "Soft body application: scenes, films and the beam scripts", "statement": "create_soft_body of the application adds one undeformed beam around the given centre with the given type, gravity and material and leaves a scene that can be simulated; create_dirichlet_conditions and create_traction_conditions pin and load exactly the nodes and surface triangles of the condition. simulate(T, fps) carries the scene over round(T*fps) intervals of 1/fps seconds, each in ceil((1/fps)/time_step) steps not longer than the time step, and with recording the saved film shows every body that is not excluded at frame k as it was after k+1 intervals and the excluded bodies undeformed; it succeeds or raises RuntimeError and nothing else. hanging_beam_simulation.py, midpoint_traction_beam_simulation.py and soft_sheet.py build their scenes without an exception. Found: the time step of the constructor and the viscosity of create_soft_material are ignored, a refused material stays, the load of the midpoint script acts on the whole surface, the cube of the sheet script is below the sheet and not on it.", "quantifier": "every application state reached by the calls, every material, mesh size, centre, condition function, length T, frame rate, set of excluded bodies, and all outcomes of the external libraries within their contracts", "why_tests_cant": "the number of simulator steps and recorded frames is unbounded, the condition functions are arbitrary, and the contents of the film relate every frame to a whole simulation", "anchors": ["sandbox/soft_body_app/soft_application.py:SoftBodyApplication.create_soft_material", "sandbox/soft_body_app/soft_application.py:SoftBodyApplication.create_soft_body", "sandbox/soft_body_app/soft_application.py:SoftBodyApplication.simulate", "sandbox/soft_body_app/soft_application.py:SoftBodyApplication.initialize_usd", "sandbox/soft_body_app/hanging_beam_simulation.py:run", "sandbox/soft_body_app/midpoint_traction_beam_simulation.py:run"]}
{"id": "C124", "title": "The rigid body command line program sets up its scene and simulates half a second of it", "statement": "Run on a fresh engine, the program's scene set-up raises nothing and leaves exactly three bodies: a fixed 10 by 1 by 10 ground box centred in the origin, a ball of radius 1 at (-2, 2, 0) and a cube of side 2 at (2, 2, 0), unrotated, at rest, of unit density, under gravity 10 along -y and damping, standing clear of each other; a second run on the same engine raises RuntimeError. Its simulate makes equal steps of one time step each, adding up to half a second to within half a time step, without an exception (50 steps with the default time step); the ground does not move and bodies keep shapes, masses and forces. A zero time step raises ZeroDivisionError; with a negative time step, or one of a second or more, it silently simulates nothing.", "quantifier": "all eigenvalue solvers and signed distance functions meeting their contracts, all generated names, all engine parameters and time steps, all scenes that can be simulated", "why_tests_cant": "A run of the program checks one machine's eigen solver and one time step and has no way to see that two solids nowhere overlap.", "anchors": ["rigid_bodies_app_cmd.py:setup_scene", "rigid_bodies_app_cmd.py:simulate", "rigid_bodies_app_cmd.py:main"]}
{"id": "C125", "title": "Inverse kinematics: reach of a chain", "statement": "For every joint angles the end effector of a chain that starts at the root stays within the length of the stretched arm (bone vectors after the root, and the tool) of the origin of the root, and not nearer than the excess of one link over all the others; a goal beyond that distance keeps the objective at least half the square of what is missing. The bound is sharp: for every skeleton made with the API, with whatever Euler codes, and every direction there are joint angles that put the end effector exactly at that distance in that direction. With all angles zero the bones line up: each origin is the sum of the bone vectors on its path and nothing is turned. Exactly bone 0 is a root, and the rotations of a joint keep their axes. demo_inverse_kinematics.py builds a straight arm with bones at x = 1, 2, 3, 4 and one chain; its default goal (10,0,0) is out of reach for all angles.", "quantifier": "every skeleton built by any sequence of API calls, every chain from the root, tool and goal, every vector of joint angles, every direction", "why_tests_cant": "the statements range over all trees, all angles and all directions, and the attained bound needs an existence proof for every combination of Euler codes", "anchors": ["rainbow/simulators/inverse_kinematics/types.py", "rainbow/simulators/inverse_kinematics/api.py:set_joint_angles", "rainbow/simulators/inverse_kinematics/api.py:update_skeleton", "rainbow/simulators/inverse_kinematics/api.py:compute_objective", "sandbox/demo_inverse_kinematics.py:show_simple_setup"]}
{"id": "C126", "title": "The profiling log of the rigid body simulator is complete, truthful and harmless", "statement": "Whether profiling is on or off and whatever the log already holds, simulate leaves the same world or raises the same exception. With profiling on, simulate(T) appends exactly one entry per time step and nothing else: ceil(T / time_step) entries whose dt are positive, at most the time step, only the last one smaller, and add up to T. The k-th entry describes the world after the k-th step: number of contact points, kinetic energy (translation plus rotation of the movable bodies), potential energy, largest penetration of the contacts used. The solver's part is there exactly when the step had contacts or hinges, that of the post-stabilisation exactly when it is enabled and some contact is deeper than the tolerance, and each is truthful: one residual per iteration, not increasing, the others infinite, an exit code that tells why the solver stopped; 'iterations' is the number of iterations when all were used up, but one less when the solver converged. With profiling off the log is untouched, so over any sequence of calls the log grows by the profiled ones only. The command line program finds 50 entries of a hundredth of a second each.", "quantifier": "all worlds, contact and hinge configurations, logs, time steps, times to simulate, and all sequences of simulate calls with and without profiling", "why_tests_cant": "a test looks at the log of one short run; that the record is complete and describes the very states passed through must hold for every run, and the claim that profiling has no effect compares two runs for every world", "anchors": ["rainbow/simulators/prox_rigid_bodies/steppers.py:SemiImplicitStepper.step", "rainbow/simulators/prox_rigid_bodies/gauss_seidel_solver.py:solve", "rainbow/simulators/prox_rigid_bodies/api.py:simulate", "rainbow/simulators/prox_rigid_bodies/api.py:get_log", "rigid_bodies_app_cmd.py:simulate"]}
{"id": "C127", "title": "The debug log of the soft body simulator describes the run and does not change it", "statement": "`simulate(engine, T, debug_on=True)` computes the same states as `simulate(engine, T)`; afterwards `get_log` has one record per time step, in order, whose dt values are the step sizes (they sum to T), whose number of contact points, kinetic, potential and elastic energy and largest penetration are those of the state after that step. Without debug_on the log is left alone. (The code violates the first part: the elastic energy is computed from the positions after the step, so a run whose last step flattens or inverts a tetrahedron returns without debug_on and raises RuntimeError with it; and the first record, made by the constructor of the stepper, has no step data.)", "quantifier": "every scene, every duration, every number of steps, every earlier log, with and without debug_on", "why_tests_cant": "a test compares one log with one run; the claim is about every record of every run, and the difference between the two modes appears only in runs that end with a flat or inverted element", "anchors": ["rainbow/simulators/prox_soft_bodies/api.py:simulate", "rainbow/simulators/prox_soft_bodies/api.py:get_log", "rainbow/simulators/prox_soft_bodies/solver.py:SemiImplicitStepper.step"]}
{"id": "C128", "title": "The viewer shows one moment of the scene created last", "statement": "Whatever the user does with the simulate check box and the create scene button, frame after frame, the viewer of the rigid body application holds exactly the bodies of the scene created last (nothing before that), under their names, with their vertices and triangles, fixed bodies in blue and the others in red, and all bodies in the poses of one and the same moment of the simulation run from that scene: the moment before the last step (the scene as created if no step has been made). The viewer never raises and changes nothing about the engine, the recording and the file. This holds for every scene of the catalogue except ur5 with the package's engine. (The viewer is therefore one step behind the engine, also when the user pauses.)", "quantifier": "every session of frames with user actions, every engine with distinct body names, every scene name, every number of steps", "why_tests_cant": "it is about interleavings of user actions and simulation steps; there are no tests of the application", "anchors": ["rigid_bodies_app_gui.py:create_visual_geometry", "rigid_bodies_app_gui.py:simulate", "rigid_bodies_app_gui.py:create_gui", "rigid_bodies_app_gui.py:callback"]}
{"id": "C129", "title": "The plots show every recorded step at its number", "statement": "When the window is closed with profiling checked (and at the end of the command line program) the applications plot the log: a convergence line for every step with contacts or hinges, coloured by the step, and curves of energies, step sizes, contacts and penetrations in which x = i is the step i.", "quantifier": "all scenes, numbers of frames and outcomes of the solver", "why_tests_cant": "A test would look at one figure; the claim is about every session.", "anchors": ["rigid_bodies_app_gui.py: plotting, simulate, main", "rigid_bodies_app_cmd.py: plot, main", "rainbow/simulators/prox_rigid_bodies/api.py: get_log"]}
{"id": "C130", "title": "The test helpers compare and generate arrays as documented", "statement": "is_array_equal returns True if all entries agree to the given decimals and False otherwise; is_array_not_equal says whether some entry differs; psu_rand_array_gen returns an array of the given size with entries between min_lim and max_lim.", "quantifier": "all arrays of one shape, decimals, sizes, limits and random samples", "why_tests_cant": "Quantifies over all arrays and random samples; and they are the helpers the unit tests themselves rest on.", "anchors": ["rainbow/util/test_tools.py: is_array_equal, is_array_not_equal, psu_rand_array_gen"]}
{"id": "C131", "title": "A simulation does not depend on where the origin is", "statement": "Moving the whole scene by any vector c before a step, or before simulate, gives the same result moved by c: same velocities, same orientations, same contacts (their positions moved by c), or the same exception. This includes the package's own collision detection: hierarchies built for the bodies, contacts found, redundant contacts dropped.", "quantifier": "every number of bodies, every state of the engine, every vector c, every step length and simulation time", "why_tests_cant": "a test can only compare a few scenes and a few vectors; the claim is about all of them", "anchors": ["rainbow/simulators/prox_rigid_bodies/steppers.py: SemiImplicitStepper.step", "rainbow/simulators/prox_rigid_bodies/collision_detection.py: run_collision_detection", "rainbow/simulators/prox_rigid_bodies/api.py: simulate", "rainbow/geometry/kdop_bvh.py: refit_bvh, traversal", "rainbow/geometry/kdop.py: make, overlap, union"]}
{"id": "C132", "title": "A simulation can be stopped and resumed", "statement": "Simulating n time steps and then T more in a second call of simulate ends exactly as one call for the sum. The second call needs only what the user can see and set: poses, velocities and settings of the engine; contact points left in the engine and the bounding volumes left by earlier steps have no influence, so a run saved as poses and velocities and continued in a freshly set up engine ends exactly as the run without interruption.", "quantifier": "every scene, every number n > 0 of time steps, every further time T > 0, every list of left-over contact points", "why_tests_cant": "a test can compare a few scenes and a few stopping points; that no hidden state is carried from step to step is a claim about all histories", "anchors": ["rainbow/simulators/prox_rigid_bodies/api.py: simulate", "rainbow/simulators/prox_rigid_bodies/steppers.py: SemiImplicitStepper.step", "rainbow/simulators/prox_rigid_bodies/collision_detection.py: run_collision_detection", "rainbow/geometry/kdop_bvh.py: refit_bvh"]}
{"id": "C133", "title": "Galilean invariance: a velocity common to all bodies changes nothing between them", "statement": "If no body is fixed and only gravity forces act, a step (and a whole simulate) from a state in which every body moves faster by a constant velocity a gives exactly the same bodies with velocities larger by a and positions moved by the elapsed time times a; orientations, spins, contacts, contact forces and exceptions are the same. Holds for contacts with friction, bounce, hinges, pre- and post-stabilization, with the package's own collision detection.", "quantifier": "every number of bodies, every velocity a, all body states, meshes, hinges, parameters, step sizes and durations", "why_tests_cant": "a test compares a few trajectories in floating point; exact equality must hold for all states and all durations, through the contact solver", "anchors": ["rainbow/simulators/prox_rigid_bodies/steppers.py: SemiImplicitStepper.step", "rainbow/simulators/prox_rigid_bodies/state_storage.py: StateStorage", "rainbow/simulators/prox_rigid_bodies/contacts.py: Contacts", "rainbow/simulators/prox_rigid_bodies/hinges.py: Hinges", "rainbow/simulators/prox_rigid_bodies/api.py: simulate"]}
