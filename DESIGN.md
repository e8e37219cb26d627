# Formal model of diku-dk/RAINBOW in Lean 4

`lean/Verif/Model/*`   executable-style transcriptions of the Python code, function by function; each definition cites file:lines.
`lean/Verif/Spec/*`    small specifications, independent of the model's helpers (only Mathlib notions).
`lean/Verif/Lemmas/*`  proof engineering, nothing to audit there.
`lean/Verif/Props/*`   the property theorems (named in `MANIFEST.json`) and, next to each, `example`s that show the hypotheses are met by a concrete non-trivial case.

## Trusted base

* Lean 4.33.0's kernel, and Mathlib as installed. Every theorem depends on at most `propext`, `Classical.choice`, `Quot.sound`. No own axioms, no compiled evaluation.
* **Numbers.** Python floats / numpy float64 are modelled by the real numbers ℝ; `sqrt`, `sin`, `cos`, `acos`, `atan2` by the exact real functions. Rounding, overflow, NaN and infinities produced by arithmetic are not modelled. (±inf as *initial values* of min/max accumulators are modelled with `WithBot/WithTop`-style values where the code uses them.) A theorem here therefore says: the algorithm is right in exact arithmetic, for every input; it does not bound rounding errors.
* Division by zero: numpy yields inf/nan, Lean yields 0. Theorems carry the hypothesis that excludes it, or the model returns an error value.
* Indices and counters: `Nat`/`Int` (Python ints are unbounded; numpy int32/int64 overflow is not modelled).
* Python exceptions are values of `Except PyErr _`.
* Library calls that are modelled by their documented contract and not by their source: `heapq` (push keeps the bag, pop removes a least element), `numpy` elementwise operations, `np.unique`/`np.lexsort`, `np.linalg.eig/eigh/inv/norm/det`, `collections.deque` (FIFO list), `dict` (finite map with insertion order), `random` (an arbitrary choice: theorems quantify over it), `time.perf_counter` (an arbitrary reading; monotone where stated), `igl` (not modelled), `networkx.greedy_color` (by contract: a proper colouring).
* Not modelled: the looks of plots and windows and the polyscope viewer of the soft body application (what the plots, the window and the USD files *contain* is modelled: C117, C118, C123, C128, C129), reading the URDF text into an element tree, logging, timings, printing, numba/JIT, floating point. The table at the end of this file lists the functions file by file.

## Property by property

Notation: M = what is modelled, P = how it is proved.

* C01–C05 quaternion algebra. M: every function of `math/quaternion.py` on a structure of four reals; array versions on `List`. Spec: Mathlib's `Quaternion ℝ` and `Matrix`. P: ring identities, case split on the four branches of `from_matrix`, positivity of the radicand on each branch.
* C06 slerp/lerp. M: all branches incl. clamping and the flip. P: trigonometric identity for the generic branch. The small-angle branch ignores `flip`; for b ≈ -a this breaks the property: negation proved with a witness, positive part `_partial`.
* C07, C08 vector3. P: case analysis; Gram determinant; lexicographic order on ℝ×ₗℝ×ₗℝ.
* C09 coordsys. P: from C02.
* C10 matrix3. P: ring + sin²+cos²=1.
* C11 euler. M: extraction with atan2 as `Complex.arg`. P: polar form, three branches; check the gimbal branches.
* C12 expmap. M: exp, log, reparameterization. `log` returns zero for half turns: negation + partial.
* C70 polar decomposition, C79 exponential-map derivatives, C80 orthonormalisation, C81 angle/axis. M: the functions of `matrix3.py`, `expmap.py`, `quaternion.py`; `eigh` by contract. P: uniqueness of the positive square root (Mathlib); `HasDerivAt` along lines; polar angle. `dRdv_i` has the wrong sign beyond a half turn: negation + partial.
* C13 polynomial. M: powers table as lists, evaluate, derivative. P: induction on term lists; `HasDerivAt`.
* C14 heap. M: state (bag, finder) with object identity; P: simulation to a finite map for all histories.
* C15 timer. M: state machine over clock readings; P: induction on histories.
* C16–C20 AABB, k-DOP, BVH. M: arrays of nodes, recursion of `_make_sub_tree`, reversed refit loop, deque traversal with fuel-free well-founded measure. P: tree invariant by induction on ranges; refit by induction on the node index; traversal by induction on the work list.
* C21, C22 spatial hashing. M: table as function/finite map, lazily cleared cells, cell ranges by truncation. `insert` hands out the list before the lazy clear: negation + partial.
* C23–C25 grid3. M: index arithmetic, clamped cell, trilinear weights. `get_gradient` divides by min_coord: negation + partial.
* C26 barycentric, C27/C28 tetrahedron. P: field_simp/ring, list counting. `generate_interior_sample_points` filters on 3 nonzeros: negation + partial.
* C29–C33 meshes. M: generators as lists of index tuples. P: Nat arithmetic for all sizes; connectivity lemmas.
* C60 self collision (grid/triangle test), C61 vertex circulator, C62 tetrahedra to triangles. M: the loops as folds over arrays. P: sorted-list lemmas, sign of determinants. What the code's triangle test decides is characterised exactly (C60_decides, by Cramer's rule), from which its blindness to a pierced triangle follows for all triangles (C60_blind).
* C32, C33, C63, C64 surface meshes. M: every function of `surface_mesh.py` (`scipy.spatial.ConvexHull` by contract). Spec: directed edge lists, enclosed volume by the divergence formula, convex position by plane sides. P: triangles as tags over abstract vertices with an injective numbering; telescoping sums for volumes.
* C34, C35 prox operators. P: projection inequality; bisection invariant.
* C36–C38 solvers. M: solve loop over an abstract sweep and the concrete sweep. P: loop invariants.
* C39 blocking. M: contact graph, greedy grouping, random colouring as a nondeterministic transition system. P: invariants.
* C40, C41 constraints. P: linear algebra of 6-vectors.
* C42–C45 types/api. M: engine record and API calls as state transformers. P: histories by induction.
* C46–C48, C65–C67 state storage, steppers, simulate, energy. M: stacked vectors as functions on Fin N × Fin 6; collision detection a parameter of the step. P: block lemmas, action and reaction, loop unrolling with a ceiling.
* C49, C68 mass. P: discrete divergence theorem (polynomial identities per triangle, edge terms cancel on a closed mesh) against iterated integrals over signed tetrahedra; parallel axis and principal axes as matrix identities, with a contract for np.linalg.eig.
* C50, C51, C69 collision detection. M: the whole pipeline, hierarchies and distance fields included. P: list induction; convexity invariant; composition with C18–C20 and C24.
* C82, C83 soft body collision detection. M: the whole of `collision_detection.py`, both narrow phases; the bodies as lists. Spec: barycentric weights, points on triangles. P: uniqueness of barycentric coordinates; composition with C18–C22, C24, C26, C51. The normal is pushed to the world by D·D0⁻¹ of edge rows, wrong for turned bodies: negation + partial.
* C52–C55 soft bodies. P: identities on 3x3 matrices, sums over elements, `HasDerivAt`.
* C71–C76 soft body engine and stepper. M: engine record, all API calls, the whole `step` and `simulate` with collision detection and the contact solver as parameters; global arrays are functions of the node number. P: invariant over call histories; gather/scatter lemmas for disjoint ranges; rows of the mass matrix.
* C56–C59, C77, C78 inverse kinematics. M: the list of bones, changed in place; recursion with Python's depth limit; arrays as functions of row and column. Spec: paths from the root, poses determined by the parent, derivatives (`HasDerivAt`) of the programs `set_angle; update_skeleton; …`. P: tree induction; rigid motion of everything below a joint; the objective is C² in the angles, mean value theorem for second differences. `compute_hessian` transposes the blocks of pairs of bones: negation + partial.
* C84–C91 meshes, shapes and scenes. M: `create_mesh`, `create_shape` and the scene builders as state transformers over the engine and its stored meshes; generated names are an arbitrary stream. Spec: a list of bricks (corners, triangles, place) per scene; overlap = a common ball. P: the builder puts up the planned bricks one by one; separating planes between bricks, moved along with the frame.
* C92, C93 URDF files. M: the whole of `read_urdf.py` from the element tree on (`float`, `split`, `os.path`, `igl.read_triangle_mesh` are arbitrary functions). Spec: `LinkFrame`, the link frames the joints define. P: invariant of the traversal with a measure; the base link's inertial frame is mistaken for its link frame: negation + partial. Scale and products of inertia are dropped: negation + partial.
* C94 post-stabilization. M: `_apply_post_stabilization` and `PostStabilization` (already in RigidStep/Constraints). Spec: contact displacement J W Jᵀ x. P: fixed points of the sweep; decoupled contacts reach the answer in the first sweep and stay; fᵀWf as a sum of squares.
* C95–C97 the whole rigid body simulator. M: `create_signed_distance` (`igl.signed_distance` is an arbitrary function), the geometry part of `create_shape`/`connect_shape`, `step` and `simulate` with the modelled collision detection in place of the parameter. Spec: `Complete` scenes, `SameWorld`, `Lipschitz1`. P: the centroid of a star shaped solid lies in its hull, so the field's box surrounds the origin; invariant over call histories; induction over steps; trilinear weights. The inside test's default of half a unit exceeds the fields' margin for small meshes: negation + partial.
* C98, C100 the whole soft body simulator. M: `create_soft_body` with renumbering, surface, distance field, hash grid or hierarchy; `step` and `simulate` with the modelled collision detection and contact solvers in place of parameters (Model/FullSoft). Spec: `NewBody`, `GeoFits`, `BroadFits`, `SoftReady`. P: relabelling of meshes; a closed set of non-overlapping tetrahedra would have volume zero, so there is a boundary; invariant of the step.
* C99 forces and setters of the rigid engine. M: already in RigidApi. Spec: total force on a body. P: dictionary lemmas.
* C101 curvature of distance fields. M: `mean_curvature.create_from_sdf` line by line (Model/MeanCurvature). Spec: `IsGradAt`, `IsNormalDivergence` (Mathlib derivatives of G/|G| along the axes). P: the stencil is exact for quadratics; L'Hôpital for second differences.
* C102 chains of hinged cubes. M: `create_cube_hinge_chain` (Model/SceneChain). Spec: `ChainBuilt`, a list of placed cubes and of joined hinges. P: the building lemmas of C84–C91 (now with the body position = centre of mass), then induction over the hinges; C95 for the simulation.
* C103 lattices. M: `create_lattice` (Model/SceneLattice), random draws as an arbitrary function of the cell. Spec: `Adds` with one `centred` solid per cell (centre of mass at the middle of the cell), cells as intervals in the lattice frame, `NoOverlap`. P: the building lemmas with bodies placed by their centre of mass; a rotated solid stays in the ball around its centre of mass.
* C104 soft body API. M: Model/SoftApi, Model/SoftStep. Spec: `ChangesBody`, `ChangesMaterial` (one entry changed, everything else equal). P: dictionary lemmas, case analysis of the tests. Added after the seeded bugs "longer arrays accepted" and "largest gap" survived.
* C105 falling lattices. M: Model/SceneLattice has the six builders; the contents of the obj files, the convex hulls of the random point sets and the random orientations are parameters (any closed mesh, any quaternion). `Props/SceneScaled.lean` proves what `create_mesh`, `scale_to_unit`, `scale`, `create_shape` make of a mesh (`FitTo`, `FillBox`), `Props/SceneFall*.lean` the placements, the separating planes, success and failure, and the overlap of two turned cubes (finding).
* C106 chain mail. M: Model/SceneMail. Spec: `Hoop` (centre and axis), its circle `On` and disc `Inside`, `mailHoops`, the list of rings. P: placements by rotations of the mail frame; case analysis over the three kinds of rings and their steps in the grid for the least distances; every point of every triangle of the torus is within r + R(1 − cos(π/24)) of the core circle. For it the simulation theorems C95 were generalised from star shaped meshes to `Solid` (closed, no zero triangles, positive volume, centroid in the hull), and `C33_torus_volume`, `C33_torus_solid` (centroid exactly 0) proved for all segment and slice counts ≥ 3.
* C107 gears. M: Model/SceneGear (`make_gear_specs`, `make_gears_assembly`, `make_gear_mesh`, `create_gear_train`; the draws of the random generator are the arguments Z, omega). Spec: `TeethFit` (when teeth fit), the involute as the curve whose tangent from the base circle has the length of the unrolled arc, `ClosedOriented`, `shoelace`. P: polar form of the involute; monotone angles along the profile; every edge of the mesh is matched by tags; volume by the divergence theorem over walls and caps; the train by an invariant over the loop. The mesh is a solid (`TeethSolid` → no degenerate triangle, no triangle facing the middle, positive volume), hence the train can always be built (C107_train_succeeds) and simulated (C107_train_simulates).
* C108 the gears can turn: violated. P: the gear axis is rotated to world y, the hinge axis stays world z (C108_no_gear_turns); with C41_hinge_kernel the hinge lets no spin about y through.
* C109 temple: Model/SceneTemple builds every family of stones in the order of the code (loops as lists of bodies). Spec: an integer grid (quarter pillar widths, half steps) and the corners of every part on it. P: every body's world vertices are the planned corners (Fills), the parts are pairwise separated by a coordinate or diagonal plane (integer inequalities by omega), C81-style Adds for mass, material and placement. `create_convex_hull` (scipy) is a parameter `hull`, relied on through TempleHulls: its vertices are the given points and its surface is closed and star-shaped. Assumed: square pillars, I >= 3, n >= 1.
* C110 create_scene: Model/SceneAll is the chain of branches with the literal parameters, then the two forces and the loop over the bodies (names read from the body objects). What comes from files, libraries and the random generator is a record Outside. P: a relation Calm (forces untouched, new bodies have none) is proved for every API call and builder, so that the loop meets no name clash (C110_forces, once, unknown, ur5); success of each branch from the success theorems of its builder (C110_builds); no overlap with the ground from the plans of C86-C91 and C109, all of which are above height 0 (C110_no_overlap); simulation (C110_simulates) from C95_scene: nothing is missing because the volume of every stone is computed and exceeds the rounding threshold 1e-10, and scaled file meshes keep their share of the cube around them.
* C111: Model/WriteXml.lean models write_xml as the element tree it builds, attribute values kept before they are turned into text. Proved: when it
  raises (C111_raises), what is in the document (C111_contents), injectivity on reachable engines up to the sockets of the children and the model frames
  of the shapes (C111_lossless), the origin and axis written for a joint (C111_hinge), that drift is lost (C111_drift_lost), and that all scenes of
  create_scene can be written (C111_scene). Left out: the parameters outside the model, the attribute "type" of parameters, rounding by array2string.
* C112: the serialisation by xml.etree.ElementTree (attributes, escaping, tags; without white space) is modelled too; Spec/Xml.lean is the grammar of XML
  1.0 restricted to elements with attributes. Proved: strings are escaped safely and read back (C112_string_safe, C112_string_read_back); well-formedness
  if the material names are harmless (C112_well_formed_partial); the violations (C112_not_well_formed by a scanner argument, C112_type_error as an
  equivalence).
* C113–C115: Model/ParseString.lean models the pyparsing grammar of parse_string.py as parsers that never go back (as pyparsing's MatchFirst), `strtod`,
  `float`, `np.fromstring`, `strip`, `split`, and both `from_string`. Spec/Numeral.lean says how a number is written and what it stands for (with Lean's own
  decimal notation `Nat.toDigits 10`). Proved both ways: where a numeral is written the grammar and `strtod` read it, and what the grammar reads in a text
  without white space is a numeral, a list, or one of the templates. Strings are lists of characters, ASCII only. Refuted: C114 (fraction of an exponent,
  text after a newline, blanks inside a numeral) and C115 (1.05, 1e5, 1e-05).
* C116: `PCA`/`direction_of_most_variance` (Model/Shapes.lean) against the sample variance of the coordinates along a direction; `np.linalg.eig` is any
  function with orthonormal eigenvector columns on symmetric matrices. The row/column mistake is refuted for every such function on six points. Partial: the code violates it.
* C117: Model/Usd.lean models util/USD.py as a state machine whose calls return outcome and state, also when they raise; Pixar's library is described, not modelled:
  prims by path, default value and time samples, USD's value resolution, the order of transforms. Spec/Usd.lean says what a history recorded (`Recorded`, `Added`,
  `PoseRecorded`); by induction over histories the samples in the stage are exactly those. Partial: the code violates two clauses, both refuted.
* C118: Model/UsdApp.lean models the frame callback of rigid_bodies_app_gui.py with user actions; the invariant says what the recorder holds after so many steps.
  `C118_scene` plugs in the engine of C110.
* C119: Model/Sinc.lean; the remainder of the sine series below the threshold is bounded with Mathlib's exponential estimate, the quotient branch is exact.
* C120: Model/Materials.lean; the material table by cases, the stress by matrix algebra in Mathlib's matrices (`StressOf`), stacks by induction.
* C121: Model/PolyText.lean; Spec/PolyText.lean is a reader of such texts (words, signs, products) that shares nothing with the writer; induction over the terms.
  Python's `str` of a non-integer float is a parameter with a contract (`ReadsNumbers`). Partial: the code drops a leading minus sign.
* C122: Model/UniqueName.lean; the formats of the two texts are specified character by character; cleaning is injective on them because each position determines what an
  underscore stood for.

- **C123** `SoftBodyApplication` of the sandbox is modelled on top of the full soft simulator (C98-C100) and of the USD recorder (C117): a call is a function
  from application states to application states and an optional exception. The inner loop between two frames is unrolled to a run of the simulator
  (`interval`), the outer loop by induction over the frame numbers. `C123_film` compares the saved stage with the sequence of scenes; `C123_outcome` uses the
  progress theorems of C100; the scripts are straight-line programs whose steps are discharged by `C123_body`, `C123_pins` and `C123_loads`. Not modelled: viewer,
  progress bar, contents of the log, soft_sheet.py beyond its definition (its sheet lies above the coordinate planes, where the premise of C100_add fails).
- **C124** rigid_bodies_app_cmd.py: Model/RigidCmd.lean has `setup_scene` call by call (named shapes, bodies, forces) and `simulate` (number of steps by np.round, loop over the complete simulator of C95). Proved by running the set-up symbolically to an explicit engine, box/ball/cube coordinates give the clearance, `Complete` and `SceneGood` let C95's step theorem carry the loop by induction on the number of steps. The mass of the ball uses a lower bound of its volume (one band of the sweep formula of C33).
- **C125** Model/IKDemo.lean adds the remaining methods of `types.py` (but the text representations) and the demo. The end effector of an updated skeleton is
  written as a sum of rotated bone vectors along the path (`end_segments`), which gives both bounds; for sharpness angles are chosen along the path, bone by
  bone, with the lemma that a joint with different neighbouring axes can turn any vector into any other of the same length (`joint_aims`), and neighbouring
  letters of valid codes differ (`built_codes`).
- **C126** (profiling log): Model/Profile.lean repeats the stepper with the records written when `profiling_on` is true. Forgetting the log gives the model of C45/C95 step by step (`stepLogged_map`) and hence for the whole loop, also when it raises or runs for ever (`whileLoop_forget`). The entries are described by a separate specification (`EntryDescribes`, `TruthfulReport`, `LoggedRun`) in terms of the world after the step; energies rest on C67, solver reports on C37. Timings are left out.
- **C127** (`Model/SoftProfile.lean`, `Props/SoftProfile.lean`): `stepper.log` as a list of records beside the world; `simulateLogged` is `simulate` with the records that `debug_on` appends. Proved: nothing is logged without debug_on (C127_off); every record describes its step and a run with debug_on that returns is the run without it (C127_log); when debug_on turns a run that returns into a RuntimeError (C127_outcome, C127_changes); the first record has no step data (C127_first). Partial because of the last two findings.
* C128: Model/GuiView.lean adds polyscope's structures (mesh, colour, transform, by name) to the application of C118; the invariant over the frames says which moment the viewer shows (C128_view), a projection lemma that the viewer changes nothing else (C128_unchanged); Props/GuiScene.lean instantiates it with the package's engine and the catalogue (C128_scene).
- **C129** plots. M: Model/Plotting.lean, `plotting` of the window and `plot` of the command line program as figures of labelled lines over the log of C126. P: a session of frames is a run of logged steps (induction over the frames with C126_log); lines are matched with steps by their positions. The code violates the property (first step not plotted).
- **C130** test helpers. M: Model/TestTools.lean, arrays as shapes with entries by index, `np.testing.assert_allclose` and `np.linspace` by their definitions, random samples and shuffles as parameters. P: unfolding and estimates of convex combinations. The code violates the property (False never returned, limits ignored).
- **C131** (translation invariance; `Props/Translation.lean`): the world is moved by c (`World.shift`: body positions and contact positions); every function of a step is shown to commute with the move (contact and hinge Jacobians read only differences of positions; forces and masses do not read positions), so `step` and the loop of `simulate` do, for every collision detection that commutes with it. `Props/TranslationCD.lean`: the package's own does (k-DOPs are moved slab by slab, refitting, traversal, Frank-Wolfe, contact reduction commute). `Props/TranslationStart.lean`: refitting never reads the volumes stored before (links go to later nodes, unused nodes hold no volume), so the hierarchies `connect_shape` makes in body frames serve every origin, and `simulate` commutes from the start. Real arithmetic: floating point rounding does depend on the origin and is outside the model.
- **C132** (stop and resume; `Props/Resume.lean`): the loop of `simulate` is unfolded trip by trip (after n full steps the remaining time is T); for resuming, refitting is shown to read nothing of the old volumes (`Later`: mesh, field and links stay, unused nodes stay) and a step to read nothing of the old contact points. `Props/ResumeSoft.lean`: two calls equal one call for the soft body simulator too (its stepper, made at the first call, is kept).
- **C65** over whole runs (`Props/MomentumRun.lean`): induction over the steps that C45 shows `simulate` makes; weights do not change, so momentum changes by T times the total weight and, without weight, the centre of mass moves uniformly (post-stabilization included: its pushes are weighted by masses and opposite).
- **C133** (Galilean invariance; `Props/Galilean.lean`, `Props/GalileanRun.lean`, `Props/GalileanFull.lean`): a velocity common to all bodies is in the kernel of the contact and hinge Jacobians (the linear parts of a row for the two bodies are opposite), so every constraint problem is unchanged and the solver returns the same velocity change; positions move by dt·a, which C131 shows harmless for the next step. With the own collision detection, C132's lemma that refitting reads no old volumes reduces `simulate` to steps with the hierarchies as made.

What could not be expressed: floating-point error bounds; performance; anything inside compiled third-party code.

## Coverage by source file

Made from the citations in `lean/Verif/Model` and the syntax trees of `/repo`. "Own definition" in the last column means that the function has no definition of its own in the model; these are trivial accessors and constructors that are written out where they are used (`_is_root`, `increment_hash_table_size` in `FullSoft.tuneHash`, `_convert_mass`, `cutoff_angle`, `to_quaternion`, `to_expmap`, `from_array`, `__init__`, the abstract `compute`, `main`), or `__str__`, demonstration code, unused setters, an unused viewer and the timing statistics of `initialize_stats`, which are left out.

| file | functions | model modules | without an own definition |
|---|---|---|---|
| `rainbow/geometry/aabb.py` | 3 | AABB |  |
| `rainbow/geometry/barycentric.py` | 7 | Barycentric |  |
| `rainbow/geometry/grid3.py` | 12 | FullSim, Grid3 |  |
| `rainbow/geometry/kdop.py` | 6 | KDOP |  |
| `rainbow/geometry/kdop_bvh.py` | 12 | BVH | `_is_root` |
| `rainbow/geometry/mean_curvature.py` | 1 | MeanCurvature |  |
| `rainbow/geometry/spatial_hashing.py` | 9 | FullSoft, SpatialHash | `increment_hash_table_size`, `set_cell_size` |
| `rainbow/geometry/surface_mesh.py` | 18 | SurfaceMesh |  |
| `rainbow/geometry/tetrahedron.py` | 6 | Tetrahedron |  |
| `rainbow/geometry/volume_mesh.py` | 13 | MeshTopology, SoftFem, VolumeMesh | `__init__` |
| `rainbow/math/angle.py` | 2 | CoordSys |  |
| `rainbow/math/coordsys.py` | 8 | CoordSys |  |
| `rainbow/math/euler.py` | 3 | ExpMap |  |
| `rainbow/math/expmap.py` | 12 | ExpMap, ExpMapDeriv | `cutoff_angle`, `to_quaternion`, `to_expmap` |
| `rainbow/math/functions.py` | 3 | Shapes, Sinc |  |
| `rainbow/math/matrix3.py` | 16 | CoordSys, SoftMech, Vec | `ones` |
| `rainbow/math/polynomial.py` | 10 | PolyText, Polynomial | `__str__`, `__call__` |
| `rainbow/math/quaternion.py` | 24 | ParseString, Quaternion, SceneLattice | `from_array` |
| `rainbow/math/vector3.py` | 19 | ParseString, Vec, Vector3 | `make_vec4` |
| `rainbow/simulators/inverse_kinematics/api.py` | 21 | IKDemo, InverseKin |  |
| `rainbow/simulators/inverse_kinematics/types.py` | 19 | IKDemo, InverseKin | `__str__`, `__str__`, `__str__` |
| `rainbow/simulators/prox_rigid_bodies/api.py` | 26 | FullSim, Profile, RigidApi, RigidStep, Scenes, Shapes, UniqueName |  |
| `rainbow/simulators/prox_rigid_bodies/collision_detection.py` | 6 | Collision, Shapes |  |
| `rainbow/simulators/prox_rigid_bodies/constraints/contacts.py` | 9 | Constraints, ProxSolver | `__init__` |
| `rainbow/simulators/prox_rigid_bodies/constraints/hinges.py` | 6 | Constraints, ProxSolver | `__init__` |
| `rainbow/simulators/prox_rigid_bodies/constraints/post_stabilization.py` | 5 | Constraints, ProxSolver |  |
| `rainbow/simulators/prox_rigid_bodies/constraints/problem.py` | 8 | ProxSolver |  |
| `rainbow/simulators/prox_rigid_bodies/gauss_seidel_solver.py` | 1 | Profile, ProxSolver |  |
| `rainbow/simulators/prox_rigid_bodies/mass.py` | 8 | Mass, RigidBody | `__str__` |
| `rainbow/simulators/prox_rigid_bodies/prox_operators.py` | 1 | Prox |  |
| `rainbow/simulators/prox_rigid_bodies/scenes/create_arch.py` | 1 | Scenes |  |
| `rainbow/simulators/prox_rigid_bodies/scenes/create_box_stack.py` | 1 | Scenes |  |
| `rainbow/simulators/prox_rigid_bodies/scenes/create_chainmail.py` | 1 | SceneMail |  |
| `rainbow/simulators/prox_rigid_bodies/scenes/create_colosseum.py` | 1 | Scenes |  |
| `rainbow/simulators/prox_rigid_bodies/scenes/create_cube_hinge_chain.py` | 1 | SceneChain |  |
| `rainbow/simulators/prox_rigid_bodies/scenes/create_dome.py` | 1 | Scenes |  |
| `rainbow/simulators/prox_rigid_bodies/scenes/create_funnel.py` | 1 | SceneLattice |  |
| `rainbow/simulators/prox_rigid_bodies/scenes/create_gear_train.py` | 7 | SceneGear |  |
| `rainbow/simulators/prox_rigid_bodies/scenes/create_glasses.py` | 1 | SceneLattice |  |
| `rainbow/simulators/prox_rigid_bodies/scenes/create_ground.py` | 1 | Scenes |  |
| `rainbow/simulators/prox_rigid_bodies/scenes/create_jack_lattice.py` | 1 | SceneLattice |  |
| `rainbow/simulators/prox_rigid_bodies/scenes/create_lattice.py` | 1 | SceneLattice |  |
| `rainbow/simulators/prox_rigid_bodies/scenes/create_pantheon.py` | 1 | Scenes |  |
| `rainbow/simulators/prox_rigid_bodies/scenes/create_pillar.py` | 1 | Scenes |  |
| `rainbow/simulators/prox_rigid_bodies/scenes/create_poles.py` | 1 | SceneLattice |  |
| `rainbow/simulators/prox_rigid_bodies/scenes/create_rock_slide.py` | 1 | SceneLattice |  |
| `rainbow/simulators/prox_rigid_bodies/scenes/create_sandbox.py` | 1 | SceneLattice |  |
| `rainbow/simulators/prox_rigid_bodies/scenes/create_scene.py` | 2 | SceneAll |  |
| `rainbow/simulators/prox_rigid_bodies/scenes/create_temple.py` | 1 | SceneTemple |  |
| `rainbow/simulators/prox_rigid_bodies/scenes/create_tower.py` | 1 | Scenes |  |
| `rainbow/simulators/prox_rigid_bodies/scenes/read_urdf.py` | 9 | Urdf | `_convert_mass` |
| `rainbow/simulators/prox_rigid_bodies/scenes/write_xml.py` | 1 | WriteXml |  |
| `rainbow/simulators/prox_rigid_bodies/state_storage.py` | 10 | RigidBody |  |
| `rainbow/simulators/prox_rigid_bodies/steppers.py` | 3 | FullSim, Profile, RigidStep | `__init__` |
| `rainbow/simulators/prox_rigid_bodies/types.py` | 19 | Collision, FullSim, RigidApi, RigidBody | `compute` |
| `rainbow/simulators/prox_soft_bodies/api.py` | 18 | FullSoft, SoftApi, SoftCollision, SoftProfile, SoftStep |  |
| `rainbow/simulators/prox_soft_bodies/collision_detection.py` | 12 | FullSoft, SoftCollision, SpatialHash |  |
| `rainbow/simulators/prox_soft_bodies/mechanics.py` | 12 | Materials, SoftMech |  |
| `rainbow/simulators/prox_soft_bodies/solver.py` | 36 | FullSoft, SoftApi, SoftFem, SoftProfile, SoftStep |  |
| `rainbow/simulators/prox_soft_bodies/types.py` | 12 | FullSoft, SoftApi, SoftCollision, SoftFem | `__init__`, `__init__`, `__init__` |
| `rainbow/simulators/proximal_contact/blocking.py` | 3 | Blocking, FullSoft |  |
| `rainbow/simulators/proximal_contact/gauss_seidel_solver.py` | 3 | ProxSolver, SoftStep |  |
| `rainbow/simulators/proximal_contact/jacobi_solver.py` | 3 | ProxSolver, SoftStep |  |
| `rainbow/simulators/proximal_contact/prox_solvers.py` | 1 | FullSoft |  |
| `rainbow/simulators/proximal_contact/proximal_operators.py` | 3 | Prox |  |
| `rainbow/simulators/proximal_contact/solver_interface.py` | 7 | ProxSolver | `initialize_stats` |
| `rainbow/util/USD.py` | 13 | Usd |  |
| `rainbow/util/heap.py` | 7 | Heap | `__str__`, `test_heap` |
| `rainbow/util/parse_string.py` | 5 | ParseString |  |
| `rainbow/util/test_tools.py` | 4 | TestTools | `get_base_folder` |
| `rainbow/util/timer.py` | 7 | Heap | `__str__`, `test_timer` |
| `rigid_bodies_app_cmd.py` | 4 | Plotting, RigidCmd | `main` |
| `rigid_bodies_app_gui.py` | 6 | GuiView, Plotting, UsdApp |  |
| `sandbox/demo_inverse_kinematics.py` | 1 | IKDemo |  |
| `sandbox/soft_body_app/hanging_beam_simulation.py` | 1 | SoftApp |  |
| `sandbox/soft_body_app/midpoint_traction_beam_simulation.py` | 2 | SoftApp |  |
| `sandbox/soft_body_app/soft_application.py` | 12 | SoftApp | `initialize_viewer`, `upadte_viewer` |
| `sandbox/soft_body_app/soft_sheet.py` | 1 | SoftApp |  |
