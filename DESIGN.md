# Formal model of ReactPhysics3D 0.10.2 - design

All paths are relative to `/repo`. Nothing in `/repo` is compiled or executed;
the Lean model is a hand translation of the C++ text, function by function, and
each definition cites the lines it translates.

## Trusted base

* Lean 4.33 kernel, and the three standard axioms `propext`,
  `Classical.choice`, `Quot.sound` (at most; `Verif/Audit.lean` prints the
  axioms of every property theorem). No `sorry`, no own axioms, no
  `native_decide`, no `bv_decide`.
* The hand translation from C++ to Lean (cited line by line).
* Mathlib, as a library of kernel-checked proofs.

### Conventions of the translation

* Unsigned integers are `Nat` when the code cannot overflow in reachable
  states, otherwise `Nat` with explicit `% 2^k` or `UIntN`/`BitVec`. Where overflow
  matters it is stated.
* Memory: buffers are lists/functions of slots, addresses are `Nat`. Undefined
  behaviour (out-of-range index, reading an uninitialised slot, lookup of an
  absent key through `operator[]`, use after free) is a distinct outcome
  (`none`/`Except.error`), never a silent default. `assert`s of the containers, allocators and of the world are modelled as in a
  release build (no effect); in the geometric modules (`Height/*`, `Mesh/*`, `Shapes/*`) a broken assertion is an undefined outcome as well.
* Floating point: comparisons/min/max logic is modelled over an arbitrary linear
  order, which is exact for NaN-free floats. Arithmetic is modelled in an
  exact ordered field (rounding is not modelled) unless the property is about rounding,
  in which case rounding to 24 bits is modelled explicitly on `Nat`, or special values
  (NaN, infinity) are modelled explicitly.
* Loops are structural or fuel-free recursions; where the C++ loop may not
  terminate, non-termination is stated as a property.
* Not modelled: logging, profiling, thread safety (the library is
  single threaded), C++ object construction/destruction of user types beyond
  moving values, exceptions, `std::` internals.

## Modules per property

| id | model (module under `lean/Verif`) | method | theorems in `Props/` |
|----|----------------|--------|----|
| C01, C57 | `Containers/Array`: buffer of slots, size, capacity, all methods | refinement to `List`, induction on histories | `Array` |
| C02 | `Containers/Array` with `Containers/Float32` (round-to-nearest-even to 24 bits on `Nat`) | negation with witness 2^24+1; positive part up to 2^24 | `Array` |
| C03, C04, C05 | `Containers/HashTable` (the code of `Map` and `Set` is the same up to the value): buckets, next array, entries, free list, any hash | simulation relation to finite maps | `Hash` |
| C06, C07, C58 | `Containers/Deque` (one buffer with room at both ends, as in the code) | refinement to `List`; negations | `Deque` |
| C08 | `Containers/Stack` | refinement to `List` | `Stack` |
| C09, C73 | `Memory/Pool` | invariant on free lists and blocks | `Pool`, `PoolReuse` |
| C10, C11, C60 | `Memory/Heap`: memory words, units linked in both directions | invariant: the units tile the blocks | `Heap` |
| C12 | `Memory/Frame` | invariant on the bump offset and base blocks | `Frame` |
| C13 | `Engine/Entity` | invariant over histories | `Entity` |
| C14, C59 | `Engine/Components` | refinement to a map entity -> (data, flag) | `Components` |
| C15 | `Engine/Columns`: offsets, sizes and `memcpy` calls of the nine tables | arithmetic on addresses | `Columns` |
| C16, C17 | `Math/Integers` | arithmetic; bit smearing modulo 2^64 | `Integers` |
| C18 - C21 | `Broadphase/Tree*`, `Raycast`, `FatBox`: node array, free list | refinement to inductive trees | `Tree`, `Raycast` |
| C22 | `Broadphase/AABB` | order theory | `AABB` |
| C23, C25 - C28, C34, C36 - C39, C63, C64 | `World/*`: bodies, colliders, joints, broad phase, pairs, events as one transition system | invariants over all histories of API calls; negations with witness histories | `World`, `WorldDisagree`, `Reactivate`, `SimFlag`, `Bodies` |
| C24 | `Pairs/Store` | refinement to a finite map | `Pairs` |
| C29 - C31 | `Islands/*`: depth-first search with explicit stack | loop invariants | `Islands` |
| C32, C33, C35, C55, C65 - C69 | `Dynamics/*`: columns of bodies, calls of `RigidBody`, integration, mass properties, sleep | invariants over histories; algebra | `Dynamics`, `Bodies`, `Sleeping` |
| C40 - C42, C70, C71 | `Contacts/*` | loop invariants | `Contacts` |
| C43 - C48 | `Math/*` over an ordered field | algebra | `Segments`, `Clipping`, `Transform` |
| C49, C74 - C78 | `Shapes/Ray` | real algebraic geometry over an ordered field with exact square root | `Ray*`, `BodyRay` |
| C50, C51, C79 | `Height/Field`; C51 with explicit NaN/infinity | arithmetic with floor; completeness of the grid walk; divergence proof with witness | `Height*` |
| C52, C86 - C88 | `Solver/Contact`: initialisation, warm start, iterations and storing of impulses; joints between the iterations are any function | accounting of impulses by induction over points, manifolds and iterations; algebra | `ContactSolver`, `Bounce`, `ContactExamples` |
| C92 - C95, C97 | `Solver/Joints`: initialisation, warm start and velocity iterations of the four joints, limits, motors; `Solver/JointLemmas`, `Solver/JointKick` | accounting of impulses as for contacts; inverses of mass matrices; energy as a quadratic form | `JointImpulses`, `JointVelocity`, `JointLimits`, `JointEnergy`, `JointExamples` |
| C96 | `Solver/Joints`: angle of the hinge, translation of the slider | quaternions and trigonometry over the reals; circular distance | `HingeAngle` |
| C53, C62 | `World/BodyJoints` on `Engine/Components`: bodies and joints with the positions of their components; colliders left out | invariant over all histories, positions kept by enabling; negations with reachable witnesses | `BodyJoints` |
| C54, C72 | `Mesh/HalfEdge` | invariants over face lists | `HalfEdge` |
| C56 | `Narrow/Dispatch` | finite table (whole domain) and fold lemmas | `Dispatch` |
| C89 - C91 | `Narrow/Round`: the three tests of spheres and capsules, one pair at a time | supporting planes at closest points; frames as isometries; cases of the clipping | `Round`, `RoundTests`, `RoundCapsules`, `RoundPairs`, `RoundExamples` |
| C101 | `Solver/Joints` | fixed point of the iterations; flags of the limits | `JointWarm` |
| C102 - C105 | `Narrow/Sat`: axes, clipping, contacts, temporal coherence; `Narrow/SatGeom`: normal cones and arcs | a direction of least overlap is a face normal or a product of crossing arcs (induction along arcs); separation of convex sets; cases of the clipping | `Sat`, `SatBox`, `SatContact`, `SatReal`, `SatEdges`, `SatTest`, `SatMissed`, `SatExamples`, `SatSphere` |
| C106, C107 | `Narrow/SatCapsule`: axes, clipping of the inner segment, contacts, the shallow contact after GJK; `Narrow/SatSegGeom` | the cone argument of C102 with a segment in place of a polyhedron; cases of the clipping | `SatCapsule`, `SatCapsuleContact`, `SatCapsuleTest` |
| C108 - C112 | `Solver/Position`: position solvers of the four joints and the iterations; `PositionLemmas` (a pass is a sequence of corrections of pairs of bodies) | invariants of corrections of pairs; definiteness of the mass matrix by rank one updates; quadratic error of the turn | `JointPosition`, `JointHold`, `JointConverge`, `PositionExamples`, `HingeLimit` |
| C113, C114 | `Math/Angles`: Euler angles, angle and axis, slerp, interpolateTransforms | half-angle identities; Gram matrix of the arc | `Angles` |
| C115 | `Contacts/Warm`, `WarmLemmas`: createContacts, initContactsWithPreviousOnes, computeMapPreviousContactPairs, points read by the callback | parts of the arrays that belong to pairs are disjoint; invariant of the arrays of a frame | `WarmStart` |
| C116 | `Contacts/Query`: processPotentialContacts, createSnapshotContacts, computeNarrowPhaseCollisionSnapshot, filter of CallbackData | invariant of contact pairs and map; on `Warm` | `Query` |
| C117, C118 | `Narrow/Middle`: computeConvexVsConcaveMiddlePhase, addLastFrameInfoIfNecessary, clearObsoleteLastFrameInfos | with C61, C84, C50; invariant of the remembered data over all frames | `Middle` |
| C119 | `Narrow/Session`: one pair of polyhedra over a sequence of steps, testOverlap and testCollision, with the LastFrameCollisionInfo | case analysis of the search (C102) and of the shortcut, induction over the sequence | `Session` |
| C120 | `Hull/Points`: removal of nearly equal points before the convex hull (QuickHull.cpp:757-804) | induction over the points with the invariant that every point is linked to one that is left | `HullPoints` |
| C121 | `Hull/Topo`, `Hull/Quick`: the half-edge structure and the whole QuickHull algorithm; the theorems are about its start (`initial`, `associate`, `nextCandidate`) and about four points | invariants of the searches for extreme points, the half-edges of the two tetrahedra written out, determinants | `HullStart` |
| C122 | `Hull/Quick`: the main loop of QuickHull with horizon, deletion and merging of faces, and the mesh that is handed on | the multiset of the listed points as an invariant of every step, a measure (half-edges and faces that are left) for the loops; counterexamples evaluated by the kernel | `Hull` |
| C123 | `Shapes/Mass`: volumes and inertia tensors; `Shapes/Facets`, `Cells`, `CellsFill` (a closed convex surface cut into tetrahedra), `Solids`, `Revolve` (Lebesgue integrals) | decomposition of the hull of a closed surface into cells that overlap in null sets, linear images of measures, integration by slices | `Mass`, `MeshMass` |
| C124 | `Scene/Model`: poses, shapes and tree of a world, all operations that change them, and the ray cast with its callbacks; `Scene/Inv` | invariant that ties bodies, colliders and the tree (on `Hist` of C18), with flags for the parts that are broken inside an operation; composition with C20, C49, C61, C74 - C76 | `SceneRay` |
| C125 | `Mesh/VertexArrays`: memory as bytes, addresses with 32 bit products | induction over bytes and indices; decoding inverts the encoding of the spec | `VertexArrays` |
| C126 | `World/Common`: objects, sets, colliders and the shared logger of several `PhysicsCommon` | invariant of all histories; the sets are a parameter of it because they are stale inside `release`; order of kinds as a decidable condition | `Common` |
| C127 | `Solver/JointSettings`: settings of joints and the calls that read and change them | cases over calls, induction over histories with arbitrary steps in between | `JointSettings` |
| C128 | `Narrow/Smooth`: smoothing of contacts with triangles, normals at vertices of scaled meshes | algebra of barycentric coordinates; composition with C100 | `Smooth` |
| C129 | (model: `Solver/Position`, `Solver/Joints`) | motions of the two bodies to first order; exact formulas for the cone and for fixed joints at a static body | `JointStep`, `JointStepExact`, `JointStepExamples` |
| C130 | `Solver/JointMake` (constructors of the four joints) | points of the bodies followed from creation to now: `Pinned`, `Welded`, `Hung`, `Slid`, `SlidWithin` | `JointMake`, `JointMakeExamples`, `SliderStops` |
| C131 | `Scene/DebugDraw` (DebugRenderer) | point sets: `OnLine`, `InTri`, `OnEdge`, `OnBox`, `OnCapsule`, `Closed` (every directed side of a triangle has its opposite) | `DebugGrid`, `DebugSphere`, `DebugDraw`, `DebugScene`, `DebugExamples` |
| C132 | `Narrow/RoundPoly` (sphere and capsule against polyhedron: GJK, then SAT, with the data kept between tests) | `Right`, `CapRight` over point sets `Hulled`, `Ball`, `Capsule`, `Placed`, `Moved`, `Meet` | `RoundPoly`, `RoundPolySphere`, `RoundPolyCapsule`, `RoundPolyExamples` |
| C133 | `Solver/Contact`, `Solver/Joints` (as C52, C97) | `energy2`; every impulse along a line with a step of the projected Gauss-Seidel kind loses energy, induction over points, manifolds, joints, iterations | `ContactEnergy`, `ContactEnergyStep`, `ContactEnergyBounce`, `ContactEnergyExamples` |
| C134 | `Solver/Whole` (the step of `Dynamics/Body` with the solvers of `Solver/Contact`, `Solver/Joints`, `Solver/Position`) | `particle`: one particle under the external forces; sums over a group; induction over histories `Run` | `Newton`, `NewtonExamples` |
| C135 | `Solver/Whole`; `Solver/Local` (what each solver reads and writes), `Solver/Still` (bodies without inverse mass stay) | the group alone: `only`, `onlyIn`, `Ev.only`; a step and restriction to the group commute (`thread_part`), induction over histories | `Apart`, `ApartExamples` |
| C137 | `Solver/Whole`; `Solver/Frame`, `Solver/FrameLoops` (each solver, and whole runs, with bodies shifted and boosted) | the other world: `Sim`, `SimW`, `moveIn`, `moveOp`, `moveAll`; simulation of each call and of a step, induction over histories | `Galileo`, `GalileoExamples` |
| C136 | `Solver/Whole`, `Solver/Local` | straight line and first-order turn: `Moves`, `turn`, `turns`, `Steady`; bodies without inverse mass pass the solvers unchanged, induction over histories | `Kinematic`, `KinematicExamples` |
| C138 | `Solver/Whole` | statics: `force`, `torque`, `forceOn`, `Bears` (Coulomb), `Firm`, `given`, `Balanced`; the warm start brings every velocity to zero, then every solver leaves everything as it is; `next`, `frames` close the loop | `Balance`, `BalanceRun`, `BalanceExamples` |
| C139 | `Engine/ColumnData` (statements of the nine component classes, column by column), `Engine/ColumnDataLemmas` | per entity and field the last value: `expect`, `Follows`; simulation by the table of C14 | `ColumnData` |
| C140 | `World/Wake` (the loop over the neighbours with the positions of the body components; refines `World/Model`, where the woken bodies are an argument) | `WakingSpec`: `Touched`, `Roused`, `PHist` | `Waking` |
| C141 | `Solver/Whole` | `momentum`, `energy`, `Turns`, `Alone` in `Props/Spin` | `Spin`, `SpinExamples` |
| C142 | `Solver/Contact`, `Solver/Joints` | `angular` (C92), `gapAt`, `contactDefect`; sums over bodies, induction over points, manifolds and iterations | `ContactTurn`, `ContactTurnExamples` |
| C143 | `Solver/Whole`, `Solver/Contact`, `Dynamics/Body` | a relation between a world and the turned world (`Sim`, `TurnM`), kept by every call, every solver loop and every step | `Solver/Turned`, `Isotropy`, `IsotropyExamples` |
| C144 | `Solver/Whole`, `Solver/Contact`, `Dynamics/Body` | a relation between a world and the same world in another unit of mass (`Sim`, `ScaleM`), kept by every call, every solver loop and every step | `Solver/Heavier`, `MassUnit`, `MassUnitExamples` |
| C145 | `Contacts/Listen`, `World/Model` | the kept indices point to the kept pairs, by induction on the arrays | `Listen` |
| C146 | `Solver/Flip`, `Solver/Whole` | the exchanged manifold gives the mirrored manifold of the solver, and every impulse changes the same velocities by the same amounts | `Exchange`, `ExchangeExamples` |
| C147 | `Solver/Joints`, `Solver/Position` | `getConeHalfAngle`; the angle as the unique one in [0, pi] with the right cosine (`Between`) | `ConeLimit` |
| C148 | `Solver/Material`, `Solver/Contact` | the material setters with what the user asked for last (`Made`); geometric mean and maximum; velocity along the surface; friction impulses and speed of parting in a step | `Material`, `MaterialContact` |
| C149 | `Dynamics/*`, `Solver/Whole` | simulation by a point with mass (`Point`), induction over histories; closed forms by induction over steps; limit over the reals | `Fall` |
| C150 | `Math/OpenGL`, `Math/Rigid` | matrices by columns as the specification (`Sends`, `IsProduct`, `Rigid`); two unit quaternions with one matrix are opposite | `OpenGL` |
| C151 | `World/BodyJoints`, `World/Model`; getters in `Props/Enumerate` | histories as lists of calls (`Alive`, `Before`); induction from the end | `Enumerate` |
| C152 | `Engine/Logger` | histories as lists of calls, one destination followed through them (`through`), specification `Gets` | `Logger` |
| C153 | `Engine/Profiler` | nodes as paths, programs as forests of timed blocks (`Runs`), induction over them | `Profiler` |
| C154 | `Narrow/Algorithms`, `Memory/Pool` | histories as lists of setter calls; calls through a pointer as `call` | `Algorithms` |
| C155 | `Engine/Settings` | histories as lists of setter calls, `lastSet` as the specification | `Settings` |
| C156 | `Math/Vector`, `Math/Rigid`, `Solver/Joints` (2x2 matrices) | real numbers, assertions as `none` | `Vector` |
| C157 | `Solver/Friction`, `Solver/Contact`, `Math/Vector`, `Contacts/Reduce` | grouping of C70 and frame of C86 put together, assertions as `none` | `Friction` |
| C158 | `Narrow/Scaled`, `Narrow/Sat`, `Shapes/Ray`, `Shapes/Points` | the scaled polyhedron is `Solid` again; composition with C80 and C102 | `Scaled` |
| C159 | `Math/Helpers`, `Math/Geometry` | `Nearest` of a line, a ball, a plane; Lagrange's identity, Cauchy-Schwarz | `Helpers` |
| C98 - C100 | `Narrow/Gjk`: simplex and loop of GJK; `GjkSimplex`, `GjkTetra` (closest points), `GjkLoop`, `GjkStep`, `GjkEnds` | optimality conditions of closest points; invariant of the loop; geometric decrease of the distance; supporting planes with error terms | `Gjk`, `GjkExamples` |
| C61 | `Shapes/Bounds` with `Math/Rigid`, `Broadphase/Tree`, `Height/Field`, `Mesh/Triangles` | interval arithmetic; composition with C18, C50, C82 | `Bounds` |
| C80, C81 | `Shapes/Points` | algebra | `Points` |
| C82, C83 | `Mesh/Triangles` | loop invariants over the compaction of vertices | `TriMesh` |
| C84, C85 | `Shapes/ConcaveMesh` with `Broadphase/Tree`, `Mesh/Triangles` | composition of C19/C20, C77 and C82 | `ConcaveMesh` |

### Parts of the code that are not modelled

* SAT with triangles (the smoothing itself is C128); with convex meshes whose scale is not uniform the search and the contacts (C158 has the uniform ones). In `World/*` the outcome of every narrow-phase
  test is an arbitrary input. The tests of spheres and capsules (C89 - C91), GJK (C98 - C100), SAT of two polyhedra and of a sphere or a capsule
  and a polyhedron (C102 - C107), the choice of the algorithm (C56), the post-processing of contacts (C40 - C42, C70, C71) and the clipping
  helpers (C46, C47) are modelled.
* The assertion `l > MACHINE_EPSILON` of `Quaternion::normalize` in the position solvers of the joints (`Solver/Position`); in
  `Dynamics/*` the results of joints are arbitrary values, in `Solver/Contact` they are arbitrary functions between the iterations.
* of `DefaultLogger` the text of the lines (C152 is about which lines are written), of `Profiler` the text of the report and its destinations.
* Of `PhysicsCommon` the sizes passed to the pool allocator (C73) and the ownership of objects (C126) are modelled.
* Floating-point rounding except where stated (C02, C20, C21, C32, C51).

### Simplifications worth knowing

* The hash maps inside other classes are functions with finite support (justified by C03/C05); component tables in `World/*` are functions
  from entities (justified by C14).
* `HeapAllocator::release` reads the header of a merged unit after it was destroyed (HeapAllocator.cpp:258); the model reads the value that is
  still in memory.
* GJK (`Narrow/Gjk`): the number of turns is an argument; the verdict is shown not to depend on it once it is large. A support function is any function
  that returns a farthest point of a convex core; those of point, segment, box and triangle are shown to be so (`GjkProps.cores`).
* SAT (`Narrow/Sat`): a polyhedron is given by functions (vertices, faces, half-edges, support); that it is convex with outward unit normals is a
  hypothesis (`SatProps.Solid`), shown for boxes and for a mesh. Indices remembered in the pair are truncated to 8 bits as in the code; with more than
  256 faces another face is remembered, which is harmless for C103 and C105 (`stored_range`).
* Addresses do not wrap around.

## Behaviour found to disagree with the property

Each entry names the Lean theorem that exhibits the disagreement with a concrete witness (or for all states).

| id | what happens | theorem |
|----|--------------|---------|
| C02 | `Array::reserve` rounds the capacity through `float`; above 2^24 elements it grants less than asked and `addRange` writes out of bounds | `array_reserve_grants_too_little`, `array_addRange_overflows` |
| C04 | `Map::clear(true)` leaves the free index dangling; the next `add` is undefined | `map_add_after_release_unsafe` |
| C07 | the copy constructor of `Deque` uses the wrong first index; `operator=` may overflow | `deque_copy_broken`, `deque_assign_overflows` |
| C12 | a frame block returned by an allocator without gaps can be mistaken for frame memory (not with the heap allocator used) | `frame_release_leaks` |
| C15 | when the table of sliders grows, six columns of vectors are copied with `sizeof(decimal)`; the rest is uninitialised memory, one of the columns is read by the next step | `slider_levers_lost` |
| C20 | a ray in the plane of a side of a box computes 0 * infinity and misses it | `RayExample.testRay_misses`, `RayExample.tree_raycast_misses` |
| C23, C28 | destroying a joint that forbids collision asks for no new test of the pair; a second joint between two bodies is ignored by the filter | `destroyed_joint_no_recheck`, `second_joint_ignored` |
| C25 | collision bits changed while a pair exists are ignored | `filtering_not_respected` |
| C26 | a static body under a sleeping one that becomes dynamic has its pair skipped | `pair_of_awake_body_skipped` |
| C27 | `setNeedToTestOverlap` of a disabled pair is out of bounds: changing bits of a sleeping collider, moving a static body | `bits_of_sleeping_collider_undefined`, `moving_static_body_undefined`, `setNeed_disabled_undefined` |
| C32 | `setTimeBeforeSleep(0)` puts moving bodies to sleep; timers that ran before sleeping was disabled count later | `zero_time_sleeps`, `stale_timer_sleeps` |
| C34 | a re-activated body stays asleep; an inactive body can be simulated | `reactivated_body_asleep`, `inactive_body_simulated` |
| C37 | a contact can start and exit in the same frame; a stay can come without a start | `start_and_exit_in_one_frame`, `stay_without_start` |
| C38 | an exit event can refer to a destroyed collider | `event_of_removed_collider` |
| C39 | overlap queries skip pairs of sleeping or static bodies | `overlap_of_sleeping_not_found` |
| C47 | a segment nearly parallel to a clipping plane collapses to a point or leaves an array access undefined | `segment_clipped_to_point`, `segment_clip_undefined`, `segment_clip_no_planes` |
| C49 | `Body::raycast` transforms the hit again for each later collider that is missed | `BodyRay.body_raycast_point_wrong` |
| C50, C84 | a negative scale turns query boxes inside out | `HeightProps.negative_scale_misses`, `ConcaveProps.mirrored_triangle_lost` |
| C51 | some rays along the x axis make the height-field walk run forever | `HeightProps.height_raycast_forever` |
| C53, C62 | `destroyRigidBody` keeps a reference into the component array while joints are destroyed; waking a body moves components, so joints of another body are destroyed and own joints left behind with a dangling body | `BodyJointsProps.destroy_body_wrong`, `teardown_undefined` |
| C57 | `Array::add(array[i])` on a full array reads freed memory | `array_add_own_element_unsafe` |
| C58 | a `Deque` used as a queue grows without bound | `deque_queue_memory_unbounded` |
| C59 | disabling a hinge or slider joint overwrites `mBUpperLimit` of another one | `hinge_disable_changes_data` |
| C60 | heap headers can be misaligned | `heap_header_misaligned`, `heap_base_request_not_multiple` |
| C63 | the flag that excludes colliders from queries is ignored by some queries | `query_flag_ignored` |
| C64 | `mHasSimulationCollider` is never cleared | `sim_flag_stale`, `sim_flag_stale_trigger` |
| C65, C66 | `setType(STATIC)` leaves constrained velocities and stores the origin as center of mass | `static_velocity_stale`, `static_center_wrong` |
| C69 | products of inertia are dropped | `inertia_loses_products` |
| C70, C71 | contacts beyond 64 manifolds are lost; the deepest point of a manifold can be dropped | `ContactProps.point_lost`, `ContactProps.deepest_point_dropped` |
| C72 | malformed convex meshes are undefined instead of reported | `MeshProps.inconsistent_mesh_undefined`, `small_face_undefined`, `open_mesh_undefined` |
| C73 | height fields are released with another size than allocated: memory grows without bound | `PoolReuse.height_field_leak`, `height_field_unbounded` |
| C76 | short rays, small capsules and ranges above 1 are missed | `RayProps.capsule_short_ray_misses`, `capsule_long_range_misses` |
| C77 | testing both sides of a triangle gives hits outside of it or NaN | `RayProps.triangle_both_wrong`, `triangle_both_nan` |
| C78, C80 | ray casts and support points of scaled convex meshes use unscaled data | `RayProps.mesh_raycast_scaled_wrong`, `PointProps.mesh_support_scaled_wrong`, `mesh_support_undefined` |
| C79 | the normal of a scaled height field is wrong | `HeightProps.height_normal_wrong` |
| C82 | a triangle mesh with all vertices at the origin breaks an assertion instead of being reported | `TriProps.zero_mesh_undefined` |
| C83 | an unused first vertex breaks an assertion; tiny meshes get normals that are not unit vectors | `TriProps.unused_first_vertex`, `small_mesh_normals` |
| C85 | a ray straight down on a flat ground mesh along a line between triangles misses it | `ConcaveProps.ground_missed` |
| C86 | the mass of a contact ignores locked axes; after ten iterations a ball still moves into a body that cannot move | `SolverProps.locked_wrong` |
| C87 | the warm start applies the stored twist impulse twice | `SolverProps.twist_twice`, `angular_formula` |
| C88 | the two friction directions are limited one by one; together they exceed the friction cone | `SolverProps.cone_exceeded` |
| C89 | short capsules (product of lengths below about 0.003) count as parallel at any angle; a collision of crossing capsules is missed | `RoundProps.small_capsules_missed` |
| C90 | degenerate contacts: spheres with the same center, capsule against a sphere centered on its segment, coincident capsules of opposite direction | `RoundProps.same_center_wrong`, `centered_sphere_wrong`, `flipped_same_place_wrong` |
| C91 | parallel capsules of opposite direction that overlap partly get one contact | `RoundProps.flipped_capsules_one_contact` |
| C92 | the motor of a slider pushes at the centers of mass and creates angular momentum | `JointProps.slider_motor_turns` |
| C93 | joints between heavy bodies (determinant up to `MACHINE_EPSILON`) do nothing; with singular inertia a fixed joint uses the matrix for its inverse and explodes | `JointProps.heavy_ignored`, `heavy_fly_apart`, `weld_explodes` |
| C94 | the motor of a hinge has the wrong sign: each iteration doubles the distance from the speed; the limit of a slider uses a lever of the step before | `JointProps.hinge_motor_doubles`, `hinge_motor_diverges`, `slider_limit_stale` |
| C95 | the torque of the cone limit and the moment of the slider motor are not reported | `JointProps.cone_torque_untold`, `slider_motor_untold` |
| C96 | the angle of a hinge changes when both bodies turn together, if their first orientations differ; limits more than a turn apart act inside; the angle leaves its range; no sign before the first step | `HingeProps.hinge_angle_negates`, `wide_limits_stop`, `angle_out_of_range`, `sign_lost_before_first_step` |
| C98 | the axis that GJK keeps for the next frame may be too short for the assertion at its start | `GjkProps.axis_breaks_assertion` |
| C99 | GJK takes triangles of less than 0.005 square meters for degenerate and reports overlapping small shapes as separated | `GjkProps.overlap_missed` |
| C105 | an overlap is missed when the face opposite to the chosen axis does not contain the deepest point; a pair that overlapped in the frame before is said to collide though it is apart now | `SatProps.overlap_missed`, `apart_collides` |
| C107 | a capsule with a short inner segment across an edge of a box gets no contact and is reported as not colliding, though a query reports the overlap; a capsule nearly along an edge makes `clipSegmentWithPlanes` return one vertex, of which the second is read | `SatProps.capsule_missed`, `capsule_undefined` |
| C109 | position correction computes levers with orientations that the integration left unnormalised: one iteration tears apart the joint of a spinning body | `Joints.moving_hold_lost` |
| C110 | the gap of a ball-and-socket joint between heavy bodies is never corrected | `Joints.heavy_gap_stays` |
| C111 | a slider with the technique BAUMGARTE_JOINTS ends the position correction of all sliders after it (`return` in place of `continue`) | `Joints.slider_loop_ends`, `slider_technique_lost` |
| C112 | the position correction of the limits of a hinge uses an old inverse mass, zero for a new hinge | `Joints.limit_idle`, `limit_not_corrected` |
| C113 | interpolation of nearly equal orientations is not normalised | `Angles.slerp_short` |
| C114 | the axis of the identity is the zero vector | `Angles.identity_axis` |
| C115 | the impulse of one contact point is given to two | `Warm.impulse_twice` |
| C115 | contacts of a new collider start with the impulses of a removed one | `Warm.impulse_of_other_colliders`, `pair_number_reused` |
| C116 | collision queries fail an assertion when a trigger overlaps | `Query.query_trigger` |
| C117 | a triangle that is small after scaling fails an assertion in the middle phase | `MiddleProps.small_triangle_undefined` |
| C118 | a query makes the next step forget what was remembered about the triangles | `MiddleProps.query_forgets` |
| C119 | a call of testOverlap or testCollision changes the contacts, and even the verdict, of the next step | `SatProps.query_changes_contacts`, `SatProps.query_changes_verdict` |
| C120 | when a convex mesh is made from points, a point of a row of near points is replaced by one any distance away; two nearly equal points can be left | `HullPoints.merge_drift`, `HullPoints.merge_twins` |
| C121 | point clouds in a box with sides of 2.7 mm or less are refused whatever their shape | `HullStart.small_refused` |
| C122 | making a convex mesh from six points with whole coordinates uses a null pointer (or breaks an assertion), because `fixTopologicalIssueAtEdge` changes end points of half-edges without updating the map from end points to half-edges | `HullProps.six_points_break` |
| C122 | thin tetrahedra and an empty vertex array break assertions instead of being refused | `HullProps.thin_breaks`, `HullProps.empty_breaks` |
| C123 | the inertia tensor of a convex mesh is that of the box around it, and its centre of mass is taken to be the origin of the collider | `MassProps.mesh_inertia_wrong`, `MassProps.mesh_centre_wrong` |
| C123 | a convex mesh shape with a scale of negative product has a negative volume, hence a negative mass; its inertia tensor breaks an assertion | `MassProps.mesh_mirrored_volume`, `MassProps.mesh_mirrored_inertia` |
| C123 | the inertia tensor of a concave shape does not depend on its size | `MassProps.concave_inertia_wrong` |
| C124 | the box in the tree of a static or sleeping body whose shape was resized is never updated: ray casts (and the broad phase) miss the new part of the shape for ever | `Scene.SceneExample.resized_static_never_seen` |
| C125 | offsets into user arrays are computed modulo 2^32: beyond 4 GiB a wrong vertex, normal or triangle is read | `VertexArrays.big_array_wrong` |
| C126 | the static pointer to the logger is not reset when the default logger is destroyed (alone or with its `PhysicsCommon`): the next message is sent to a destroyed object | `Common.logger_dangles`, `Common.logger_destroyed` |
| C127 | setters of hinge limits and of motor strengths check the value being replaced: invalid values are accepted, after which every correction breaks the assertion | `JointSettings.bad_limit_accepted`, `JointSettings.bad_limit_forever`, `JointSettings.crossed_limits_stuck` |
| C127 | `HingeJointInfo` with limits and motor leaves the motor off, unlike `SliderJointInfo` | `JointSettings.motor_of_description` |
| C129 | the correction of a cone limit turns by the excess divided by the sine of the angle, because `mConeLimitACrossB` is not normalised (SolveBallAndSocketJointSystem.cpp:346-388); near angle 0 it overshoots | `cone_overshoots` |
| C129 | the error of the orientations of fixed joints is `2 * vector part` without regard to the sign of the scalar part (SolveFixedJointSystem.cpp:414-425); with the opposite sign of a quaternion the bodies are turned away from each other | `fixed_flipped` |
| C130 | position iterations leave a hinge alone when its second body hangs the wrong way round (axes opposite), and when the axes are at right angles, where the 2x2 mass matrix is singular (SolveHingeJointSystem.cpp:605-654) | `hinge_back_rests`, `hinge_across_rests` |
| C131 | `drawConvexMesh` draws the triangles (v-2, v-1, v) of a face instead of a fan: faces with more than three vertices have a gap (DebugRenderer.cpp:314-338) | `face_gap`, `cube_hole` |
| C131 | spheres and capsules are drawn when only the normals of shapes are displayed (DebugRenderer.cpp:520-522, 444-455) | `sphere_unasked` |
| C131 | all four corners of a quad of a height field get the normal of the first triangle (DebugRenderer.cpp:412-425) | `height_normal` |
| C131 | `getLinesArray` and `getTrianglesArray` read element 0 of an empty array when nothing is drawn (DebugRenderer.h:293-319) | `arrays_defined_iff`, `arrays_undefined` |
| C132 | a ball of radius 4 cm and a box that overlap by 3.2 cm are reported apart: GJK stops because its points are taken for dependent (GJKAlgorithm.cpp:147-153) | `sphere_missed` |
| C132 | a ball of radius 0.5 mm at 0.9 mm from a box: the axis kept by the first step breaks the assertion in the second (GJKAlgorithm.cpp:98-106) | `small_breaks` |
| C133 | two new contacts with friction and without bouncing add 15 percent to the kinetic energy in six iterations | `friction_gains` |
| C133 | two contacts with restitution 1 more than double the kinetic energy | `bounce_gains` |
| C133 | impulses stored from the last step are applied although the velocities were set in between; six iterations do not take them back | `warm_gains` |
| C135 | a slider with BAUMGARTE_JOINTS switches off the correction of sliders of bodies it has nothing to do with (same cause as C111) | `Apart.apart_fails` |
| C136 | a kinematic body slower than the sleep limits falls asleep and its velocity is set to zero, though the user gave it that velocity (RigidBody.cpp:1006-1057, PhysicsWorld.cpp:871-930) | `Kinematic.slow_platform_stops` |
| C139 | eight columns of hinges and sliders do not follow their entities (see C15, C59) | `ColumnData.hinge_field_overwritten`, `ColumnData.slider_field_lost` |
| C140 | `removeCollider` of a static or sleeping body with two colliders can leave a body asleep in the air: the loop keeps a reference to the list of colliders in the components, and waking the first neighbour moves them | `removed_collider_leaves_asleep` |
| C140 | `setIsActive(false)` does not wake the bodies that sleep on the body | `deactivated_body_leaves_asleep` |
| C141 | there is no gyroscopic term: a body with unequal moments that turns freely about an axis that is not principal keeps its angular velocity and loses the direction of its angular momentum | `momentum_lost` |
| C142 | friction between bodies that overlap changes their total angular momentum: it acts on each body at a point of its own surface, so that the two forces are not on one line | `friction_turns` |
| C143 | the limit of friction is a square whose sides are parallel to axes of the world as long as a contact does not slide: a crate resists a push with up to 1.41 times the force depending on the direction | `friction_tells` |
| C144 | the mass matrix of a joint is tested against `MACHINE_EPSILON` whatever the unit of mass: given in grams, two bodies of one kilogram are not held together by their joint | `joint_tells` |
| C147 | the cone limit acts about the product of the two axes, which vanishes when the joint is exactly folded: an angle of pi is never corrected | `folded` |
| C147 | an anchor at a center of mass has no axis: the angle reads pi/2 however the bodies are turned and the limit does nothing | `no_axis` |
| C148 | a collider made frictionless between two steps still brakes the spin: the warm start applies the stored twist impulse twice | `friction_after_all` |
| C149 | turning on or changing gravity (of the world or of a body) wakes nobody: a sleeping body hovers for ever | `hovers` |
| C150 | a matrix with a scale is not refused by setFromOpenGL: the orientation is not of unit length afterwards | `scale_breaks` |
| C152 | the level flags of the logger are compared as numbers instead of bits: `Information` alone also writes errors and warnings, and all bits set (negative as `int`) writes nothing | `Log.unselected_written`, `Log.all_flags_silent` |
| C154 | `testCollision` of the narrow-phase algorithms is not virtual: an algorithm of a class of the user is set but its test is never called; setting the algorithm that the getter returned leaves a released one in use | `Algorithms.custom_ignored`, `Algorithms.set_get_dangles` |
| C155 | `setNbIterationsPositionSolver` takes a `uint32` and stores a `uint16`: 65536 iterations are none; a world with a generated name is logged with an empty name; (the documentation gives 10 and 5 as default numbers of iterations, the code has 6 and 3) | `Settings.many_iterations_none`, `Settings.log_name_empty` |
| C156 | `Vector3` cannot be divided by a negative number (assertion `number > MACHINE_EPSILON`); `isZero` compares the square of the length; `getOneUnitOrthogonalVector` may divide by less than its own assertion admits; `Matrix2x2::getInverse` refuses small determinants | `Vector.div_negative`, `Vector.is_zero_wrong`, `Vector.orth_fails`, `Vector.inverse2_fails` |
| C157 | `cosAngleSimilarContactManifold` is not checked: with a value of minus one opposite normals are put into one manifold, their sum is zero and an assertion breaks | `Friction.opposite_fails` |
| C158 | a mirroring scale of a convex mesh shape (negative product) leaves the order of the edges as it is: every edge turns inwards for the test of edges against edges; a scale of the inverse of the machine epsilon breaks an assertion | `Scaled.mirrored_inside_out`, `Scaled.large_scale_fails` |
| C159 | `areParallelVectors` and `areOrthogonalVectors` compare with an absolute tolerance: vectors of five centimeters at a right angle count as parallel; `clamp` of a vector turns it round for a negative length; a segment that crosses a plane with ends closer to it than the tolerance is not found | `Helpers.short_vectors_wrong`, `Helpers.negative_length`, `Helpers.crossing_missed`, `Helpers.short_line_wrong` |
| C97 | singular inertia and stale levers create energy | `JointProps.weld_explodes`, `slider_limit_stale` |

Observed while reading, without a theorem of its own: `setTransform` of a spinning body changes its linear velocity by omega x delta;
`CollisionDispatch::set*Algorithm` releases with `sizeof` of another type than allocated in some cases; `Body::raycast` keeps a stale `triangleIndex`
after a closer hit on a shape without triangles; `computeVerticesNormals` clamps cosines to [0, 1], so obtuse angles count as right ones.
