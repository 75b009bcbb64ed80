{"id": "C01", "title": "Array behaves as a sequence", "statement": "After any history of add, insert-range, removeAt, removeAtAndReplaceByLast, remove, clear and reserve calls whose documented preconditions hold, size() and operator[] of an Array report exactly the elements an ideal sequence would contain, in order, and no element is written outside the allocated buffer.", "quantifier": "all element types/values, all finite operation histories, all capacities reached", "why_tests_cant": "The reallocation and shifting paths depend on the whole history; tests only visit a few sizes.", "anchors": ["include/reactphysics3d/containers/Array.h: Array::add, addRange, removeAt, removeAtAndReplaceByLast, remove, find, clear, reserve, addWithoutInit"]}
{"id": "C02", "title": "Array::reserve grants the requested capacity", "statement": "After reserve(n), capacity() >= n, so that n elements fit without touching memory outside the buffer.", "quantifier": "all requested capacities n (64-bit)", "why_tests_cant": "The rounding goes through a 32-bit float, so it only fails above 2^24 elements: tests never allocate that much.", "anchors": ["include/reactphysics3d/containers/Array.h: Array::reserve", "include/reactphysics3d/containers/Stack.h: Stack::allocate"]}
{"id": "C03", "title": "Map behaves as a finite map", "statement": "After any history of add, remove, find, containsKey, operator[], reserve and clear() on a Map, lookups return exactly the last value stored under the key and not removed since; size() is the number of distinct keys; iteration visits each stored pair exactly once. This holds for every hash function, including constant ones.", "quantifier": "all key/value types, all hash functions, all operation histories", "why_tests_cant": "Behaviour depends on collision chains, free-list recycling and rehash points; the set of histories is unbounded.", "anchors": ["include/reactphysics3d/containers/Map.h: Map::add, remove, find, findEntry, reserve, clear, begin, end"]}
{"id": "C04", "title": "Map is reusable after clear(true)", "statement": "A Map on which clear(true) was called behaves like a freshly constructed empty Map.", "quantifier": "all histories before and after the call", "why_tests_cant": "Only histories that add after a releasing clear exercise the stale free-list head.", "anchors": ["include/reactphysics3d/containers/Map.h: Map::clear, add, reserve"]}
{"id": "C05", "title": "Set behaves as a finite set", "statement": "After any history of add, remove, contains, reserve and clear() on a Set, contains(x) is true exactly for the values added and not removed since, add returns true exactly when the value was absent, size() counts distinct values and toArray() lists each exactly once. This holds for every hash function.", "quantifier": "all value types, all hash functions, all operation histories", "why_tests_cant": "Same as for Map: collision chains, free list and rehash points depend on the full history.", "anchors": ["include/reactphysics3d/containers/Set.h: Set::add, remove, contains, findEntry, reserve, clear, toArray"]}
{"id": "C06", "title": "Deque behaves as a double-ended queue", "statement": "After any history of addFront, addBack, popFront, popBack and clear on a Deque, getFront/getBack/size report exactly what an ideal double-ended queue would, including across growth and index wrap-around.", "quantifier": "all element values, all operation histories that only pop or peek a non-empty deque", "why_tests_cant": "Wrap-around combined with growth depends on the order of operations; finitely many tests cannot cover all offsets.", "anchors": ["include/reactphysics3d/containers/Deque.h: Deque::addFront, addBack, popFront, popBack, getItem, reserve, clear"]}
{"id": "C07", "title": "Copying a Deque yields an equal Deque", "statement": "A Deque copy-constructed or copy-assigned from another Deque contains the same items in the same order, without touching memory outside its buffer.", "quantifier": "all source (and, for assignment, target) deques reachable by any history", "why_tests_cant": "The copy is only right for particular head offsets; a test that fills the deque with addBack never sees another one.", "anchors": ["include/reactphysics3d/containers/Deque.h: Deque(const Deque&), operator="]}
{"id": "C08", "title": "Stack is last-in first-out", "statement": "After any history of push and pop on a Stack, pop and top return the most recently pushed item not popped yet and size() is the number of items on the stack; the buffer is never overrun.", "quantifier": "all element values, all histories", "why_tests_cant": "Growth steps depend on the history.", "anchors": ["include/reactphysics3d/containers/Stack.h: Stack::push, pop, top, clear, allocate"]}
{"id": "C09", "title": "Pool allocator: live allocations never overlap", "statement": "Every pointer returned by the pool allocator for a request of n bytes is 16-byte aligned and owns a range of at least n bytes that is disjoint from the range of every other allocation that has not been released, for any interleaving of allocate and release calls that passes the allocated size back.", "quantifier": "all allocation/release histories, all sizes, all base addresses returned by the underlying allocator", "why_tests_cant": "Free-list reuse and block splitting interleave arbitrarily; overlap shows up only for particular histories.", "anchors": ["src/memory/PoolAllocator.cpp: PoolAllocator::allocate, release", "include/reactphysics3d/memory/PoolAllocator.h"]}
{"id": "C10", "title": "Heap allocator: live allocations never overlap and are aligned", "statement": "Every pointer returned by the heap allocator for n bytes is 16-byte aligned and owns n bytes inside memory obtained from the base allocator, disjoint from all other live allocations and from the allocator's own unit headers, for any interleaving of allocate and release.", "quantifier": "all allocation/release histories, all sizes, all base addresses", "why_tests_cant": "Splitting and merging of units depends on the whole history.", "anchors": ["src/memory/HeapAllocator.cpp: HeapAllocator::allocate, release, splitMemoryUnit, mergeUnits, reserve, computeNextAvailableMemoryUnit"]}
{"id": "C11", "title": "Heap allocator coalesces and returns all base memory", "statement": "When every allocation has been released, the heap allocator's memory consists of exactly one free unit per block obtained from the base allocator, and destroying the allocator gives back each base block exactly once with its original size.", "quantifier": "all histories in which every allocation is released, in any order", "why_tests_cant": "Correctness of merging for every release order cannot be enumerated.", "anchors": ["src/memory/HeapAllocator.cpp: HeapAllocator::release, mergeUnits, addToFreeUnits, removeFromFreeUnits, ~HeapAllocator"]}
{"id": "C12", "title": "Single-frame allocator: allocations of one frame never overlap", "statement": "Between two resets, every pointer handed out by the frame allocator is 16-byte aligned, lies inside the frame buffer or in memory of the base allocator, and is disjoint from every other allocation made in the frame; after reset the whole buffer is available again, and every overflow allocation that is released goes back to the base allocator exactly once.", "quantifier": "all sequences of allocate, release and reset, all sizes", "why_tests_cant": "The overflow path and buffer growth depend on the sizes requested over several frames.", "anchors": ["src/memory/SingleFrameAllocator.cpp: SingleFrameAllocator::allocate, release, reset"]}
{"id": "C13", "title": "Entity handles identify live objects", "statement": "Two entities that are alive at the same time never have equal handles and are reported valid; a destroyed entity's handle is reported invalid until at least 255*1025 further entities have been destroyed, and no new entity receives that handle before at least 256*1024 (the documented bound; in fact 256*1025) entities have been destroyed.", "quantifier": "all create/destroy histories with fewer than 2^24 indices", "why_tests_cant": "Recycling starts only after 1024 free indices and generations wrap after 256 reuses; exhaustive testing is infeasible.", "anchors": ["src/engine/EntityManager.cpp: EntityManager::createEntity, destroyEntity", "src/engine/Entity.cpp", "include/reactphysics3d/engine/EntityManager.h: isValid"]}
{"id": "C14", "title": "Components stay densely packed and split into enabled and disabled", "statement": "For any history of adding, removing, enabling and disabling components, looking up an entity returns exactly the data last stored for that entity, the enabled components occupy exactly the first getNbEnabledComponents() slots and the disabled ones the rest, and each entity is reported disabled exactly when it was last set so.", "quantifier": "all histories of addComponent, removeComponent, setIsEntityDisabled, all component data", "why_tests_cant": "Swaps and moves between the two regions interleave in unboundedly many ways.", "anchors": ["src/components/Components.cpp: addComponent, removeComponent, setIsEntityDisabled, prepareAddComponent", "src/components/TransformComponents.cpp: moveComponentToIndex, swapComponents", "include/reactphysics3d/components/Components.h"]}
{"id": "C15", "title": "Component columns never overlap in memory", "statement": "For every number of components, the columns of a component table are 16-byte aligned, mutually disjoint and inside the buffer requested from the allocator, and growing the table preserves every stored value.", "quantifier": "all column element sizes, all component counts, all buffer addresses", "why_tests_cant": "Overlap would depend on addresses returned by the allocator and on counts.", "anchors": ["src/components/TransformComponents.cpp: allocate", "src/components/RigidBodyComponents.cpp: allocate", "src/memory/MemoryAllocator.cpp: alignAddress"]}
{"id": "C16", "title": "Pair identifiers are unique", "statement": "The identifier computed for an unordered pair of broad-phase objects is the same whichever collider comes first, never overflows 64 bits, and differs for different unordered pairs.", "quantifier": "all pairs of 32-bit object ids", "why_tests_cant": "2^64 input pairs.", "anchors": ["include/reactphysics3d/mathematics/mathematics_functions.h: pairNumbers", "include/reactphysics3d/engine/OverlappingPairs.h: computePairID/addPair"]}
{"id": "C17", "title": "Power-of-two rounding", "statement": "nextPowerOfTwo64Bits(n) is the smallest power of two >= n for every 1 <= n <= 2^63, and isPowerOfTwo(n) decides exactly the powers of two for n > 0.", "quantifier": "all 64-bit n", "why_tests_cant": "2^64 inputs.", "anchors": ["include/reactphysics3d/mathematics/mathematics_functions.h: nextPowerOfTwo64Bits, isPowerOfTwo"]}
{"id": "C18", "title": "The broad-phase tree stays well formed", "statement": "For any history of adding, moving and removing objects, the dynamic AABB tree remains a proper binary tree: every object is exactly one leaf, every inner node has exactly two children and a box enclosing both, heights are right, parents and children agree and unused nodes are exactly the free list.", "quantifier": "all histories, all AABBs, all tree shapes", "why_tests_cant": "Insertion heuristics and rotations create unboundedly many shapes.", "anchors": ["src/collision/broadphase/DynamicAABBTree.cpp: addObject, removeObject, updateObject, insertLeafNode, removeLeafNode, balanceSubTreeAtNode, allocateNode, releaseNode"]}
{"id": "C19", "title": "Overlap queries are exact on fat boxes", "statement": "A broad-phase overlap query with a box reports exactly the objects whose enlarged (fat) box overlaps it, each once, hence never misses an object whose real box overlaps.", "quantifier": "all tree histories, all query boxes", "why_tests_cant": "A missed subtree depends on the tree shape.", "anchors": ["src/collision/broadphase/DynamicAABBTree.cpp: reportAllShapesOverlappingWithAABB, reportAllShapesOverlappingWithShapes", "include/reactphysics3d/collision/shapes/AABB.h: testCollision"]}
{"id": "C20", "title": "Broad-phase ray casts miss nothing", "statement": "A ray cast through the tree offers to the callback every object whose fat box is crossed by the ray up to the current clipping fraction; a callback return of 0 stops the traversal, a positive value shortens the ray, a negative value changes nothing.", "quantifier": "all tree histories, all rays, all callback behaviours", "why_tests_cant": "Pruning depends on tree shape and on the order in which hits shorten the ray.", "anchors": ["src/collision/broadphase/DynamicAABBTree.cpp: raycast", "include/reactphysics3d/collision/shapes/AABB.h: testRayIntersect"]}
{"id": "C21", "title": "Object boxes stay enclosed", "statement": "After every add or move, the fat box stored for an object contains the object's current box; if a move returns false then the object's new box was already inside its fat box and nothing changed; object ids never change while the object is in the tree.", "quantifier": "all histories, all boxes, all inflation percentages >= 0", "why_tests_cant": "Depends on history of moves.", "anchors": ["src/collision/broadphase/DynamicAABBTree.cpp: addObject, updateObject", "include/reactphysics3d/collision/shapes/AABB.h: contains, inflate"]}
{"id": "C22", "title": "AABB algebra", "statement": "Merging two boxes gives the smallest box containing both; overlap is symmetric and holds exactly when the boxes share a point (touching counts); containment implies overlap and is transitive; inflating by a point gives the smallest box containing the box and the point.", "quantifier": "all boxes over any linearly ordered coordinates (exact for NaN-free floats)", "why_tests_cant": "Infinitely many boxes.", "anchors": ["include/reactphysics3d/collision/shapes/AABB.h: mergeTwoAABBs, mergeWithAABB, testCollision, contains, inflateWithPoint"]}
{"id": "C23", "title": "New overlaps are always discovered", "statement": "If two colliders of different bodies that are allowed to collide have overlapping fat boxes, and at least one of them was added, moved out of its fat box or asked for a re-check since the last update, then after the next broad-phase step the world holds an overlapping pair for them.", "quantifier": "all scenes, all sets of moved colliders", "why_tests_cant": "Combination of tree contents and moved sets is unbounded.", "anchors": ["src/systems/BroadPhaseSystem.cpp: computeOverlappingPairs, addMovedCollider", "src/systems/CollisionDetectionSystem.cpp: computeBroadPhase, updateOverlappingPairs"]}
{"id": "C24", "title": "Overlapping-pair store is consistent", "statement": "For any history of adding, removing, enabling and disabling overlapping pairs, each pair id is stored in exactly one of the four pair arrays, lookups by id find that entry with its data unchanged, and the lists kept by the colliders name exactly the stored pairs they belong to.", "quantifier": "all histories", "why_tests_cant": "Swap-with-last bookkeeping in four arrays depends on the history.", "anchors": ["src/engine/OverlappingPairs.cpp: addPair, removePair, removeConvexPairWithIndex, enablePair, disablePair", "include/reactphysics3d/engine/OverlappingPairs.h: getOverlappingPair"]}
{"id": "C25", "title": "Collision filtering is respected", "statement": "Two colliders whose category and mask bits do not match in both directions are never reported as colliding by the simulation.", "quantifier": "all category and mask bits, all histories including changes of the bits", "why_tests_cant": "Depends on when the bits change relative to pair creation.", "anchors": ["src/systems/CollisionDetectionSystem.cpp: updateOverlappingPairs", "src/collision/Collider.cpp: setCollisionCategoryBits, setCollideWithMaskBits"]}
{"id": "C26", "title": "A pair with an awake body is simulated", "statement": "An existing overlapping pair is skipped by the collision detection only if both of its bodies are disabled (static, sleeping or inactive).", "quantifier": "all histories of setType, sleeping, waking, activation and pair creation", "why_tests_cant": "Depends on the order in which body states change.", "anchors": ["src/body/RigidBody.cpp: setType, setIsSleeping, enableOverlappingPairs, checkForDisabledOverlappingPairs", "src/engine/OverlappingPairs.cpp: enablePair, disablePair"]}
{"id": "C27", "title": "Changing a collider never corrupts the pair store", "statement": "Calling a public setter of a collider or body (collision bits, transform) only touches overlapping pairs that are stored; no lookup of a missing id happens.", "quantifier": "all reachable world states", "why_tests_cant": "Needs a disabled pair at the time of the call, i.e. a sleeping neighbour or static bodies.", "anchors": ["include/reactphysics3d/engine/OverlappingPairs.h: setNeedToTestOverlap", "src/systems/CollisionDetectionSystem.cpp: notifyOverlappingPairsToTestOverlap", "src/systems/BroadPhaseSystem.cpp: addMovedCollider"]}
{"id": "C28", "title": "Joints that disable collision keep bodies from colliding", "statement": "While at least one joint created with collision disabled connects two bodies, the two bodies never have an overlapping pair; when the last such joint is destroyed they may collide again.", "quantifier": "all histories of joint creation and destruction", "why_tests_cant": "Needs several joints between the same two bodies.", "anchors": ["src/engine/PhysicsWorld.cpp: createJoint, destroyJoint", "src/systems/CollisionDetectionSystem.cpp: addNoCollisionPair, removeNoCollisionPair, updateOverlappingPairs"]}
{"id": "C29", "title": "Islands partition the awake bodies", "statement": "At every step each enabled non-static body is in exactly one island, and every body is at most once in any island.", "quantifier": "all contact graphs, joint graphs and body types", "why_tests_cant": "Unboundedly many graphs.", "anchors": ["src/engine/PhysicsWorld.cpp: createIslands", "include/reactphysics3d/engine/Islands.h"]}
{"id": "C30", "title": "Connected bodies share an island", "statement": "Two enabled non-static bodies that touch through a simulated contact, or are connected by a joint, are put in the same island; bodies of one island are connected by a chain of contacts and joints through non-static bodies.", "quantifier": "all contact graphs and joint graphs", "why_tests_cant": "Unboundedly many graphs.", "anchors": ["src/engine/PhysicsWorld.cpp: createIslands"]}
{"id": "C31", "title": "Islands own contiguous contact manifolds", "statement": "The contact manifolds assigned to the islands are consecutive non-overlapping ranges that cover exactly the manifolds of all simulated contact pairs reached, so that each manifold is solved exactly once.", "quantifier": "all contact graphs and manifold counts", "why_tests_cant": "Index arithmetic over unbounded graphs.", "anchors": ["src/engine/PhysicsWorld.cpp: createIslands", "src/systems/CollisionDetectionSystem.cpp: createContacts", "src/systems/ContactSolverSystem.cpp: initializeForIsland"]}
{"id": "C32", "title": "Islands sleep as a whole and only when at rest", "statement": "A body is put to sleep by a step only if every non-static body of its island is allowed to sleep and has been slower than the thresholds for at least the configured time; then all bodies of the island go to sleep together.", "quantifier": "all islands, velocities, histories of steps", "why_tests_cant": "History dependent timers.", "anchors": ["src/engine/PhysicsWorld.cpp: updateSleepingBodies"]}
{"id": "C33", "title": "Static bodies are never moved by the simulation", "statement": "A static body has zero velocity after every API call and is left in place by every simulation step, whatever forces, sleeping or activation calls are made.", "quantifier": "all API histories on a body", "why_tests_cant": "Order of setType, sleep, activation calls is unbounded.", "anchors": ["src/body/RigidBody.cpp: setType, setIsSleeping, setIsActive, setLinearVelocity", "src/engine/PhysicsWorld.cpp: setBodyDisabled", "src/systems/DynamicsSystem.cpp"]}
{"id": "C34", "title": "Reactivating a body resumes its simulation", "statement": "After setIsActive(false) and then setIsActive(true), a dynamic body is awake and simulated again, and while inactive it is never simulated.", "quantifier": "all API histories", "why_tests_cant": "Depends on the order of state changes inside the calls.", "anchors": ["src/body/RigidBody.cpp: setIsActive, setIsSleeping, setType", "src/body/Body.cpp: setIsActive"]}
{"id": "C35", "title": "Inverse mass matches type and mass", "statement": "At any time the inverse mass used by the solver is 1/mass for a dynamic body with positive mass and zero otherwise (likewise each principal inertia), so static and kinematic bodies are never accelerated.", "quantifier": "all histories of setType, setMass, setLocalInertiaTensor and mass updates", "why_tests_cant": "Order of calls.", "anchors": ["src/body/RigidBody.cpp: setType, setMass, setLocalInertiaTensor, updateMassFromColliders, updateMassPropertiesFromColliders"]}
{"id": "C36", "title": "A collider is never both trigger and simulation collider", "statement": "Whatever the order of setIsTrigger and setIsSimulationCollider calls, a collider is never at the same time a trigger and a simulation collider.", "quantifier": "all call histories", "why_tests_cant": "Mutual calls between the setters.", "anchors": ["src/collision/Collider.cpp: setIsTrigger, setIsSimulationCollider"]}
{"id": "C37", "title": "Contact events follow start, stay, exit", "statement": "For every pair of colliders, the contact (or trigger) events delivered over any run form a sequence of rounds, each one start, then zero or more stays, then at most one exit: no stay or exit without a start, no second start before an exit, except where a pair is dropped because a collider is destroyed or deactivated.", "quantifier": "all runs, all collision outcomes per step, sleeping and waking in between", "why_tests_cant": "Unbounded runs with arbitrary overlap sequences.", "anchors": ["src/systems/CollisionDetectionSystem.cpp: computeMiddlePhase, computeLostContactPairs, reportContacts, reportTriggers, removeNonOverlappingPairs", "src/engine/OverlappingPairs.cpp: updateCollidingInPreviousFrame", "src/collision/CollisionCallback.cpp"]}
{"id": "C38", "title": "Events refer to existing objects", "statement": "Every collider mentioned in an event delivered to a listener still exists when the event is delivered.", "quantifier": "all API histories between steps", "why_tests_cant": "Needs a loss recorded outside update() followed by destruction of the body before the next update().", "anchors": ["src/systems/CollisionDetectionSystem.cpp: addLostContactPair, removeOverlappingPair, addNoCollisionPair, reportContacts"]}
{"id": "C39", "title": "Overlap queries do not depend on sleeping", "statement": "testOverlap and testCollision give the same answer for the same geometry whether or not the bodies involved are asleep.", "quantifier": "all world states", "why_tests_cant": "Requires both bodies of a pair to be disabled.", "anchors": ["src/systems/CollisionDetectionSystem.cpp: testOverlap, testCollision, filterOverlappingPairs"]}
{"id": "C40", "title": "Contact manifold reduction keeps the deepest contacts", "statement": "After reduction a contact pair has at most four manifolds, all of them among the original ones, and every manifold that was dropped is at most as deep as every manifold kept.", "quantifier": "all lists of potential manifolds and depths", "why_tests_cant": "Arbitrary numbers of manifolds and ties.", "anchors": ["src/systems/CollisionDetectionSystem.cpp: reducePotentialContactManifolds, computePotentialManifoldLargestContactDepth"]}
{"id": "C41", "title": "Contact point reduction keeps four distinct points", "statement": "Reducing a manifold of more than four contact points keeps exactly four pairwise distinct points of the original manifold, among them one of extreme position in the search direction, without reading outside the candidate list.", "quantifier": "all manifolds with more than four points, all coordinates", "why_tests_cant": "Degenerate (coincident, collinear) layouts.", "anchors": ["src/systems/CollisionDetectionSystem.cpp: reduceContactPoints"]}
{"id": "C42", "title": "Duplicate contact points are removed", "statement": "After duplicate removal no two points of a manifold are closer than the threshold, and every removed point is within the threshold of a kept one.", "quantifier": "all manifolds", "why_tests_cant": "In-place removal while iterating.", "anchors": ["src/systems/CollisionDetectionSystem.cpp: removeDuplicatedContactPointsInManifold"]}
{"id": "C43", "title": "Closest point on a segment", "statement": "computeClosestPointOnSegment returns the point of the segment nearest to the query point (exact arithmetic).", "quantifier": "all segments and points", "why_tests_cant": "Continuum of inputs.", "anchors": ["include/reactphysics3d/mathematics/mathematics_functions.h: computeClosestPointOnSegment"]}
{"id": "C44", "title": "Closest points of two segments", "statement": "computeClosestPointBetweenTwoSegments returns one point on each segment at the minimal distance between the segments (exact arithmetic, non-degenerate branches).", "quantifier": "all pairs of segments", "why_tests_cant": "Continuum of inputs, parallel cases.", "anchors": ["include/reactphysics3d/mathematics/mathematics_functions.h: computeClosestPointBetweenTwoSegments"]}
{"id": "C45", "title": "Barycentric coordinates", "statement": "For a non-degenerate triangle the computed coordinates sum to one and reproduce every point of the triangle's plane; for other points they reproduce the orthogonal projection.", "quantifier": "all triangles and points", "why_tests_cant": "Continuum of inputs.", "anchors": ["include/reactphysics3d/mathematics/mathematics_functions.h: computeBarycentricCoordinatesInTriangle"]}
{"id": "C46", "title": "Polygon clipping stays in front of the plane", "statement": "Clipping a polygon with a plane yields only points in front of (or on) the plane that lie on the edges of the input polygon, keeps every input vertex in front of the plane, and keeps the polygon unchanged if all of it is in front.", "quantifier": "all polygons and planes", "why_tests_cant": "Continuum of inputs, near-parallel edges.", "anchors": ["include/reactphysics3d/mathematics/mathematics_functions.h: clipPolygonWithPlane, computePlaneSegmentIntersection"]}
{"id": "C47", "title": "Segment clipping is well defined", "statement": "Clipping a segment by any list of planes yields either nothing or a segment (two points), and never reads a missing vertex.", "quantifier": "all segments and plane lists", "why_tests_cant": "Only near-parallel configurations within the epsilon break it.", "anchors": ["include/reactphysics3d/mathematics/mathematics_functions.h: clipSegmentWithPlanes"]}
{"id": "C48", "title": "Rigid transforms form a group", "statement": "For unit quaternions, rotating preserves lengths and angles, composing transforms corresponds to applying them one after the other, the inverse transform undoes the transform, and the rotation matrix of a quaternion acts like the quaternion.", "quantifier": "all unit quaternions and vectors (exact arithmetic)", "why_tests_cant": "Continuum of inputs.", "anchors": ["include/reactphysics3d/mathematics/Quaternion.h", "src/mathematics/Quaternion.cpp", "include/reactphysics3d/mathematics/Transform.h", "include/reactphysics3d/mathematics/Matrix3x3.h"]}
{"id": "C49", "title": "Body::raycast returns the closest hit", "statement": "Casting a ray against a body reports a hit exactly when some collider is hit within the ray's range, and the hit reported is the closest among all colliders.", "quantifier": "all numbers of colliders, all hit fractions", "why_tests_cant": "Order of colliders.", "anchors": ["src/body/Body.cpp: Body::raycast"]}
{"id": "C50", "title": "Height-field triangle queries miss nothing", "statement": "Every triangle of a height-field whose horizontal extent meets a query box is handed to the collision test, inside the grid, with an id unique to the triangle; all vertices lie in the reported bounds.", "quantifier": "all grid sizes, heights and boxes", "why_tests_cant": "Continuum of boxes, rounding at cell borders.", "anchors": ["src/collision/HeightField.cpp: computeOverlappingTriangles, computeMinMaxGridCoordinates, getVertexAt, init, copyData", "include/reactphysics3d/collision/HeightField.h: computeTriangleShapeId"]}
{"id": "C51", "title": "Height-field ray casts terminate", "statement": "Every ray cast against a height-field returns.", "quantifier": "all rays and grids", "why_tests_cant": "Only rays exactly along one border fail.", "anchors": ["src/collision/HeightField.cpp: raycast, computeEnteringRayGridCoordinates"]}
{"id": "C52", "title": "Contact solver invariants", "statement": "Throughout the iterations the accumulated normal impulse of a contact is never negative, each friction impulse is bounded by friction coefficient times total normal impulse, the linear momentum of the two bodies is conserved, and bodies with zero inverse mass and inertia keep their velocity.", "quantifier": "all contacts, velocities, numbers of iterations (exact arithmetic)", "why_tests_cant": "Continuum of inputs, unbounded iterations.", "anchors": ["src/systems/ContactSolverSystem.cpp: solve, warmStart"]}
{"id": "C53", "title": "World teardown destroys everything once", "statement": "Destroying a world destroys each of its joints and each of its bodies exactly once.", "quantifier": "all numbers of bodies and joints, all joint graphs", "why_tests_cant": "The joint loop skips elements while it removes; correctness relies on the body loop.", "anchors": ["src/engine/PhysicsWorld.cpp: ~PhysicsWorld, destroyJoint, destroyRigidBody"]}
{"id": "C54", "title": "Half-edge structures are consistent", "statement": "For every closed oriented mesh, the half-edge structure built from its faces has one half-edge per directed edge, twins are mutual and reversed, and following next from any half-edge walks around its face.", "quantifier": "all closed oriented meshes", "why_tests_cant": "Unboundedly many meshes.", "anchors": ["src/collision/HalfEdgeStructure.cpp: computeHalfEdges"]}
{"id": "C55", "title": "Velocity integration", "statement": "In one step a body's velocity changes exactly by the damped sum of external and gravity accelerations along unlocked axes: without force and gravity its speed never grows, locked axes receive no acceleration, gravity acceleration does not depend on the mass, and bodies with zero inverse mass are not accelerated.", "quantifier": "all states, forces, damping factors >= 0 and time steps >= 0 (exact arithmetic)", "why_tests_cant": "Continuum of inputs.", "anchors": ["src/systems/DynamicsSystem.cpp: integrateRigidBodiesVelocities, integrateRigidBodiesPositions, updateBodiesState, resetBodiesForceAndTorque"]}
{"id": "C56", "title": "Narrow-phase dispatch is total and symmetric", "statement": "For every two collision shape types that are both convex a narrow-phase algorithm is selected, the choice does not depend on the order of the two types, and no algorithm is selected for two concave shapes.", "quantifier": "all pairs of shape types", "why_tests_cant": "Small table, but the property is relied on by all pair handling.", "anchors": ["src/collision/narrowphase/CollisionDispatch.cpp: selectAlgorithm, fillInCollisionMatrix, selectNarrowPhaseAlgorithm"]}
{"id": "C57", "title": "Adding an element of the array to itself", "statement": "For every array a and index i < a.size(), a.add(a[i]) appends a copy of the i-th element.", "quantifier": "all arrays, capacities and indices", "why_tests_cant": "Fails only when the array happens to be full, and then by reading freed memory that often still holds the old value.", "anchors": ["include/reactphysics3d/containers/Array.h: add, reserve"]}
{"id": "C58", "title": "Memory of a deque is bounded by its content", "statement": "A deque that never holds more than n elements never uses a buffer larger than some function of n, however long it is used as a queue.", "quantifier": "all histories of addBack/popFront (and the other operations)", "why_tests_cant": "The buffer only grows after unboundedly long use; contents stay correct.", "anchors": ["include/reactphysics3d/containers/Deque.h: addBack, popFront, reserve"]}
{"id": "C59", "title": "Disabling a joint does not change its stored values", "statement": "Enabling or disabling a hinge or slider joint (because its bodies fall asleep, wake up, or are deactivated) leaves every value stored for that joint and for all other joints unchanged.", "quantifier": "all histories of creating, destroying, enabling and disabling joints", "why_tests_cant": "Values are only moved when the joint is not the last enabled one; a mistake corrupts one cached number among 35 or 40.", "anchors": ["src/components/HingeJointComponents.cpp: swapComponents", "src/components/SliderJointComponents.cpp: swapComponents", "src/components/Components.cpp: setIsEntityDisabled"]}
{"id": "C60", "title": "Heap allocator: headers and base requests are suitably aligned", "statement": "Every unit header the heap allocator constructs is aligned as its type requires, and every request it makes to the base allocator is a multiple of 16 bytes, as the default base allocator asserts.", "quantifier": "all histories of allocate and release with any sizes", "why_tests_cant": "Depends on the history of request sizes; most platforms tolerate misaligned access and the assert is off in release builds.", "anchors": ["src/memory/HeapAllocator.cpp: splitMemoryUnit, allocate, reserve", "include/reactphysics3d/memory/DefaultAllocator.h: allocate"]}
{"id": "C61", "title": "World boxes of moved and scaled shapes contain the shape", "statement": "The axis-aligned box that a collision shape reports for a given rigid transform contains every point of the shape placed by that transform, for every shape type and every scale factor, negative ones included.", "quantifier": "all transforms, all scales, all points of the local box", "why_tests_cant": "Real-valued transforms and points; the box is computed with absolute values of matrix entries.", "anchors": ["src/collision/shapes/CollisionShape.cpp: computeTransformedAABB", "src/collision/shapes/ConvexMeshShape.cpp: getLocalBounds", "src/collision/shapes/ConcaveMeshShape.cpp: getLocalBounds, getTriangleVertices", "src/collision/shapes/HeightFieldShape.cpp: getLocalBounds"]}
{"id": "C62", "title": "Destroying a body destroys exactly its joints", "statement": "destroyRigidBody destroys every joint attached to the body, each exactly once, and no other joint, also when the body sleeps or is static.", "quantifier": "all worlds, bodies and joint graphs, all positions in the component arrays", "why_tests_cant": "The list of joints is read through a reference into a component array whose elements move when other components are enabled or disabled.", "anchors": ["src/engine/PhysicsWorld.cpp: destroyRigidBody, destroyJoint", "src/components/Components.cpp: setIsEntityDisabled", "src/components/RigidBodyComponents.h: getJoints"]}
{"id": "C63", "title": "World-query flag respected by every query", "statement": "A collider with isWorldQueryCollider == false is never reported by ray casts, testOverlap or testCollision, whichever overload is used.", "quantifier": "all histories and queries", "why_tests_cant": "There are eight query entry points and two middle phases.", "anchors": ["src/systems/CollisionDetectionSystem.cpp: computeMiddlePhase, computeMiddlePhaseCollisionSnapshot, testOverlap, testCollision", "src/systems/BroadPhaseSystem.cpp: raycastBroadPhaseShape"]}
{"id": "C64", "title": "hasSimulationCollider reflects the colliders", "statement": "A body is treated as having a simulation collider exactly when one of its colliders is a simulation collider.", "quantifier": "all histories", "why_tests_cant": "The flag is cached and updated from several calls.", "anchors": ["src/body/Body.cpp: updateHasSimulationCollider, addCollider, removeCollider", "src/collision/Collider.cpp: setIsSimulationCollider, setIsTrigger"]}
{"id": "C65", "title": "Static bodies are at rest for the solver", "statement": "Whenever a step solves contacts and joints, the velocity it reads for a static body is zero.", "quantifier": "all histories of setType, velocity calls and steps", "why_tests_cant": "The solver reads a second copy of the velocity, written in earlier steps; which copy is stale depends on the history.", "anchors": ["src/body/RigidBody.cpp: setType", "src/systems/DynamicsSystem.cpp: integrateRigidBodiesVelocities", "src/systems/ContactSolverSystem.cpp: initializeForIsland"]}
{"id": "C66", "title": "The joint solver sees a static body at its center of mass", "statement": "The position the joint solvers use for a static body is its center of mass in world space, as for every other body.", "quantifier": "all histories of setType, setTransform, center of mass calls and steps", "why_tests_cant": "Holds in every test whose static bodies have their center of mass at the origin of the body.", "anchors": ["src/body/RigidBody.cpp: setType, setTransform, setLocalCenterOfMass", "src/systems/SolveBallAndSocketJointSystem.cpp"]}
{"id": "C67", "title": "Mass properties of the colliders", "statement": "Mass, center of mass and principal moments computed from the colliders are the sum of the masses, the weighted mean of the positions and the sums of the moments about the body axes through the center of mass; they do not depend on the order of the colliders and move with them, and the center of mass in world space is always the image of the local one.", "quantifier": "all lists of colliders, all transforms, all histories (exact arithmetic)", "why_tests_cant": "Continuum of inputs and unbounded numbers of colliders.", "anchors": ["src/body/RigidBody.cpp: computeCenterOfMass, computeMassAndInertiaTensorLocal, updateMassPropertiesFromColliders"]}
{"id": "C68", "title": "Orientations stay normalised", "statement": "If the user only gives unit orientations, the orientation of every body is a unit quaternion after every call and every step.", "quantifier": "all histories, angular velocities and time steps (exact arithmetic)", "why_tests_cant": "Drift over unboundedly many steps.", "anchors": ["src/systems/DynamicsSystem.cpp: integrateRigidBodiesPositions, updateBodiesState"]}
{"id": "C69", "title": "Resistance to rotation is that of the colliders", "statement": "The moment of inertia of a body about any axis through its center of mass is the sum of the moments of its colliders about that axis.", "quantifier": "all lists of colliders, all axes", "why_tests_cant": "Holds for every symmetric body, fails for the others.", "anchors": ["src/body/RigidBody.cpp: computeMassAndInertiaTensorLocal"]}
{"id": "C70", "title": "Contact points are grouped by normal without loss", "statement": "The contact points of a pair with a concave shape are partitioned into manifolds: the points of a manifold have normals similar to its first point and keep their order, no point is in two manifolds, the limits of 64 manifolds and 255 points are respected, and as long as fewer than 64 manifolds exist no point is lost.", "quantifier": "all sequences of contact points, all similarity relations", "why_tests_cant": "Arbitrary numbers of points and normals, limits that tests do not reach.", "anchors": ["src/systems/CollisionDetectionSystem.cpp: processPotentialContacts"]}
{"id": "C71", "title": "The deepest contact point of a manifold is kept", "statement": "The reduction of a manifold keeps its deepest contact point, or one at the same place.", "quantifier": "all manifolds", "why_tests_cant": "Depends on the layout of more than four points with different depths.", "anchors": ["src/systems/CollisionDetectionSystem.cpp: reduceContactPoints"]}
{"id": "C72", "title": "A malformed convex mesh is reported, not undefined", "statement": "Creating a convex mesh from faces that do not form a closed, consistently oriented surface, or that have less than three vertices, returns no mesh and an error message; it never runs into undefined behaviour.", "quantifier": "all lists of faces", "why_tests_cant": "Unbounded set of malformed inputs; undefined behaviour may pass a test.", "anchors": ["src/collision/ConvexMesh.cpp: ConvexMesh::init, createHalfEdgeStructure, computeFacesNormals, computeVolume", "src/collision/HalfEdgeStructure.cpp: computeHalfEdges"]}
{"id": "C73", "title": "Creating and destroying an object repeatedly does not consume memory", "statement": "After the first object of a kind has been created and destroyed through PhysicsCommon, creating and destroying any number of further objects of that kind leaves the memory taken from the base allocator by the pool allocator unchanged.", "quantifier": "all kinds of objects, all numbers of repetitions, all answers of the base allocator, all contents of the objects", "why_tests_cant": "A test creates and destroys a handful of objects and does not look at the blocks the pool keeps; the growth shows after hundreds of repetitions.", "anchors": ["src/engine/PhysicsCommon.cpp: createHeightField (487, 496), deleteHeightField (769)", "src/memory/PoolAllocator.cpp: allocate, release"]}
{"id": "C74", "title": "A ray cast against a sphere reports the first intersection", "statement": "Casting a ray against a sphere from outside reports a hit exactly if the ray meets the sphere within its range; the fraction is the first one, the point is the point of the ray at that fraction and lies on the surface, and the normal is an outward normal. From inside there is no hit.", "quantifier": "all radii, all rays whose squared length is at least MACHINE_EPSILON, all ranges", "why_tests_cant": "A test tries a few rays; the first of the two roots, tangent rays, and rays of any length and range form a continuum.", "anchors": ["src/collision/shapes/SphereShape.cpp: SphereShape::raycast (61-104)"]}
{"id": "C75", "title": "A ray cast against a box reports the first intersection", "statement": "Casting a ray against a box from outside reports a hit exactly if the ray meets the box within its range; the fraction is the first one, the point is the point of the ray at that fraction, and the normal is the outward normal of a face that contains it.", "quantifier": "all half extents, all ranges, all rays each of whose components is zero or at least MACHINE_EPSILON", "why_tests_cant": "The slabs interact: all signs and orders of six plane crossings, parallel rays, edges and corners.", "anchors": ["src/collision/shapes/BoxShape.cpp: BoxShape::raycast (62-124)"]}
{"id": "C76", "title": "A ray cast against a capsule reports the first intersection", "statement": "Casting a ray against a capsule from outside reports a hit exactly if the ray meets the capsule within its range, with the first fraction, the point of the ray there, and an outward normal.", "quantifier": "all radii and heights, all rays, all ranges", "why_tests_cant": "The surface is made of three parts; a test does not try all the ways in which a ray can pass from one to another, nor scales at which a tolerance matters.", "anchors": ["src/collision/shapes/CapsuleShape.cpp: CapsuleShape::raycast, raycastWithSphereEndCap"]}
{"id": "C77", "title": "A ray cast against a triangle reports the point of the triangle on the ray", "statement": "Casting a ray against a triangle, for the front, the back or both sides, reports a hit exactly if the ray meets the triangle from such a side within its range; the point reported is in the triangle and on the ray and the normal faces the origin of the ray. No result is NaN.", "quantifier": "all triangles, all rays that are not parallel to the triangle, all ranges, all sides", "why_tests_cant": "Rays through edges and vertices are single points of a continuum; rounding and signs of zero products are not covered by samples.", "anchors": ["src/collision/shapes/TriangleShape.cpp: TriangleShape::raycast (143-214)", "include/reactphysics3d/mathematics/mathematics_functions.h: sameSign, approxEqual"]}
{"id": "C78", "title": "Ray casts and point tests of convex meshes agree with the scaled mesh", "statement": "For a convex mesh shape with a scale, casting a ray from outside reports a hit exactly if the ray meets the scaled polyhedron within its range, with the first fraction, the point and an outward normal; and the point test is true exactly for the points of the scaled polyhedron.", "quantifier": "all convex meshes (any number of faces), all positive scales, all rays and points", "why_tests_cant": "Number of faces is unbounded; scales, rays and points form a continuum.", "anchors": ["src/collision/shapes/ConvexMeshShape.cpp: raycast (107-182), testPointInside (185-202), computeScaledFacesNormals (50-70)"]}
{"id": "C80", "title": "Support points are farthest points of the shape", "statement": "The local support point of a convex shape in a direction is a point of the shape, and no point of the shape is farther in that direction.", "quantifier": "all directions, all dimensions of spheres, boxes, capsules, triangles, all convex meshes (any number of vertices) and scales", "why_tests_cant": "Quantifies over all directions and all points of a solid.", "anchors": ["include/reactphysics3d/collision/shapes/{SphereShape,BoxShape,CapsuleShape,TriangleShape}.h: getLocalSupportPointWithoutMargin", "src/collision/shapes/ConvexMeshShape.cpp: getLocalSupportPointWithoutMargin (80-102)", "src/collision/shapes/ConvexShape.cpp: getLocalSupportPointWithMargin"]}
{"id": "C81", "title": "testPointInside is exact", "statement": "A point is reported inside of a body exactly if it is inside of one of its colliders, placed with its pose in the world; and inside of a sphere, a box or a capsule exactly if it is an inner point of the solid.", "quantifier": "all points, all poses with unit quaternions, all numbers of colliders, all dimensions", "why_tests_cant": "All points of space and all rigid poses.", "anchors": ["src/body/Body.cpp: testPointInside", "src/collision/Collider.cpp: testPointInside", "include/reactphysics3d/collision/shapes/{SphereShape,BoxShape,CapsuleShape}.h: testPointInside"]}
{"id": "C79", "title": "A ray cast against a height field reports the closest triangle", "statement": "A hit reported for a height field is a point of the ray within its range on a triangle of the scaled height field, with a normal of that triangle; and no triangle met from a tested side is closer than the hit reported.", "quantifier": "all grid sizes and heights, all positive scales, all rays, all ranges", "why_tests_cant": "The walk over the cells depends on all crossings of a ray with the lines of a grid of any size.", "anchors": ["src/collision/HeightField.cpp: raycast (258-320), raycastTriangle (323-364), computeEnteringRayGridCoordinates (368-396)", "src/collision/shapes/HeightFieldShape.cpp: raycast (76-94)"]}
{"id": "C82", "title": "A triangle mesh holds exactly the user's good triangles", "statement": "Creating a triangle mesh from the user's arrays succeeds with a mesh whose triangles are the triangles of the arrays with their own vertices and normals, in their order, without those whose indices are out of range or that are degenerate; it is reported valid exactly if no index was out of range, a triangle is left and all given normals are long enough. Unused vertices are removed without changing any triangle, and the tree holds each triangle once, with its box.", "quantifier": "all numbers of vertices and triangles, all arrays, all orders of triangles, all choices of the tree", "why_tests_cant": "Removing vertices renumbers the rest; all patterns of used and unused vertices matter.", "anchors": ["src/collision/TriangleMesh.cpp: init (42-67), computeEpsilon (70-88), copyData (91-213), removeUnusedVertices (217-239), initBVHTree (242-263)"]}
{"id": "C83", "title": "Computed vertex normals of a triangle mesh are unit vectors", "statement": "If the user gives no normals, then for every valid mesh the computed normal of each vertex is a unit vector, and no assertion fails.", "quantifier": "all triangle meshes without given normals", "why_tests_cant": "All combinations of faces that meet at a vertex.", "anchors": ["src/collision/TriangleMesh.cpp: computeVerticesNormals (277-332)"]}
{"id": "C84", "title": "Triangle queries of a concave mesh lose no triangle", "statement": "For a query box, a concave mesh shape hands out every triangle of the mesh whose scaled box meets the query box, with its scaled vertices, none twice, nothing but triangles of the mesh, with an id that is unique to the triangle.", "quantifier": "all triangle meshes, all query boxes, all scales, all shapes of the tree", "why_tests_cant": "The nodes visited depend on the whole tree; all meshes and all boxes.", "anchors": ["src/collision/shapes/ConcaveMeshShape.cpp: computeOverlappingTriangles (135-174), getTriangleVertices (79-88)", "include/reactphysics3d/collision/shapes/ConcaveMeshShape.h: computeTriangleShapeId"]}
{"id": "C85", "title": "A ray cast against a concave mesh reports the closest triangle", "statement": "A hit reported for a concave mesh is a point of the ray within its range on a scaled triangle of the mesh, with a normal of that triangle; and no triangle met from a tested side is missed in favour of a farther one or of none.", "quantifier": "all triangle meshes, all scales, all rays, all ranges, all shapes of the tree", "why_tests_cant": "All meshes and all rays, including rays in the planes of the sides of boxes.", "anchors": ["src/collision/shapes/ConcaveMeshShape.cpp: raycast (179-207), raycastBroadPhaseShape (210-216), raycastTriangles (219-268)"]}
{"id": "C86", "title": "Relative velocity at solved contacts", "statement": "When a contact between two bodies has been solved, they do not approach each other there faster than the bias of the contact allows, with equality where the contact pushes; two bodies that meet without friction part with the restitution factor times the speed of approach; the friction directions of a manifold are unit vectors at right angles to the normal and to each other. Locked axes count as infinite mass.", "quantifier": "all bodies, contacts, velocities, numbers of iterations (exact arithmetic)", "why_tests_cant": "Continuum of masses, inertia tensors, positions and velocities.", "anchors": ["src/systems/ContactSolverSystem.cpp: initializeForIsland, solve, computeFrictionVectors", "src/mathematics/Vector3.cpp: getOneUnitOrthogonalVector"]}
{"id": "C87", "title": "Impulses are applied exactly once", "statement": "The impulses that a step leaves in the contacts are those it has applied to the bodies: the velocities of every body change by inverse mass and inertia times the sum of these impulses, whatever was stored by the step before.", "quantifier": "all islands of contacts, stored impulses, numbers of iterations (exact arithmetic)", "why_tests_cant": "A doubled or lost part of the warm start is hidden by the following iterations in most scenes.", "anchors": ["src/systems/ContactSolverSystem.cpp: warmStart, solve, storeImpulses"]}
{"id": "C88", "title": "Friction cone", "statement": "The friction impulse of a manifold, as a vector in the contact plane, is never longer than the friction coefficient times the sum of its normal impulses.", "quantifier": "all manifolds, velocities, numbers of iterations at least one (exact arithmetic)", "why_tests_cant": "Depends on the direction of sliding and on the inertia tensors.", "anchors": ["src/systems/ContactSolverSystem.cpp: solve"]}
{"id": "C89", "title": "Spheres and capsules collide exactly when they overlap", "statement": "For every two spheres, sphere and capsule (in either order) or two capsules at any poses, the narrow-phase test (and so testOverlap and the contact callbacks) reports a collision if and only if the interiors of the two solids have a common point, whether or not contact points are asked for.", "quantifier": "all poses with unit orientation, all positive radii and heights (height squared above machine epsilon)", "why_tests_cant": "The pairs of poses form a continuum of ten or more dimensions; the wrong answers lie in the thin region where a threshold on a cross product takes segments for parallel.", "anchors": ["src/collision/narrowphase/SphereVsSphereAlgorithm.cpp:34-113", "src/collision/narrowphase/SphereVsCapsuleAlgorithm.cpp:38-152", "src/collision/narrowphase/CapsuleVsCapsuleAlgorithm.cpp:37-243", "include/reactphysics3d/mathematics/mathematics_functions.h:76-251"]}
{"id": "C90", "title": "Contacts of spheres and capsules resolve the overlap", "statement": "Every contact point reported for overlapping spheres and capsules has a unit normal pointing from shape 1 to shape 2, its two points lie on the surfaces of the two shapes and differ by the penetration depth along the normal, moving shape 2 by the depth along the normal (or further) ends the overlap, and no shorter motion in any direction does.", "quantifier": "all poses with unit orientation, all positive radii and heights, all overlapping configurations", "why_tests_cant": "A claim about every other point of both surfaces and every alternative motion, for a continuum of configurations; tests compare with a few known answers.", "anchors": ["src/collision/narrowphase/SphereVsSphereAlgorithm.cpp:74-100", "src/collision/narrowphase/SphereVsCapsuleAlgorithm.cpp:85-140", "src/collision/narrowphase/CapsuleVsCapsuleAlgorithm.cpp:104-236", "include/reactphysics3d/collision/narrowphase/NarrowPhaseInfoBatch.h:170-185"]}
{"id": "C91", "title": "Parallel capsules side by side get two contact points", "statement": "Two overlapping parallel capsules that face each other over a positive length get two distinct contact points (so that they rest stably on each other), whichever of their ends is up.", "quantifier": "all poses with parallel inner segments, all positive radii and heights", "why_tests_cant": "Quantifies over all parallel poses including the opposite orientation of an otherwise symmetric shape, which test scenes do not vary.", "anchors": ["src/collision/narrowphase/CapsuleVsCapsuleAlgorithm.cpp:77-175", "include/reactphysics3d/mathematics/mathematics_functions.h:226-239"]}
{"id": "C92", "title": "Joints keep momentum", "statement": "Joints and contacts among bodies of a set neither create nor destroy linear momentum of the set in a step; joints whose anchors coincide keep its angular momentum as well.", "quantifier": "all lists of joints of the four types and contacts, all bodies without locked axes, all velocities, stored impulses, limits, motors and numbers of iterations", "why_tests_cant": "tests run a few joints for some frames and compare positions; they cannot cover all joints, stored impulses and iterations", "anchors": ["src/systems/SolveBallAndSocketJointSystem.cpp:49-295", "src/systems/SolveFixedJointSystem.cpp:48-285", "src/systems/SolveHingeJointSystem.cpp:48-466", "src/systems/SolveSliderJointSystem.cpp:48-513"]}
{"id": "C93", "title": "Joints hold", "statement": "After a step whose last constraint is a joint, the velocities of the two bodies satisfy the joint (common velocity of the anchors, no relative turning of fixed joints, no motion of a slider across its axis) up to the requested position correction; velocities that satisfy the joint are left alone.", "quantifier": "all bodies, all velocities, all other joints, all numbers of iterations >= 1", "why_tests_cant": "tests sample masses and positions; the failures depend on mass and inertia", "anchors": ["src/systems/SolveBallAndSocketJointSystem.cpp:83-108", "src/systems/SolveFixedJointSystem.cpp:119-126", "src/systems/SolveHingeJointSystem.cpp:142-150", "src/systems/SolveSliderJointSystem.cpp:185-206"]}
{"id": "C94", "title": "Limits only push, motors stay within their force and reach their speed", "statement": "The impulse of a limit never pulls, the impulse of a motor never exceeds the maximal force or torque times the time step, and an unsaturated motor brings the relative velocity to its speed.", "quantifier": "all histories of steps and changes of joints, all velocities and stored impulses", "why_tests_cant": "a statement about all histories and states; tests observe single joints", "anchors": ["src/systems/SolveHingeJointSystem.cpp:340-416", "src/systems/SolveSliderJointSystem.cpp:373-459", "src/systems/SolveBallAndSocketJointSystem.cpp:239-270"]}
{"id": "C95", "title": "Reaction forces and torques are what the joint applied", "statement": "After a step, getReactionForce times the time step is the linear impulse that body 2 received from the joint (body 1 the opposite), and force at the anchor together with getReactionTorque gives the angular impulse.", "quantifier": "all joints of the four types, all bodies without locked axes, all velocities and numbers of iterations", "why_tests_cant": "the impulses are internal; a test can only compare special cases", "anchors": ["src/constraint/BallAndSocketJoint.cpp:143-155", "src/constraint/FixedJoint.cpp:78-90", "src/constraint/HingeJoint.cpp:275-300", "src/constraint/SliderJoint.cpp:301-327"]}
{"id": "C97", "title": "Joints do not create energy", "statement": "Solving joints without motors and without position correction in the velocities never increases the kinetic energy of the bodies.", "quantifier": "all lists of joints, all bodies without locked axes, all velocities, all numbers of iterations", "why_tests_cant": "an inequality for all states; tests see single trajectories with other effects mixed in", "anchors": ["src/systems/SolveBallAndSocketJointSystem.cpp:216-295", "src/systems/SolveFixedJointSystem.cpp:205-285", "src/systems/SolveHingeJointSystem.cpp:296-466", "src/systems/SolveSliderJointSystem.cpp:322-513"]}
{"id": "C96", "title": "Joints report how far they have moved", "statement": "HingeJoint::getAngle is the angle in [-pi, pi] by which body 2 has turned about the axis relative to body 1 since the creation of the joint; limits act exactly when no angle of the position lies between them; SliderJoint::getTranslation is the displacement along the axis, and the limits of the slider refer to it.", "quantifier": "all orientations at creation, all later orientations and positions, all limits, over the real numbers", "why_tests_cant": "depends on all pairs of orientations; tests start with equal orientations or with a fixed first body, where the result is right", "anchors": ["src/systems/SolveHingeJointSystem.cpp:719-799", "src/constraint/HingeJoint.cpp:78-82,255-270", "src/constraint/SliderJoint.cpp:129-159", "src/systems/SolveSliderJointSystem.cpp:93-112"]}
{"id": "C98", "title": "The GJK test of two convex shapes always ends", "statement": "Testing a sphere or capsule against a convex shape (or any two convex shapes with a positive sum of margins) comes to a verdict after a number of turns that is bounded by constants of the program, and breaks no assertion, in every frame.", "quantifier": "all convex cores with correct support functions, all poses with unit quaternions, all margins with positive sum, all kept axes", "why_tests_cant": "depends on all convex shapes and poses; the number of turns and the closest point are found by iteration, tests fix a handful of poses", "anchors": ["src/collision/narrowphase/GJK/GJKAlgorithm.cpp:50-238", "src/collision/narrowphase/GJK/VoronoiSimplex.cpp:49-631"]}
{"id": "C99", "title": "The GJK verdicts match the shapes", "statement": "The test reports separation only when the shapes (cores enlarged by their margins) do not overlap, and interpenetration only when the cores intersect, up to the tolerances of the program.", "quantifier": "all convex cores, poses, margins, kept axes", "why_tests_cant": "depends on all convex shapes and poses; the number of turns and the closest point are found by iteration, tests fix a handful of poses", "anchors": ["src/collision/narrowphase/GJK/GJKAlgorithm.cpp:50-238", "src/collision/narrowphase/GJK/VoronoiSimplex.cpp:49-631"]}
{"id": "C100", "title": "GJK contacts describe the overlap", "statement": "A contact of the GJK test has a unit normal, contact points in the two shapes that are separated by the depth along the normal; moving one shape by less than the depth does not end the overlap, and moving it by the depth along the normal does, up to the tolerance.", "quantifier": "all convex cores, poses, margins, kept axes", "why_tests_cant": "depends on all convex shapes and poses; the number of turns and the closest point are found by iteration, tests fix a handful of poses", "anchors": ["src/collision/narrowphase/GJK/GJKAlgorithm.cpp:50-238", "src/collision/narrowphase/GJK/VoronoiSimplex.cpp:49-631"]}
{"id": "C101", "title": "Joints carry over their impulses and only those", "statement": "Each step of a joint begins with the impulses of the step before; a limit that is not reached, was not reached in the step before, or is switched off has none. Bodies that the joints held at rest stay at rest: if the forces give just the velocities that the impulses of the step before take away, the step ends with the velocities and impulses of the step before, for any number of iterations.", "quantifier": "all joints of all four types, all bodies and velocities, all numbers of iterations", "why_tests_cant": "warm starting is visible only over many steps; a test sees a drift of one mechanism, not that rest is a fixed point of the solver for all of them", "anchors": ["src/systems/SolveBallAndSocketJointSystem.cpp:110-213", "src/systems/SolveHingeJointSystem.cpp:132-290", "src/systems/SolveSliderJointSystem.cpp:180-319", "src/systems/SolveFixedJointSystem.cpp:118-202"]}
{"id": "C102", "title": "The separating axis search measures the overlap of polyhedra", "statement": "If the search reports a separating axis, a plane orthogonal to it lies between the polyhedra. Otherwise the least depth that it measured is the distance that one of them has to be moved to part them: moved by any shorter vector they still overlap, moved farther along one direction they do not. The axis it chooses is the one of that depth, up to the tolerances that prefer faces.", "quantifier": "all convex polyhedra given as half-edge structures with unit outward face normals (in particular all boxes), all poses with unit quaternions", "why_tests_cant": "that the finitely many axes tested (face normals and products of edges whose arcs cross on the Gauss map) suffice is a theorem of geometry; no set of poses covers it", "anchors": ["src/collision/narrowphase/SAT/SATAlgorithm.cpp:640-830", "src/collision/narrowphase/SAT/SATAlgorithm.cpp:1039-1191"]}
{"id": "C103", "title": "Contacts of polyhedra lie on their surfaces", "statement": "Each contact that the separating axis test reports for two polyhedra has a unit normal and a positive depth, and joins a point of one polyhedron with a point of the other that differ by the depth along the normal; for a face axis one of the points is on that face and the other right below it; for an edge axis both are on the edges. At most 16 contacts are reported.", "quantifier": "all convex polyhedra given as half-edge structures with unit outward face normals (in particular all boxes), all poses with unit quaternions, all axes remembered from the frame before", "why_tests_cant": "clipping of polygons meets every combination of positions; a test covers a few", "anchors": ["src/collision/narrowphase/SAT/SATAlgorithm.cpp:893-1036", "src/collision/narrowphase/SAT/SATAlgorithm.cpp:833-890"]}
{"id": "C104", "title": "Contact of a sphere with its center in a polyhedron", "statement": "If the test of a sphere and a polyhedron reports no collision, a plane lies between them. If the center of the sphere is in the polyhedron there is one contact: its points are on the sphere and on a face; moved by any vector not longer than the depth the sphere still meets the polyhedron, moved farther along the normal it does not.", "quantifier": "all convex polyhedra given as half-edge structures with unit outward face normals (in particular all boxes), all poses with unit quaternions, all radii", "why_tests_cant": "the least depth over all faces is a minimum over a whole ball of motions", "anchors": ["src/collision/narrowphase/SAT/SATAlgorithm.cpp:57-162"]}
{"id": "C105", "title": "Polyhedra are said to collide exactly when they overlap", "statement": "The test of two polyhedra is always defined, leaves an axis that it can use in the next frame, and says that they collide exactly when they overlap, whatever axis is remembered from the frame before.", "quantifier": "all convex polyhedra given as half-edge structures with unit outward face normals (in particular all boxes), all poses with unit quaternions, all remembered axes", "why_tests_cant": "temporal coherence makes the verdict depend on the frame before; the cases that go wrong are rare poses", "anchors": ["src/collision/narrowphase/SAT/SATAlgorithm.cpp:490-830", "include/reactphysics3d/engine/OverlappingPairs.h:55-93"]}
{"id": "C106", "title": "Contacts of a capsule with its segment in a polyhedron", "statement": "If the test of a capsule and a polyhedron finds a separating axis, a plane orthogonal to it lies between them. If the inner segment of the capsule meets the polyhedron, all contacts have one unit normal and one depth, at least the radius: moved by any shorter vector the bodies still overlap, moved farther along the normal they do not. Each contact joins a point of the polyhedron with a point of the capsule along the normal; there are at most two.", "quantifier": "all convex polyhedra given as half-edge structures with unit outward face normals (in particular all boxes), all poses with unit quaternions, all radii and heights", "why_tests_cant": "that face normals and the crossings of the edges with the circle of the segment suffice is a theorem of geometry; no set of poses covers it", "anchors": ["src/collision/narrowphase/SAT/SATAlgorithm.cpp:172-485"]}
{"id": "C107", "title": "A capsule whose segment is in a polyhedron collides with it", "statement": "If the inner segment of the capsule meets the polyhedron, the test is defined and says that they collide, with a contact when contacts are asked for.", "quantifier": "all convex polyhedra given as half-edge structures with unit outward face normals (in particular all boxes), all poses with unit quaternions, all radii and heights", "why_tests_cant": "the clipping fails only for rare poses near an edge", "anchors": ["src/collision/narrowphase/SAT/SATAlgorithm.cpp:405-485", "include/reactphysics3d/mathematics/mathematics_functions.h:254-328", "src/collision/narrowphase/CapsuleVsConvexPolyhedronAlgorithm.cpp:41-177"]}
{"id": "C108", "title": "Position correction of joints respects the bodies", "statement": "The position iterations move only bodies of joints with the technique NON_LINEAR_GAUSS_SEIDEL. They leave static bodies, locked coordinates of the center of mass and locked orientations as they are; a body that may turn about one axis only keeps the coordinates of its points along it. Orientations stay unit quaternions. The common center of mass of bodies that no joint connects to others does not move.", "quantifier": "all sets of joints of the four types, all bodies and poses, all numbers of position iterations", "why_tests_cant": "the joints act on each other through shared bodies in every iteration; a test runs a few sets of joints", "anchors": ["src/systems/SolveBallAndSocketJointSystem.cpp:298-445", "src/systems/SolveFixedJointSystem.cpp:288-448", "src/systems/SolveHingeJointSystem.cpp:469-716", "src/systems/SolveSliderJointSystem.cpp:516-828", "src/engine/PhysicsWorld.cpp:348-360"]}
{"id": "C109", "title": "Position correction leaves joints alone that hold", "statement": "If all joints hold when the position iterations begin, no body is moved.", "quantifier": "all sets of joints of the four types, all bodies and poses, all numbers of position iterations", "why_tests_cant": "a rest state of every set of joints is needed", "anchors": ["src/systems/SolveBallAndSocketJointSystem.cpp:298-445", "src/systems/SolveFixedJointSystem.cpp:288-448", "src/systems/SolveHingeJointSystem.cpp:469-716", "src/systems/SolveSliderJointSystem.cpp:516-828", "src/engine/PhysicsWorld.cpp:348-360"]}
{"id": "C110", "title": "Position correction closes the gap of a ball-and-socket joint", "statement": "The distance of the anchors of a ball-and-socket joint after a position iteration is at most a constant times the square of the distance before, so that it converges to zero if it is not too large at the beginning, whatever the inertia and the poses of the two bodies are.", "quantifier": "all pairs of bodies without locked axes and with positive sum of inverse masses, all anchors and poses, all numbers of iterations, any other joints at the same static body", "why_tests_cant": "the limit of infinitely many iterations, and all inertia tensors", "anchors": ["src/systems/SolveBallAndSocketJointSystem.cpp:298-445", "src/engine/PhysicsWorld.cpp:348-360"]}
{"id": "C111", "title": "Each joint follows its own position correction technique", "statement": "Joints with the technique BAUMGARTE_JOINTS have no effect on the position correction of the other joints.", "quantifier": "all sets of joints of the four types, all bodies and poses, all numbers of position iterations", "why_tests_cant": "the outcome depends on the order of the components, which changes when joints are destroyed or bodies fall asleep", "anchors": ["src/systems/SolveSliderJointSystem.cpp:516-528", "src/systems/SolveBallAndSocketJointSystem.cpp:298-312"]}
{"id": "C112", "title": "Position correction turns a hinge back to its limits", "statement": "If the limits of a hinge are enabled and its angle is beyond one of them, a position iteration turns the two bodies back by the excess.", "quantifier": "all sets of joints of the four types, all bodies and poses, all numbers of position iterations", "why_tests_cant": "the fault shows only in the step in which the limit is first passed, hidden by the next step", "anchors": ["src/systems/SolveHingeJointSystem.cpp:523-603", "src/components/HingeJointComponents.cpp:251"]}
{"id": "C113", "title": "Interpolated transforms", "statement": "Transform::interpolateTransforms (and Quaternion::slerp) agrees with the old and the new transform at the ends; between them the position runs along the segment at constant speed, and the orientation is a unit quaternion on the shorter arc that divides the angle in the given ratio, so that it passes isValid; no assertion fails.", "quantifier": "all pairs of transforms with unit orientations, all factors from 0 to 1", "why_tests_cant": "a continuum of orientations and factors, with a change of formula near equal orientations", "anchors": ["src/mathematics/Quaternion.cpp:169-207", "include/reactphysics3d/mathematics/Transform.h:168-180"]}
{"id": "C114", "title": "Orientations from and to angles", "statement": "fromEulerAngles gives the unit quaternion that turns about the world axes x, y, z in this order, for all angles and without failing an assertion; getRotationAngleAxis gives a unit axis and an angle from 0 to 2 pi that describe the orientation.", "quantifier": "all angles, all unit quaternions", "why_tests_cant": "a continuum of angles; the axis degenerates at one orientation", "anchors": ["src/mathematics/Quaternion.cpp:35-53", "src/mathematics/Quaternion.cpp:122-136", "src/mathematics/Quaternion.cpp:205-233"]}
{"id": "C115", "title": "Contacts of a step and the impulses they start with", "statement": "After every step each pair of colliders in contact has exactly the contact points found for it, in manifolds that hold exactly their points, and the user reads these through the contact callback; each contact point starts with the impulse of a contact point of the same two colliders in the previous step that was near, or with none, each manifold with the friction of a manifold with about the same normal, or with none; an impulse is carried over at most once. No index is out of bounds in any sequence of steps.", "quantifier": "all sequences of steps, all sets of pairs, manifolds and contact points, all orders of the islands", "why_tests_cant": "needs all numbers and interleavings of pairs over two frames; the arrays of two frames are swapped", "anchors": ["src/systems/CollisionDetectionSystem.cpp:735-742", "src/systems/CollisionDetectionSystem.cpp:906-975", "src/systems/CollisionDetectionSystem.cpp:1069-1160", "src/collision/CollisionCallback.cpp:109-114"]}
{"id": "C116", "title": "Contact pairs and collision queries", "statement": "In a step every pair of colliders that collides gets exactly one contact pair, whatever the number of its triangles in contact, with contact points of this pair unless one of the colliders is a trigger. testCollision (of the world, of one or of two bodies) reports exactly the pairs of colliders that collide, each once, with contact points of the pair; it can be called whatever colliders overlap.", "quantifier": "all lists of results of the narrow phase, with convex and concave shapes and triggers", "why_tests_cant": "needs all numbers and orders of results of triangles; the order of the batches decides what is found in the map", "anchors": ["src/systems/CollisionDetectionSystem.cpp:662-715", "src/systems/CollisionDetectionSystem.cpp:845-878", "src/systems/CollisionDetectionSystem.cpp:1014-1066", "src/systems/CollisionDetectionSystem.cpp:1198-1392", "src/collision/CollisionCallback.cpp:77-103"]}
{"id": "C117", "title": "A convex collider is tested with all triangles it touches", "statement": "For a convex collider and a concave mesh or a height field, wherever they are, every triangle that has a point in common with the convex shape is tested in the narrow phase, exactly once, in the order and with the transforms of the colliders; contacts are asked for unless one of them is a trigger; no assertion is broken.", "quantifier": "all convex shapes, meshes, height fields, positive scales, rigid transforms, both orders of the colliders", "why_tests_cant": "a missed triangle shows only for particular positions; the number of relative positions is infinite", "anchors": ["src/systems/CollisionDetectionSystem.cpp:520-615", "include/reactphysics3d/collision/narrowphase/NarrowPhaseInput.h:131-160", "src/collision/shapes/TriangleShape.cpp:40-61"]}
{"id": "C118", "title": "What is remembered about a triangle", "statement": "The narrow phase of a step starts, for each triangle of a concave shape, with what it left for this very triangle and the same convex collider in the previous step, and with nothing if the triangle was not tested then. Two triangles never share this memory, and no memory is kept for triangles that are no longer near.", "quantifier": "all histories of steps and queries, all sets of tested triangles", "why_tests_cant": "mixing up two triangles needs particular ids; forgetting shows after several frames only", "anchors": ["include/reactphysics3d/engine/OverlappingPairs.h:194-292", "src/engine/OverlappingPairs.cpp:450-463", "src/systems/CollisionDetectionSystem.cpp:354", "src/systems/CollisionDetectionSystem.cpp:471"]}
{"id": "C119", "title": "A query foretells the step and does not disturb it", "statement": "For two polyhedra, testCollision finds what the next step finds if nothing is moved in between, and calls of testOverlap and testCollision between the steps change nothing in the contacts that the steps make.", "quantifier": "all convex polyhedra given as half-edge structures, all sequences of steps and queries with all poses, all axes remembered", "why_tests_cant": "the test of a pair reads and writes data of the frame before; whether a query matters depends on the whole history of poses", "anchors": ["src/systems/CollisionDetectionSystem.cpp:704-708", "src/systems/CollisionDetectionSystem.cpp:746-767", "src/systems/CollisionDetectionSystem.cpp:845-870", "src/systems/CollisionDetectionSystem.cpp:1208-1218", "src/collision/narrowphase/SAT/SATAlgorithm.cpp:516-689"]}
{"id": "C120", "title": "Nearly equal points of a point cloud are merged", "statement": "When a convex mesh is made from a point cloud (createConvexMesh with a VertexArray), points whose coordinates differ by less than 0.00001 count as one: no two nearly equal points are left, every input point has a nearly equal one among the points left, none is invented, and points that are all apart stay as they are, in their order.", "quantifier": "all lists of points, all tolerances", "why_tests_cant": "which of the points survive depends on the order of all of them and on their common mean; chains of near points have any length", "anchors": ["src/utils/quickhull/QuickHull.cpp:757-804", "src/utils/quickhull/QuickHull.cpp:55"]}
{"id": "C121", "title": "The convex hull starts with a proper tetrahedron", "statement": "When a convex mesh is made from a point cloud, the points are refused only if they are (nearly) in one plane, whatever their scale. Otherwise the first hull is a tetrahedron of four of them with outward faces and every other point is listed exactly once, at the face it is farthest above, or dropped because it is not above any; with four points the mesh is this tetrahedron.", "quantifier": "all lists of points", "why_tests_cant": "the chosen four points depend on the extent, then on distances from a line, then from a plane; scale and flatness are continuous", "anchors": ["src/utils/quickhull/QuickHull.cpp:66-110", "src/utils/quickhull/QuickHull.cpp:808-889", "src/utils/quickhull/QuickHull.cpp:893-1054", "src/utils/quickhull/QHHalfEdgeStructure.cpp:85-178", "include/reactphysics3d/utils/quickhull/QHHalfEdgeStructure.h:148-179"]}
{"id": "C122", "title": "Making a convex mesh from points ends and loses no point", "statement": "createConvexMesh with a VertexArray always returns: with a message, or with a mesh whose vertices are input points, none twice, each a corner of a face. Its loops end. While the hull grows no point is lost: a point leaves the lists of points outside the hull only when it becomes a vertex or when it is not farther than the tolerance above any new face; at the end no listed point is outside its face.", "quantifier": "all lists of points, all numbers of rounds", "why_tests_cant": "hulls of any number of points and any order of merged faces; the failing merge needs a rare arrangement", "anchors": ["src/utils/quickhull/QuickHull.cpp:44-132", "src/utils/quickhull/QuickHull.cpp:135-335", "src/utils/quickhull/QuickHull.cpp:353-755", "src/utils/quickhull/QHHalfEdgeStructure.cpp:109-380"]}
{"id": "C123", "title": "Volumes and inertia tensors are those of the solids", "statement": "For a sphere, a capsule or a box, getVolume is the volume of the solid and getLocalInertiaTensor(mass) gives the principal moments of inertia of that mass spread evenly over the solid, about its centre, which is the origin of the collider. For a convex mesh getVolume is the volume of the (scaled) convex hull of its vertices. Mass, centre of mass and inertia tensor of a body that are computed from the densities of its colliders rest on these numbers.", "quantifier": "all radii, heights and half extents; all closed convex surfaces of flat faces with any number of vertices, all scales", "why_tests_cant": "the numbers are compared with integrals over the solid, for all sizes and all meshes; the tests compare with the same formulas", "anchors": ["include/reactphysics3d/collision/shapes/SphereShape.h:170-178", "src/collision/shapes/CapsuleShape.cpp:51-67", "include/reactphysics3d/collision/shapes/CapsuleShape.h:175-177", "src/collision/shapes/BoxShape.cpp:53-59", "include/reactphysics3d/collision/shapes/BoxShape.h:233-235", "src/collision/ConvexMesh.cpp:186-264", "include/reactphysics3d/collision/ConvexMesh.h:200-211", "include/reactphysics3d/collision/shapes/ConvexMeshShape.h:175-232", "src/collision/shapes/ConcaveShape.cpp:41-53", "include/reactphysics3d/collision/shapes/ConcaveShape.h:168-175"]}
{"id": "C124", "title": "A ray cast through the world sees the bodies where and as they are", "statement": "After any sequence of calls (creating and destroying bodies, adding and removing colliders, moving bodies and colliders, activating and deactivating bodies, putting them to sleep, changing categories and query flags, stepping the simulation), PhysicsWorld::raycast reports no collider twice; every report is the first point of the ray on the shape of a collider of an active body that the mask admits, at the present pose of the body and the collider; whatever the callback returns, a collider that covers a point of the ray up to the last maximum fraction is reported unless the callback stopped the ray cast. With the callback that returns the hit fraction the last report is the closest hit. No call of this sequence breaks an assertion, and the world pose of a collider is the pose of its body times its local pose at all times.", "quantifier": "all reachable worlds with any number of bodies and colliders, all rays, masks, callbacks, all shapes of the tree", "why_tests_cant": "stale boxes in the broad-phase tree, stale poses of colliders and wrong pruning show only for particular histories; tests cast rays in a few fixed scenes", "anchors": ["src/engine/PhysicsWorld.cpp:168-186", "src/engine/PhysicsWorld.cpp:401-477", "include/reactphysics3d/engine/PhysicsWorld.h:486-490", "src/systems/CollisionDetectionSystem.cpp:1186-1195", "src/systems/BroadPhaseSystem.cpp:70-241", "src/collision/RaycastInfo.cpp:34-49", "src/body/Body.cpp:170-292", "src/body/Body.cpp:397-407", "src/body/RigidBody.cpp:661-722", "src/collision/Collider.cpp:106-124", "src/collision/Collider.cpp:173-192", "src/collision/shapes/CollisionShape.cpp:96-102", "src/systems/DynamicsSystem.cpp:74-110"]}
{"id": "C125", "title": "Vertex arrays read exactly the user's data", "statement": "VertexArray::getVertex, TriangleVertexArray::getVertex, getVertexNormal and getTriangleVerticesIndices, PolygonVertexArray::getVertex and getVertexIndexInFace return, for every valid index, the vertex, normal or indices that the user has stored at that position of the array, for any stride, for float and double coordinates and for 16 and 32 bit indices.", "quantifier": "all arrays in memory, of any size, stride and data type, all indices within the array", "why_tests_cant": "the addresses are computed with 32 bit products of the index and the stride; tests use small arrays with the usual strides", "anchors": ["src/collision/VertexArray.cpp:48-69", "src/collision/TriangleVertexArray.cpp:115-191", "src/collision/PolygonVertexArray.cpp:83-129"]}
{"id": "C126", "title": "A PhysicsCommon destroys what it has created, once and in order", "statement": "Every object created by a PhysicsCommon (world, shape, mesh, height field, logger) is destroyed exactly once: by the user or with the PhysicsCommon. Deleting a PhysicsCommon destroys all that is left of its objects and nothing else, each world before the shapes of its colliders and each shape before its mesh. A creation that fails leaves nothing behind. No call of a user who only uses what is alive and destroys nothing that is still in use touches something that was destroyed.", "quantifier": "all sequences of calls with any number of PhysicsCommon, worlds, shapes, meshes, colliders and loggers", "why_tests_cant": "a use of destroyed objects depends on the order in which everything was created and destroyed, and need not be noticed when it happens", "anchors": ["src/engine/PhysicsCommon.cpp:134-214", "src/engine/PhysicsCommon.cpp:221-841", "include/reactphysics3d/engine/PhysicsCommon.h:279-284", "src/engine/PhysicsWorld.cpp:131-165", "src/body/Body.cpp:69-201"]}
{"id": "C127", "title": "Limits and motors of joints are as set, within their ranges, and changes take effect at once", "statement": "The getters of a hinge, slider or ball-and-socket joint return the limits, motor speed, motor strength and switches that were last set (or those of the description from which the joint was created; one described with a motor has its motor on). Values out of the ranges demanded at creation (for a hinge -2*pi <= lower <= 0 <= upper <= 2*pi, for a slider lower <= 0 <= upper, motor strength >= 0) are not accepted, and values within them always are. A call that changes a setting wakes both bodies and drops the accumulated impulses of the limits (of the motor, if it is switched), and changes nothing else.", "quantifier": "all joints, all sequences of calls with any arguments, interleaved with any simulation steps", "why_tests_cant": "what a setter accepts depends on the values stored by earlier calls, so tests of single calls see nothing wrong", "anchors": ["src/constraint/HingeJoint.cpp:90-195", "src/constraint/SliderJoint.cpp:98-237", "src/constraint/BallAndSocketJoint.cpp:71-137", "src/constraint/Joint.cpp:74-86", "include/reactphysics3d/constraint/HingeJoint.h:96-233", "include/reactphysics3d/constraint/SliderJoint.h:93-221"]}
{"id": "C128", "title": "Contacts with triangles of a mesh follow the surface of the mesh", "statement": "A contact of a triangle of a concave mesh or height field with another shape is reported with the normal of the surface of the mesh at the point of contact: that of the triangle in its interior, the interpolated vertex normals at its edges and corners. It is a unit vector pointing out of the triangle to the side of the other shape; the point on the triangle and the depth stay as found; the point on the other shape is at the distance of the depth along the normal. Two triangles with a common edge and common vertex normals report the same contact at a point of the edge, so that a body does not bump against inner edges. On a flat surface the normal is that of the plane, and scaling of the mesh keeps this.", "quantifier": "all triangles, vertex normals, scales, transforms and contacts; for GJK all convex shapes with a margin", "why_tests_cant": "bumps at inner edges depend on where exactly bodies cross an edge and on the order of the triangles", "anchors": ["include/reactphysics3d/collision/shapes/TriangleShape.h:309-364", "src/collision/shapes/TriangleShape.cpp:39-116", "src/collision/shapes/ConcaveMeshShape.cpp:56-74", "src/collision/shapes/HeightField.cpp:176-210", "src/collision/narrowphase/GJK/GJKAlgorithm.cpp:215-232"]}
{"id": "C129", "title": "A position iteration removes the errors of a joint to first order", "statement": "With the non-linear Gauss-Seidel position correction, one iteration on a joint moves and turns its two bodies such that, up to terms of second order, every error the joint constrains is removed: the distance of the anchors, the angle of the orientations or axes, the offset across the axis of a slider, the excess over a limit. Hence an iteration on a joint with a small error reduces it.", "quantifier": "all masses, inertias, poses, anchors and axes of the two bodies, any of the four joint types", "why_tests_cant": "whether a correction has the right size and sign shows only near particular poses; a wrong factor looks like a slow or jittery joint", "anchors": ["src/systems/SolveBallAndSocketJointSystem.cpp:298-445", "src/systems/SolveFixedJointSystem.cpp:288-448", "src/systems/SolveHingeJointSystem.cpp:469-716", "src/systems/SolveSliderJointSystem.cpp:516-828"]}
{"id": "C130", "title": "A joint allows exactly the relative poses of its type, measured from the poses in which it was made", "statement": "When a joint is made with an anchor and an axis in world space, it fits: no position iteration moves the bodies, whatever joints were made together. Later, a position iteration on the joint leaves the two bodies alone exactly if they still agree on the point of a ball-and-socket joint, on all points for a fixed joint, on the line of a hinge with its direction, and on all points up to a shift along the axis for a slider.", "quantifier": "all poses of the bodies at creation and later, all anchors and axes, masses and inertias above the threshold of the solver, any number of new joints and iterations", "why_tests_cant": "a joint made at one pose and tested at another covers one pair of a continuum; poses that are wrongly taken as allowed look as if the joint were satisfied", "anchors": ["src/constraint/BallAndSocketJoint.cpp:38-62", "src/constraint/FixedJoint.cpp:34-73", "src/constraint/HingeJoint.cpp:34-83", "src/constraint/SliderJoint.cpp:39-91", "src/systems/SolveHingeJointSystem.cpp:469-716", "src/systems/SolveSliderJointSystem.cpp:516-828"]}
{"id": "C131", "title": "The debug renderer draws the boxes, shapes and contacts of the current step, and nothing else", "statement": "After a step with debug rendering, the lines and triangles are exactly those of the items displayed, for the active bodies with debug rendering and for the contacts of this step: the twelve edges of a box, the whole surface of each shape in its pose with the front of the triangles outside, every triangle that a mesh or a height field hands to the collision tests, a ball and a normal for each contact point of a pair that is not lost. Switching one item leaves the others alone.", "quantifier": "all flags, worlds, shapes, poses and contacts; all points of the drawn surfaces", "why_tests_cant": "a missing triangle is seen only by looking at a picture from the right side; a test of the number of primitives says nothing about where they are", "anchors": ["src/utils/DebugRenderer.cpp:60-564", "include/reactphysics3d/utils/DebugRenderer.h:60-360", "src/engine/PhysicsWorld.cpp:250-303"]}
{"id": "C132", "title": "Spheres and capsules against boxes and convex meshes: the test is total and right in every step, whatever was kept from the steps before", "statement": "In every sequence of steps and queries of a pair of a sphere or capsule and a convex polyhedron, each test ends within a number of turns that depends on the precision only, breaks no assertion, says 'collide' only when the shapes overlap, reports contacts exactly when there is a collision and contacts are asked for, with unit normals and positive depths; the axis kept for the next step is usable there. For spheres: one contact, its points are apart by the depth along the normal, and the sphere moved by less than the depth still overlaps. Conversely a pair that overlaps by more than the tolerance is found, and moved by more than the depth along the normal the shapes are apart.", "quantifier": "all convex polyhedra, radii, heights, poses, sequences of steps and queries with or without contacts, and both orders of the shapes; all numbers of turns", "why_tests_cant": "the result depends on the axis left by the previous frames; a test checks a few single frames from a new pair", "anchors": ["src/collision/narrowphase/SphereVsConvexPolyhedronAlgorithm.cpp:38-103", "src/collision/narrowphase/CapsuleVsConvexPolyhedronAlgorithm.cpp:42-180", "src/collision/narrowphase/GJK/GJKAlgorithm.cpp:49-238", "include/reactphysics3d/engine/OverlappingPairs.h:55-93", "src/systems/CollisionDetectionSystem.cpp:1207-1218"]}
{"id": "C133", "title": "Contacts make no kinetic energy", "statement": "When contacts and joints of a step are solved, the kinetic energy of the bodies does not grow: for contacts that do not bounce (restitution factor 0, or approach below the threshold) with position correction by split impulses or without penetration beyond the slop, and for bouncing contacts with restitution factors up to 1.", "quantifier": "all numbers of bodies, contact manifolds, points, joints and iterations; all velocities, masses, inertia tensors, normals, friction coefficients and stored impulses", "why_tests_cant": "energy is made by the interplay of several contacts over several iterations; a test sees one pile that stays calm", "anchors": ["src/systems/ContactSolverSystem.cpp:109-251", "src/systems/ContactSolverSystem.cpp:321-480", "src/systems/ContactSolverSystem.cpp:482-760", "src/engine/PhysicsWorld.cpp:318-345", "include/reactphysics3d/engine/PhysicsWorld.h:131-132"]}
{"id": "C134", "title": "The center of mass of a group of bodies moves by Newton's law", "statement": "Over any history of steps and calls, the common center of mass of a group of dynamic bodies that stay awake, without damping and locked translations, moves like one particle under the sum of the forces applied to the bodies and their weights, whatever collisions, joints, position corrections and torques there are among them, as long as no contact and no joint leads out of the group. Without forces its momentum is constant and the center moves uniformly; under a constant force it follows the parabola up to half a step of the velocity. With contacts and joints to other bodies the momentum changes by exactly their impulses besides.", "quantifier": "all worlds reached by calls, all groups, numbers of steps, time steps, forces, gravities, contacts, joints of all types, iterations, settings of the solvers", "why_tests_cant": "every phase of the step writes velocities or positions; a test compares a trajectory within a tolerance that hides a drift of the whole scene", "anchors": ["src/engine/PhysicsWorld.cpp:239-306", "src/engine/PhysicsWorld.cpp:321-360", "src/systems/DynamicsSystem.cpp:44-194", "src/systems/ContactSolverSystem.cpp:321-760", "src/systems/ConstraintSolverSystem.cpp:60-130"]}
{"id": "C135", "title": "Groups of bodies that do not touch do not influence each other", "statement": "If along a history of calls and steps no contact and no joint leads from a group of bodies to other bodies, except from its static bodies, then the bodies of the group, the impulses of its contacts and the state of its joints are exactly those of a world that contains only the group. What happens to the other bodies, their contacts, joints, islands, their sleep, and in which order they are listed, does not matter. Several groups may share a static floor.", "quantifier": "all worlds reached by calls, all groups, histories, contacts, joints of all types, islands, iterations, settings of the solvers", "why_tests_cant": "the solvers work on shared arrays of velocities and poses in one loop over all contacts and joints; a test compares two scenes, not all pairs of scenes", "anchors": ["src/engine/PhysicsWorld.cpp:239-306", "src/engine/PhysicsWorld.cpp:321-360", "src/engine/PhysicsWorld.cpp:871-930", "src/systems/ContactSolverSystem.cpp:321-760", "src/systems/ConstraintSolverSystem.cpp:60-130", "src/systems/SolveSliderJointSystem.cpp:508-530"]}
{"id": "C137", "title": "The world behaves the same everywhere, and the same for uniformly moving observers", "statement": "A history of calls and steps repeated elsewhere, all positions shifted by one vector, gives exactly the shifted bodies, with the same velocities, forces, sleep and timers, and the same impulses of contacts and joints. If one velocity is added to all bodies in addition, the history is again the same, seen from a moving frame: positions are further by that velocity times the time that passed, relative motion, impulses and joints are the same. The second part needs that nothing refers to a frame at rest: no static bodies, no linear damping, no sleeping.", "quantifier": "all worlds and histories of calls and steps, all shifts and velocities, contacts, joints of all four types, islands, iterations, settings of the solvers", "why_tests_cant": "a test compares two scenes; that no formula of the solvers uses an absolute position or velocity is a statement about all scenes", "anchors": ["src/engine/PhysicsWorld.cpp:239-306", "src/engine/PhysicsWorld.cpp:321-360", "src/systems/DynamicsSystem.cpp:44-194", "src/systems/ContactSolverSystem.cpp:115-760", "src/systems/ConstraintSolverSystem.cpp:60-130", "src/body/RigidBody.cpp:66-1193"]}
{"id": "C136", "title": "Kinematic bodies move exactly as told", "statement": "A kinematic body without damping that is awake keeps the linear and angular velocity it was given, exactly, until it is told otherwise: over a history its center of mass moves on by that velocity times the time that passed, and its orientation is turned by the angular velocity in each step (first order, normalised), whatever forces and gravity act on it, whatever it touches and whatever joints it has. It stays awake if sleeping is off, if it may not sleep, or if it is faster than the sleep limits; a slower one is stopped like any other body.", "quantifier": "all worlds and histories of calls and steps, all velocities, contacts, joints of all four types, islands, iterations, settings of the solvers", "why_tests_cant": "a test drives one platform for some steps; that no contact, joint, force or position correction ever moves it is a statement about all scenes", "anchors": ["src/body/RigidBody.cpp:66-131", "src/body/RigidBody.cpp:794-830", "src/systems/DynamicsSystem.cpp:44-194", "src/systems/ContactSolverSystem.cpp:115-760", "src/systems/ConstraintSolverSystem.cpp:60-130", "src/engine/PhysicsWorld.cpp:239-306", "src/engine/PhysicsWorld.cpp:871-930"]}
{"id": "C138", "title": "Scenes in balance stay at rest", "statement": "If all bodies are at rest and the impulses that contacts and joints carry over from the last step balance gravity and the user's forces on every body that can move (forces and moments; contacts push, do not reach deeper than the solver allows and obey Coulomb's law without twist friction; joints hold, their limits do not pull and motors that are on are told to stand still), then a step moves no body at all. With sleeping off and the same forces applied before every step the scene stays exactly where it is for ever: no drift, no jitter, no creeping down a slope.", "quantifier": "all scenes of any number of bodies, contacts and joints of all four types, all numbers of iterations, all settings of the solvers with warm starting, any number of steps", "why_tests_cant": "a test lets one stack stand for some seconds and allows a tolerance; that nothing ever moves, whatever the scene, is a statement about all scenes and all times", "anchors": ["src/systems/ContactSolverSystem.cpp:109-760", "src/systems/ContactSolverSystem.cpp:763-785", "src/systems/ConstraintSolverSystem.cpp:60-130", "src/systems/SolveBallAndSocketJointSystem.cpp:49-445", "src/systems/SolveFixedJointSystem.cpp:48-448", "src/systems/SolveHingeJointSystem.cpp:48-716", "src/systems/SolveSliderJointSystem.cpp:48-828", "src/systems/DynamicsSystem.cpp:44-194", "src/engine/PhysicsWorld.cpp:239-360"]}
{"id": "C139", "title": "Every field of every component follows its entity", "statement": "Whatever bodies, colliders and joints are created, destroyed, enabled and disabled, every stored field of every one of them (all 170 columns of the nine component tables: transforms, velocities, masses, flags, filters, materials, anchors, limits, lists of colliders, joints and contacts, ...) keeps the value that was last set for this object, or its documented initial value; no list is leaked, copied after its destruction or destroyed twice; and destroying the tables destroys all the lists.", "quantifier": "all nine tables, all columns, all histories of adding, removing, enabling, disabling and setting, all values", "why_tests_cant": "a test sees some fields after some swaps; a column forgotten in one of the 36 hand-written functions shows only for particular orders of creation and deletion", "anchors": ["src/components/TransformComponents.cpp:43-157", "src/components/JointComponents.cpp:43-206", "src/components/BodyComponents.cpp:43-191", "src/components/ColliderComponents.cpp:46-269", "src/components/RigidBodyComponents.cpp:52-416", "src/components/BallAndSocketJointComponents.cpp:47-299", "src/components/FixedJointComponents.cpp:46-276", "src/components/HingeJointComponents.cpp:51-446", "src/components/SliderJointComponents.cpp:53-493", "src/components/Components.cpp:34-194"]}
{"id": "C140", "title": "Sleeping bodies wake when what they rest on is taken away", "statement": "Destroying a body, removing a collider of a body or making a body inactive wakes every active, non-static body that was in contact with it; destroying a joint wakes its two bodies; moving a body or one of its colliders wakes the body. A body is not left asleep in the air.", "quantifier": "all histories of API calls, all orders in which the components of the bodies lie in memory, all numbers of bodies, colliders and contacts", "why_tests_cant": "which bodies are missed depends on the order of components after earlier swaps, on which bodies sleep and on the order of the colliders in a list; a test sees one order", "anchors": ["src/body/RigidBody.cpp:1084-1119", "src/body/RigidBody.cpp:728-735", "src/body/RigidBody.cpp:1006-1057", "src/body/Body.cpp:204-213", "src/engine/PhysicsWorld.cpp:442-480", "src/engine/PhysicsWorld.cpp:596-663", "src/components/Components.cpp:158-194"]}
{"id": "C141", "title": "A body left alone keeps turning", "statement": "While no contact, joint or torque acts on a dynamic body without angular damping, steps keep its angular velocity, the energy of its rotation and its angular momentum, for all time steps; a torque changes the angular momentum by the torque times the time step.", "quantifier": "all worlds that calls can reach, all moments of inertia, orientations and angular velocities, all sequences of steps (of any lengths) and calls, whatever the other bodies do", "why_tests_cant": "the drift of a conserved quantity is a statement about arbitrarily long runs and all tensors; a test with a tolerance sees neither an error below the tolerance nor one that needs unequal moments", "anchors": ["src/systems/DynamicsSystem.cpp:44-71", "src/systems/DynamicsSystem.cpp:74-101", "src/systems/DynamicsSystem.cpp:117-183", "src/engine/PhysicsWorld.cpp:310-318", "include/reactphysics3d/body/RigidBody.h:246-261"]}
{"id": "C142", "title": "Contacts keep angular momentum", "statement": "The impulses of contacts (normal, friction and twist friction, from the warm start and from all iterations) between the bodies of a group do not change the total angular momentum of the group; joints add no more than their own error (C92).", "quantifier": "all numbers of bodies, joints and contacts, all inertia tensors, all stored impulses, all numbers of iterations", "why_tests_cant": "the angular momentum given to a pair by one contact is small and is masked by the other bodies; whether it is zero for all geometries and all iterations is a statement about sums over all impulses", "anchors": ["src/systems/ContactSolverSystem.cpp:110-320", "src/systems/ContactSolverSystem.cpp:323-476", "src/systems/ContactSolverSystem.cpp:479-760"]}
{"id": "C143", "title": "The world has no preferred direction", "statement": "If everything in a world is turned by the same rotation (bodies, gravity, forces, velocities, contacts), every later state is the turned one: the same calls and steps give turned positions, orientations and velocities, the same impulses, the same bodies asleep.", "quantifier": "all rotations, all histories of calls and steps, all numbers of bodies, contacts and iterations", "why_tests_cant": "a test compares a scene with a few turned copies of it; that no direction is preferred is about all rotations and about every operation between two states", "anchors": ["src/systems/ContactSolverSystem.cpp:110-320", "src/systems/ContactSolverSystem.cpp:789-818", "src/systems/DynamicsSystem.cpp:44-183", "src/mathematics/Vector3.cpp:46-64", "include/reactphysics3d/body/RigidBody.h:246-261"]}
{"id": "C144", "title": "The unit of mass does not matter", "statement": "If all masses, inertia tensors, forces, torques and stored impulses are given in another unit (multiplied by the same positive number), every body has the same position, orientation and velocity at every later moment, the same bodies sleep, and the reported impulses are those in the other unit.", "quantifier": "all positive factors, all histories of calls and steps, all numbers of bodies, contacts and iterations", "why_tests_cant": "a test compares a scene with one or two scaled copies; hidden thresholds with a unit of mass only show for factors and masses nobody tried", "anchors": ["src/systems/ContactSolverSystem.cpp:110-320", "src/systems/ContactSolverSystem.cpp:345-740", "src/systems/DynamicsSystem.cpp:117-183", "src/body/RigidBody.cpp:390-472", "src/body/RigidBody.cpp:548-650", "src/systems/SolveBallAndSocketJointSystem.cpp:100-108"]}
{"id": "C145", "title": "A listener can read every event of a step, once, in the right method", "statement": "A listener that asks for all pairs by their indices, in onContact and in onTrigger, gets every event of the step exactly once: events of triggers in onTrigger, all others in onContact, with the right type; every index below the number of pairs is valid. A query that reports overlaps reports every overlapping pair once.", "quantifier": "all lists of contact pairs and lost pairs, all mixtures of triggers and contacts, all indices", "why_tests_cant": "the pairs are found through two levels of indices in two arrays; a test covers a few mixtures of triggers, contacts and lost pairs", "anchors": ["src/collision/CollisionCallback.cpp:79-133", "src/collision/OverlapCallback.cpp:57-92", "include/reactphysics3d/collision/OverlapCallback.h:188-209", "src/systems/CollisionDetectionSystem.cpp:1708-1772"]}
{"id": "C146", "title": "It does not matter which of two touching bodies is the first one", "statement": "If in any contacts of a step the two bodies are exchanged (the contact points and the normals accordingly), the step does the same to every body. The impulses that are reported and the friction on each body are the same, and what is kept for the next step is the same again up to the exchange. So a simulation does not depend on the order of the bodies in its contacts.", "quantifier": "all worlds, all sets of contact manifolds and of exchanged manifolds, all joints, all histories of calls and steps", "why_tests_cant": "the first body follows from the order of creation and the types of the shapes; a test compares two orders in one scene and allows a tolerance", "anchors": ["src/systems/ContactSolverSystem.cpp:114-318", "src/systems/ContactSolverSystem.cpp:321-476", "src/systems/ContactSolverSystem.cpp:479-760", "src/systems/ContactSolverSystem.cpp:763-818"]}
{"id": "C147", "title": "The cone limit of a ball-and-socket joint bounds the angle between the axes of its bodies", "statement": "getConeHalfAngle returns the angle, between 0 and pi, between the axis of the first body (from its center of mass to the anchor) and that of the second body (from the anchor to its center of mass); it does not depend on how the scene is turned. If the limit is enabled and this angle exceeds it, the joint keeps the angle from growing; otherwise the limit has no effect.", "quantifier": "all bodies, anchors, orientations, velocities and limit angles", "why_tests_cant": "a test bends a joint in a few directions; the directions where the limit has no axis to act about are single points among all the poses", "anchors": ["src/constraint/BallAndSocketJoint.cpp:85-127", "include/reactphysics3d/systems/SolveBallAndSocketJointSystem.h:148-154", "src/systems/SolveBallAndSocketJointSystem.cpp:118-150", "src/systems/SolveBallAndSocketJointSystem.cpp:239-270", "src/systems/SolveBallAndSocketJointSystem.cpp:344-388", "documentation/UserDocumentation.md:1457-1471"]}
{"id": "C148", "title": "Friction and bounciness of a contact are those of the materials", "statement": "A material answers with the friction coefficient, bounciness and density that were set last. Two colliders in contact have the geometric mean of their friction coefficients and the larger one of their bouncinesses, whichever comes first. If one of the two coefficients is zero, no friction is applied: the body keeps its velocity along the surface, and a body whose contacts point at its center keeps its spin.", "quantifier": "all sequences of material setters, pairs of materials, bodies, contacts and stored impulses", "why_tests_cant": "a test slides a body over ice from the start; the friction that is left over when a material is changed between two steps needs an impulse stored before", "anchors": ["include/reactphysics3d/engine/Material.h:42-151", "src/engine/Material.cpp:31-35", "include/reactphysics3d/systems/ContactSolverSystem.h:411-426", "src/systems/ContactSolverSystem.cpp:154-154", "src/systems/ContactSolverSystem.cpp:445-466", "documentation/UserDocumentation.md:1325-1341"]}
{"id": "C149", "title": "A body that nothing touches falls as gravity, forces and damping say", "statement": "As long as no contact and no joint touches a dynamic body, its center of mass moves as a point with mass: in each step by the forces applied since the last one and the gravity that is set, along the axes that are not locked, and damped. Its shape and spin and the other bodies do not matter. Changes of gravity, damping, mass or velocity count from the next step on. Under constant gravity it follows the parabola up to half a step; with damping its velocity tends to gravity over damping without passing it, however long the steps are.", "quantifier": "all bodies, histories of calls and steps, time steps, gravities and dampings", "why_tests_cant": "a test drops a body for some steps; the law for any number of steps, any mixture of calls and any length of steps is a statement about all histories", "anchors": ["src/systems/DynamicsSystem.cpp:44-71", "src/systems/DynamicsSystem.cpp:117-194", "src/engine/PhysicsWorld.cpp:969-975", "src/engine/PhysicsWorld.cpp:1024-1029", "src/body/RigidBody.cpp:741-747", "src/body/RigidBody.cpp:753-787", "documentation/UserDocumentation.md:603-611"]}
{"id": "C150", "title": "The OpenGL matrix of a transform means the transform", "statement": "getOpenGLMatrix writes exactly sixteen numbers, whatever was there before. As a column-major matrix they move every point as the transform does, turn directions without shifting them, and the matrix of a product is the product of the matrices. setFromOpenGL of that matrix gives the position exactly and the same orientation (the same quaternion or the opposite one, which is the same rotation); a matrix of any rigid motion is read as a transform with a unit quaternion that writes the same matrix again.", "quantifier": "all transforms with unit quaternions, all matrices of rigid motions, all points", "why_tests_cant": "a test compares a few matrices; the constructor from a matrix has five branches, and that all of them undo the writing for every rotation needs the algebra", "anchors": ["src/mathematics/Transform.cpp:34-57", "src/mathematics/Quaternion.cpp:55-117", "src/mathematics/Quaternion.cpp:138-165", "include/reactphysics3d/mathematics/Transform.h:81-85"]}
{"id": "C151", "title": "Bodies and colliders can be enumerated by index", "statement": "For i from 0 to getNbRigidBodies() - 1, getRigidBody(i) meets every body that was created and not destroyed since exactly once, in the order of creation, and nothing else, whatever calls were made in between; other indices are refused. In the same way getCollider(i), for i below getNbColliders(), meets each collider of the body exactly once and no collider of another body.", "quantifier": "all histories of calls, all indices", "why_tests_cant": "a test looks at the list after a few calls; that no history loses, repeats or reorders an entry is an invariant", "anchors": ["src/engine/PhysicsWorld.cpp:1036-1065", "src/engine/PhysicsWorld.cpp:401-477", "include/reactphysics3d/engine/PhysicsWorld.h:671-673", "src/body/Body.cpp:133-163"]}
{"id": "C152", "title": "Each log destination gets the messages of its levels", "statement": "A destination of the default logger gets the head of its format, then the messages of exactly the levels selected for it (combined with |), that are logged while it is open, each once and in their order, and the tail when it is removed; other destinations do not matter.", "quantifier": "all histories of adding and removing destinations and logging, all level flags", "why_tests_cant": "a test logs some messages with the usual flags; the levels of all flags and the interplay of any number of destinations over any history are not covered", "anchors": ["src/utils/DefaultLogger.cpp:65-119", "include/reactphysics3d/utils/DefaultLogger.h:359-480", "include/reactphysics3d/utils/Logger.h:48", "documentation/UserDocumentation.md:2019-2037"]}
{"id": "C153", "title": "The profile adds up", "statement": "After any blocks of code the profiler is back at its root, every block has the number of calls made to it from its callers and the time from its beginnings to its ends (a call of a block by itself is not charged again), the blocks inside a block have no more time together than it has, and those at the top no more than has passed, so the report never says that something is wrong. After a reset between the blocks only what runs then is counted.", "quantifier": "all nestings of blocks, with any names and at any times of a clock that does not run backwards", "why_tests_cant": "a test profiles one nesting; the clock and the nesting are different in each run", "anchors": ["src/utils/Profiler.cpp:53-119", "src/utils/Profiler.cpp:159-219", "src/utils/Profiler.cpp:272-330", "include/reactphysics3d/utils/Profiler.h:371-400"]}
{"id": "C154", "title": "A custom narrow-phase algorithm is used for its pairs", "statement": "A narrow-phase algorithm set with CollisionDispatch is returned by the getter and tests the pairs of its two shape types from then on; the other pairs are not affected. In the life of a world each default algorithm is released exactly once, with a size the allocator accepts, nothing of the user is released, and the algorithm in use is alive.", "quantifier": "all histories of calls of the setters, all algorithms of the user, all batches", "why_tests_cant": "a test would have to bring an algorithm of its own; the memory mistakes do not show at once", "anchors": ["src/collision/narrowphase/CollisionDispatch.cpp:30-76", "src/collision/narrowphase/CollisionDispatch.cpp:118-193", "src/systems/CollisionDetectionSystem.cpp:618-664", "include/reactphysics3d/collision/narrowphase/SphereVsSphereAlgorithm.h:68", "CHANGELOG.md:277-279"]}
{"id": "C155", "title": "The settings of a world are those set last", "statement": "Gravity, its switch, sleeping, the numbers of iterations and the sleep thresholds of a world are those given when it was created until the user sets them, and then those set last; changing one does not change another. A world has the name it was given, or a generated one that no other generated name equals, and appears under it in the log.", "quantifier": "all settings, all histories of setter calls, up to 2^32 worlds", "why_tests_cant": "a test sets a few usual values one at a time", "anchors": ["src/engine/PhysicsWorld.cpp:54-126", "src/engine/PhysicsWorld.cpp:663-669", "src/engine/PhysicsWorld.cpp:935-1030", "include/reactphysics3d/engine/PhysicsWorld.h:355-364", "documentation/UserDocumentation.md:399-467"]}
{"id": "C156", "title": "Vectors and matrices compute what their names say", "statement": "The smallest and the largest axis of a vector are those of its smallest and largest component; < orders all vectors strictly and totally; dividing by a number or componentwise by a vector undoes the multiplication; getUnit has length one and the same direction; isZero holds for the zero vector only; getOneUnitOrthogonalVector is of unit length and orthogonal for every vector its precondition admits; getInverse is the inverse from both sides of every matrix that has one.", "quantifier": "all vectors and matrices of real numbers, all positive tolerances", "why_tests_cant": "a test computes these for a few vectors of usual size", "anchors": ["include/reactphysics3d/mathematics/Vector3.h:195-383", "src/mathematics/Vector3.cpp:33-64", "src/mathematics/Matrix3x3.cpp:33-53", "src/mathematics/Matrix2x2.cpp:32-43"]}
{"id": "C157", "title": "Every contact has well-defined friction directions", "statement": "However the normals of the contact points of two bodies are grouped into manifolds and whichever points of a manifold are kept, the normal of the manifold is a unit vector, no assertion breaks while its friction directions are computed, they are unit vectors that span the plane of the contact and make a right-handed frame with the normal, and the first one points in the direction of sliding if the bodies slide. With a similar angle of at most 45 degrees the normal is on the side of the normal of every point.", "quantifier": "all sets of contact points with unit normals, all subsets of points kept, all velocities, all cosines of the similar angle from the tolerance to one", "why_tests_cant": "a test makes a few contacts on flat ground", "anchors": ["src/systems/ContactSolverSystem.cpp:251-292", "src/systems/ContactSolverSystem.cpp:789-818", "src/systems/CollisionDetectionSystem.cpp:1316-1380", "include/reactphysics3d/engine/PhysicsWorld.h:117-120"]}
{"id": "C158", "title": "A scaled convex mesh collides as the scaled solid", "statement": "A convex mesh shape stands for the solid of its mesh with every coordinate multiplied by the factor of the scale. Its face normals are the outward unit normals of the stretched faces; two such shapes are found apart only if a plane lies between the stretched solids, and otherwise overlap by the depth found.", "quantifier": "all convex meshes, all scales, all poses", "why_tests_cant": "a test uses one mesh with scale one", "anchors": ["include/reactphysics3d/collision/shapes/ConvexMeshShape.h:213-227", "src/collision/shapes/ConvexMeshShape.cpp:50-102", "src/collision/narrowphase/SAT/SATAlgorithm.cpp:485-900", "documentation/UserDocumentation.md:1085-1096"]}
{"id": "C159", "title": "The measuring functions of the mathematics library measure what their names say", "statement": "computePointToLineDistance is the distance from the nearest point of the line; projectPointOntoPlane is the nearest point of the plane and computePointToPlaneDistance its distance with the side as sign; computePlaneSegmentIntersection gives the fraction at which the segment crosses the plane; clamp gives the nearest number of the interval and the nearest vector of the ball; sameSign, areParallelVectors and areOrthogonalVectors tell what their names say.", "quantifier": "all numbers, vectors, lines, planes and segments", "why_tests_cant": "a test checks a few points with round coordinates", "anchors": ["include/reactphysics3d/mathematics/mathematics_functions.h:48-93", "include/reactphysics3d/mathematics/mathematics_functions.h:226-251", "include/reactphysics3d/mathematics/mathematics_functions.h:395-403"]}
