C01 | proved | RP3D.array_refines_sequence RP3D.array_copy_equal RP3D.array_find_first | Every history of Array operations refines List.
C02 | partial | RP3D.array_reserve_grants_too_little RP3D.array_addRange_overflows RP3D.array_reserve_grants_partial | The code violates the property above 2^24 elements (float rounding in reserve): negation proved with a witness, positive part proved up to 2^24.
C03 | proved | RP3D.map_refines_finite_map RP3D.map_remove_while_iterating RP3D.map_equality_correct | Every history, every hash function; release build; preconditions are those of the asserts.
C04 | partial | RP3D.map_add_after_release_unsafe RP3D.map_reusable_after_clear_partial | The code violates the property: clear(true) leaves the free index dangling; negation proved for every allocated map, positive part for clear(false).
C05 | proved | RP3D.set_refines_finite_set RP3D.set_equality_correct | Every history, every hash function.
C06 | proved | RP3D.deque_refines_sequence | Every history refines List.
C07 | partial | RP3D.deque_copy_broken RP3D.deque_assign_overflows RP3D.deque_copy_partial RP3D.deque_assign_partial | The code violates the property (copy constructor uses the source's first index, operator= may overflow): negations proved with witnesses; positive parts under the exact conditions in which the code works.
C08 | proved | RP3D.stack_refines_lifo | Every history and initial capacity.
C09 | proved | RP3D.pool_live_disjoint RP3D.pool_valid_defined RP3D.pool_destroy_returns_all | All histories, sizes and base addresses; clients may overwrite the contents of their allocations (including the intrusive links) before releasing them.
C10 | proved | RP3D.heap_live_disjoint RP3D.heap_valid_defined | All histories, sizes and base addresses; clients may overwrite every byte of their live allocations.
C100 | partial | RP3D.GjkProps.contact_sound RP3D.GjkProps.contact_partial | Exact arithmetic. Unit normal, contact points, their difference, and that no shorter motion ends the overlap: proved. That motion by the depth ends it: within the tolerance and under the condition of C99. The smoothing of contacts of triangle meshes: C128.
C101 | proved | RP3D.JointProps.idle_limits RP3D.JointProps.off_limits RP3D.JointProps.impulses_carried RP3D.JointProps.rest_stays RP3D.JointProps.hanging_body | Exact arithmetic. The fixed point is stated for joints without contacts.
C102 | proved | RP3D.SatProps.search_apart RP3D.SatProps.search_overlap RP3D.SatProps.overlap_depth RP3D.SatProps.tested_exact RP3D.SatProps.box_solid RP3D.SatProps.box_hull | Exact arithmetic with exact square roots. The second part assumes that edges whose arcs cross are not taken for parallel by the tolerance, and depths below the largest float. Meshes are unscaled.
C103 | proved | RP3D.SatProps.face_contacts RP3D.SatProps.edge_contact RP3D.SatProps.test_contacts | Exact arithmetic. Edges longer than the tolerance; edges whose arcs cross are not taken for parallel.
C104 | proved | RP3D.SatProps.sphere_apart RP3D.SatProps.sphere_contact | Exact arithmetic. The program runs this test only after GJK reported that the center is in the polyhedron.
C105 | partial | RP3D.SatProps.test_verdict_partial RP3D.SatProps.collides_partial RP3D.SatProps.overlap_missed RP3D.SatProps.apart_collides | The code violates the property: the face opposite to the chosen one need not contain the deepest point, so the tip of a tetrahedron in a cube gets no contact and the overlap is missed; and a pair that overlapped in the frame before is not tested on other axes, so a box that passed through a plate is said to collide though it is apart. Proved: the test is defined; not colliding means apart unless the search ended with a face; without a remembered overlap colliding means overlap.
C106 | proved | RP3D.SatProps.capsule_beyond RP3D.SatProps.capsule_apart RP3D.SatProps.capsule_overlap RP3D.SatProps.capsule_depth RP3D.SatProps.capsule_contacts RP3D.SatProps.capsule_face_contacts RP3D.SatProps.capsule_edge_contact RP3D.SatProps.shallow_contacts | Exact arithmetic with exact square roots. The depth is the true one if edges that cross the circle of the segment are not taken for parallel by the tolerance, and below the largest float. Meshes are unscaled.
C107 | partial | RP3D.SatProps.capsule_verdict_partial RP3D.SatProps.capsule_found_partial RP3D.SatProps.capsule_missed RP3D.SatProps.capsule_undefined | The code violates the property: a segment shorter than 2 cm across an edge of a box is taken for parallel, its deepest end is not above the chosen face, and asked for contacts the test says that the bodies do not collide though a query says that they do; and a segment nearly parallel to an edge is clipped to one vertex of which the second is read. Proved: if both ends of the segment are over the faces of least depth the test is defined, says that they collide and gives a contact; if the search ends with an edge always.
C108 | proved | RP3D.Joints.correct_others RP3D.Joints.correct_unit RP3D.Joints.correct_unit' RP3D.Joints.correct_locked RP3D.Joints.correct_locked_turn RP3D.Joints.correct_static RP3D.Joints.correct_one_axis RP3D.Joints.correct_center | Exact arithmetic, exact square root where orientations are concerned.
C109 | partial | RP3D.Joints.correct_hold_partial RP3D.Joints.moving_hold_lost | The code violates the property: the integration hands over orientations that are not normalised and the levers are computed with them, so one iteration tears a joint apart that holds (the second mends it). Proved: with unit orientations no body is moved, for all sets of joints and numbers of iterations.
C11 | proved | RP3D.heap_coalesces RP3D.heap_destroy_returns_all | No two contiguous free units exist after any history, and the destructor returns every block to the base allocator with its size.
C110 | partial | RP3D.Joints.ball_pass_partial RP3D.Joints.ball_converges_partial RP3D.Joints.ball_converges_later_partial RP3D.Joints.ball_closes_partial RP3D.Joints.heavy_gap_stays | The code violates the property for heavy bodies: if the determinant of the mass matrix is at most MACHINE_EPSILON (two bodies of a ton) the gap is never corrected. Proved: quadratic convergence if the cube of the sum of the inverse masses is above MACHINE_EPSILON, with the constant Lambda rho / (8 (m1 + m2)); without cone limit, and no other joint with this technique at the two bodies, except at a static one.
C111 | partial | RP3D.Joints.correct_technique_partial RP3D.Joints.correct_technique_sliders_partial RP3D.Joints.slider_loop_ends RP3D.Joints.slider_technique_lost | The code violates the property: the loop over the sliders returns at the first slider with the technique BAUMGARTE_JOINTS, the sliders after it are never corrected. Proved: for the other types of joints and the sliders before it.
C112 | partial | RP3D.Joints.limit_turn_partial RP3D.Joints.limit_idle RP3D.Joints.init_keeps_mass RP3D.Joints.limit_not_corrected | The code violates the property: it uses the inverse mass stored before, which is zero from the creation on until a step begins beyond a limit or with a motor; until then the limits have no effect on the position correction. Proved: with the inverse mass of the moment the pseudo velocities along the axis differ by the excess.
C113 | partial | RP3D.Angles.slerp_arc RP3D.Angles.interpolate_ends RP3D.Angles.interpolate_between RP3D.Angles.slerp_short | The code violates the property near equal orientations (1 - cos < 1e-5): the result is not normalised and shorter than one, but passes isUnit. Everything else is proved, with real numbers and exact sin, acos, sqrt.
C114 | partial | RP3D.Angles.euler_angles RP3D.Angles.angle_range RP3D.Angles.angle_axis_partial RP3D.Angles.identity_axis | The code violates the property at the identity (vector part shorter than MACHINE_EPSILON): the axis is the zero vector. Proved for all angles and all other orientations, with real numbers and exact sin, cos, acos, sqrt.
C115 | partial | RP3D.Warm.frame_ok RP3D.Warm.run_ok RP3D.Warm.user_points RP3D.Warm.impulse_twice RP3D.Warm.impulse_of_other_colliders RP3D.pair_number_reused | The code violates the property: two contact points can start with the impulse of the same old one, and a pair is recognised by the ids of its nodes in the tree, which are used again for other colliders. Everything else is proved for all sequences of frames, with exact arithmetic; the hypotheses on order and points are those proved in C29-C31, C40-C42, C70.
C116 | partial | RP3D.Query.step_pairs RP3D.Query.step_groups RP3D.Query.query_partial RP3D.Query.query_trigger | The code violates the property: if a trigger is among the overlapping colliders, testCollision fails an assertion (pairs of bodies ask for the contact points of triggers, and contact pairs of triggers have no manifold). Proved for all steps, and for all queries in which no overlapping collider is a trigger; the reduction of contact points (C40-C42) enters as a function that keeps a point and adds none.
C117 | partial | RP3D.MiddleProps.mesh_pair_partial RP3D.MiddleProps.field_pair_partial RP3D.MiddleProps.small_triangle_undefined | The code violates the property for triangles that are small after scaling (about a third of a millimetre): the constructor of the triangle shape fails an assertion. Proved for all meshes and height fields without such triangles and with positive scales (mirrored ones: C84, C50).
C118 | partial | RP3D.MiddleProps.triangle_memory RP3D.MiddleProps.query_forgets | The code violates the property: a query between two steps, even about other bodies, counts as a step in which the triangle was not tested. Proved with queries counted as frames, for all histories of frames.
C119 | partial | RP3D.SatProps.query_foretells_partial RP3D.SatProps.session_fair RP3D.SatProps.overlap_leaves RP3D.SatProps.query_changes_contacts RP3D.SatProps.query_changes_verdict | The code violates the property: queries run the search without the axis of the last frame and store the axis that they find, so that the next step makes other contacts than it would have made, or none. Proved: after a query a step at the same poses finds the same; every sequence of steps and queries is defined and its verdicts are fair in the sense of C105.
C12 | proved | RP3D.frame_live_disjoint RP3D.frame_valid_defined RP3D.frame_base_exact RP3D.frame_destroy_returns_all RP3D.heap_live_gap RP3D.frame_release_leaks | Disjointness and definedness for every base allocator. The exact return of overflow blocks is proved for base allocators that leave a gap between blocks, which the heap allocator used by the library does (heap_live_gap); frame_release_leaks shows the leak over a base allocator without that gap.
C120 | partial | RP3D.HullPoints.merge_inputs RP3D.HullPoints.merge_linked RP3D.HullPoints.merge_apart RP3D.HullPoints.merge_clusters_partial RP3D.HullPoints.merge_drift RP3D.HullPoints.merge_twins | The code violates the property: a point is replaced by a near one that is farther from the mean, which can be replaced in turn, so a row of points drifts any distance away (merge_drift), and two nearly equal points can be left (merge_twins). Proved: no point is invented; apart points stay; every point is linked over near points to one that is left and not nearer to the mean; if nearness is transitive on the input, the property holds.
C121 | partial | RP3D.HullStart.start_tetra RP3D.HullStart.start_lists RP3D.HullStart.refused_flat RP3D.HullStart.small_refused RP3D.HullStart.start_unbroken_partial RP3D.HullStart.four_points_partial | Violated in one point: every point cloud in a box with sides of 2.7 mm is refused whatever its shape, as the tests compare a volume with MACHINE_EPSILON (small_refused). Proved: the tetrahedron, its outward faces, the lists, and that refused points are near a plane (the sixth power of the distance is at most 3 times the square of MACHINE_EPSILON); that assertions hold only if no triangle of the points is too thin; the mesh of four points only if no face is too small.
C122 | partial | RP3D.HullProps.rounds_enough RP3D.HullProps.round_keeps RP3D.HullProps.merging_ends RP3D.HullProps.loop_end RP3D.HullProps.mesh_points RP3D.HullProps.six_points_break RP3D.HullProps.thin_breaks RP3D.HullProps.empty_breaks RP3D.HullProps.roundSqrt_near | The code violates the property: with six points with whole coordinates a half-edge is not found any more and a null pointer is used, or an assertion breaks (six_points_break); thin tetrahedra and empty arrays break assertions (thin_breaks, empty_breaks). Proved for all inputs: the bounds of the loops, that no round loses a point, what holds at the end, and the vertices of the mesh. Not proved: that the mesh is convex and contains the points; that the search for the horizon ends.
C123 | partial | RP3D.MassProps.sphere_mass RP3D.MassProps.capsule_mass RP3D.MassProps.box_mass RP3D.MassProps.round_volume_error RP3D.MassProps.mesh_volume RP3D.MassProps.mesh_shape_volume RP3D.MassProps.mesh_shape_volume_partial RP3D.MassProps.mesh_mirrored_volume RP3D.MassProps.mesh_inertia_box RP3D.MassProps.mesh_mirrored_inertia RP3D.MassProps.mesh_centre_wrong RP3D.MassProps.mesh_inertia_wrong RP3D.MassProps.concave_volume RP3D.MassProps.concave_inertia_wrong | Proved for spheres, capsules and boxes against Lebesgue integrals over the solids, and for the volume of convex meshes whose faces are the faces of the hull, with scales of positive product. The code violates the property for the inertia tensor of a convex mesh, which is that of the box around it (mesh_inertia_box, mesh_inertia_wrong), for its centre of mass, which is taken to be the origin (mesh_centre_wrong), for mirrored meshes, whose volume is negative and whose inertia breaks an assertion, and for concave shapes (volume and inertia are rough guesses, as the documentation says). Not covered: convex meshes with two faces in one plane.
C124 | partial | RP3D.Scene.world_raycast_reports RP3D.Scene.world_raycast_closest RP3D.Scene.scene_defined RP3D.Scene.scene_placed RP3D.Scene.scene_settled RP3D.Scene.update_settles RP3D.Scene.forms_ok RP3D.Scene.raycast_unseen RP3D.Scene.SceneExample.resized_static_never_seen | Proved for all histories, callbacks and rays, for shapes whose own ray cast is exact (C49, C74 - C76; discharged for spheres, boxes and capsules up to their tolerance) and whose box encloses them (C61), and for rays that do not graze a box of the tree along one of its faces (as in C20). The code violates the property after the size of a shape was changed: until the next step, and for static and sleeping bodies for ever, the tree keeps the old box (resized_static_never_seen); after a step the theorems apply to awake bodies again (update_settles).
C125 | partial | RP3D.VertexArrays.vertexArray_exact RP3D.VertexArrays.triangleArray_vertex RP3D.VertexArrays.triangleArray_normal RP3D.VertexArrays.triangleArray_triangle RP3D.VertexArrays.polygonArray_vertices RP3D.VertexArrays.polygonArray_face RP3D.VertexArrays.triangleArray_user RP3D.VertexArrays.vertexArray_wraps RP3D.VertexArrays.big_in_memory RP3D.VertexArrays.big_array_wrong | Proved for all aligned arrays, strides and types as long as the offsets are below 4 GiB. Beyond that the property is false, because index times stride is computed modulo 2^32: for 2^28+1 vertices with a stride of 16 bytes the first vertex is read instead of the last (big_array_wrong).
C126 | partial | RP3D.Common.never_undefined_partial RP3D.Common.destroyed_once RP3D.Common.references_alive RP3D.Common.delete_destroys_all RP3D.Common.delete_order RP3D.Common.invalid_leaves_nothing RP3D.Common.logger_dangles RP3D.Common.logger_destroyed RP3D.Common.shape_in_use | Proved for all histories of users who replace the logger before it is destroyed (with its PhysicsCommon or alone) and destroy no shape or mesh in use. Otherwise false: the static pointer mLogger keeps pointing to a destroyed default logger and the next message goes there, even from another PhysicsCommon (logger_dangles); a shape in use is destroyed although the error is noticed (shape_in_use). What else happens in a world's destructor is C53.
C127 | partial | RP3D.JointSettings.settings_are_last_set RP3D.JointSettings.change_takes_effect RP3D.JointSettings.call_keeps_rest RP3D.JointSettings.no_change_nothing RP3D.JointSettings.ranges_partial RP3D.JointSettings.create_iff RP3D.JointSettings.create_ok RP3D.JointSettings.slider_limits_ordered RP3D.JointSettings.slider_interval_reachable RP3D.JointSettings.bad_limit_accepted RP3D.JointSettings.bad_limit_stays RP3D.JointSettings.bad_motor_stays RP3D.JointSettings.bad_limit_forever RP3D.JointSettings.crossed_limits_stuck RP3D.JointSettings.motor_of_description RP3D.JointSettings.cone_calls | Proved for all histories, except for arguments out of range. There the code violates the property: the setters of a hinge check the value that is being replaced instead of the new one, so any limit is accepted and an invalid one can never be corrected (bad_limit_accepted, bad_limit_forever, crossed_limits_stuck); the same for the strength of motors (bad_motor_stays); the limits of a slider are only kept in order (slider_limits_ordered); the cone is not checked. A hinge described with a motor has it off (motor_of_description).
C128 | proved | RP3D.SmoothProps.smooth_first RP3D.SmoothProps.smooth_second RP3D.SmoothProps.smooth_none RP3D.SmoothProps.edge_agrees RP3D.SmoothProps.flat_surface RP3D.SmoothProps.vertexNormal_spec RP3D.SmoothProps.scaled_flat RP3D.SmoothProps.gjk_triangle RP3D.SmoothProps.localNormal_spec | Exact arithmetic. A surface normal of almost zero length (opposite vertex normals) falls back to the normal of the triangle; the side of the other shape is taken from the normal found by the narrow phase. Vertex normals themselves: C83.
C129 | partial | RP3D.Joints.ball_step_partial RP3D.Joints.fixed_step_partial RP3D.Joints.hinge_step_partial RP3D.Joints.slider_step_partial RP3D.Joints.fixed_converges_partial RP3D.Joints.cone_exact RP3D.Joints.cone_overshoots RP3D.Joints.fixed_flipped | Exact arithmetic, no locked axes. The anchors, the axes of hinges, the offset and the limits of sliders: removed to first order. The code violates it for cone limits (the axis of the turn is not normalised, cone_overshoots: from 1.1 to more than 23 degrees) and for orientations whose quaternions have opposite signs (fixed_flipped: the error grows). Limits of hinges: C112. Missing: the bound of the second order terms of a whole iteration of hinges and sliders.
C13 | proved | RP3D.entity_handles_distinct RP3D.entity_create_fresh RP3D.entity_destroyed_handle_invalid RP3D.entity_handle_reuse_distance | All histories that destroy only alive handles and use at most 2^24 indices. Note that isValid can report a dead handle as valid after 255 recycles of its index (while it waits in the queue), one lap before the handle is really reused.
C130 | partial | RP3D.Joints.ball_rests_iff RP3D.Joints.fixed_rests_iff RP3D.Joints.hinge_rests_iff_partial RP3D.Joints.slider_rests_iff RP3D.Joints.slider_limits_rest_iff RP3D.Joints.hinge_right_angle RP3D.Joints.hinge_back_rests RP3D.Joints.hinge_across_rests RP3D.Joints.new_joints_rest | Exact arithmetic, no locked axes. Ball-and-socket and fixed joints, and sliders with and without limits: full equivalence. The code violates it for hinges: a body that hangs the wrong way round is left alone (hinge_back_rests), and so is one whose axis is at right angles to that of the other (hinge_right_angle, hinge_across_rests); otherwise hinge_rests_iff_partial. Missing: cone limits and the limits of hinges in the characterisation.
C131 | partial | RP3D.Debug.setDisplayed_spec RP3D.Debug.colour_injective RP3D.Debug.aabb_drawn RP3D.Debug.box_drawn RP3D.Debug.box_normals RP3D.Debug.sphere_drawn RP3D.Debug.capsule_drawn RP3D.Debug.faces_in_array RP3D.Debug.convex_drawn_partial RP3D.Debug.face_gap RP3D.Debug.cube_hole RP3D.Debug.mesh_drawn RP3D.Debug.mesh_normals RP3D.Debug.height_drawn RP3D.Debug.height_normal RP3D.Debug.contacts_drawn RP3D.Debug.world_drawn RP3D.Debug.collider_drawn RP3D.Debug.items_respected_partial RP3D.Debug.sphere_unasked RP3D.Debug.update_spec RP3D.Debug.arrays_defined_iff RP3D.Debug.arrays_undefined | Exact arithmetic with the real sine, cosine and pi. Boxes, edges of AABBs, meshes, height fields, contacts, flags and updates: proved in full; spheres and capsules: closed outward surfaces of triangles with vertices on the shape. The code violates it: faces of convex meshes with more than three vertices are drawn with a gap (face_gap, cube_hole), spheres and capsules are drawn when only normals are displayed (sphere_unasked), the normal at the last corner of a quad of a height field is that of another triangle (height_normal), and the arrays cannot be asked for when they are empty (arrays_undefined).
C132 | partial | RP3D.RoundPolyProps.sphere_frame RP3D.RoundPolyProps.sphere_frames RP3D.RoundPolyProps.capsule_frame RP3D.RoundPolyProps.capsule_frames RP3D.RoundPolyProps.sphere_far_partial RP3D.RoundPolyProps.sphere_unused RP3D.RoundPolyProps.capsule_unused RP3D.RoundPolyProps.sphere_keeps RP3D.RoundPolyProps.capsule_keeps RP3D.RoundPolyProps.sphere_queries RP3D.RoundPolyProps.capsule_queries RP3D.RoundPolyProps.sphere_missed RP3D.RoundPolyProps.small_breaks | Exact arithmetic. Termination, assertions, soundness and kept data: proved for all sequences, for radii above the tolerance (3 mm for pairs within 7 m) and the axis limit. Missing: the test of a capsule is undefined where clipping is (C107), its contacts are not located by CapRight (C107 does this for single tests). The converse is proved only for searches that end resolved: the code violates it otherwise, an overlap of 3.2 cm of a ball and a box is missed (sphere_missed), and a ball of 0.5 mm breaks an assertion in the second step (small_breaks).
C133 | partial | RP3D.ContactEnergy.frictionless_step_loses RP3D.ContactEnergy.contacts_lose_partial RP3D.ContactEnergy.frictionless_iterations_lose_partial RP3D.ContactEnergy.first_iteration_loses_partial RP3D.ContactEnergy.bounce_loses_partial RP3D.ContactEnergy.friction_gains RP3D.ContactEnergy.bounce_gains RP3D.ContactEnergy.warm_gains | Exact arithmetic. Proved without restriction on the number of bodies, contacts, joints and iterations for new contacts without friction and bouncing; with friction for iterations that need not take back friction, in particular the first; for one bouncing contact. The code violates the rest: two contacts with friction add 15 percent in the default six iterations (friction_gains), two bouncing contacts double the energy (bounce_gains), impulses stored from the last step multiply it by seven if velocities were set in between (warm_gains).
C134 | proved | RP3D.Newton.newton_step RP3D.Newton.newton_history RP3D.Newton.newton_isolated RP3D.Newton.newton_fall RP3D.Newton.momentum_update RP3D.Newton.step_splits RP3D.Newton.sleep_stops | Exact arithmetic. The whole step of PhysicsWorld::update with the models of the contact solver, of the four joint solvers and of the position correction put together; contact manifolds and joints of each step are arbitrary. The group has to stay awake: sleep_stops shows that falling asleep takes the momentum.
C135 | partial | RP3D.Apart.apart_step_partial RP3D.Apart.apart_report_partial RP3D.Apart.apart_partial RP3D.Apart.apart_same_partial RP3D.Apart.apart_fails | Exact arithmetic. Whole steps and whole histories. Proved if no slider outside of the group has the technique BAUMGARTE_JOINTS; the code violates it otherwise: such a slider of far away bodies ends the loop over the sliders, and the slider of the group is not corrected (apart_fails). Contact manifolds, joints and islands of each step are arbitrary arguments; static bodies shared with others have unit quaternions and the square root of 1 is 1.
C136 | proved | RP3D.Kinematic.kinematic_step RP3D.Kinematic.kinematic_awake RP3D.Kinematic.kinematic RP3D.Kinematic.Moves.position RP3D.Kinematic.turns_zero RP3D.Kinematic.turn_unit RP3D.Kinematic.launch RP3D.Kinematic.slow_platform_stops | Exact arithmetic, exact square roots. Whole steps and whole histories, with calls that apply forces, set masses or locks on the body and any calls on other bodies. The condition that it does not fall asleep is shown to hold in the three cases of the statement (for the last two: with a positive time before sleep and islands that share only static bodies, C29); slow_platform_stops is a reachable kinematic body that is stopped because it is slow.
C137 | proved | RP3D.Galileo.galileo_step RP3D.Galileo.galileo_report RP3D.Galileo.galileo RP3D.Galileo.same_everywhere RP3D.Galileo.SimW.seen RP3D.Galileo.damping_tells RP3D.Galileo.sleep_tells | Exact arithmetic. Whole steps and whole histories. The contact manifolds of a step are an argument, shifted in the other world; contacts have points, and the bodies of joints are static or awake once the islands are woken. For shifts all calls are allowed; for moving frames calls that make a body static, inactive, damped or asleep and the sleeping technique are excluded, and damping_tells and sleep_tells show that this is needed.
C138 | proved | RP3D.Balance.rest_step RP3D.Balance.rest_forever RP3D.Balance.solveStep_rest RP3D.Balance.solved_rest RP3D.Balance.corrected_rest RP3D.Balance.balanced_next RP3D.Balance.room_balanced | Exact arithmetic, exact square roots. rest_step is one step with any setting of sleeping; rest_forever is any number of steps with sleeping off, the contacts and joints of each step being what the solvers of the step before stored (collision detection finds the same points of bodies that did not move; this hand-over is part of the definition of next). room_balanced is a box pushed on a floor and a lamp on a joint.
C139 | partial | RP3D.ColumnData.transform_fields RP3D.ColumnData.joint_fields RP3D.ColumnData.body_fields RP3D.ColumnData.collider_fields RP3D.ColumnData.rigidBody_fields RP3D.ColumnData.ballAndSocketJoint_fields RP3D.ColumnData.fixedJoint_fields RP3D.ColumnData.hingeJoint_fields_partial RP3D.ColumnData.sliderJoint_fields_partial RP3D.ColumnData.hinge_field_overwritten RP3D.ColumnData.slider_field_overwritten RP3D.ColumnData.slider_field_lost RP3D.ColumnData.follows | Seven of the nine tables in full, and hinges and sliders without the columns for which the property fails: the bias of the upper limit of both (overwritten by the limit when a joint is enabled or disabled, C59) and six vectors of sliders (lost when the table grows, C15); the failures are proved. The programs of the classes are transcribed statement by statement.
C14 | proved | RP3D.components_refine_map | Generic table with nine instances; swapComponents reconstructs the data through cp, which is the identity for seven tables (for the hinge and slider tables see C59).
C140 | partial | RP3D.destroyed_body_wakes RP3D.removed_collider_wakes_partial RP3D.removal_refines RP3D.destroyed_joint_wakes RP3D.moved_body_wakes RP3D.removed_collider_leaves_asleep RP3D.deactivated_body_leaves_asleep RP3D.PHist.placed | Destroying bodies and joints and moving bodies and colliders: proved. Removing a collider: proved for simulated bodies and for the first collider of a list; for the other colliders of a static or sleeping body it fails (a reference into the components is used after they are swapped), and making a body inactive wakes nobody (both negations proved).
C141 | partial | RP3D.Spin.keeps_turning RP3D.Spin.spin_kept RP3D.Spin.momentum_kept_partial RP3D.Spin.momentum_kept_iff RP3D.Spin.torque_law RP3D.Spin.turn_step RP3D.Spin.spun RP3D.Spin.momentum_lost | Proved for all histories: angular velocity, energy of the rotation, size of the angular momentum and the axis seen from the body are kept exactly; the torque law holds up to the rotation of the step. The angular momentum itself is kept exactly if it points along the angular velocity (sphere, cube, rotation about a principal axis); for other bodies it fails, as the engine has no gyroscopic term (negation proved).
C142 | partial | RP3D.ContactTurn.angular_change RP3D.ContactTurn.contacts_keep_partial RP3D.ContactTurn.friction_defect RP3D.ContactTurn.touching_defect RP3D.ContactTurn.push_aligned RP3D.ContactTurn.turn_twists RP3D.ContactTurn.friction_turns | The exact change of the angular momentum by any joints and contacts is proved (angular_change). It is zero for contacts without overlap and for overlapping contacts without friction; normal impulses and twist friction never contribute if the two points of a contact lie along its normal. Friction between bodies that overlap does change it (negation proved): each body is pushed at a point of its own surface.
C143 | partial | RP3D.Isotropy.isotropy_partial RP3D.Isotropy.isotropy_step_partial RP3D.Isotropy.isotropy_report_partial RP3D.Isotropy.SimW.seen RP3D.Turned.solveStep_turn RP3D.Isotropy.friction_tells RP3D.Isotropy.lock_tells | Proved for histories without joints and locked axes in which every contact has no friction or is between bodies that slide when the step begins. Friction of a contact that does not slide yet is limited along two directions chosen from the axes of the world: a crate pushed along one axis moves, pushed with the same force in another direction it stays (negation proved). Locks refer to the axes of the world by definition. Missing: joints.
C144 | partial | RP3D.MassUnit.mass_unit_partial RP3D.MassUnit.mass_unit_step_partial RP3D.MassUnit.mass_unit_report_partial RP3D.MassUnit.SimW.seen RP3D.Heavier.solveStep_scale RP3D.MassUnit.joint_tells | Proved for histories without joints (all calls, locked axes, mass properties from colliders, contacts with friction and warm starting between bodies that are static or awake). With joints it is false: the determinant of the mass matrix of a joint is compared with MACHINE_EPSILON, so a joint that holds two bodies of 1 kg together does nothing if their masses are given in grams (negation proved).
C145 | proved | RP3D.Listen.events_heard RP3D.Listen.contacts_heard RP3D.Listen.triggers_heard RP3D.Listen.pair_heard RP3D.Listen.overlaps_heard | 
C146 | proved | RP3D.Exchange.exchange RP3D.Exchange.exchange_step RP3D.Exchange.exchange_report RP3D.Exchange.exchange_stored | 
C147 | partial | RP3D.ConeLimit.cone_angle RP3D.ConeLimit.between_unique RP3D.ConeLimit.cone_angle_turned RP3D.ConeLimit.cone_violated RP3D.ConeLimit.cone_idle RP3D.ConeLimit.cone_stops_partial RP3D.ConeLimit.no_axis RP3D.ConeLimit.folded | The reading is proved over the reals with the exact root and arc cosine, for axes of at least MACHINE_EPSILON. That the limit stops the angle from growing is proved for the limit impulse of one iteration, with free angular axes and a positive resistance about the product of the axes; the anchor constraint that follows in the same iteration may undo a part. Two negations: an exactly folded joint (angle pi) is not corrected at all, and with the anchor at the center of mass of the second body the reading is always a right angle and the limit does nothing.
C148 | partial | RP3D.MaterialProps.read_back RP3D.MaterialProps.mixed_friction RP3D.MaterialProps.mixed_bounce RP3D.MaterialProps.materials_rub RP3D.MaterialProps.materials_bounce_partial RP3D.MaterialProps.slides RP3D.MaterialProps.spins_partial RP3D.MaterialProps.friction_after_all | Exact square root. That no friction is applied is proved for the linear velocity of a body with free linear axes, without joints; for the spin only if no twist impulse is stored. Negation: if a material is made frictionless between two steps, the warm start applies the stored twist impulse twice and the solver takes it back once, so the contact still changes the spin. In a step the friction impulses keep to the coefficients of the two materials (materials_rub); the bounciness is proved for one contact without friction between bodies without locked axes (materials_bounce_partial).
C149 | partial | RP3D.Fall.flies RP3D.Fall.falls RP3D.Fall.falls_damped RP3D.Fall.no_overshoot RP3D.Fall.terminal RP3D.Fall.sleeper_stays RP3D.Fall.hovers | Exact arithmetic. Proved for every history in which nothing touches the body and it stays awake; forces in local coordinates and changes of the center of mass on this body are left out. Negation: a sleeping body is not woken when gravity is turned on or changed, and hovers for ever.
C15 | partial | RP3D.columns_disjoint_in_buffer RP3D.columns_copied_on_growth_partial RP3D.copied_whole RP3D.slider_levers_lost RP3D.slider_levers_lost_negates | Layout proved for all nine tables, all type sizes, counts and aligned addresses. Content is proved to survive growth for all columns but six: SliderJointComponents.cpp:188-193 copies vectors with sizeof(decimal) and the rest of these columns is uninitialised memory (negation proved).
C150 | proved | RP3D.OpenGL.rest_kept RP3D.OpenGL.all_written RP3D.OpenGL.moves_points RP3D.OpenGL.turns_directions RP3D.OpenGL.composes RP3D.OpenGL.is_rigid RP3D.OpenGL.read_back RP3D.OpenGL.read_back_acts RP3D.OpenGL.write_back RP3D.OpenGL.last_row_ignored RP3D.OpenGL.scale_breaks | Exact arithmetic with an exact square root. A matrix with a scale is outside the claim: it is neither refused nor cleaned, the orientation is then not of unit length (scale_breaks).
C151 | proved | RP3D.Enumerate.body_index RP3D.Enumerate.bodies_once RP3D.Enumerate.listed_alive RP3D.Enumerate.in_order RP3D.Enumerate.past_of_reach RP3D.Enumerate.colliders_once | Bodies: every history that the code can carry out, with new entities for new bodies (C13), also those in which destroyRigidBody takes wrong joints (C62). Colliders: every history of valid calls in the world model, the order is not claimed.
C152 | partial | RP3D.Log.open_output RP3D.Log.closed_output RP3D.Log.nothing_else RP3D.Log.selected_written RP3D.Log.written_iff RP3D.Log.exactly_selected_partial RP3D.Log.unselected_written RP3D.Log.all_flags_silent | The text of the lines is not modelled, only which are written, in which format and order. Proved for the flags that select everything up to a level; no selected message is lost for flags below 2^31. Negation: the flag is compared as a number, so Information alone also writes errors and warnings, and a flag with all bits set is negative as int and writes nothing.
C153 | proved | RP3D.Profile.profiled RP3D.Profile.profiled_since_reset RP3D.Profile.children_within RP3D.Profile.children_within_since_reset RP3D.Profile.reset_inside | Times are integers; the text of the report is not modelled. Remark reset_inside: a reset while a block is open is not covered, a block that calls itself is then charged with the time before the reset.
C154 | partial | RP3D.Algorithms.get_last RP3D.Algorithms.released_once RP3D.Algorithms.only_defaults_released RP3D.Algorithms.release_size RP3D.Algorithms.in_use_alive RP3D.Algorithms.set_get_dangles RP3D.Algorithms.uses_partial RP3D.Algorithms.std_test_always RP3D.Algorithms.custom_ignored | Memory and getters are proved. Negation: testCollision is not virtual, so the test of the library is called whatever class of algorithm was set. Handing back a default algorithm got from the getter releases it while it stays in use (set_get_dangles).
C155 | partial | RP3D.Settings.as_set_partial RP3D.Settings.many_iterations_none RP3D.Settings.names RP3D.Settings.log_name_empty | Proved for numbers of iterations below 2^16. Negations: setNbIterationsPositionSolver takes 32 bits but keeps 16, so 65536 iterations are none; the log shows the given name only, empty for a world with a generated name.
C156 | partial | RP3D.Vector.min_axis RP3D.Vector.max_axis RP3D.Vector.less_order RP3D.Vector.div_partial RP3D.Vector.div_vector_partial RP3D.Vector.div_negative RP3D.Vector.get_unit RP3D.Vector.is_zero_partial RP3D.Vector.is_zero_wrong RP3D.Vector.orth_partial RP3D.Vector.orth_fails RP3D.Vector.inverse3_spec RP3D.Vector.inverse3_only RP3D.Vector.inverse2_partial RP3D.Vector.inverse2_fails | Axes, order, getUnit and the inverse of 3x3 matrices proved in full, over real numbers (no rounding). Negations: dividing by a negative number breaks an assertion; isZero holds for vectors a thousand times longer than the tolerance since it compares squares; getOneUnitOrthogonalVector breaks an assertion for some vectors its own assertion admits; getInverse of an invertible 2x2 matrix with a small determinant breaks an assertion. Proved for divisors above the tolerance, vectors zero or with a squared length of the tolerance, vectors a quarter longer than the tolerance, determinants above it.
C157 | proved | RP3D.Friction.frame_defined RP3D.Friction.frame_same RP3D.Friction.frame_unit RP3D.Friction.opposite_fails | Over real numbers (no rounding). frame_same is for pairs of convex shapes, all points of which have the same normal. Outside the quantifier: opposite_fails shows that a cosine of minus one, which the settings of a world admit, breaks an assertion for opposite normals.
C158 | partial | RP3D.Scaled.hulled RP3D.Scaled.scaled_solid RP3D.Scaled.uniform_solid RP3D.Scaled.scaled_apart RP3D.Scaled.scaled_overlap RP3D.Scaled.scaled_contacts RP3D.Scaled.mirrored_inside_out RP3D.Scaled.normal_checked_partial RP3D.Scaled.large_scale_fails RP3D.PointProps.mesh_support_scaled_wrong | Proved for positive uniform scales and meshes that contain their origin; for all scales that do not mirror if the support function were right (it is not for uneven scales, C80). Negations: a mirroring scale turns every edge inside out for the test of edges; a scale as large as the inverse of the machine epsilon breaks an assertion. Same further hypotheses as C102 and, for the contacts, as C103.
C159 | partial | RP3D.Helpers.clamp_nearest RP3D.Helpers.clamp_wrong_order RP3D.Helpers.same_sign RP3D.Helpers.line_distance_partial RP3D.Helpers.short_line_wrong RP3D.Helpers.clamp_length_partial RP3D.Helpers.negative_length RP3D.Helpers.projected RP3D.Helpers.crossing RP3D.Helpers.crossing_found_partial RP3D.Helpers.crossing_missed RP3D.Helpers.parallel_partial RP3D.Helpers.short_vectors_wrong | Exact arithmetic on real numbers. Proved for lines whose two points are at least the machine epsilon apart, lengths of at least the machine epsilon, unit normals, segments whose ends differ in height by more than the tolerance and, for parallel vectors, unit vectors. Negations: two close points of a line, a negative length, a short segment through the plane, short vectors at a right angle that count as parallel.
C16 | proved | RP3D.pairId_injective RP3D.pairId_symmetric RP3D.pairId_no_overflow | 32-bit ids, 64-bit wrap-around arithmetic.
C17 | proved | RP3D.isPowerOfTwo_correct RP3D.nextPowerOfTwo64_correct | Bit level model on Nat modulo 2^64.
C18 | proved | RP3D.tree_well_formed RP3D.tree_ids_nodup RP3D.tree_leaves_nodup RP3D.tree_valid_defined | All histories of add, move, remove and reset; the insertion heuristic is an arbitrary oracle, so the result does not depend on floating-point volumes.
C19 | proved | RP3D.tree_overlap_exact RP3D.tree_overlap_pairs_exact RP3D.tree_overlap_complete | Comparisons of coordinates are over an arbitrary linear order, exact for floats that are not NaN.
C20 | partial | RP3D.RayExample.testRay_misses RP3D.RayExample.tree_raycast_misses RP3D.tree_raycast_scan_partial RP3D.tree_raycast_exact_partial RP3D.tree_raycast_complete_partial RP3D.hits_fat | The code violates the property: a ray parallel to an axis that lies exactly in the plane of a side of a box misses it (0 * infinity). Proved for all other rays: in exact arithmetic the callback gets exactly the boxes met by the segment; with any monotone rounding the tree prunes nothing the slab test of the object would accept.
C21 | proved | RP3D.tree_box_enclosed RP3D.tree_update_false RP3D.tree_others_stable RP3D.tree_fat_contains | tree_fat_contains holds for every monotone rounding of the floating-point operations.
C22 | proved | RP3D.aabb_merge_least RP3D.aabb_merge_points RP3D.aabb_overlap_iff_common_point RP3D.aabb_overlap_symm RP3D.aabb_contains_iff_subset RP3D.aabb_contains_overlaps RP3D.aabb_inflateWithPoint_least RP3D.aabb_forTriangle_least RP3D.aabb_testTriangle_eq | Over an arbitrary linear order, exact for floats that are not NaN.
C23 | partial | RP3D.overlaps_discovered RP3D.overlaps_complete_partial RP3D.added_collider_tested RP3D.moved_collider_tested RP3D.recheck_tested RP3D.destroyed_joint_no_recheck | Proved for all histories when one of the colliders is new, left its fat box or was to be re-checked; for all colliders when no joint that forbids collision is destroyed between bodies with colliders. Destroying such a joint asks for no re-check: negation proved with a witness.
C24 | proved | RP3D.pairs_lookup_exact RP3D.pairs_stored_once RP3D.pairs_collider_lists | For all histories of valid store operations (add of a new pair, removal of any id, enabling, disabling, flag writes, end of frame). Ids are the 64-bit pairing numbers; C16 shows that they are distinct for distinct 32-bit broad-phase ids.
C25 | partial | RP3D.filtering_not_respected RP3D.filtering_respected_partial RP3D.contacts_sound | The code violates the property: bits changed while a pair exists are ignored (negation proved). Proved for histories that change bits only while the collider has no pair.
C26 | partial | RP3D.pair_of_awake_body_skipped RP3D.pair_with_awake_body_tested_partial RP3D.disabled_static_or_sleeping RP3D.static_or_inactive_excluded RP3D.contacts_complete_partial | The code violates the property when a static body under a sleeping one becomes dynamic (negation proved). Proved for histories without that call.
C27 | partial | RP3D.bits_of_sleeping_collider_undefined RP3D.moving_static_body_undefined RP3D.calls_defined_partial RP3D.pairs_stay_consistent RP3D.setNeed_disabled_undefined | The code violates the property: setNeedToTestOverlap on a disabled pair is undefined behaviour (negations proved). Proved for histories that avoid these calls; consistency of the store proved for all defined histories.
C28 | partial | RP3D.second_joint_ignored RP3D.destroyed_joint_no_recheck RP3D.joined_bodies_no_pair_partial RP3D.joined_bodies_no_contact_partial RP3D.unjoined_bodies_may_collide | The code violates the property for two joints between the same bodies and after destroying a joint (negations proved). Proved when such a joint is only destroyed if it is the only one of its two bodies.
C29 | proved | RP3D.createIslands_defined RP3D.islands_partition RP3D.islands_wake | 
C30 | proved | RP3D.island_is_component RP3D.linked_same_island | 
C31 | proved | RP3D.manifolds_partition RP3D.contact_pairs_cleared | 
C32 | partial | RP3D.zero_time_sleeps RP3D.stale_timer_sleeps RP3D.sleep_needs_rest RP3D.rested_island_sleeps RP3D.sleep_needs_rest_partial RP3D.timer_meaning | The code violates the property with setTimeBeforeSleep(0) and when the sleeping technique was disabled meanwhile (negations proved). Proved for all histories with sleeping enabled at each step and a positive time before sleep, for any addition of times.
C33 | proved | RP3D.static_at_rest RP3D.static_not_moved RP3D.static_stays | All histories of calls on bodies and steps; the results of the contact and joint solvers are arbitrary.
C34 | partial | RP3D.reactivated_body_asleep RP3D.inactive_body_simulated RP3D.woken_body_simulated_partial RP3D.inactive_body_no_pairs | The code violates the property for every awake non-static body in every history (proved). Proved if the user calls setIsSleeping(false) afterwards.
C35 | proved | RP3D.inverse_mass RP3D.solver_tensor RP3D.not_accelerated | All histories; exact arithmetic.
C36 | proved | RP3D.never_trigger_and_simulation | All histories.
C37 | partial | RP3D.start_and_exit_in_one_frame RP3D.stay_without_start RP3D.events_form_rounds_partial | The code violates the property (negations proved with witnesses). Proved for histories without queries of the whole world, without removals while the end of a contact is pending, and pairs whose frames do not report both a contact and the end of one.
C38 | partial | RP3D.event_of_removed_collider RP3D.events_refer_to_existing_partial | The code violates the property: a contact lost between two frames is reported after its collider was destroyed (negation proved). Proved for histories without such removals.
C39 | partial | RP3D.overlap_of_sleeping_not_found RP3D.test_overlap_complete_partial RP3D.test_overlap_sound RP3D.test_overlap_pure | The code violates the property: disabled pairs are skipped by queries (negation proved). Proved if one of the two bodies is simulated.
C40 | proved | RP3D.ContactProps.manifolds_reduced RP3D.ContactProps.deepest_kept RP3D.ContactProps.pair_reduced | For any depths below the largest number, compared exactly.
C41 | proved | RP3D.ContactProps.four_points RP3D.ContactProps.four_distinct RP3D.ContactProps.extreme_points RP3D.ContactProps.fourth_outside | For any values of the compared keys, so also for rounded ones.
C42 | proved | RP3D.ContactProps.duplicates_removed RP3D.ContactProps.duplicates_removed_dist | For any outcome of the distance tests; with distances over an ordered field.
C43 | proved | RP3D.GeomProps.closest_on_segment | Exact arithmetic; segments shorter than the epsilon get a bound instead of the minimum.
C44 | proved | RP3D.GeomProps.closest_of_segments RP3D.GeomProps.closest_of_short_segments | Exact arithmetic.
C45 | proved | RP3D.GeomProps.barycentric_projection RP3D.GeomProps.barycentric_unique | Exact arithmetic.
C46 | proved | RP3D.GeomProps.polygon_clipped RP3D.GeomProps.polygon_front_kept RP3D.GeomProps.polygon_all_front | Exact arithmetic; points within the threshold of the plane may be lost.
C47 | partial | RP3D.GeomProps.segment_clipped_to_point RP3D.GeomProps.segment_clip_undefined RP3D.GeomProps.segment_clip_no_planes RP3D.GeomProps.segment_clipped RP3D.GeomProps.segment_clipped_partial | The code violates the property for segments nearly parallel to a plane (negations proved). Proved for segments with a part in front of all planes that is not.
C48 | proved | RP3D.rot_dot RP3D.rot_cross RP3D.rot_linear RP3D.rot_is_conjugation RP3D.unit_mul RP3D.unit_inverse RP3D.rot_mul RP3D.trans_mul_act RP3D.trans_mul_assoc RP3D.trans_inverse_act RP3D.trans_act_inverse RP3D.trans_inverse_mul RP3D.trans_one_act RP3D.matrix_act RP3D.matrix_is_rotation RP3D.quaternion_of_matrix RP3D.matrix_inverse RP3D.matrix_mul_act RP3D.skew_act | Exact arithmetic.
C49 | partial | RP3D.BodyRay.body_raycast_closest RP3D.BodyRay.body_raycast_point_partial RP3D.BodyRay.body_raycast_point_wrong | Hit or miss and the fraction proved for all colliders and poses (spheres, boxes, capsules, unscaled convex meshes). The point and the normal are wrong if a later collider is missed, since Collider::raycast transforms them again (negation proved); proved for the case where the last collider is the closest.
C50 | partial | RP3D.HeightProps.height_triangles RP3D.HeightProps.height_bounds RP3D.HeightProps.negative_scale_misses | Proved for positive horizontal scales and all grids, heights and boxes, over an ordered field with floor. With a negative scale the box is turned inside out and triangles are missed (negation proved).
C51 | partial | RP3D.HeightProps.height_raycast_returns_partial RP3D.HeightProps.height_raycast_forever | Returns for all rays except those along the x axis that run on the border of greatest z or whose z component is minus zero; those that enter the bounds never return (negation proved).
C52 | proved | RP3D.SolverProps.normal_impulses RP3D.SolverProps.friction_limits RP3D.SolverProps.momentum_balance RP3D.SolverProps.momentum_kept RP3D.SolverProps.locked_components_kept RP3D.SolverProps.static_kept | Over any sequence of steps and any number of iterations, with arbitrary joints in between, over an ordered field. Momentum: for sets of bodies with a mass and without locked linear axes, changed by outer contacts only.
C53 | partial | RP3D.BodyJointsProps.teardown_partial RP3D.BodyJointsProps.teardown_undefined RP3D.BodyJointsProps.joint_lists | Proved for all reachable worlds in which no body can wake up (sleeping, active and not static). Otherwise false: teardown_undefined exhibits a reachable world of four sleeping bodies whose destructor touches a destroyed body. Colliders are left out of this model.
C54 | proved | RP3D.MeshProps.half_edges RP3D.MeshProps.described RP3D.MeshProps.defined_iff_closed RP3D.MeshProps.twin_of_twin RP3D.MeshProps.walk_around_face RP3D.MeshProps.box_structure RP3D.MeshProps.triangle_structure | Indices are natural numbers; the hash maps are functions (C03).
C55 | proved | RP3D.step_velocity RP3D.gravity_mass_independent RP3D.no_speed_gain RP3D.locked_axis RP3D.not_accelerated RP3D.free_flight RP3D.forces_add RP3D.force_wakes | Exact arithmetic. Kinematic bodies are not accelerated but they are damped.
C56 | proved | RP3D.DispatchProps.dispatch_total_symmetric RP3D.DispatchProps.dispatch_separates RP3D.DispatchProps.dispatch_of_pair | All types; all shapes and all lists of near triangles for the tests made by the middle phase.
C57 | partial | RP3D.array_add_own_element_unsafe RP3D.array_add_own_element_partial | The code violates the property when the array is full: negation proved; positive part when there is spare capacity.
C58 | partial | RP3D.deque_queue_memory_unbounded | Violated: negation proved for every bound.
C59 | partial | RP3D.hinge_disable_changes_data RP3D.hinge_columns_preserved_partial | The code violates the property: swapComponents of the hinge and slider tables restores mBUpperLimit from mUpperLimit. All other columns are proved to be preserved.
C60 | partial | RP3D.heap_header_misaligned RP3D.heap_base_request_not_multiple RP3D.heap_headers_aligned_partial | The code violates the property: request sizes are not rounded. Proved for histories whose sizes are all multiples of 16.
C61 | proved | RP3D.BoundsProps.world_box_contains RP3D.BoundsProps.body_box_contains RP3D.BoundsProps.transformed_least RP3D.BoundsProps.sphere_box_least RP3D.BoundsProps.box_box_least RP3D.BoundsProps.meshBounds_least | All seven kinds of shapes, unit quaternions, all scales, exact arithmetic over an ordered field; also the box of a body with many colliders. Spheres and boxes get the least possible box.
C62 | partial | RP3D.BodyJointsProps.destroy_body_joints_partial RP3D.BodyJointsProps.destroy_body_wrong RP3D.BodyJointsProps.allowed_defined RP3D.BodyJointsProps.joint_lists | Proved over all histories when the body is neither static nor asleep, or no body of its joints can wake up. Otherwise false: destroy_body_wrong exhibits a sleeping body whose destruction destroys a joint between two other bodies. Colliders are left out of this model.
C63 | partial | RP3D.query_flag_ignored RP3D.query_flag_respected_partial | The code violates the property for queries about given bodies (negation proved). Proved for testOverlap(callback) of the whole world.
C64 | partial | RP3D.sim_flag_set_partial RP3D.sim_flag_stale RP3D.sim_flag_stale_trigger | The code violates one direction (negation proved): the flag is never cleared. The other direction is proved over all histories.
C65 | partial | RP3D.static_velocity_stale RP3D.static_solver_rest_partial | The code violates the property: setType(STATIC) leaves the constrained velocities (negation proved). Proved for bodies that become static while the solvers hold no velocity for them.
C66 | partial | RP3D.static_center_wrong RP3D.static_center_partial | The code violates the property: the transform position is stored (negation proved). Proved for bodies whose center of mass is their origin.
C67 | proved | RP3D.center_of_mass_world RP3D.total_mass RP3D.center_of_mass RP3D.inertia_of_colliders RP3D.mass_order RP3D.mass_shift | Exact arithmetic.
C68 | proved | RP3D.orientation_unit RP3D.integrated_nonzero | Exact arithmetic with an exact square root; the joint solvers may write any nonzero orientation.
C69 | partial | RP3D.inertia_loses_products RP3D.inertia_axis_partial | The code violates the property: products of inertia are dropped (negation proved). Proved for bodies without products of inertia about their axes.
C70 | proved | RP3D.ContactProps.points_grouped RP3D.ContactProps.point_lost | For any outcome of the similarity test; point_lost shows that the limit of 64 manifolds does lose points.
C71 | partial | RP3D.ContactProps.deepest_point_dropped RP3D.ContactProps.point_kept_partial | The code violates the property for manifolds of more than four points (negation proved). Proved for at most four points.
C72 | partial | RP3D.MeshProps.inconsistent_mesh_undefined RP3D.MeshProps.small_face_undefined RP3D.MeshProps.open_mesh_undefined RP3D.MeshProps.malformed_reported_partial | The code violates the property (negations proved). Proved for closed meshes whose faces have three vertices: exactly those with Euler's formula and no zero area are accepted.
C73 | partial | RP3D.PoolReuse.create_destroy_no_growth_partial RP3D.PoolReuse.create_destroy_large_partial RP3D.PoolReuse.height_field_leak RP3D.PoolReuse.height_field_unbounded | holds for every kind of object released with the size it was allocated with; fails for height fields, which are allocated with sizeof(TriangleMesh) and released with sizeof(HeightField): memory grows without bound (height_field_leak).
C74 | proved | RP3D.RayProps.sphere_raycast | Ordered field with an exact square root; a hit exactly at the end of the range is not reported.
C75 | proved | RP3D.RayProps.box_raycast | Ordered field; components of the direction zero or at least MACHINE_EPSILON.
C76 | partial | RP3D.RayProps.capsule_raycast RP3D.RayProps.capsule_short_ray_misses RP3D.RayProps.capsule_long_range_misses | Proved for rays that are parallel to the axis or clearly not (constant 0.01) and ranges at most 1. Fails for short rays and small capsules and for ranges above 1 (negations proved).
C77 | partial | RP3D.RayProps.triangle_raycast_partial RP3D.RayProps.triangle_both_partial RP3D.RayProps.triangle_both_wrong RP3D.RayProps.triangle_both_nan | Front and back proved. For both sides, rays through the line of the second and third vertex give hits outside of the triangle or NaN (negations proved); the rest is proved.
C78 | partial | RP3D.RayProps.mesh_raycast_partial RP3D.RayProps.mesh_raycast_scaled_wrong | Proved for scale 1; for other scales the code uses unscaled vertices (negation proved).
C79 | partial | RP3D.HeightProps.height_raycast_closest_partial RP3D.HeightProps.height_normal_wrong | Proved for hits in the interior of a cell and triangles not seen at a grazing angle; for both sides at once only that nothing closer is missed. The normal is wrong if the scale differs between directions (negation proved).
C80 | partial | RP3D.PointProps.support_points RP3D.PointProps.mesh_support_partial RP3D.PointProps.mesh_support_scaled_wrong RP3D.PointProps.mesh_support_undefined | Proved for spheres, boxes, capsules, triangles and uniformly scaled convex meshes containing their origin; fails for other scales, and the assertion fails for other meshes (negations proved).
C81 | proved | RP3D.PointProps.point_in_shape RP3D.PointProps.point_in_body | Ordered field; unit quaternions.
C82 | partial | RP3D.TriProps.mesh_triangles RP3D.TriProps.initTree_spec RP3D.TriProps.zero_mesh_undefined | Proved whenever some vertex is not at the origin, over an ordered field. With all vertices at the origin an assertion fails instead of an error being reported (negation proved).
C83 | partial | RP3D.TriProps.mesh_normals_partial RP3D.TriProps.unused_first_vertex RP3D.TriProps.small_mesh_normals | Whenever the computation returns and the epsilon of the mesh is at least the machine epsilon, all normals have length one. An unused first vertex is not removed and breaks the assertion; tiny meshes get normals that are not unit vectors (negations proved).
C84 | partial | RP3D.ConcaveProps.concave_triangles RP3D.ConcaveProps.mirrored_triangle_lost | Proved for positive scales, all meshes made by TriangleMesh::init and all boxes, over an ordered field. With a negative scale the box is turned inside out and the whole mesh is lost (negation proved).
C85 | partial | RP3D.ConcaveProps.concave_raycast_partial RP3D.ConcaveProps.ground_missed | Proved for rays that do not lie in the plane of a side of the box of a triangle, for triangles not seen at a grazing angle, and positive scales. A ray straight down on a flat ground along a line between triangles misses it (negation proved).
C86 | partial | RP3D.SolverProps.contact_solved RP3D.SolverProps.overlap_corrected RP3D.SolverProps.collision_partial RP3D.SolverProps.friction_frame RP3D.SolverProps.locked_wrong | Every solved contact between bodies without locked axes; the collision law for a single new contact without friction. With locked axes the mass of the contact is wrong and the bodies still approach after all iterations (negation proved).
C87 | partial | RP3D.SolverProps.linear_accounting RP3D.SolverProps.angular_accounting_partial RP3D.SolverProps.angular_formula RP3D.SolverProps.twist_twice | Proved for linear velocities, and for angular velocities without stored twist impulse. The warm start applies the stored twist impulse twice (exact formula and negation proved).
C88 | partial | RP3D.SolverProps.friction_cone_partial RP3D.SolverProps.cone_exceeded | Bound with the factor square root of two; the two directions are limited one by one and exceed the limit together (negation proved).
C89 | partial | RP3D.RoundProps.sphere_sphere_overlap RP3D.RoundProps.sphere_capsule_overlap RP3D.RoundProps.capsule_overlap_partial RP3D.RoundProps.small_capsules_missed RP3D.RoundProps.small_capsules_missed_negates | Proved for spheres, for sphere and capsule, and for capsules whose inner segments are exactly parallel or clearly not. Two thin 5 cm capsules crossing at a right angle count as parallel and their collision is missed (negation proved).
C90 | partial | RP3D.RoundProps.sphere_sphere_contact RP3D.RoundProps.sphere_capsule_contact RP3D.RoundProps.centered_sphere_contact RP3D.RoundProps.capsule_contacts_partial RP3D.RoundProps.capsule_contact_crossing RP3D.RoundProps.same_center_wrong RP3D.RoundProps.centered_sphere_wrong RP3D.RoundProps.flipped_same_place_wrong | Proved when the centers and inner segments are apart, when inner segments cross at a clear angle, and for a sphere (shape 1) centered in a capsule. Spheres with the same center, a sphere centered in a capsule that is shape 1, and coincident opposite capsules get wrong contacts (negations proved).
C91 | partial | RP3D.RoundProps.two_contacts_partial RP3D.RoundProps.flipped_capsules_one_contact | Proved for capsules pointing the same way whose heights have a product above 0.0001. With one capsule upside down there is a single contact (negation proved).
C92 | partial | RP3D.JointProps.momentum_step RP3D.JointProps.momentum_step_kept RP3D.JointProps.angular_step RP3D.JointProps.angular_kept_partial RP3D.JointProps.slider_motor_turns RP3D.JointProps.slider_motor_turns_negates | Linear momentum: proved for all joints and contacts. Angular momentum: proved for joints whose anchors meet and sliders without motor, with the exact defect in general; the motor of a slider creates angular momentum (negation proved).
C93 | partial | RP3D.JointProps.ball_velocity RP3D.JointProps.fixed_velocity RP3D.JointProps.hinge_velocity RP3D.JointProps.slider_velocity RP3D.JointProps.turnError_zero RP3D.JointProps.ball_solved RP3D.JointProps.fixed_solved RP3D.JointProps.hinge_solved RP3D.JointProps.slider_solved RP3D.JointProps.heavy_ignored RP3D.JointProps.heavy_fly_apart RP3D.JointProps.weld_explodes | Proved when the determinants of the mass matrices are above MACHINE_EPSILON and no axis is locked. Joints between heavy bodies do nothing, and a fixed joint with singular inertia multiplies the angular velocity by -399 per iteration (negations proved).
C94 | partial | RP3D.JointProps.limits_push RP3D.JointProps.motors_bounded RP3D.JointProps.slider_solved RP3D.JointProps.hinge_motor_doubles RP3D.JointProps.hinge_motor_diverges RP3D.JointProps.slider_limit_stale | Signs and bounds proved for all histories. The motor of the hinge drives away from its speed, and the limit of a slider uses the lever of the step before (negations proved).
C95 | partial | RP3D.JointProps.reaction_force RP3D.JointProps.reaction_torque RP3D.JointProps.cone_torque_untold RP3D.JointProps.slider_motor_untold | Force: proved for all joints. Torque: proved up to an explicit remainder, which is zero for fixed joints and hinges; the cone limit of ball-and-socket joints and the moment of the slider motor are not reported (negations proved).
C96 | partial | RP3D.HingeProps.hinge_angle_partial RP3D.HingeProps.hinge_angle_aligned RP3D.HingeProps.hinge_angle_wall RP3D.HingeProps.near_limits_nearest RP3D.HingeProps.hinge_limits_partial RP3D.HingeProps.common_turn_counted RP3D.HingeProps.hinge_angle_negates RP3D.HingeProps.angle_out_of_range RP3D.HingeProps.wide_limits_stop RP3D.HingeProps.sign_lost_before_first_step RP3D.HingeProps.slider_translation RP3D.HingeProps.slider_limits | Slider: proved. Hinge: proved when the motion of body 1 commutes with the difference of the first orientations (equal first orientations, or body 1 at rest) and limits are less than a turn apart. Otherwise a common turn of both bodies changes the angle, wide limits act inside, the range is left, and the sign is lost before the first step (negations proved).
C97 | partial | RP3D.JointProps.iterations_lose_partial RP3D.JointProps.first_step_loses_partial RP3D.JointProps.weld_explodes RP3D.JointProps.slider_limit_stale | Proved for all iterations after the warm start, and for the whole first step, with regular mass matrices. Singular inertia and the stale lever of slider limits create energy (negations proved).
C98 | partial | RP3D.GjkProps.gjk_ends RP3D.GjkProps.cores RP3D.GjkProps.axis_breaks_assertion | Exact arithmetic. Proved for every kept axis longer than 1 mm; the test itself can keep a shorter axis (tiny shapes), and then the assertion of the next frame fails (negation proved).
C99 | partial | RP3D.GjkProps.separated_partial RP3D.GjkProps.interpenetrate_sound RP3D.GjkProps.overlap_missed | Exact arithmetic. Interpenetration: proved. Separation: proved within a tolerance (1 cm for shapes of some meters) unless the loop stops at a simplex that it takes for degenerate; then small overlapping shapes are reported as separated (negation proved: 3.2 cm overlap of shapes of 8 cm).
