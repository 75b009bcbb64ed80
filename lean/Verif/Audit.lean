import Verif.Props.AABB
import Verif.Props.Algorithms
import Verif.Props.Angles
import Verif.Props.Apart
import Verif.Props.ApartExamples
import Verif.Props.Array
import Verif.Props.Balance
import Verif.Props.BalanceExamples
import Verif.Props.BalanceRun
import Verif.Props.Bodies
import Verif.Props.BodiesExamples
import Verif.Props.BodyJoints
import Verif.Props.BodyRay
import Verif.Props.Bounce
import Verif.Props.Bounds
import Verif.Props.Clipping
import Verif.Props.ColumnData
import Verif.Props.Columns
import Verif.Props.Common
import Verif.Props.Components
import Verif.Props.ConcaveMesh
import Verif.Props.ConeLimit
import Verif.Props.ContactEnergy
import Verif.Props.ContactEnergyBounce
import Verif.Props.ContactEnergyExamples
import Verif.Props.ContactEnergyStep
import Verif.Props.ContactExamples
import Verif.Props.ContactSolver
import Verif.Props.ContactTurn
import Verif.Props.ContactTurnExamples
import Verif.Props.Contacts
import Verif.Props.DebugDraw
import Verif.Props.DebugExamples
import Verif.Props.DebugGrid
import Verif.Props.DebugScene
import Verif.Props.DebugSphere
import Verif.Props.Deque
import Verif.Props.Dispatch
import Verif.Props.Dynamics
import Verif.Props.Entity
import Verif.Props.Enumerate
import Verif.Props.Exchange
import Verif.Props.ExchangeExamples
import Verif.Props.Fall
import Verif.Props.Frame
import Verif.Props.Friction
import Verif.Props.Galileo
import Verif.Props.GalileoExamples
import Verif.Props.Gjk
import Verif.Props.GjkExamples
import Verif.Props.HalfEdge
import Verif.Props.Hash
import Verif.Props.Heap
import Verif.Props.HeightClosest
import Verif.Props.HeightField
import Verif.Props.HeightRay
import Verif.Props.Helpers
import Verif.Props.HingeAngle
import Verif.Props.HingeLimit
import Verif.Props.Hull
import Verif.Props.HullPoints
import Verif.Props.HullStart
import Verif.Props.Integers
import Verif.Props.Islands
import Verif.Props.Isotropy
import Verif.Props.IsotropyExamples
import Verif.Props.JointConverge
import Verif.Props.JointEnergy
import Verif.Props.JointExamples
import Verif.Props.JointHold
import Verif.Props.JointImpulses
import Verif.Props.JointLimits
import Verif.Props.JointMake
import Verif.Props.JointMakeExamples
import Verif.Props.JointPosition
import Verif.Props.JointSettings
import Verif.Props.JointStep
import Verif.Props.JointStepExact
import Verif.Props.JointStepExamples
import Verif.Props.JointVelocity
import Verif.Props.JointWarm
import Verif.Props.Kinematic
import Verif.Props.KinematicExamples
import Verif.Props.Listen
import Verif.Props.Logger
import Verif.Props.Mass
import Verif.Props.MassUnit
import Verif.Props.MassUnitExamples
import Verif.Props.Material
import Verif.Props.MaterialContact
import Verif.Props.MeshMass
import Verif.Props.Middle
import Verif.Props.Newton
import Verif.Props.NewtonExamples
import Verif.Props.OpenGL
import Verif.Props.Pairs
import Verif.Props.Points
import Verif.Props.Pool
import Verif.Props.PoolReuse
import Verif.Props.PositionExamples
import Verif.Props.Profiler
import Verif.Props.Query
import Verif.Props.QueryGroups
import Verif.Props.RayBox
import Verif.Props.RayCapsule
import Verif.Props.RayExamples
import Verif.Props.RayMesh
import Verif.Props.RaySphere
import Verif.Props.RayTriangle
import Verif.Props.Raycast
import Verif.Props.Reactivate
import Verif.Props.Round
import Verif.Props.RoundCapsules
import Verif.Props.RoundExamples
import Verif.Props.RoundPairs
import Verif.Props.RoundPoly
import Verif.Props.RoundPolyCapsule
import Verif.Props.RoundPolyData
import Verif.Props.RoundPolyExamples
import Verif.Props.RoundPolySphere
import Verif.Props.RoundTests
import Verif.Props.Sat
import Verif.Props.SatBox
import Verif.Props.SatCapsule
import Verif.Props.SatCapsuleContact
import Verif.Props.SatCapsuleTest
import Verif.Props.SatContact
import Verif.Props.SatEdges
import Verif.Props.SatExamples
import Verif.Props.SatMissed
import Verif.Props.SatReal
import Verif.Props.SatSphere
import Verif.Props.SatTest
import Verif.Props.Scaled
import Verif.Props.SceneRay
import Verif.Props.Segments
import Verif.Props.Session
import Verif.Props.Settings
import Verif.Props.SimFlag
import Verif.Props.Sleeping
import Verif.Props.SliderStops
import Verif.Props.Smooth
import Verif.Props.SmoothExamples
import Verif.Props.Spin
import Verif.Props.SpinExamples
import Verif.Props.Stack
import Verif.Props.Transform
import Verif.Props.Tree
import Verif.Props.TriMesh
import Verif.Props.Vector
import Verif.Props.VertexArrays
import Verif.Props.Waking
import Verif.Props.WarmStart
import Verif.Props.World
import Verif.Props.WorldDisagree

/-! Axioms of every theorem listed in MANIFEST.json (generated by tools/manifest.py). -/

#print axioms RP3D.array_refines_sequence
#print axioms RP3D.array_copy_equal
#print axioms RP3D.array_find_first
#print axioms RP3D.array_reserve_grants_too_little
#print axioms RP3D.array_addRange_overflows
#print axioms RP3D.array_reserve_grants_partial
#print axioms RP3D.map_refines_finite_map
#print axioms RP3D.map_remove_while_iterating
#print axioms RP3D.map_equality_correct
#print axioms RP3D.map_add_after_release_unsafe
#print axioms RP3D.map_reusable_after_clear_partial
#print axioms RP3D.set_refines_finite_set
#print axioms RP3D.set_equality_correct
#print axioms RP3D.deque_refines_sequence
#print axioms RP3D.deque_copy_broken
#print axioms RP3D.deque_assign_overflows
#print axioms RP3D.deque_copy_partial
#print axioms RP3D.deque_assign_partial
#print axioms RP3D.stack_refines_lifo
#print axioms RP3D.pool_live_disjoint
#print axioms RP3D.pool_valid_defined
#print axioms RP3D.pool_destroy_returns_all
#print axioms RP3D.heap_live_disjoint
#print axioms RP3D.heap_valid_defined
#print axioms RP3D.GjkProps.contact_sound
#print axioms RP3D.GjkProps.contact_partial
#print axioms RP3D.JointProps.idle_limits
#print axioms RP3D.JointProps.off_limits
#print axioms RP3D.JointProps.impulses_carried
#print axioms RP3D.JointProps.rest_stays
#print axioms RP3D.JointProps.hanging_body
#print axioms RP3D.SatProps.search_apart
#print axioms RP3D.SatProps.search_overlap
#print axioms RP3D.SatProps.overlap_depth
#print axioms RP3D.SatProps.tested_exact
#print axioms RP3D.SatProps.box_solid
#print axioms RP3D.SatProps.box_hull
#print axioms RP3D.SatProps.face_contacts
#print axioms RP3D.SatProps.edge_contact
#print axioms RP3D.SatProps.test_contacts
#print axioms RP3D.SatProps.sphere_apart
#print axioms RP3D.SatProps.sphere_contact
#print axioms RP3D.SatProps.test_verdict_partial
#print axioms RP3D.SatProps.collides_partial
#print axioms RP3D.SatProps.overlap_missed
#print axioms RP3D.SatProps.apart_collides
#print axioms RP3D.SatProps.capsule_beyond
#print axioms RP3D.SatProps.capsule_apart
#print axioms RP3D.SatProps.capsule_overlap
#print axioms RP3D.SatProps.capsule_depth
#print axioms RP3D.SatProps.capsule_contacts
#print axioms RP3D.SatProps.capsule_face_contacts
#print axioms RP3D.SatProps.capsule_edge_contact
#print axioms RP3D.SatProps.shallow_contacts
#print axioms RP3D.SatProps.capsule_verdict_partial
#print axioms RP3D.SatProps.capsule_found_partial
#print axioms RP3D.SatProps.capsule_missed
#print axioms RP3D.SatProps.capsule_undefined
#print axioms RP3D.Joints.correct_others
#print axioms RP3D.Joints.correct_unit
#print axioms RP3D.Joints.correct_unit'
#print axioms RP3D.Joints.correct_locked
#print axioms RP3D.Joints.correct_locked_turn
#print axioms RP3D.Joints.correct_static
#print axioms RP3D.Joints.correct_one_axis
#print axioms RP3D.Joints.correct_center
#print axioms RP3D.Joints.correct_hold_partial
#print axioms RP3D.Joints.moving_hold_lost
#print axioms RP3D.heap_coalesces
#print axioms RP3D.heap_destroy_returns_all
#print axioms RP3D.Joints.ball_pass_partial
#print axioms RP3D.Joints.ball_converges_partial
#print axioms RP3D.Joints.ball_converges_later_partial
#print axioms RP3D.Joints.ball_closes_partial
#print axioms RP3D.Joints.heavy_gap_stays
#print axioms RP3D.Joints.correct_technique_partial
#print axioms RP3D.Joints.correct_technique_sliders_partial
#print axioms RP3D.Joints.slider_loop_ends
#print axioms RP3D.Joints.slider_technique_lost
#print axioms RP3D.Joints.limit_turn_partial
#print axioms RP3D.Joints.limit_idle
#print axioms RP3D.Joints.init_keeps_mass
#print axioms RP3D.Joints.limit_not_corrected
#print axioms RP3D.Angles.slerp_arc
#print axioms RP3D.Angles.interpolate_ends
#print axioms RP3D.Angles.interpolate_between
#print axioms RP3D.Angles.slerp_short
#print axioms RP3D.Angles.euler_angles
#print axioms RP3D.Angles.angle_range
#print axioms RP3D.Angles.angle_axis_partial
#print axioms RP3D.Angles.identity_axis
#print axioms RP3D.Warm.frame_ok
#print axioms RP3D.Warm.run_ok
#print axioms RP3D.Warm.user_points
#print axioms RP3D.Warm.impulse_twice
#print axioms RP3D.Warm.impulse_of_other_colliders
#print axioms RP3D.pair_number_reused
#print axioms RP3D.Query.step_pairs
#print axioms RP3D.Query.step_groups
#print axioms RP3D.Query.query_partial
#print axioms RP3D.Query.query_trigger
#print axioms RP3D.MiddleProps.mesh_pair_partial
#print axioms RP3D.MiddleProps.field_pair_partial
#print axioms RP3D.MiddleProps.small_triangle_undefined
#print axioms RP3D.MiddleProps.triangle_memory
#print axioms RP3D.MiddleProps.query_forgets
#print axioms RP3D.SatProps.query_foretells_partial
#print axioms RP3D.SatProps.session_fair
#print axioms RP3D.SatProps.overlap_leaves
#print axioms RP3D.SatProps.query_changes_contacts
#print axioms RP3D.SatProps.query_changes_verdict
#print axioms RP3D.frame_live_disjoint
#print axioms RP3D.frame_valid_defined
#print axioms RP3D.frame_base_exact
#print axioms RP3D.frame_destroy_returns_all
#print axioms RP3D.heap_live_gap
#print axioms RP3D.frame_release_leaks
#print axioms RP3D.HullPoints.merge_inputs
#print axioms RP3D.HullPoints.merge_linked
#print axioms RP3D.HullPoints.merge_apart
#print axioms RP3D.HullPoints.merge_clusters_partial
#print axioms RP3D.HullPoints.merge_drift
#print axioms RP3D.HullPoints.merge_twins
#print axioms RP3D.HullStart.start_tetra
#print axioms RP3D.HullStart.start_lists
#print axioms RP3D.HullStart.refused_flat
#print axioms RP3D.HullStart.small_refused
#print axioms RP3D.HullStart.start_unbroken_partial
#print axioms RP3D.HullStart.four_points_partial
#print axioms RP3D.HullProps.rounds_enough
#print axioms RP3D.HullProps.round_keeps
#print axioms RP3D.HullProps.merging_ends
#print axioms RP3D.HullProps.loop_end
#print axioms RP3D.HullProps.mesh_points
#print axioms RP3D.HullProps.six_points_break
#print axioms RP3D.HullProps.thin_breaks
#print axioms RP3D.HullProps.empty_breaks
#print axioms RP3D.HullProps.roundSqrt_near
#print axioms RP3D.MassProps.sphere_mass
#print axioms RP3D.MassProps.capsule_mass
#print axioms RP3D.MassProps.box_mass
#print axioms RP3D.MassProps.round_volume_error
#print axioms RP3D.MassProps.mesh_volume
#print axioms RP3D.MassProps.mesh_shape_volume
#print axioms RP3D.MassProps.mesh_shape_volume_partial
#print axioms RP3D.MassProps.mesh_mirrored_volume
#print axioms RP3D.MassProps.mesh_inertia_box
#print axioms RP3D.MassProps.mesh_mirrored_inertia
#print axioms RP3D.MassProps.mesh_centre_wrong
#print axioms RP3D.MassProps.mesh_inertia_wrong
#print axioms RP3D.MassProps.concave_volume
#print axioms RP3D.MassProps.concave_inertia_wrong
#print axioms RP3D.Scene.world_raycast_reports
#print axioms RP3D.Scene.world_raycast_closest
#print axioms RP3D.Scene.scene_defined
#print axioms RP3D.Scene.scene_placed
#print axioms RP3D.Scene.scene_settled
#print axioms RP3D.Scene.update_settles
#print axioms RP3D.Scene.forms_ok
#print axioms RP3D.Scene.raycast_unseen
#print axioms RP3D.Scene.SceneExample.resized_static_never_seen
#print axioms RP3D.VertexArrays.vertexArray_exact
#print axioms RP3D.VertexArrays.triangleArray_vertex
#print axioms RP3D.VertexArrays.triangleArray_normal
#print axioms RP3D.VertexArrays.triangleArray_triangle
#print axioms RP3D.VertexArrays.polygonArray_vertices
#print axioms RP3D.VertexArrays.polygonArray_face
#print axioms RP3D.VertexArrays.triangleArray_user
#print axioms RP3D.VertexArrays.vertexArray_wraps
#print axioms RP3D.VertexArrays.big_in_memory
#print axioms RP3D.VertexArrays.big_array_wrong
#print axioms RP3D.Common.never_undefined_partial
#print axioms RP3D.Common.destroyed_once
#print axioms RP3D.Common.references_alive
#print axioms RP3D.Common.delete_destroys_all
#print axioms RP3D.Common.delete_order
#print axioms RP3D.Common.invalid_leaves_nothing
#print axioms RP3D.Common.logger_dangles
#print axioms RP3D.Common.logger_destroyed
#print axioms RP3D.Common.shape_in_use
#print axioms RP3D.JointSettings.settings_are_last_set
#print axioms RP3D.JointSettings.change_takes_effect
#print axioms RP3D.JointSettings.call_keeps_rest
#print axioms RP3D.JointSettings.no_change_nothing
#print axioms RP3D.JointSettings.ranges_partial
#print axioms RP3D.JointSettings.create_iff
#print axioms RP3D.JointSettings.create_ok
#print axioms RP3D.JointSettings.slider_limits_ordered
#print axioms RP3D.JointSettings.slider_interval_reachable
#print axioms RP3D.JointSettings.bad_limit_accepted
#print axioms RP3D.JointSettings.bad_limit_stays
#print axioms RP3D.JointSettings.bad_motor_stays
#print axioms RP3D.JointSettings.bad_limit_forever
#print axioms RP3D.JointSettings.crossed_limits_stuck
#print axioms RP3D.JointSettings.motor_of_description
#print axioms RP3D.JointSettings.cone_calls
#print axioms RP3D.SmoothProps.smooth_first
#print axioms RP3D.SmoothProps.smooth_second
#print axioms RP3D.SmoothProps.smooth_none
#print axioms RP3D.SmoothProps.edge_agrees
#print axioms RP3D.SmoothProps.flat_surface
#print axioms RP3D.SmoothProps.vertexNormal_spec
#print axioms RP3D.SmoothProps.scaled_flat
#print axioms RP3D.SmoothProps.gjk_triangle
#print axioms RP3D.SmoothProps.localNormal_spec
#print axioms RP3D.Joints.ball_step_partial
#print axioms RP3D.Joints.fixed_step_partial
#print axioms RP3D.Joints.hinge_step_partial
#print axioms RP3D.Joints.slider_step_partial
#print axioms RP3D.Joints.fixed_converges_partial
#print axioms RP3D.Joints.cone_exact
#print axioms RP3D.Joints.cone_overshoots
#print axioms RP3D.Joints.fixed_flipped
#print axioms RP3D.entity_handles_distinct
#print axioms RP3D.entity_create_fresh
#print axioms RP3D.entity_destroyed_handle_invalid
#print axioms RP3D.entity_handle_reuse_distance
#print axioms RP3D.Joints.ball_rests_iff
#print axioms RP3D.Joints.fixed_rests_iff
#print axioms RP3D.Joints.hinge_rests_iff_partial
#print axioms RP3D.Joints.slider_rests_iff
#print axioms RP3D.Joints.slider_limits_rest_iff
#print axioms RP3D.Joints.hinge_right_angle
#print axioms RP3D.Joints.hinge_back_rests
#print axioms RP3D.Joints.hinge_across_rests
#print axioms RP3D.Joints.new_joints_rest
#print axioms RP3D.Debug.setDisplayed_spec
#print axioms RP3D.Debug.colour_injective
#print axioms RP3D.Debug.aabb_drawn
#print axioms RP3D.Debug.box_drawn
#print axioms RP3D.Debug.box_normals
#print axioms RP3D.Debug.sphere_drawn
#print axioms RP3D.Debug.capsule_drawn
#print axioms RP3D.Debug.faces_in_array
#print axioms RP3D.Debug.convex_drawn_partial
#print axioms RP3D.Debug.face_gap
#print axioms RP3D.Debug.cube_hole
#print axioms RP3D.Debug.mesh_drawn
#print axioms RP3D.Debug.mesh_normals
#print axioms RP3D.Debug.height_drawn
#print axioms RP3D.Debug.height_normal
#print axioms RP3D.Debug.contacts_drawn
#print axioms RP3D.Debug.world_drawn
#print axioms RP3D.Debug.collider_drawn
#print axioms RP3D.Debug.items_respected_partial
#print axioms RP3D.Debug.sphere_unasked
#print axioms RP3D.Debug.update_spec
#print axioms RP3D.Debug.arrays_defined_iff
#print axioms RP3D.Debug.arrays_undefined
#print axioms RP3D.RoundPolyProps.sphere_frame
#print axioms RP3D.RoundPolyProps.sphere_frames
#print axioms RP3D.RoundPolyProps.capsule_frame
#print axioms RP3D.RoundPolyProps.capsule_frames
#print axioms RP3D.RoundPolyProps.sphere_far_partial
#print axioms RP3D.RoundPolyProps.sphere_unused
#print axioms RP3D.RoundPolyProps.capsule_unused
#print axioms RP3D.RoundPolyProps.sphere_keeps
#print axioms RP3D.RoundPolyProps.capsule_keeps
#print axioms RP3D.RoundPolyProps.sphere_queries
#print axioms RP3D.RoundPolyProps.capsule_queries
#print axioms RP3D.RoundPolyProps.sphere_missed
#print axioms RP3D.RoundPolyProps.small_breaks
#print axioms RP3D.ContactEnergy.frictionless_step_loses
#print axioms RP3D.ContactEnergy.contacts_lose_partial
#print axioms RP3D.ContactEnergy.frictionless_iterations_lose_partial
#print axioms RP3D.ContactEnergy.first_iteration_loses_partial
#print axioms RP3D.ContactEnergy.bounce_loses_partial
#print axioms RP3D.ContactEnergy.friction_gains
#print axioms RP3D.ContactEnergy.bounce_gains
#print axioms RP3D.ContactEnergy.warm_gains
#print axioms RP3D.Newton.newton_step
#print axioms RP3D.Newton.newton_history
#print axioms RP3D.Newton.newton_isolated
#print axioms RP3D.Newton.newton_fall
#print axioms RP3D.Newton.momentum_update
#print axioms RP3D.Newton.step_splits
#print axioms RP3D.Newton.sleep_stops
#print axioms RP3D.Apart.apart_step_partial
#print axioms RP3D.Apart.apart_report_partial
#print axioms RP3D.Apart.apart_partial
#print axioms RP3D.Apart.apart_same_partial
#print axioms RP3D.Apart.apart_fails
#print axioms RP3D.Kinematic.kinematic_step
#print axioms RP3D.Kinematic.kinematic_awake
#print axioms RP3D.Kinematic.kinematic
#print axioms RP3D.Kinematic.Moves.position
#print axioms RP3D.Kinematic.turns_zero
#print axioms RP3D.Kinematic.turn_unit
#print axioms RP3D.Kinematic.launch
#print axioms RP3D.Kinematic.slow_platform_stops
#print axioms RP3D.Galileo.galileo_step
#print axioms RP3D.Galileo.galileo_report
#print axioms RP3D.Galileo.galileo
#print axioms RP3D.Galileo.same_everywhere
#print axioms RP3D.Galileo.SimW.seen
#print axioms RP3D.Galileo.damping_tells
#print axioms RP3D.Galileo.sleep_tells
#print axioms RP3D.Balance.rest_step
#print axioms RP3D.Balance.rest_forever
#print axioms RP3D.Balance.solveStep_rest
#print axioms RP3D.Balance.solved_rest
#print axioms RP3D.Balance.corrected_rest
#print axioms RP3D.Balance.balanced_next
#print axioms RP3D.Balance.room_balanced
#print axioms RP3D.ColumnData.transform_fields
#print axioms RP3D.ColumnData.joint_fields
#print axioms RP3D.ColumnData.body_fields
#print axioms RP3D.ColumnData.collider_fields
#print axioms RP3D.ColumnData.rigidBody_fields
#print axioms RP3D.ColumnData.ballAndSocketJoint_fields
#print axioms RP3D.ColumnData.fixedJoint_fields
#print axioms RP3D.ColumnData.hingeJoint_fields_partial
#print axioms RP3D.ColumnData.sliderJoint_fields_partial
#print axioms RP3D.ColumnData.hinge_field_overwritten
#print axioms RP3D.ColumnData.slider_field_overwritten
#print axioms RP3D.ColumnData.slider_field_lost
#print axioms RP3D.ColumnData.follows
#print axioms RP3D.components_refine_map
#print axioms RP3D.destroyed_body_wakes
#print axioms RP3D.removed_collider_wakes_partial
#print axioms RP3D.removal_refines
#print axioms RP3D.destroyed_joint_wakes
#print axioms RP3D.moved_body_wakes
#print axioms RP3D.removed_collider_leaves_asleep
#print axioms RP3D.deactivated_body_leaves_asleep
#print axioms RP3D.PHist.placed
#print axioms RP3D.Spin.keeps_turning
#print axioms RP3D.Spin.spin_kept
#print axioms RP3D.Spin.momentum_kept_partial
#print axioms RP3D.Spin.momentum_kept_iff
#print axioms RP3D.Spin.torque_law
#print axioms RP3D.Spin.turn_step
#print axioms RP3D.Spin.spun
#print axioms RP3D.Spin.momentum_lost
#print axioms RP3D.ContactTurn.angular_change
#print axioms RP3D.ContactTurn.contacts_keep_partial
#print axioms RP3D.ContactTurn.friction_defect
#print axioms RP3D.ContactTurn.touching_defect
#print axioms RP3D.ContactTurn.push_aligned
#print axioms RP3D.ContactTurn.turn_twists
#print axioms RP3D.ContactTurn.friction_turns
#print axioms RP3D.Isotropy.isotropy_partial
#print axioms RP3D.Isotropy.isotropy_step_partial
#print axioms RP3D.Isotropy.isotropy_report_partial
#print axioms RP3D.Isotropy.SimW.seen
#print axioms RP3D.Turned.solveStep_turn
#print axioms RP3D.Isotropy.friction_tells
#print axioms RP3D.Isotropy.lock_tells
#print axioms RP3D.MassUnit.mass_unit_partial
#print axioms RP3D.MassUnit.mass_unit_step_partial
#print axioms RP3D.MassUnit.mass_unit_report_partial
#print axioms RP3D.MassUnit.SimW.seen
#print axioms RP3D.Heavier.solveStep_scale
#print axioms RP3D.MassUnit.joint_tells
#print axioms RP3D.Listen.events_heard
#print axioms RP3D.Listen.contacts_heard
#print axioms RP3D.Listen.triggers_heard
#print axioms RP3D.Listen.pair_heard
#print axioms RP3D.Listen.overlaps_heard
#print axioms RP3D.Exchange.exchange
#print axioms RP3D.Exchange.exchange_step
#print axioms RP3D.Exchange.exchange_report
#print axioms RP3D.Exchange.exchange_stored
#print axioms RP3D.ConeLimit.cone_angle
#print axioms RP3D.ConeLimit.between_unique
#print axioms RP3D.ConeLimit.cone_angle_turned
#print axioms RP3D.ConeLimit.cone_violated
#print axioms RP3D.ConeLimit.cone_idle
#print axioms RP3D.ConeLimit.cone_stops_partial
#print axioms RP3D.ConeLimit.no_axis
#print axioms RP3D.ConeLimit.folded
#print axioms RP3D.MaterialProps.read_back
#print axioms RP3D.MaterialProps.mixed_friction
#print axioms RP3D.MaterialProps.mixed_bounce
#print axioms RP3D.MaterialProps.materials_rub
#print axioms RP3D.MaterialProps.materials_bounce_partial
#print axioms RP3D.MaterialProps.slides
#print axioms RP3D.MaterialProps.spins_partial
#print axioms RP3D.MaterialProps.friction_after_all
#print axioms RP3D.Fall.flies
#print axioms RP3D.Fall.falls
#print axioms RP3D.Fall.falls_damped
#print axioms RP3D.Fall.no_overshoot
#print axioms RP3D.Fall.terminal
#print axioms RP3D.Fall.sleeper_stays
#print axioms RP3D.Fall.hovers
#print axioms RP3D.columns_disjoint_in_buffer
#print axioms RP3D.columns_copied_on_growth_partial
#print axioms RP3D.copied_whole
#print axioms RP3D.slider_levers_lost
#print axioms RP3D.slider_levers_lost_negates
#print axioms RP3D.OpenGL.rest_kept
#print axioms RP3D.OpenGL.all_written
#print axioms RP3D.OpenGL.moves_points
#print axioms RP3D.OpenGL.turns_directions
#print axioms RP3D.OpenGL.composes
#print axioms RP3D.OpenGL.is_rigid
#print axioms RP3D.OpenGL.read_back
#print axioms RP3D.OpenGL.read_back_acts
#print axioms RP3D.OpenGL.write_back
#print axioms RP3D.OpenGL.last_row_ignored
#print axioms RP3D.OpenGL.scale_breaks
#print axioms RP3D.Enumerate.body_index
#print axioms RP3D.Enumerate.bodies_once
#print axioms RP3D.Enumerate.listed_alive
#print axioms RP3D.Enumerate.in_order
#print axioms RP3D.Enumerate.past_of_reach
#print axioms RP3D.Enumerate.colliders_once
#print axioms RP3D.Log.open_output
#print axioms RP3D.Log.closed_output
#print axioms RP3D.Log.nothing_else
#print axioms RP3D.Log.selected_written
#print axioms RP3D.Log.written_iff
#print axioms RP3D.Log.exactly_selected_partial
#print axioms RP3D.Log.unselected_written
#print axioms RP3D.Log.all_flags_silent
#print axioms RP3D.Profile.profiled
#print axioms RP3D.Profile.profiled_since_reset
#print axioms RP3D.Profile.children_within
#print axioms RP3D.Profile.children_within_since_reset
#print axioms RP3D.Profile.reset_inside
#print axioms RP3D.Algorithms.get_last
#print axioms RP3D.Algorithms.released_once
#print axioms RP3D.Algorithms.only_defaults_released
#print axioms RP3D.Algorithms.release_size
#print axioms RP3D.Algorithms.in_use_alive
#print axioms RP3D.Algorithms.set_get_dangles
#print axioms RP3D.Algorithms.uses_partial
#print axioms RP3D.Algorithms.std_test_always
#print axioms RP3D.Algorithms.custom_ignored
#print axioms RP3D.Settings.as_set_partial
#print axioms RP3D.Settings.many_iterations_none
#print axioms RP3D.Settings.names
#print axioms RP3D.Settings.log_name_empty
#print axioms RP3D.Vector.min_axis
#print axioms RP3D.Vector.max_axis
#print axioms RP3D.Vector.less_order
#print axioms RP3D.Vector.div_partial
#print axioms RP3D.Vector.div_vector_partial
#print axioms RP3D.Vector.div_negative
#print axioms RP3D.Vector.get_unit
#print axioms RP3D.Vector.is_zero_partial
#print axioms RP3D.Vector.is_zero_wrong
#print axioms RP3D.Vector.orth_partial
#print axioms RP3D.Vector.orth_fails
#print axioms RP3D.Vector.inverse3_spec
#print axioms RP3D.Vector.inverse3_only
#print axioms RP3D.Vector.inverse2_partial
#print axioms RP3D.Vector.inverse2_fails
#print axioms RP3D.Friction.frame_defined
#print axioms RP3D.Friction.frame_same
#print axioms RP3D.Friction.frame_unit
#print axioms RP3D.Friction.opposite_fails
#print axioms RP3D.Scaled.hulled
#print axioms RP3D.Scaled.scaled_solid
#print axioms RP3D.Scaled.uniform_solid
#print axioms RP3D.Scaled.scaled_apart
#print axioms RP3D.Scaled.scaled_overlap
#print axioms RP3D.Scaled.scaled_contacts
#print axioms RP3D.Scaled.mirrored_inside_out
#print axioms RP3D.Scaled.normal_checked_partial
#print axioms RP3D.Scaled.large_scale_fails
#print axioms RP3D.PointProps.mesh_support_scaled_wrong
#print axioms RP3D.Helpers.clamp_nearest
#print axioms RP3D.Helpers.clamp_wrong_order
#print axioms RP3D.Helpers.same_sign
#print axioms RP3D.Helpers.line_distance_partial
#print axioms RP3D.Helpers.short_line_wrong
#print axioms RP3D.Helpers.clamp_length_partial
#print axioms RP3D.Helpers.negative_length
#print axioms RP3D.Helpers.projected
#print axioms RP3D.Helpers.crossing
#print axioms RP3D.Helpers.crossing_found_partial
#print axioms RP3D.Helpers.crossing_missed
#print axioms RP3D.Helpers.parallel_partial
#print axioms RP3D.Helpers.short_vectors_wrong
#print axioms RP3D.pairId_injective
#print axioms RP3D.pairId_symmetric
#print axioms RP3D.pairId_no_overflow
#print axioms RP3D.isPowerOfTwo_correct
#print axioms RP3D.nextPowerOfTwo64_correct
#print axioms RP3D.tree_well_formed
#print axioms RP3D.tree_ids_nodup
#print axioms RP3D.tree_leaves_nodup
#print axioms RP3D.tree_valid_defined
#print axioms RP3D.tree_overlap_exact
#print axioms RP3D.tree_overlap_pairs_exact
#print axioms RP3D.tree_overlap_complete
#print axioms RP3D.RayExample.testRay_misses
#print axioms RP3D.RayExample.tree_raycast_misses
#print axioms RP3D.tree_raycast_scan_partial
#print axioms RP3D.tree_raycast_exact_partial
#print axioms RP3D.tree_raycast_complete_partial
#print axioms RP3D.hits_fat
#print axioms RP3D.tree_box_enclosed
#print axioms RP3D.tree_update_false
#print axioms RP3D.tree_others_stable
#print axioms RP3D.tree_fat_contains
#print axioms RP3D.aabb_merge_least
#print axioms RP3D.aabb_merge_points
#print axioms RP3D.aabb_overlap_iff_common_point
#print axioms RP3D.aabb_overlap_symm
#print axioms RP3D.aabb_contains_iff_subset
#print axioms RP3D.aabb_contains_overlaps
#print axioms RP3D.aabb_inflateWithPoint_least
#print axioms RP3D.aabb_forTriangle_least
#print axioms RP3D.aabb_testTriangle_eq
#print axioms RP3D.overlaps_discovered
#print axioms RP3D.overlaps_complete_partial
#print axioms RP3D.added_collider_tested
#print axioms RP3D.moved_collider_tested
#print axioms RP3D.recheck_tested
#print axioms RP3D.destroyed_joint_no_recheck
#print axioms RP3D.pairs_lookup_exact
#print axioms RP3D.pairs_stored_once
#print axioms RP3D.pairs_collider_lists
#print axioms RP3D.filtering_not_respected
#print axioms RP3D.filtering_respected_partial
#print axioms RP3D.contacts_sound
#print axioms RP3D.pair_of_awake_body_skipped
#print axioms RP3D.pair_with_awake_body_tested_partial
#print axioms RP3D.disabled_static_or_sleeping
#print axioms RP3D.static_or_inactive_excluded
#print axioms RP3D.contacts_complete_partial
#print axioms RP3D.bits_of_sleeping_collider_undefined
#print axioms RP3D.moving_static_body_undefined
#print axioms RP3D.calls_defined_partial
#print axioms RP3D.pairs_stay_consistent
#print axioms RP3D.setNeed_disabled_undefined
#print axioms RP3D.second_joint_ignored
#print axioms RP3D.joined_bodies_no_pair_partial
#print axioms RP3D.joined_bodies_no_contact_partial
#print axioms RP3D.unjoined_bodies_may_collide
#print axioms RP3D.createIslands_defined
#print axioms RP3D.islands_partition
#print axioms RP3D.islands_wake
#print axioms RP3D.island_is_component
#print axioms RP3D.linked_same_island
#print axioms RP3D.manifolds_partition
#print axioms RP3D.contact_pairs_cleared
#print axioms RP3D.zero_time_sleeps
#print axioms RP3D.stale_timer_sleeps
#print axioms RP3D.sleep_needs_rest
#print axioms RP3D.rested_island_sleeps
#print axioms RP3D.sleep_needs_rest_partial
#print axioms RP3D.timer_meaning
#print axioms RP3D.static_at_rest
#print axioms RP3D.static_not_moved
#print axioms RP3D.static_stays
#print axioms RP3D.reactivated_body_asleep
#print axioms RP3D.inactive_body_simulated
#print axioms RP3D.woken_body_simulated_partial
#print axioms RP3D.inactive_body_no_pairs
#print axioms RP3D.inverse_mass
#print axioms RP3D.solver_tensor
#print axioms RP3D.not_accelerated
#print axioms RP3D.never_trigger_and_simulation
#print axioms RP3D.start_and_exit_in_one_frame
#print axioms RP3D.stay_without_start
#print axioms RP3D.events_form_rounds_partial
#print axioms RP3D.event_of_removed_collider
#print axioms RP3D.events_refer_to_existing_partial
#print axioms RP3D.overlap_of_sleeping_not_found
#print axioms RP3D.test_overlap_complete_partial
#print axioms RP3D.test_overlap_sound
#print axioms RP3D.test_overlap_pure
#print axioms RP3D.ContactProps.manifolds_reduced
#print axioms RP3D.ContactProps.deepest_kept
#print axioms RP3D.ContactProps.pair_reduced
#print axioms RP3D.ContactProps.four_points
#print axioms RP3D.ContactProps.four_distinct
#print axioms RP3D.ContactProps.extreme_points
#print axioms RP3D.ContactProps.fourth_outside
#print axioms RP3D.ContactProps.duplicates_removed
#print axioms RP3D.ContactProps.duplicates_removed_dist
#print axioms RP3D.GeomProps.closest_on_segment
#print axioms RP3D.GeomProps.closest_of_segments
#print axioms RP3D.GeomProps.closest_of_short_segments
#print axioms RP3D.GeomProps.barycentric_projection
#print axioms RP3D.GeomProps.barycentric_unique
#print axioms RP3D.GeomProps.polygon_clipped
#print axioms RP3D.GeomProps.polygon_front_kept
#print axioms RP3D.GeomProps.polygon_all_front
#print axioms RP3D.GeomProps.segment_clipped_to_point
#print axioms RP3D.GeomProps.segment_clip_undefined
#print axioms RP3D.GeomProps.segment_clip_no_planes
#print axioms RP3D.GeomProps.segment_clipped
#print axioms RP3D.GeomProps.segment_clipped_partial
#print axioms RP3D.rot_dot
#print axioms RP3D.rot_cross
#print axioms RP3D.rot_linear
#print axioms RP3D.rot_is_conjugation
#print axioms RP3D.unit_mul
#print axioms RP3D.unit_inverse
#print axioms RP3D.rot_mul
#print axioms RP3D.trans_mul_act
#print axioms RP3D.trans_mul_assoc
#print axioms RP3D.trans_inverse_act
#print axioms RP3D.trans_act_inverse
#print axioms RP3D.trans_inverse_mul
#print axioms RP3D.trans_one_act
#print axioms RP3D.matrix_act
#print axioms RP3D.matrix_is_rotation
#print axioms RP3D.quaternion_of_matrix
#print axioms RP3D.matrix_inverse
#print axioms RP3D.matrix_mul_act
#print axioms RP3D.skew_act
#print axioms RP3D.BodyRay.body_raycast_closest
#print axioms RP3D.BodyRay.body_raycast_point_partial
#print axioms RP3D.BodyRay.body_raycast_point_wrong
#print axioms RP3D.HeightProps.height_triangles
#print axioms RP3D.HeightProps.height_bounds
#print axioms RP3D.HeightProps.negative_scale_misses
#print axioms RP3D.HeightProps.height_raycast_returns_partial
#print axioms RP3D.HeightProps.height_raycast_forever
#print axioms RP3D.SolverProps.normal_impulses
#print axioms RP3D.SolverProps.friction_limits
#print axioms RP3D.SolverProps.momentum_balance
#print axioms RP3D.SolverProps.momentum_kept
#print axioms RP3D.SolverProps.locked_components_kept
#print axioms RP3D.SolverProps.static_kept
#print axioms RP3D.BodyJointsProps.teardown_partial
#print axioms RP3D.BodyJointsProps.teardown_undefined
#print axioms RP3D.BodyJointsProps.joint_lists
#print axioms RP3D.MeshProps.half_edges
#print axioms RP3D.MeshProps.described
#print axioms RP3D.MeshProps.defined_iff_closed
#print axioms RP3D.MeshProps.twin_of_twin
#print axioms RP3D.MeshProps.walk_around_face
#print axioms RP3D.MeshProps.box_structure
#print axioms RP3D.MeshProps.triangle_structure
#print axioms RP3D.step_velocity
#print axioms RP3D.gravity_mass_independent
#print axioms RP3D.no_speed_gain
#print axioms RP3D.locked_axis
#print axioms RP3D.free_flight
#print axioms RP3D.forces_add
#print axioms RP3D.force_wakes
#print axioms RP3D.DispatchProps.dispatch_total_symmetric
#print axioms RP3D.DispatchProps.dispatch_separates
#print axioms RP3D.DispatchProps.dispatch_of_pair
#print axioms RP3D.array_add_own_element_unsafe
#print axioms RP3D.array_add_own_element_partial
#print axioms RP3D.deque_queue_memory_unbounded
#print axioms RP3D.hinge_disable_changes_data
#print axioms RP3D.hinge_columns_preserved_partial
#print axioms RP3D.heap_header_misaligned
#print axioms RP3D.heap_base_request_not_multiple
#print axioms RP3D.heap_headers_aligned_partial
#print axioms RP3D.BoundsProps.world_box_contains
#print axioms RP3D.BoundsProps.body_box_contains
#print axioms RP3D.BoundsProps.transformed_least
#print axioms RP3D.BoundsProps.sphere_box_least
#print axioms RP3D.BoundsProps.box_box_least
#print axioms RP3D.BoundsProps.meshBounds_least
#print axioms RP3D.BodyJointsProps.destroy_body_joints_partial
#print axioms RP3D.BodyJointsProps.destroy_body_wrong
#print axioms RP3D.BodyJointsProps.allowed_defined
#print axioms RP3D.query_flag_ignored
#print axioms RP3D.query_flag_respected_partial
#print axioms RP3D.sim_flag_set_partial
#print axioms RP3D.sim_flag_stale
#print axioms RP3D.sim_flag_stale_trigger
#print axioms RP3D.static_velocity_stale
#print axioms RP3D.static_solver_rest_partial
#print axioms RP3D.static_center_wrong
#print axioms RP3D.static_center_partial
#print axioms RP3D.center_of_mass_world
#print axioms RP3D.total_mass
#print axioms RP3D.center_of_mass
#print axioms RP3D.inertia_of_colliders
#print axioms RP3D.mass_order
#print axioms RP3D.mass_shift
#print axioms RP3D.orientation_unit
#print axioms RP3D.integrated_nonzero
#print axioms RP3D.inertia_loses_products
#print axioms RP3D.inertia_axis_partial
#print axioms RP3D.ContactProps.points_grouped
#print axioms RP3D.ContactProps.point_lost
#print axioms RP3D.ContactProps.deepest_point_dropped
#print axioms RP3D.ContactProps.point_kept_partial
#print axioms RP3D.MeshProps.inconsistent_mesh_undefined
#print axioms RP3D.MeshProps.small_face_undefined
#print axioms RP3D.MeshProps.open_mesh_undefined
#print axioms RP3D.MeshProps.malformed_reported_partial
#print axioms RP3D.PoolReuse.create_destroy_no_growth_partial
#print axioms RP3D.PoolReuse.create_destroy_large_partial
#print axioms RP3D.PoolReuse.height_field_leak
#print axioms RP3D.PoolReuse.height_field_unbounded
#print axioms RP3D.RayProps.sphere_raycast
#print axioms RP3D.RayProps.box_raycast
#print axioms RP3D.RayProps.capsule_raycast
#print axioms RP3D.RayProps.capsule_short_ray_misses
#print axioms RP3D.RayProps.capsule_long_range_misses
#print axioms RP3D.RayProps.triangle_raycast_partial
#print axioms RP3D.RayProps.triangle_both_partial
#print axioms RP3D.RayProps.triangle_both_wrong
#print axioms RP3D.RayProps.triangle_both_nan
#print axioms RP3D.RayProps.mesh_raycast_partial
#print axioms RP3D.RayProps.mesh_raycast_scaled_wrong
#print axioms RP3D.HeightProps.height_raycast_closest_partial
#print axioms RP3D.HeightProps.height_normal_wrong
#print axioms RP3D.PointProps.support_points
#print axioms RP3D.PointProps.mesh_support_partial
#print axioms RP3D.PointProps.mesh_support_undefined
#print axioms RP3D.PointProps.point_in_shape
#print axioms RP3D.PointProps.point_in_body
#print axioms RP3D.TriProps.mesh_triangles
#print axioms RP3D.TriProps.initTree_spec
#print axioms RP3D.TriProps.zero_mesh_undefined
#print axioms RP3D.TriProps.mesh_normals_partial
#print axioms RP3D.TriProps.unused_first_vertex
#print axioms RP3D.TriProps.small_mesh_normals
#print axioms RP3D.ConcaveProps.concave_triangles
#print axioms RP3D.ConcaveProps.mirrored_triangle_lost
#print axioms RP3D.ConcaveProps.concave_raycast_partial
#print axioms RP3D.ConcaveProps.ground_missed
#print axioms RP3D.SolverProps.contact_solved
#print axioms RP3D.SolverProps.overlap_corrected
#print axioms RP3D.SolverProps.collision_partial
#print axioms RP3D.SolverProps.friction_frame
#print axioms RP3D.SolverProps.locked_wrong
#print axioms RP3D.SolverProps.linear_accounting
#print axioms RP3D.SolverProps.angular_accounting_partial
#print axioms RP3D.SolverProps.angular_formula
#print axioms RP3D.SolverProps.twist_twice
#print axioms RP3D.SolverProps.friction_cone_partial
#print axioms RP3D.SolverProps.cone_exceeded
#print axioms RP3D.RoundProps.sphere_sphere_overlap
#print axioms RP3D.RoundProps.sphere_capsule_overlap
#print axioms RP3D.RoundProps.capsule_overlap_partial
#print axioms RP3D.RoundProps.small_capsules_missed
#print axioms RP3D.RoundProps.small_capsules_missed_negates
#print axioms RP3D.RoundProps.sphere_sphere_contact
#print axioms RP3D.RoundProps.sphere_capsule_contact
#print axioms RP3D.RoundProps.centered_sphere_contact
#print axioms RP3D.RoundProps.capsule_contacts_partial
#print axioms RP3D.RoundProps.capsule_contact_crossing
#print axioms RP3D.RoundProps.same_center_wrong
#print axioms RP3D.RoundProps.centered_sphere_wrong
#print axioms RP3D.RoundProps.flipped_same_place_wrong
#print axioms RP3D.RoundProps.two_contacts_partial
#print axioms RP3D.RoundProps.flipped_capsules_one_contact
#print axioms RP3D.JointProps.momentum_step
#print axioms RP3D.JointProps.momentum_step_kept
#print axioms RP3D.JointProps.angular_step
#print axioms RP3D.JointProps.angular_kept_partial
#print axioms RP3D.JointProps.slider_motor_turns
#print axioms RP3D.JointProps.slider_motor_turns_negates
#print axioms RP3D.JointProps.ball_velocity
#print axioms RP3D.JointProps.fixed_velocity
#print axioms RP3D.JointProps.hinge_velocity
#print axioms RP3D.JointProps.slider_velocity
#print axioms RP3D.JointProps.turnError_zero
#print axioms RP3D.JointProps.ball_solved
#print axioms RP3D.JointProps.fixed_solved
#print axioms RP3D.JointProps.hinge_solved
#print axioms RP3D.JointProps.slider_solved
#print axioms RP3D.JointProps.heavy_ignored
#print axioms RP3D.JointProps.heavy_fly_apart
#print axioms RP3D.JointProps.weld_explodes
#print axioms RP3D.JointProps.limits_push
#print axioms RP3D.JointProps.motors_bounded
#print axioms RP3D.JointProps.hinge_motor_doubles
#print axioms RP3D.JointProps.hinge_motor_diverges
#print axioms RP3D.JointProps.slider_limit_stale
#print axioms RP3D.JointProps.reaction_force
#print axioms RP3D.JointProps.reaction_torque
#print axioms RP3D.JointProps.cone_torque_untold
#print axioms RP3D.JointProps.slider_motor_untold
#print axioms RP3D.HingeProps.hinge_angle_partial
#print axioms RP3D.HingeProps.hinge_angle_aligned
#print axioms RP3D.HingeProps.hinge_angle_wall
#print axioms RP3D.HingeProps.near_limits_nearest
#print axioms RP3D.HingeProps.hinge_limits_partial
#print axioms RP3D.HingeProps.common_turn_counted
#print axioms RP3D.HingeProps.hinge_angle_negates
#print axioms RP3D.HingeProps.angle_out_of_range
#print axioms RP3D.HingeProps.wide_limits_stop
#print axioms RP3D.HingeProps.sign_lost_before_first_step
#print axioms RP3D.HingeProps.slider_translation
#print axioms RP3D.HingeProps.slider_limits
#print axioms RP3D.JointProps.iterations_lose_partial
#print axioms RP3D.JointProps.first_step_loses_partial
#print axioms RP3D.GjkProps.gjk_ends
#print axioms RP3D.GjkProps.cores
#print axioms RP3D.GjkProps.axis_breaks_assertion
#print axioms RP3D.GjkProps.separated_partial
#print axioms RP3D.GjkProps.interpenetrate_sound
#print axioms RP3D.GjkProps.overlap_missed
