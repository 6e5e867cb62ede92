import Verif.Props.Accurate
import Verif.Props.AccurateAll
import Verif.Props.AccurateEx
import Verif.Props.Anywhere
import Verif.Props.AnywhereWorld
import Verif.Props.Backends
import Verif.Props.CameraDevice
import Verif.Props.CameraDouble
import Verif.Props.CameraFloat
import Verif.Props.CameraRay
import Verif.Props.CameraReach
import Verif.Props.CameraRound
import Verif.Props.CameraSeen
import Verif.Props.CameraSeenEx
import Verif.Props.CameraWide
import Verif.Props.Clearance
import Verif.Props.CoarseBounds
import Verif.Props.Components
import Verif.Props.Convert
import Verif.Props.CpuApi
import Verif.Props.DeviceFast
import Verif.Props.DeviceIndex
import Verif.Props.DeviceVoxelize
import Verif.Props.Export
import Verif.Props.Extrema
import Verif.Props.FairContinuous
import Verif.Props.FairDefined
import Verif.Props.FairDefinedWorld
import Verif.Props.FairFine
import Verif.Props.FairFineEx
import Verif.Props.FairFineNear
import Verif.Props.FairFineWorld
import Verif.Props.FairFree
import Verif.Props.FairFreeAll
import Verif.Props.FairFreeEx
import Verif.Props.FairFreeFar
import Verif.Props.FairFreeFarAll
import Verif.Props.FairFreeWorld
import Verif.Props.FairGradient
import Verif.Props.FairGradientEx
import Verif.Props.FairPipeline
import Verif.Props.FairProject
import Verif.Props.FairQuery
import Verif.Props.FairWorld
import Verif.Props.FairWorldEx
import Verif.Props.FarEx
import Verif.Props.FarSensor
import Verif.Props.FarWorld
import Verif.Props.Filter
import Verif.Props.FineMesh
import Verif.Props.Gradient
import Verif.Props.GradientFloat
import Verif.Props.GradientRound
import Verif.Props.IEEE
import Verif.Props.Interp
import Verif.Props.Lipschitz
import Verif.Props.Machine
import Verif.Props.MapSDF
import Verif.Props.MeshField
import Verif.Props.NamedField
import Verif.Props.ObjectField
import Verif.Props.Pipeline
import Verif.Props.PipelineAll
import Verif.Props.PipelineEx
import Verif.Props.PointCloud2
import Verif.Props.PointKept
import Verif.Props.PoseRound
import Verif.Props.Project
import Verif.Props.QueryFloat
import Verif.Props.QueryOutcome
import Verif.Props.QueryRound
import Verif.Props.RasterSymmetry
import Verif.Props.Rasterize
import Verif.Props.RasterizeFloat
import Verif.Props.RayCut
import Verif.Props.RayDefined
import Verif.Props.RayEntry
import Verif.Props.RayReaches
import Verif.Props.RayRound
import Verif.Props.Raycast
import Verif.Props.RaycastFloat
import Verif.Props.RetrieveTracking
import Verif.Props.SDFGen
import Verif.Props.Serial
import Verif.Props.StaticSurface
import Verif.Props.Surface
import Verif.Props.Topology
import Verif.Props.Units
import Verif.Props.Voxelize
import Verif.Props.VoxelizeFloat
import Verif.Props.WallDistance
import Verif.Props.WallEdge
import Verif.Props.WallNormal
import Verif.Props.WallProject
import Verif.Props.World
import Verif.Props.WorldEx
import Verif.Props.WorldPose

/-!
Axioms used by every property theorem.
-/

#print axioms VGT.C01_sdf_is_exact_distance
#print axioms VGT.C01_sdf_exact_real
#print axioms VGT.C01_generation_total
#print axioms VGT.C01_binary64
#print axioms VGT.C01_binary32
#print axioms VGT.C02_transform_schedule_independent
#print axioms VGT.C02_parallel_eq_sequential
#print axioms VGT.C02_sdf_schedule_independent
#print axioms VGT.C02_no_race_x
#print axioms VGT.C02_no_race_y
#print axioms VGT.C02_no_race_z
#print axioms VGT.C03_sign_and_magnitude
#print axioms VGT.C04_virtual_border
#print axioms VGT.C04_border_finite_nonzero
#print axioms VGT.C05_complement_negates
#print axioms VGT.C06_monotone_in_filled
#print axioms VGT.C06_unknown_is_filled_monotone
#print axioms VGT.C07_lipschitz
#print axioms VGT.C08_plain_filled
#print axioms VGT.C08_tagged_filled
#print axioms VGT.C08_never_queries_outside
#print axioms VGT.C08_extract_plain
#print axioms VGT.C08_extract_tagged
#print axioms VGT.C09_separate_object_sdfs
#print axioms VGT.C09_separate_object_contents
#print axioms VGT.C09_all_object_sdfs
#print axioms VGT.C09_free_and_named
#print axioms VGT.C10_min_max_right
#print axioms VGT.C10_min_max_defined_iff
#print axioms VGT.C10_locked_is_frozen
#print axioms VGT.C10_unlocked_is_mutable
#print axioms VGT.C10_empty_lock_undefined
#print axioms VGT.C10_stale_write_breaks
#print axioms VGT.C11_sdf_round_trip
#print axioms VGT.C11_read_into_locked_is_stale
#print axioms VGT.C12_cells_round_trip
#print axioms VGT.C12_plain_map_round_trip
#print axioms VGT.C12_component_map_round_trip
#print axioms VGT.C12_tagged_component_map_round_trip
#print axioms VGT.C12_dense_base_round_trip
#print axioms VGT.C13_file_round_trip
#print axioms VGT.C13_other_kind_rejected_partial
#print axioms VGT.C13_component_map_file_accepted
#print axioms VGT.C13_component_map_file_misread
#print axioms VGT.C13_double_sdf_file_accepted
#print axioms VGT.C14_map_message_round_trip
#print axioms VGT.C14_uncompressed_map_message
#print axioms VGT.C14_sdf_message_round_trip
#print axioms VGT.C14_other_scalar_rejected
#print axioms VGT.C14_wrong_scalar_rejected_partial
#print axioms VGT.C14_uncompressed_scalar_type_ignored
#print axioms VGT.C15_defined_in_grid
#print axioms VGT.C15_centre_value
#print axioms VGT.C15_index_value
#print axioms VGT.C15_between_neighbours_partial
#print axioms VGT.C15_extrapolates
#print axioms VGT.C16_estimate_continuous
#print axioms VGT.C17_availability
#print axioms VGT.C17_affine_exact
#print axioms VGT.C17_single_cell_axis
#print axioms VGT.C18_throws_iff
#print axioms VGT.C18_affine_exact
#print axioms VGT.C18_zero_window_nan
#print axioms VGT.C18_window_is_doubled
#print axioms VGT.C19_result_is_clear
#print axioms VGT.C19_outside_unchanged
#print axioms VGT.C19_clear_unchanged
#print axioms VGT.C19_position_is_point_partial
#print axioms VGT.C19_xyz_constructor_not_a_point
#print axioms VGT.C19_can_throw
#print axioms VGT.C20_map_complete_any_steps
#print axioms VGT.C20_extrema_map_complete
#print axioms VGT.C21_components_are_classes
#print axioms VGT.C21_tagged_components_are_classes
#print axioms VGT.C22_labels_contiguous_and_ordered
#print axioms VGT.C22_tagged_labels_contiguous_and_ordered
#print axioms VGT.C23_depends_only_on_occupancy
#print axioms VGT.C23_tagged_depends_only_on_cells
#print axioms VGT.C23_repeat_is_identity
#print axioms VGT.C23_tagged_repeat_is_identity
#print axioms VGT.C24_valid_flag_never_stale
#print axioms VGT.C24_stale_reference_breaks_flag
#print axioms VGT.C25_mode_switch_returns_stale_answer
#print axioms VGT.C25_update_answers_for_mode_partial
#print axioms VGT.C25_cached_answer_is_of_some_mode_partial
#print axioms VGT.C26_updates_invalidate_each_other
#print axioms VGT.C26_labels_survive_partial
#print axioms VGT.C27_flat_partial
#print axioms VGT.C27_tagged_flat_partial
#print axioms VGT.C27_box_has_no_holes_or_voids
#print axioms VGT.C27_filled_layer
#print axioms VGT.C27_filled_map_throws
#print axioms VGT.C27_wrong_numbers
#print axioms VGT.C27_repaired_every_map
#print axioms VGT.C27_touching_voids_throw
#print axioms VGT.C28_surface_index_decides
#print axioms VGT.C28_extracts_every_cell_of_type
#print axioms VGT.C28_contains_surface_partial
#print axioms VGT.C28_interior_cell_extracted
#print axioms VGT.C29_surface_decides
#print axioms VGT.C29_surface_symmetric
#print axioms VGT.C30_corner_decides
#print axioms VGT.C31_conversion_is_cellwise
#print axioms VGT.C31_there_and_back
#print axioms VGT.C31_cell_contents
#print axioms VGT.C31_back_and_there
#print axioms VGT.C31_caches_invalid
#print axioms VGT.C31_tagged_caches_invalid
#print axioms VGT.C31_not_initialized
#print axioms VGT.C32_filter_decision
#print axioms VGT.C32_voxelizer_decision
#print axioms VGT.C32_decision_exact
#print axioms VGT.C32_rounding_favours_free
#print axioms VGT.C32_more_filled_stays_filled
#print axioms VGT.C32_more_free_stays_free
#print axioms VGT.C32_default_options
#print axioms VGT.C32_overflow_undefined
#print axioms VGT.C33_cpu_keeps_filled
#print axioms VGT.C33_copy_keeps_static_filled
#print axioms VGT.C33_device_keeps_static_filled
#print axioms VGT.C33_cpu_ignores_static_occupancy
#print axioms VGT.C33_device_overwrites_output
#print axioms VGT.C34_schedule_and_order
#print axioms VGT.C35_cell_filters_agree_partial
#print axioms VGT.C35_filters_agree_partial
#print axioms VGT.C35_filters_differ
#print axioms VGT.C36_raycast_terminates_in_grid_partial
#print axioms VGT.C36_step_bound
#print axioms VGT.C36_point_at_origin_is_undefined
#print axioms VGT.C37_free_only_on_ray_partial
#print axioms VGT.C37_marks_behind_the_point
#print axioms VGT.C37_marks_beyond_the_range
#print axioms VGT.C38_no_cell_skipped
#print axioms VGT.C39_invalid_input_rejected
#print axioms VGT.C39_point_access_partial
#print axioms VGT.C39_huge_position_undefined
#print axioms VGT.Props.C40_first_decisive
#print axioms VGT.Props.C40_best_available
#print axioms VGT.Props.C40_cpu_fallback
#print axioms VGT.Props.C40_other_exceptions_escape
#print axioms VGT.Props.C40_requested_backend
#print axioms VGT.Props.C40_listed_in_order
#print axioms VGT.Props.C40_listed_cuda
#print axioms VGT.Props.C40_listed_opencl
#print axioms VGT.Props.C40_usable_devices_listed
#print axioms VGT.Props.C40_usable_device_not_listed
#print axioms VGT.Props.C40_other_cuda_devices_not_tried
#print axioms VGT.Props.C40_threads_positive
#print axioms VGT.Props.C41_constructs_iff
#print axioms VGT.Props.C41_read
#print axioms VGT.Props.C41_reads_points_partial
#print axioms VGT.Props.C41_doubles_partial
#print axioms VGT.Props.C41_reads_past_end
#print axioms VGT.Props.C41_fields_outside_point
#print axioms VGT.Props.C41_size_wraps
#print axioms VGT.Props.C41_padded_rows_misread
#print axioms VGT.Props.C41_nan_range_accepted
#print axioms VGT.C42_only_fills
#print axioms VGT.C42_triangle_only_fills
#print axioms VGT.C42_order_and_schedule_independent
#print axioms VGT.C42_has_outcome
#print axioms VGT.C42_idempotent
#print axioms VGT.C42_triangle_by_triangle
#print axioms VGT.C42_no_enforcement_no_throw
#print axioms VGT.C42_bad_vertex_throws
#print axioms VGT.C42_uninitialized_throws
#print axioms VGT.C42_contained_never_throws
#print axioms VGT.C42_into_new_map
#print axioms VGT.C42_bad_resolution_throws
#print axioms VGT.C42_outside_throws_partial
#print axioms VGT.C42_outside_not_noticed
#print axioms VGT.C43_closest_point_partial
#print axioms VGT.C43_edge_candidates
#print axioms VGT.C43_only_near_cells
#print axioms VGT.C43_partial
#print axioms VGT.C43_repaired_closest_point
#print axioms VGT.C43_repaired_fills_every_cell
#print axioms VGT.C43_not_the_closest
#print axioms VGT.C43_misses_cells
#print axioms VGT.C43_rotated_map_stays_empty
#print axioms VGT.Props.C44_grid_export
#print axioms VGT.Props.C44_display
#print axioms VGT.Props.C44_separate_display
#print axioms VGT.Props.C44_indices
#print axioms VGT.Props.C44_index_map
#print axioms VGT.Props.C44_chunks
#print axioms VGT.Props.C44_surface_cells_shown_partial
#print axioms VGT.Props.C44_surface_export_shows_all
#print axioms VGT.Props.C44_interior_cell_shown
#print axioms VGT.Props.C44_repaired_surface_export
#print axioms VGT.Props.C44_color_map_ignored
#print axioms VGT.Props.C44_no_color_map_shows_nothing
#print axioms VGT.Props.C44_repaired_objects
#print axioms VGT.Props.C44_components
#print axioms VGT.Props.C44_segment
#print axioms VGT.Props.C44_sdf
#print axioms VGT.Props.C44_sdf_roundings
#print axioms VGT.Props.C44_infinite_field_has_nan_color
#print axioms VGT.Props.C44_sdf_collision_float
#print axioms VGT.Props.C44_tiny_distance_shown_as_collision
#print axioms VGT.Props.C44_object_surfaces_show_all
#print axioms VGT.Props.C44_repaired_object_surfaces
#print axioms VGT.Props.C44_indices_display
#print axioms VGT.Props.C44_index_map_display
#print axioms VGT.Props.C44_hashed_separate_display
#print axioms VGT.Props.C44_separate_surfaces_show_all
#print axioms VGT.C45_spatial_segments
#print axioms VGT.C46_options_valid_partial
#print axioms VGT.C46_nan_accepted
#print axioms VGT.C47_addresses_partial
#print axioms VGT.C47_cuda_raycast_addresses
#print axioms VGT.C47_cuda_filter_out_of_bounds
#print axioms VGT.C47_opencl_out_of_bounds
#print axioms VGT.C48_hit_is_recorded_partial
#print axioms VGT.C48_flat_ray_lost
#print axioms VGT.C49_counters_exact
#print axioms VGT.C49_voxelization_is_defined
#print axioms VGT.C50_measured_obstacle_is_filled
#print axioms VGT.C51_filled_only_if_measured
#print axioms VGT.C51_free_only_if_seen_through
#print axioms VGT.C52_flat_wall_exact
#print axioms VGT.C53_projection_terminates_partial
#print axioms VGT.C53_can_loop_forever
#print axioms VGT.C53_corridors_loop_forever
#print axioms VGT.C54_translation_invariant_partial
#print axioms VGT.C54_extrema_depend_on_pose
#print axioms VGT.C55_static_surface
#print axioms VGT.C55_dynamic_surface
#print axioms VGT.C55_dynamic_of_static
#print axioms VGT.C55_static_of_dynamic
#print axioms VGT.C55_surface_index_map
#print axioms VGT.C55_component_surface
#print axioms VGT.C55_other_values_dropped
#print axioms VGT.C56_any_arithmetic
#print axioms VGT.C56_undefined_only_by_conversion
#print axioms VGT.C56_sensor_in_grid
#print axioms VGT.C56_exact
#print axioms VGT.C56_device_within_reach
#print axioms VGT.C56_cpu_within_reach
#print axioms VGT.C56_device_loses_free_cells
#print axioms VGT.C56_far_point_undefined_on_device
#print axioms VGT.C56_cut_ray_defined
#print axioms VGT.C56_device_cut
#print axioms VGT.C56_cpu_cut
#print axioms VGT.C57_counters_exact
#print axioms VGT.C57_device_voxelizer
#print axioms VGT.C57_one_result
#print axioms VGT.C57_device_decision
#print axioms VGT.C57_device_keeps_filled
#print axioms VGT.C57_device_defined
#print axioms VGT.C57_devices_equal_cpu_partial
#print axioms VGT.C57_device_misses_free_cell
#print axioms VGT.C57_large_clouds_undefined
#print axioms VGT.C58_distance_to_filled
#print axioms VGT.C58_clear_ball
#print axioms VGT.C58_clear_ball_everywhere
#print axioms VGT.C58_not_pessimistic
#print axioms VGT.C58_generated_exists
#print axioms VGT.C58_overestimates
#print axioms VGT.C59_lipschitz_axes
#print axioms VGT.C59_lipschitz
#print axioms VGT.C59_lipschitz_everywhere
#print axioms VGT.C59_fine_gradient_bounded
#print axioms VGT.C59_not_one_lipschitz
#print axioms VGT.C60_formula
#print axioms VGT.C60_generated
#print axioms VGT.C60_wall_gradient_too_long
#print axioms VGT.C61_rejected
#print axioms VGT.C61_cloud_adds
#print axioms VGT.C61_cloud_order
#print axioms VGT.C61_cloud_split
#print axioms VGT.C61_points_one_by_one
#print axioms VGT.C61_steps_make_the_whole
#print axioms VGT.C61_cameras_need_own_grids
#print axioms VGT.C61_counters_wrap
#print axioms VGT.C61_pose_not_compared
#print axioms VGT.C62_estimate
#print axioms VGT.C62_coarse
#print axioms VGT.C62_fine
#print axioms VGT.C62_generated
#print axioms VGT.C62_projection_partial
#print axioms VGT.C62_extrema_partial
#print axioms VGT.C62_large_numbers_never_project
#print axioms VGT.C62_large_numbers_all_extrema
#print axioms VGT.C62_projection_depends_on_unit
#print axioms VGT.C62_extrema_depend_on_unit
#print axioms VGT.C63_wall_projection
#print axioms VGT.C63_wall_throws
#print axioms VGT.C63_wall_exact
#print axioms VGT.C63_steps_exist
#print axioms VGT.C64_retrieved_counts
#print axioms VGT.C64_no_such_camera
#print axioms VGT.C65_estimate
#print axioms VGT.C65_coarse
#print axioms VGT.C65_coarse_at
#print axioms VGT.C65_fine
#print axioms VGT.C65_project
#print axioms VGT.C65_extrema
#print axioms VGT.C65_exact_estimate
#print axioms VGT.C65_exact_coarse
#print axioms VGT.C65_exact_coarse_at
#print axioms VGT.C65_exact_project
#print axioms VGT.C65_exact_extrema
#print axioms VGT.C65_fine_undefined_iff
#print axioms VGT.C65_project_outcome
#print axioms VGT.C66_empty_map_partial
#print axioms VGT.C66_full_map_projection
#print axioms VGT.C66_projection_returns_start
#print axioms VGT.C66_estimate_nan
#print axioms VGT.C66_gradient_nan
#print axioms VGT.C66_every_cell_an_extremum
#print axioms VGT.nanOfEqual_trilinear
#print axioms VGT.nanOfEqual_bilinear
#print axioms VGT.C67_estimate_accuracy
#print axioms VGT.C67_estimate_accuracy_bilinear
#print axioms VGT.C67_estimate_defined
#print axioms VGT.C67_double_accuracy
#print axioms VGT.C67_double_accuracy_bilinear
#print axioms VGT.C67_clear_ball
#print axioms VGT.C67_clear_ball_inside
#print axioms VGT.C68_clear_ball_float
#print axioms VGT.C68_clear_ball_inside_float
#print axioms VGT.C68_clear_ball_double
#print axioms VGT.C68_projection_clear_float
#print axioms VGT.C68_obstacle_near_float
#print axioms VGT.C68_generated_exists
#print axioms VGT.C68_clear_ball_inside_double
#print axioms VGT.C68_obstacle_near_double
#print axioms VGT.C68_projection_clear_double
#print axioms VGT.C69_only_fills
#print axioms VGT.C69_only_in_the_box
#print axioms VGT.C69_order_and_schedule_independent
#print axioms VGT.C69_has_outcome
#print axioms VGT.C69_no_enforcement_no_throw
#print axioms VGT.C69_idempotent
#print axioms VGT.C69_single_triangle
#print axioms VGT.C69_exact_triangle
#print axioms VGT.C69_exact
#print axioms VGT.C69_into_new_map_rounded
#print axioms VGT.C69_into_new_map_double
#print axioms VGT.C69_far_mesh_throws
#print axioms VGT.C69_ieee_operations
#print axioms VGT.C70_unit_independent
#print axioms VGT.C70_corner_order_partial
#print axioms VGT.C70_order_matters
#print axioms VGT.C70_origin_matters
#print axioms VGT.C70_repaired_coordinates
#print axioms VGT.C70_repaired_hit_iff
#print axioms VGT.C70_repaired_corner_order
#print axioms VGT.C71_degenerate_partial
#print axioms VGT.C71_degenerate_fills_its_box
#print axioms VGT.C71_diagonal_fills_plate
#print axioms VGT.C71_nan_first_vertex
#print axioms VGT.C71_nan_second_vertex
#print axioms VGT.C71_nan_third_vertex
#print axioms VGT.C72_sensor_in_grid
#print axioms VGT.C72_clipped_ray
#print axioms VGT.C72_double
#print axioms VGT.C72_double_clipped
#print axioms VGT.C72_float
#print axioms VGT.gridWith_double
#print axioms VGT.gridWith_device
#print axioms VGT.C72_float_clipped
#print axioms VGT.C73_sensor_outside_partial
#print axioms VGT.C73_clipped_partial
#print axioms VGT.C73_double_partial
#print axioms VGT.C73_deep_cells_partial
#print axioms VGT.C73_deep_cells_clipped_partial
#print axioms VGT.C73_double_deep_cells_partial
#print axioms VGT.C73_steep_partial
#print axioms VGT.C73_double_steep_partial
#print axioms VGT.C73_grazing_ray_lost
#print axioms VGT.C73_steep_clipped_partial
#print axioms VGT.C74_counters_exact
#print axioms VGT.C74_decision
#print axioms VGT.C74_keeps_filled
#print axioms VGT.C74_one_result
#print axioms VGT.C74_defined
#print axioms VGT.C74_has_result
#print axioms VGT.C74_filled_only_if_measured
#print axioms VGT.C74_measured_obstacle_is_filled
#print axioms VGT.C74_filled_is_real
#print axioms VGT.C74_obstacle_is_filled
#print axioms VGT.C74_free_is_seen_partial
#print axioms VGT.C74_obstacle_is_filled_partial
#print axioms VGT.C74_seen_is_free_partial
#print axioms VGT.C74_double_filled_is_real
#print axioms VGT.C74_double_obstacle_is_filled
#print axioms VGT.C74_double_has_result
#print axioms VGT.C74_double_free_is_seen_partial
#print axioms VGT.C74_double_obstacle_is_filled_partial
#print axioms VGT.C74_double_seen_is_free_partial
#print axioms VGT.C74_free_behind_the_obstacle
#print axioms VGT.C74_free_is_seen_or_short
#print axioms VGT.C74_free_is_seen_outside_partial
#print axioms VGT.C74_seen_is_free_outside_partial
#print axioms VGT.C74_double_free_is_seen_or_short
#print axioms VGT.C74_double_free_is_seen_outside_partial
#print axioms VGT.C74_double_seen_is_free_outside_partial
#print axioms VGT.C74_double_obstacle_anywhere
#print axioms VGT.C75_cached_segments_partial
#print axioms VGT.C75_other_parameters_ignored
#print axioms VGT.C76_filled_is_real
#print axioms VGT.C76_free_is_seen_partial
#print axioms VGT.C76_obstacle_is_filled_partial
#print axioms VGT.C76_obstacle_is_filled
#print axioms VGT.C76_seen_is_free_partial
#print axioms VGT.C76_has_result
#print axioms VGT.C76_float_filled_is_real
#print axioms VGT.C76_float_free_is_seen_partial
#print axioms VGT.C76_float_obstacle_is_filled_partial
#print axioms VGT.C76_float_obstacle_is_filled
#print axioms VGT.C76_float_seen_is_free_partial
#print axioms VGT.C76_float_has_result
#print axioms VGT.C76_free_is_seen_or_short
#print axioms VGT.C76_float_free_is_seen_or_short
#print axioms VGT.C76_float_free_is_seen_outside_partial
#print axioms VGT.C76_free_behind_the_obstacle
#print axioms VGT.C76_float_obstacle_anywhere
#print axioms VGT.C77_point_kept
#print axioms VGT.C77_point_kept_partial
#print axioms VGT.C77_device_point_kept
#print axioms VGT.C77_device_point_kept_partial
#print axioms VGT.C77_double_clearance
#print axioms VGT.C77_double_clearance_partial
#print axioms VGT.C77_double_measured
#print axioms VGT.C77_float_clearance
#print axioms VGT.C77_float_clearance_partial
#print axioms VGT.C77_float_measured
#print axioms VGT.C77_field_exists
#print axioms VGT.C77_answer_exists
#print axioms VGT.C77_double_kept_anywhere
#print axioms VGT.C77_float_kept_anywhere
#print axioms VGT.C77_double_clearance_anywhere
#print axioms VGT.C77_float_clearance_anywhere
#print axioms VGT.C78_filled_is_real
#print axioms VGT.C78_obstacle_is_filled
#print axioms VGT.C78_free_is_seen_or_short
#print axioms VGT.C78_seen_is_free_partial
#print axioms VGT.C78_has_result
#print axioms VGT.C78_device_filled_is_real
#print axioms VGT.C78_device_obstacle_is_filled
#print axioms VGT.C78_device_free_is_seen_or_short
#print axioms VGT.C78_device_seen_is_free_partial
#print axioms VGT.C78_device_has_result
#print axioms VGT.C78_clearance
#print axioms VGT.C78_measured
#print axioms VGT.C78_device_clearance
#print axioms VGT.C78_device_measured
#print axioms VGT.C78_obstacle_anywhere
#print axioms VGT.C78_clearance_anywhere
#print axioms VGT.C78_device_obstacle_anywhere
#print axioms VGT.C78_device_clearance_anywhere
#print axioms VGT.C79_coarse_float
#print axioms VGT.C79_coarse_double
#print axioms VGT.C79_slopes
#print axioms VGT.C79_coarse_world
#print axioms VGT.C79_fine_float
#print axioms VGT.C79_fine_double
#print axioms VGT.C79_fine_bounded_float
#print axioms VGT.C79_fine_bounded_double
#print axioms VGT.C79_window_lost
#print axioms VGT.C79_tiny_window
#print axioms VGT.C80_small_triangles_fill
#print axioms VGT.C80_enforced
#print axioms VGT.C80_enforced_somewhere
#print axioms VGT.C80_only_near
#print axioms VGT.C80_small_triangles_only_near
#print axioms VGT.C80_fine_mesh_double
#print axioms VGT.C80_new_map_shifted
#print axioms VGT.C80_new_map_double
#print axioms VGT.C80_corner_lost
#print axioms VGT.C81_clearance
#print axioms VGT.C81_clearance_inside
#print axioms VGT.C81_surface_near
#print axioms VGT.C81_new_map
#print axioms VGT.C81_field_exists
#print axioms VGT.C81_answer_exists
#print axioms VGT.C82_objects_float
#print axioms VGT.C82_objects_double
#print axioms VGT.C82_least_object_distance
#print axioms VGT.C82_unnamed_obstacle_missed
#print axioms VGT.C82_named_clear_ball
#print axioms VGT.C82_named_float
#print axioms VGT.C82_named_double
#print axioms VGT.C82_all_named
#print axioms VGT.C83_coordinate_error
#print axioms VGT.C83_location_error
#print axioms VGT.C83_stored_inverse
#print axioms VGT.C83_answer_exists
#print axioms VGT.C83_clear_ball
#print axioms VGT.C83_clear_ball_inside
#print axioms VGT.C83_projection_clear
#print axioms VGT.C83_named_clear
#print axioms VGT.C83_mesh_place
#print axioms VGT.C83_mesh_clearance
#print axioms VGT.C83_located
#print axioms VGT.C83_stored_place
#print axioms VGT.C83_world_clearance
#print axioms VGT.C83_world_measured
#print axioms VGT.C83_world_device_clearance
#print axioms VGT.C83_world_device_measured
#print axioms VGT.C83_world_clearance_anywhere
#print axioms VGT.C83_world_device_clearance_anywhere
#print axioms VGT.C84_ray_defined
#print axioms VGT.C84_double_has_result
#print axioms VGT.C84_float_has_result
#print axioms VGT.C84_world_has_result
#print axioms VGT.C84_world_float_has_result
#print axioms VGT.C84_device_undefined
#print axioms VGT.C84_point_at_sensor
#print axioms VGT.C85_obstacle_is_filled
#print axioms VGT.C85_filled_is_real
#print axioms VGT.C85_point_kept
#print axioms VGT.C85_clearance
#print axioms VGT.C85_device_obstacle_is_filled
#print axioms VGT.C85_device_filled_is_real
#print axioms VGT.C85_device_point_kept
#print axioms VGT.C85_device_clearance
#print axioms VGT.fusedDouble_accurate
#print axioms VGT.fastFloat_accurate
#print axioms VGT.fairShare_rough
#print axioms VGT.fairShare_float
#print axioms VGT.fastDeviceRuns_float
#print axioms VGT.fast_defined
#print axioms VGT.C86_clear_ball_float
#print axioms VGT.C86_clear_ball_inside_float
#print axioms VGT.C86_clear_ball_double
#print axioms VGT.C86_projection_clear_float
#print axioms VGT.C86_estimate_defined
#print axioms VGT.C86_clear_ball_fused
#print axioms VGT.C86_clearance
#print axioms VGT.C86_device_clearance
#print axioms VGT.C86_answer_exists
#print axioms VGT.C86_clear_ball_world
#print axioms VGT.C86_answer_exists_world
#print axioms VGT.C86_projection_clear_world
#print axioms VGT.C87_obstacle_is_filled
#print axioms VGT.C87_filled_is_real
#print axioms VGT.C87_device_obstacle_is_filled
#print axioms VGT.C87_device_filled_is_real
#print axioms VGT.C87_clearance
#print axioms VGT.C87_device_clearance
#print axioms VGT.WorldGiven.given
#print axioms VGT.worldRoom_double
#print axioms VGT.worldRoom_float
#print axioms VGT.C87_projection
#print axioms VGT.C87_device_projection
#print axioms VGT.C88_has_result
#print axioms VGT.C88_device_has_result
#print axioms VGT.C88_world_has_result
#print axioms VGT.C88_device_world_has_result
#print axioms VGT.C88_fused_double_has_result
#print axioms VGT.C88_fast_float_has_result
#print axioms VGT.C89_free_is_seen_partial
#print axioms VGT.C89_seen_is_free_partial
#print axioms VGT.C89_device_free_is_seen_partial
#print axioms VGT.C89_device_seen_is_free_partial
#print axioms VGT.C89_fused_double_free_partial
#print axioms VGT.C89_fast_float_free_partial
#print axioms VGT.C89_world_free_is_seen_partial
#print axioms VGT.C89_world_seen_is_free_partial
#print axioms VGT.C89_device_world_free_is_seen_partial
#print axioms VGT.C89_device_world_seen_is_free_partial
#print axioms VGT.fused_walk
#print axioms VGT.fusedDouble_walk
#print axioms VGT.fastFloat_walk
#print axioms VGT.C89_free_is_seen_or_short
#print axioms VGT.C89_world_free_is_seen_or_short
#print axioms VGT.C89_device_free_is_seen_or_short
#print axioms VGT.C89_device_world_free_is_seen_or_short
#print axioms VGT.C89_fused_double_free_is_seen_or_short
#print axioms VGT.C89_fast_float_free_is_seen_or_short
#print axioms VGT.fusedDouble_tiny
#print axioms VGT.fastFloat_tiny
#print axioms VGT.C90_coarse
#print axioms VGT.C90_coarse_world
#print axioms VGT.C90_coarse_fused_float
#print axioms VGT.C90_coarse_fused_double
#print axioms VGT.fair_rotate
#print axioms VGT.fusedStored_step
#print axioms VGT.C79_slopes
#print axioms VGT.C91_fine
#print axioms VGT.C91_fine_fused_float
#print axioms VGT.C91_fine_fused_double
#print axioms VGT.fair_fine_defined
#print axioms VGT.fair_fine_bounded
#print axioms VGT.C91_located
#print axioms VGT.C91_fine_world_float
#print axioms VGT.C91_fine_world_double
#print axioms VGT.fair_fine_near
#print axioms VGT.C91_fine_near
#print axioms VGT.C91_fine_near_float
#print axioms VGT.C91_fine_near_double
#print axioms VGT.C91_fine_near_world_float
#print axioms VGT.C91_fine_near_world_double
#print axioms VGT.C92_wall_normal_float
#print axioms VGT.C92_wall_normal_double
#print axioms VGT.C92_wall_normal_world_float
#print axioms VGT.C92_wall_normal_world_double
#print axioms VGT.C92_wall_normal_ieee_float
#print axioms VGT.C92_wall_normal_ieee_double
#print axioms VGT.wall_fine
#print axioms VGT.C92_wall_everywhere
#print axioms VGT.C92_wall_everywhere_float
#print axioms VGT.C92_wall_everywhere_double
#print axioms VGT.C92_wall_everywhere_world_float
#print axioms VGT.C92_wall_everywhere_world_double
#print axioms VGT.C93_wall_distance
#print axioms VGT.C93_wall_distance_float
#print axioms VGT.C93_wall_distance_double
#print axioms VGT.C93_wall_distance_world_float
#print axioms VGT.C93_wall_distance_world_double
#print axioms VGT.C94_continuous
#print axioms VGT.C94_continuous_float
#print axioms VGT.C94_continuous_double
