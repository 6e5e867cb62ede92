{
 "claims": [
  {
   "property": "C01",
   "status": "proved",
   "theorems": [
    "VGT.C01_sdf_is_exact_distance",
    "VGT.C01_sdf_exact_real",
    "VGT.C01_generation_total",
    "VGT.C01_binary64",
    "VGT.C01_binary32"
   ],
   "note": "All sizes with each axis <= 2^26 cells and squared diagonal <= 2^53; exact in spite of binary64 rounding in the transform; the two last theorems instantiate the rounding with actual round-to-nearest-even."
  },
  {
   "property": "C02",
   "status": "proved",
   "theorems": [
    "VGT.C02_transform_schedule_independent",
    "VGT.C02_parallel_eq_sequential",
    "VGT.C02_sdf_schedule_independent",
    "VGT.C02_no_race_x",
    "VGT.C02_no_race_y",
    "VGT.C02_no_race_z"
   ],
   "note": "Micro-step interleavings of reads and writes; any rounding and any field."
  },
  {
   "property": "C03",
   "status": "proved",
   "theorems": [
    "VGT.C03_sign_and_magnitude"
   ],
   "note": "Holds for every monotone odd rounding; magnitude is the resolution in the SDF scalar type."
  },
  {
   "property": "C04",
   "status": "proved",
   "theorems": [
    "VGT.C04_virtual_border",
    "VGT.C04_border_finite_nonzero"
   ],
   "note": ""
  },
  {
   "property": "C05",
   "status": "proved",
   "theorems": [
    "VGT.C05_complement_negates"
   ],
   "note": ""
  },
  {
   "property": "C06",
   "status": "proved",
   "theorems": [
    "VGT.C06_monotone_in_filled",
    "VGT.C06_unknown_is_filled_monotone"
   ],
   "note": ""
  },
  {
   "property": "C07",
   "status": "proved",
   "theorems": [
    "VGT.C07_lipschitz"
   ],
   "note": "Exact arithmetic after the transform (square root, product, cast exact)."
  },
  {
   "property": "C08",
   "status": "proved",
   "theorems": [
    "VGT.C08_plain_filled",
    "VGT.C08_tagged_filled",
    "VGT.C08_never_queries_outside",
    "VGT.C08_extract_plain",
    "VGT.C08_extract_tagged"
   ],
   "note": ""
  },
  {
   "property": "C09",
   "status": "proved",
   "theorems": [
    "VGT.C09_separate_object_sdfs",
    "VGT.C09_separate_object_contents",
    "VGT.C09_all_object_sdfs",
    "VGT.C09_free_and_named"
   ],
   "note": ""
  },
  {
   "property": "C10",
   "status": "proved",
   "theorems": [
    "VGT.C10_min_max_right",
    "VGT.C10_min_max_defined_iff",
    "VGT.C10_locked_is_frozen",
    "VGT.C10_unlocked_is_mutable",
    "VGT.C10_empty_lock_undefined",
    "VGT.C10_stale_write_breaks"
   ],
   "note": "Every history without writes through old references. GetMinimumMaximum and Lock are undefined exactly on fields without cells or with NaN (C10_min_max_defined_iff; witness C10_empty_lock_undefined)."
  },
  {
   "property": "C11",
   "status": "proved",
   "theorems": [
    "VGT.C11_sdf_round_trip",
    "VGT.C11_read_into_locked_is_stale"
   ],
   "note": "For every field reachable by a history, every buffer prefix and suffix, every base-class format that round trips. C11_read_into_locked_is_stale shows that the derived hook is wrong if called on an already locked object."
  },
  {
   "property": "C12",
   "status": "proved",
   "theorems": [
    "VGT.C12_cells_round_trip",
    "VGT.C12_plain_map_round_trip",
    "VGT.C12_component_map_round_trip",
    "VGT.C12_tagged_component_map_round_trip",
    "VGT.C12_dense_base_round_trip"
   ],
   "note": "Bit-exact (NaN occupancies included). The base-class serializer of CRU is a parameter that is assumed to round trip; C12_dense_base_round_trip proves that for the dense layout."
  },
  {
   "property": "C13",
   "status": "partial",
   "theorems": [
    "VGT.C13_file_round_trip",
    "VGT.C13_other_kind_rejected_partial",
    "VGT.C13_component_map_file_accepted",
    "VGT.C13_component_map_file_misread",
    "VGT.C13_double_sdf_file_accepted"
   ],
   "note": "Round trip proved for all kinds. Rejection is proved for kinds with different headers; it is false for kinds that share a header (occupancy/component map, tagged/tagged component map, float/double SDF): witnesses given in the CRU dense format."
  },
  {
   "property": "C14",
   "status": "partial",
   "theorems": [
    "VGT.C14_map_message_round_trip",
    "VGT.C14_uncompressed_map_message",
    "VGT.C14_sdf_message_round_trip",
    "VGT.C14_other_scalar_rejected",
    "VGT.C14_wrong_scalar_rejected_partial",
    "VGT.C14_uncompressed_scalar_type_ignored"
   ],
   "note": "Round trips proved. The scalar type check is missing for uncompressed messages (witness)."
  },
  {
   "property": "C15",
   "status": "partial",
   "theorems": [
    "VGT.C15_defined_in_grid",
    "VGT.C15_centre_value",
    "VGT.C15_index_value",
    "VGT.C15_between_neighbours_partial",
    "VGT.C15_extrapolates"
   ],
   "note": "Bounds safety, definedness and agreement at cell centres hold for every grid, pose and location in exact arithmetic. 'Lies between the values used' is proved when the location lies between the cell centres used on each axis; in the outer half-cell layer it is false (C15_extrapolates is the witness): the code extrapolates there."
  },
  {
   "property": "C16",
   "status": "proved",
   "theorems": [
    "VGT.C16_estimate_continuous"
   ],
   "note": "Epsilon-delta continuity on the whole grid box, for every pose. Exact arithmetic, finite stored distances."
  },
  {
   "property": "C17",
   "status": "proved",
   "theorems": [
    "VGT.C17_availability",
    "VGT.C17_affine_exact",
    "VGT.C17_single_cell_axis"
   ],
   "note": "Exact arithmetic, finite stored distances."
  },
  {
   "property": "C18",
   "status": "partial",
   "theorems": [
    "VGT.C18_throws_iff",
    "VGT.C18_affine_exact",
    "VGT.C18_zero_window_nan",
    "VGT.C18_window_is_doubled"
   ],
   "note": "Exactness on affine fields proved. 'Never fails' is false: C18_throws_iff characterises exactly when it throws (both neighbours on an axis outside the grid), C18_zero_window_nan and C18_window_is_doubled are further disagreements with the documentation."
  },
  {
   "property": "C19",
   "status": "partial",
   "theorems": [
    "VGT.C19_result_is_clear",
    "VGT.C19_outside_unchanged",
    "VGT.C19_clear_unchanged",
    "VGT.C19_position_is_point_partial",
    "VGT.C19_xyz_constructor_not_a_point",
    "VGT.C19_can_throw"
   ],
   "note": "Clearance and unchanged cases proved. The homogeneous-coordinate invariant fails for the three-argument constructor (witness), and the function can throw at a ridge (witness)."
  },
  {
   "property": "C20",
   "status": "proved",
   "theorems": [
    "VGT.C20_map_complete_any_steps",
    "VGT.C20_extrema_map_complete"
   ],
   "note": "Proved for arbitrary flatness tests and step functions, hence also with NaN gradients and cycles; instance for the real thresholds in exact arithmetic."
  },
  {
   "property": "C21",
   "status": "proved",
   "theorems": [
    "VGT.C21_components_are_classes",
    "VGT.C21_tagged_components_are_classes"
   ],
   "note": "maps with fewer than 2^32 cells (component ids are uint32)"
  },
  {
   "property": "C22",
   "status": "proved",
   "theorems": [
    "VGT.C22_labels_contiguous_and_ordered",
    "VGT.C22_tagged_labels_contiguous_and_ordered"
   ],
   "note": ""
  },
  {
   "property": "C23",
   "status": "proved",
   "theorems": [
    "VGT.C23_depends_only_on_occupancy",
    "VGT.C23_tagged_depends_only_on_cells",
    "VGT.C23_repeat_is_identity",
    "VGT.C23_tagged_repeat_is_identity"
   ],
   "note": ""
  },
  {
   "property": "C24",
   "status": "proved",
   "theorems": [
    "VGT.C24_valid_flag_never_stale",
    "VGT.C24_stale_reference_breaks_flag"
   ],
   "note": "the second theorem shows why stale references are excluded"
  },
  {
   "property": "C25",
   "status": "partial",
   "theorems": [
    "VGT.C25_mode_switch_returns_stale_answer",
    "VGT.C25_update_answers_for_mode_partial",
    "VGT.C25_cached_answer_is_of_some_mode_partial"
   ],
   "note": "the code violates the property (first theorem is a counterexample); the others prove what holds"
  },
  {
   "property": "C26",
   "status": "partial",
   "theorems": [
    "VGT.C26_updates_invalidate_each_other",
    "VGT.C26_labels_survive_partial"
   ],
   "note": "the code violates the property for every map with a cell; labels and counts themselves survive"
  },
  {
   "property": "C27",
   "status": "partial",
   "theorems": [
    "VGT.C27_flat_partial",
    "VGT.C27_tagged_flat_partial",
    "VGT.C27_box_has_no_holes_or_voids",
    "VGT.C27_filled_layer",
    "VGT.C27_filled_map_throws",
    "VGT.C27_wrong_numbers",
    "VGT.C27_repaired_every_map",
    "VGT.C27_touching_voids_throw"
   ],
   "note": "The code looks up the neighbour above a voxel at Z()-1 (topology_computation.hpp:388-391). Proved for the code as it is: components that are one cell thick in z get a complete and right report (voids = surfaces - 1, Euler-Poincare formula for solids without edge or point contacts, both numbers non-negative so that the constructor of the result never throws), for every order of hash iteration; filled one-layer maps of any size give 0/0. Missing because false: thicker components; every filled map with at least two cells per direction throws, and a concrete solid gets a wrong report. C27_repaired_every_map is a counterfactual: with Z()+1 the report is right for every map, except that invalid_argument may be thrown if some requested component touches itself in an edge or a point; C27_touching_voids_throw shows such a map."
  },
  {
   "property": "C28",
   "status": "partial",
   "theorems": [
    "VGT.C28_surface_index_decides",
    "VGT.C28_extracts_every_cell_of_type",
    "VGT.C28_contains_surface_partial",
    "VGT.C28_interior_cell_extracted"
   ],
   "note": "The code tests an OwningMaybe<bool> as bool (HasValue), so it extracts every cell of a requested type, grouped by component, and not only surface cells. Proved: what is extracted, that every surface cell of a requested type is among it (partial: inclusion in one direction), that the underlying IsConnectedComponentSurfaceIndex decides the surface, and a concrete interior cell that is extracted."
  },
  {
   "property": "C29",
   "status": "proved",
   "theorems": [
    "VGT.C29_surface_decides",
    "VGT.C29_surface_symmetric"
   ],
   "note": "All four map types share the text; generic in the cell type. Symmetry for occupancies that are not NaN."
  },
  {
   "property": "C30",
   "status": "proved",
   "theorems": [
    "VGT.C30_corner_decides"
   ],
   "note": "Both component maps share the text."
  },
  {
   "property": "C31",
   "status": "proved",
   "theorems": [
    "VGT.C31_conversion_is_cellwise",
    "VGT.C31_there_and_back",
    "VGT.C31_cell_contents",
    "VGT.C31_back_and_there",
    "VGT.C31_caches_invalid",
    "VGT.C31_tagged_caches_invalid",
    "VGT.C31_not_initialized"
   ],
   "note": "Geometry is copied as one value. The converted component map starts with its counters at 0 and its validity flags false, as its constructor leaves them."
  },
  {
   "property": "C32",
   "status": "proved",
   "theorems": [
    "VGT.C32_filter_decision",
    "VGT.C32_voxelizer_decision",
    "VGT.C32_decision_exact",
    "VGT.C32_rounding_favours_free",
    "VGT.C32_more_filled_stays_filled",
    "VGT.C32_more_free_stays_free",
    "VGT.C32_default_options",
    "VGT.C32_overflow_undefined"
   ],
   "note": "For counts whose sum fits int32 (the sum is undefined behaviour beyond, C32_overflow_undefined; C49 shows clouds below 2^31 points never get there) and a non-NaN percentage. IEEE double rounding is part of the model."
  },
  {
   "property": "C33",
   "status": "partial",
   "theorems": [
    "VGT.C33_cpu_keeps_filled",
    "VGT.C33_copy_keeps_static_filled",
    "VGT.C33_device_keeps_static_filled",
    "VGT.C33_cpu_ignores_static_occupancy",
    "VGT.C33_device_overwrites_output"
   ],
   "note": "Proved for the API that returns a new map and, relative to the output (CPU) or static (device) map, for the other one; false in general when output and static differ: the CPU ignores filled static cells, the device overwrites filled output cells (witnesses proved). With rounding and true positions: C74 (CPU), C76 (device)."
  },
  {
   "property": "C34",
   "status": "proved",
   "theorems": [
    "VGT.C34_schedule_and_order"
   ],
   "note": "All thread counts, work splits and interleavings of the atomic increments and of the filter loop, all point and cloud orders."
  },
  {
   "property": "C35",
   "status": "partial",
   "theorems": [
    "VGT.C35_cell_filters_agree_partial",
    "VGT.C35_filters_agree_partial",
    "VGT.C35_filters_differ"
   ],
   "note": "Agreement proved for percentages m/2^j with counts small enough for float; false in general because the device compares in float (witness proved), and the backends treat the static map differently (C33 witness). What each backend marks with rounding is C72 to C74 (CPU) and C73, C76 (device)."
  },
  {
   "property": "C36",
   "status": "partial",
   "theorems": [
    "VGT.C36_raycast_terminates_in_grid_partial",
    "VGT.C36_step_bound",
    "VGT.C36_point_at_origin_is_undefined"
   ],
   "note": "Exact arithmetic. Missing: a point equal to a sensor origin outside the grid, where the code converts NaN to an integer (witness proved). With rounding: C72 and C73."
  },
  {
   "property": "C37",
   "status": "partial",
   "theorems": [
    "VGT.C37_free_only_on_ray_partial",
    "VGT.C37_marks_behind_the_point",
    "VGT.C37_marks_beyond_the_range"
   ],
   "note": "Holds for sensors in the grid and for segments that reach the grid; false otherwise (witnesses proved). With rounding: C72 to C74, C76."
  },
  {
   "property": "C38",
   "status": "proved",
   "theorems": [
    "VGT.C38_no_cell_skipped"
   ],
   "note": "Exact arithmetic. With rounding: C56, C57."
  },
  {
   "property": "C39",
   "status": "partial",
   "theorems": [
    "VGT.C39_invalid_input_rejected",
    "VGT.C39_point_access_partial",
    "VGT.C39_huge_position_undefined"
   ],
   "note": "Everything proved except destination positions within 3 of INT64_MAX, where the check itself overflows (witness proved)."
  },
  {
   "property": "C40",
   "status": "proved",
   "theorems": [
    "VGT.Props.C40_first_decisive",
    "VGT.Props.C40_best_available",
    "VGT.Props.C40_cpu_fallback",
    "VGT.Props.C40_other_exceptions_escape",
    "VGT.Props.C40_requested_backend",
    "VGT.Props.C40_listed_in_order",
    "VGT.Props.C40_listed_cuda",
    "VGT.Props.C40_listed_opencl",
    "VGT.Props.C40_usable_devices_listed",
    "VGT.Props.C40_usable_device_not_listed",
    "VGT.Props.C40_other_cuda_devices_not_tried",
    "VGT.Props.C40_threads_positive"
   ],
   "note": "For every machine (device list, failure pattern) and every option map the constructor tried first that does not fail with runtime_error decides. Two limits shown by witnesses: only the CUDA device named in the options is tried, and the list of available CUDA devices stops at the first one that cannot be used."
  },
  {
   "property": "C41",
   "status": "partial",
   "theorems": [
    "VGT.Props.C41_constructs_iff",
    "VGT.Props.C41_read",
    "VGT.Props.C41_reads_points_partial",
    "VGT.Props.C41_doubles_partial",
    "VGT.Props.C41_reads_past_end",
    "VGT.Props.C41_fields_outside_point",
    "VGT.Props.C41_size_wraps",
    "VGT.Props.C41_padded_rows_misread",
    "VGT.Props.C41_nan_range_accepted"
   ],
   "note": "Construction is characterised for every message. The reads are right for messages that satisfy the PointCloud2 conventions (row_step = width * point_step, little endian, data of the announced length, fields inside a point, size below 2^63). The code checks none of these conventions; the counterexamples show a read past the end of the data, fields outside the point, a wrapped size, misread padded rows and an accepted NaN range."
  },
  {
   "property": "C42",
   "status": "partial",
   "theorems": [
    "VGT.C42_only_fills",
    "VGT.C42_triangle_only_fills",
    "VGT.C42_order_and_schedule_independent",
    "VGT.C42_has_outcome",
    "VGT.C42_idempotent",
    "VGT.C42_triangle_by_triangle",
    "VGT.C42_no_enforcement_no_throw",
    "VGT.C42_bad_vertex_throws",
    "VGT.C42_uninitialized_throws",
    "VGT.C42_contained_never_throws",
    "VGT.C42_into_new_map",
    "VGT.C42_bad_resolution_throws",
    "VGT.C42_outside_throws_partial",
    "VGT.C42_outside_not_noticed"
   ],
   "note": "Only filling, idempotence, independence of order, split and interleaving, no exception without enforcement or for contained meshes: proved for every mesh and map. The clause that an outside triangle throws under enforcement holds only for outside cells whose centre projects onto the triangle; in general it is false (C42_outside_not_noticed), a consequence of the wrong comparison in CalcClosestPointOnTriangle."
  },
  {
   "property": "C43",
   "status": "partial",
   "theorems": [
    "VGT.C43_closest_point_partial",
    "VGT.C43_edge_candidates",
    "VGT.C43_only_near_cells",
    "VGT.C43_partial",
    "VGT.C43_repaired_closest_point",
    "VGT.C43_repaired_fills_every_cell",
    "VGT.C43_not_the_closest",
    "VGT.C43_misses_cells",
    "VGT.C43_rotated_map_stays_empty"
   ],
   "note": "The code compares the edge candidates by their distance to the origin instead of to the query point, so cells a triangle passes through can stay empty; and it derives the visited cells from world-frame corners, so rotated maps can stay empty. Both are proved with concrete witnesses. Proved: the statement for cells whose centre projects onto the triangle, soundness (nothing far is filled), and the full statement for the repaired comparison in maps without rotation. Exact arithmetic."
  },
  {
   "property": "C44",
   "status": "partial",
   "theorems": [
    "VGT.Props.C44_grid_export",
    "VGT.Props.C44_display",
    "VGT.Props.C44_separate_display",
    "VGT.Props.C44_indices",
    "VGT.Props.C44_index_map",
    "VGT.Props.C44_chunks",
    "VGT.Props.C44_surface_cells_shown_partial",
    "VGT.Props.C44_surface_export_shows_all",
    "VGT.Props.C44_interior_cell_shown",
    "VGT.Props.C44_repaired_surface_export",
    "VGT.Props.C44_color_map_ignored",
    "VGT.Props.C44_no_color_map_shows_nothing",
    "VGT.Props.C44_repaired_objects",
    "VGT.Props.C44_components",
    "VGT.Props.C44_segment",
    "VGT.Props.C44_sdf",
    "VGT.Props.C44_sdf_roundings",
    "VGT.Props.C44_infinite_field_has_nan_color",
    "VGT.Props.C44_sdf_collision_float",
    "VGT.Props.C44_tiny_distance_shown_as_collision",
    "VGT.Props.C44_object_surfaces_show_all",
    "VGT.Props.C44_repaired_object_surfaces",
    "VGT.Props.C44_indices_display",
    "VGT.Props.C44_index_map_display",
    "VGT.Props.C44_hashed_separate_display",
    "VGT.Props.C44_separate_surfaces_show_all"
   ],
   "note": "The exporter itself shows exactly the cells whose colour has positive alpha, in scan order. The code violates the two other clauses: surface exports show every cell (the condition tests whether IsSurfaceIndex has an answer, not the answer) and a supplied object colour map is never used. Both are proved as negative theorems; the one-line repairs are proved right."
  },
  {
   "property": "C45",
   "status": "proved",
   "theorems": [
    "VGT.C45_spatial_segments"
   ],
   "note": "the extrema map enters as arbitrary finiteness and symmetric nearness predicates"
  },
  {
   "property": "C46",
   "status": "partial",
   "theorems": [
    "VGT.C46_options_valid_partial",
    "VGT.C46_nan_accepted"
   ],
   "note": "Proved for all non-NaN percentages; NaN is accepted by the constructor (witness proved)."
  },
  {
   "property": "C47",
   "status": "partial",
   "theorems": [
    "VGT.C47_addresses_partial",
    "VGT.C47_cuda_raycast_addresses",
    "VGT.C47_cuda_filter_out_of_bounds",
    "VGT.C47_opencl_out_of_bounds"
   ],
   "note": "Proved for buffers below 2^31 counters; false beyond (witnesses: 1024x1024x512 cells, three cameras)."
  },
  {
   "property": "C48",
   "status": "partial",
   "theorems": [
    "VGT.C48_hit_is_recorded_partial",
    "VGT.C48_flat_ray_lost"
   ],
   "note": "Missing: rays from outside flatter than 1e-10 along an axis on which the sensor is outside (witness proved). With rounding, for sensors outside the grid: C74, C76."
  },
  {
   "property": "C49",
   "status": "proved",
   "theorems": [
    "VGT.C49_counters_exact",
    "VGT.C49_voxelization_is_defined"
   ],
   "note": "Definedness needs ranges >= 0 and no point exactly at a sensor outside the grid (C36)."
  },
  {
   "property": "C50",
   "status": "proved",
   "theorems": [
    "VGT.C50_measured_obstacle_is_filled"
   ],
   "note": ""
  },
  {
   "property": "C51",
   "status": "proved",
   "theorems": [
    "VGT.C51_filled_only_if_measured",
    "VGT.C51_free_only_if_seen_through"
   ],
   "note": ""
  },
  {
   "property": "C52",
   "status": "proved",
   "theorems": [
    "VGT.C52_flat_wall_exact"
   ],
   "note": "End to end: SDF generation in any thread schedule, then interpolation, with double rounding of the squared distances, exact square root."
  },
  {
   "property": "C53",
   "status": "partial",
   "theorems": [
    "VGT.C53_projection_terminates_partial",
    "VGT.C53_can_loop_forever",
    "VGT.C53_corridors_loop_forever"
   ],
   "note": "False in general: the loop never ends in any corridor of even width when more clearance is requested than the estimate has in the middle (C53_corridors_loop_forever: every such generated field). Proved when a step along a usable gradient raises the estimate by a fixed share of the step length; for flat walls see C63."
  },
  {
   "property": "C54",
   "status": "partial",
   "theorems": [
    "VGT.C54_translation_invariant_partial",
    "VGT.C54_extrema_depend_on_pose"
   ],
   "note": "False: gradients in world frame are applied to grid axes. Witness: a 90 degree turn about z. Proved: independent of the translation."
  },
  {
   "property": "C55",
   "status": "proved",
   "theorems": [
    "VGT.C55_static_surface",
    "VGT.C55_dynamic_surface",
    "VGT.C55_dynamic_of_static",
    "VGT.C55_static_of_dynamic",
    "VGT.C55_surface_index_map",
    "VGT.C55_component_surface",
    "VGT.C55_other_values_dropped"
   ],
   "note": "All map contents and all iteration orders; entries with a value other than 1 are dropped, which extracted surfaces do not have (C55_component_surface)."
  },
  {
   "property": "C56",
   "status": "proved",
   "theorems": [
    "VGT.C56_any_arithmetic",
    "VGT.C56_undefined_only_by_conversion",
    "VGT.C56_sensor_in_grid",
    "VGT.C56_exact",
    "VGT.C56_device_within_reach",
    "VGT.C56_cpu_within_reach",
    "VGT.C56_device_loses_free_cells",
    "VGT.C56_far_point_undefined_on_device",
    "VGT.C56_cut_ray_defined",
    "VGT.C56_device_cut",
    "VGT.C56_cpu_cut"
   ],
   "note": "Arithmetic is a structure with arbitrary operations, so the safety statement needs no assumption on rounding; the definedness bounds assume correct rounding. CPU and devices do not mark the same cells: two witnesses."
  },
  {
   "property": "C57",
   "status": "partial",
   "theorems": [
    "VGT.C57_counters_exact",
    "VGT.C57_device_voxelizer",
    "VGT.C57_one_result",
    "VGT.C57_device_decision",
    "VGT.C57_device_keeps_filled",
    "VGT.C57_device_defined",
    "VGT.C57_devices_equal_cpu_partial",
    "VGT.C57_device_misses_free_cell",
    "VGT.C57_large_clouds_undefined"
   ],
   "note": "Proved for any arithmetic, every interleaving and both APIs, for buffers below 2^31 counters (C47) and clouds of at most 2^24 points where float enters the decision. Equality with the CPU holds in exact arithmetic only; with float rays a witness shows different results, and clouds of more than 715827882 points are undefined behaviour. What the float voxelization does in terms of true positions is C76."
  },
  {
   "property": "C58",
   "status": "proved",
   "theorems": [
    "VGT.C58_distance_to_filled",
    "VGT.C58_clear_ball",
    "VGT.C58_clear_ball_everywhere",
    "VGT.C58_not_pessimistic",
    "VGT.C58_generated_exists",
    "VGT.C58_overestimates"
   ],
   "note": "Margins are part of the property; C58_overestimates shows that a margin is needed. Exact arithmetic after the distance transform (the transform itself is exact in double, C01)."
  },
  {
   "property": "C59",
   "status": "proved",
   "theorems": [
    "VGT.C59_lipschitz_axes",
    "VGT.C59_lipschitz",
    "VGT.C59_lipschitz_everywhere",
    "VGT.C59_fine_gradient_bounded",
    "VGT.C59_not_one_lipschitz"
   ],
   "note": "Exact arithmetic after the distance transform."
  },
  {
   "property": "C60",
   "status": "proved",
   "theorems": [
    "VGT.C60_formula",
    "VGT.C60_generated",
    "VGT.C60_wall_gradient_too_long"
   ],
   "note": "Exact arithmetic after the distance transform."
  },
  {
   "property": "C61",
   "status": "proved",
   "theorems": [
    "VGT.C61_rejected",
    "VGT.C61_cloud_adds",
    "VGT.C61_cloud_order",
    "VGT.C61_cloud_split",
    "VGT.C61_points_one_by_one",
    "VGT.C61_steps_make_the_whole",
    "VGT.C61_cameras_need_own_grids",
    "VGT.C61_counters_wrap",
    "VGT.C61_pose_not_compared"
   ],
   "note": "Exact arithmetic; all thread counts, work splits and interleavings. The last three theorems show the limits: cameras need their own grids, counters wrap at 2^31, and poses are compared neither by CombineAndFilterGrids nor by VoxelizePointClouds."
  },
  {
   "property": "C62",
   "status": "partial",
   "theorems": [
    "VGT.C62_estimate",
    "VGT.C62_coarse",
    "VGT.C62_fine",
    "VGT.C62_generated",
    "VGT.C62_projection_partial",
    "VGT.C62_extrema_partial",
    "VGT.C62_large_numbers_never_project",
    "VGT.C62_large_numbers_all_extrema",
    "VGT.C62_projection_depends_on_unit",
    "VGT.C62_extrema_depend_on_unit"
   ],
   "note": "Proved for distances, gradients and generation. False for projections and extrema: the code compares gradients, which have no unit, with a fraction of the resolution; with a resolution of 14 or more no projection on a generated field is ever attempted, with 58 or more every cell is its own extremum. The partial theorems assume that all gradients are on the same side of the thresholds in both units. Exact arithmetic."
  },
  {
   "property": "C63",
   "status": "proved",
   "theorems": [
    "VGT.C63_wall_projection",
    "VGT.C63_wall_throws",
    "VGT.C63_wall_exact",
    "VGT.C63_steps_exist"
   ],
   "note": "Generated fields in exact arithmetic after the distance transform; the edge length must be below 4 (see C62). C63_wall_exact gives the place reached in every case, and says when the call throws instead."
  },
  {
   "property": "C64",
   "status": "proved",
   "theorems": [
    "VGT.C64_retrieved_counts",
    "VGT.C64_no_such_camera"
   ],
   "note": "Any arithmetic, any interleaving of all kernels, CUDA also beyond the buffers its filter kernel can address. The copy functions of the device run-times are trusted."
  },
  {
   "property": "C65",
   "status": "proved",
   "theorems": [
    "VGT.C65_estimate",
    "VGT.C65_coarse",
    "VGT.C65_coarse_at",
    "VGT.C65_fine",
    "VGT.C65_project",
    "VGT.C65_extrema",
    "VGT.C65_exact_estimate",
    "VGT.C65_exact_coarse",
    "VGT.C65_exact_coarse_at",
    "VGT.C65_exact_project",
    "VGT.C65_exact_extrema",
    "VGT.C65_fine_undefined_iff",
    "VGT.C65_project_outcome"
   ],
   "note": "Every floating-point operation is left open. The C65_exact theorems show that exact arithmetic gives the model the other query properties are about. Not covered by those: the fine gradient (0/0 is a separate outcome in the exact model)."
  },
  {
   "property": "C66",
   "status": "partial",
   "theorems": [
    "VGT.C66_empty_map_partial",
    "VGT.C66_full_map_projection",
    "VGT.C66_projection_returns_start",
    "VGT.C66_estimate_nan",
    "VGT.C66_gradient_nan",
    "VGT.C66_every_cell_an_extremum",
    "VGT.nanOfEqual_trilinear",
    "VGT.nanOfEqual_bilinear"
   ],
   "note": "The code violates the property: estimates and gradients are NaN in such fields, and projection returns the start location as clear even if the map is completely filled. Only the projection in an empty map is right. The interpolation formula is CRU code; both usual formulas give NaN."
  },
  {
   "property": "C67",
   "status": "proved",
   "theorems": [
    "VGT.C67_estimate_accuracy",
    "VGT.C67_estimate_accuracy_bilinear",
    "VGT.C67_estimate_defined",
    "VGT.C67_double_accuracy",
    "VGT.C67_double_accuracy_bilinear",
    "VGT.C67_clear_ball",
    "VGT.C67_clear_ball_inside"
   ],
   "note": "Relative to the exact estimate at the location whose grid-frame coordinates are the computed ones; the error of the product with the inverse origin transform enters C67_clear_ball as a distance. Numbers do not overflow; the stored distances are the exact starting point."
  },
  {
   "property": "C68",
   "status": "proved",
   "theorems": [
    "VGT.C68_clear_ball_float",
    "VGT.C68_clear_ball_inside_float",
    "VGT.C68_clear_ball_double",
    "VGT.C68_projection_clear_float",
    "VGT.C68_obstacle_near_float",
    "VGT.C68_generated_exists",
    "VGT.C68_clear_ball_inside_double",
    "VGT.C68_obstacle_near_double",
    "VGT.C68_projection_clear_double"
   ],
   "note": "End to end for binary64 generation with binary32/binary64 storage and binary64 queries; the error of the computed grid-frame coordinates (product with the inverse origin transform) enters as the distance between two points. Overflow does not occur in the stated ranges for grids below 2^26 cells along an axis. C68_obstacle_near_float and C68_obstacle_near_double are the other direction: away from obstacles the answer is not too small."
  },
  {
   "property": "C69",
   "status": "proved",
   "theorems": [
    "VGT.C69_only_fills",
    "VGT.C69_only_in_the_box",
    "VGT.C69_order_and_schedule_independent",
    "VGT.C69_has_outcome",
    "VGT.C69_no_enforcement_no_throw",
    "VGT.C69_idempotent",
    "VGT.C69_single_triangle",
    "VGT.C69_exact_triangle",
    "VGT.C69_exact",
    "VGT.C69_into_new_map_rounded",
    "VGT.C69_into_new_map_double",
    "VGT.C69_far_mesh_throws",
    "VGT.C69_ieee_operations"
   ],
   "note": "Every floating-point operation is left open, so the safety part holds for NaN and infinities too. In exact arithmetic the open model equals the model of C42/C43. New maps: proved for every monotone rounding with small errors and for double within 2^48 cells of the origin; C69_far_mesh_throws shows that a bound is needed."
  },
  {
   "property": "C70",
   "status": "partial",
   "theorems": [
    "VGT.C70_unit_independent",
    "VGT.C70_corner_order_partial",
    "VGT.C70_order_matters",
    "VGT.C70_origin_matters",
    "VGT.C70_repaired_coordinates",
    "VGT.C70_repaired_hit_iff",
    "VGT.C70_repaired_corner_order"
   ],
   "note": "The unit of length is proved irrelevant. The order of the corners is irrelevant without ties only, and the place of the origin matters: edge candidates are compared by their distance to the world's origin. Both counterexamples are proved, and both symmetries are proved for the corrected comparison."
  },
  {
   "property": "C71",
   "status": "partial",
   "theorems": [
    "VGT.C71_degenerate_partial",
    "VGT.C71_degenerate_fills_its_box",
    "VGT.C71_diagonal_fills_plate",
    "VGT.C71_nan_first_vertex",
    "VGT.C71_nan_second_vertex",
    "VGT.C71_nan_third_vertex"
   ],
   "note": "A triangle on a line covers its cells but fills its whole bounding box. NaN in the first corner is undefined behaviour (conversion to an index); in the second the opposite edge is filled, in the third nothing is, both without an error."
  },
  {
   "property": "C72",
   "status": "proved",
   "theorems": [
    "VGT.C72_sensor_in_grid",
    "VGT.C72_clipped_ray",
    "VGT.C72_double",
    "VGT.C72_double_clipped",
    "VGT.C72_float",
    "VGT.gridWith_double",
    "VGT.gridWith_device",
    "VGT.C72_float_clipped"
   ],
   "note": "General theorems for every rounding with relative error u and absolute error eta, instances for double and float. The tolerance is 33 E, where E bounds the error of the walk: u n^2 s in the plain case, u N^2 s / 2 + 3 u n s with N cells along an axis and coordinates of up to n cells. The segment of a cut ray ends at the share range/len of the way, len being the computed length, whatever it is."
  },
  {
   "property": "C73",
   "status": "partial",
   "theorems": [
    "VGT.C73_sensor_outside_partial",
    "VGT.C73_clipped_partial",
    "VGT.C73_double_partial",
    "VGT.C73_deep_cells_partial",
    "VGT.C73_deep_cells_clipped_partial",
    "VGT.C73_double_deep_cells_partial",
    "VGT.C73_steep_partial",
    "VGT.C73_double_steep_partial",
    "VGT.C73_grazing_ray_lost",
    "VGT.C73_steep_clipped_partial"
   ],
   "note": "Only near cells are marked: proved without conditions on computed values as part of C74_free_is_seen_or_short (rays that do not end before the grid), and here for the part of the segment behind the computed entry distance T, when the computed entry cell is in the grid and T lies before the end of the ray. All deep cells are marked: proved from the sensor on when the computed entry cell is in the grid (C73_deep_cells_partial), and without any condition on computed values for rays that are not almost parallel to a face they come through (C73_steep_partial). Without such a condition the statement is false, also in double (C73_grazing_ray_lost); rays whose entry lies behind their end are lost or misplaced by C37."
  },
  {
   "property": "C74",
   "status": "partial",
   "theorems": [
    "VGT.C74_counters_exact",
    "VGT.C74_decision",
    "VGT.C74_keeps_filled",
    "VGT.C74_one_result",
    "VGT.C74_defined",
    "VGT.C74_has_result",
    "VGT.C74_filled_only_if_measured",
    "VGT.C74_measured_obstacle_is_filled",
    "VGT.C74_filled_is_real",
    "VGT.C74_obstacle_is_filled",
    "VGT.C74_free_is_seen_partial",
    "VGT.C74_obstacle_is_filled_partial",
    "VGT.C74_seen_is_free_partial",
    "VGT.C74_double_filled_is_real",
    "VGT.C74_double_obstacle_is_filled",
    "VGT.C74_double_has_result",
    "VGT.C74_double_free_is_seen_partial",
    "VGT.C74_double_obstacle_is_filled_partial",
    "VGT.C74_double_seen_is_free_partial",
    "VGT.C74_free_behind_the_obstacle",
    "VGT.C74_free_is_seen_or_short",
    "VGT.C74_free_is_seen_outside_partial",
    "VGT.C74_seen_is_free_outside_partial",
    "VGT.C74_double_free_is_seen_or_short",
    "VGT.C74_double_free_is_seen_outside_partial",
    "VGT.C74_double_seen_is_free_outside_partial",
    "VGT.C74_double_obstacle_anywhere"
   ],
   "note": "Proved: one result for all threads and interleavings, exact counters, the decision, when a result exists (C74_defined; for sensors in the grid C74_double_has_result, for sensors anywhere C84); filled cells are real and obstacles are filled for sensors anywhere, up to an explicit tolerance; free cells were looked through, for sensors in the grid, and for sensors outside of it if the ray does not end before the grid (C74_free_is_seen_or_short: one or the other); what is looked through becomes free, for sensors in the grid, and for sensors outside of it along rays that are not almost parallel to a face. The code does not have the rest: C74_free_behind_the_obstacle, C73_grazing_ray_lost."
  },
  {
   "property": "C75",
   "status": "partial",
   "theorems": [
    "VGT.C75_cached_segments_partial",
    "VGT.C75_other_parameters_ignored"
   ],
   "note": "Proved: valid segments belong to the current cells and to the parameters of some call in the history. The code does not have the rest: threshold and parameters are not part of the cache key (C75_other_parameters_ignored)."
  },
  {
   "property": "C76",
   "status": "partial",
   "theorems": [
    "VGT.C76_filled_is_real",
    "VGT.C76_free_is_seen_partial",
    "VGT.C76_obstacle_is_filled_partial",
    "VGT.C76_obstacle_is_filled",
    "VGT.C76_seen_is_free_partial",
    "VGT.C76_has_result",
    "VGT.C76_float_filled_is_real",
    "VGT.C76_float_free_is_seen_partial",
    "VGT.C76_float_obstacle_is_filled_partial",
    "VGT.C76_float_obstacle_is_filled",
    "VGT.C76_float_seen_is_free_partial",
    "VGT.C76_float_has_result",
    "VGT.C76_free_is_seen_or_short",
    "VGT.C76_float_free_is_seen_or_short",
    "VGT.C76_float_free_is_seen_outside_partial",
    "VGT.C76_free_behind_the_obstacle",
    "VGT.C76_float_obstacle_anywhere"
   ],
   "note": "Filled cells are real for sensors anywhere; obstacles are filled for sensors anywhere (outside of the grid if deeper than a larger tolerance: C76_float_obstacle_is_filled up to 620 cells from the origin, C76_float_obstacle_anywhere beyond); free cells were looked through for sensors in the grid, and for sensors outside of it (within 620 cells) if the ray does not end before the grid; what is looked through becomes free for sensors in the grid; there is a result for sensors in the grid, for sensors anywhere see C84. The rest does not hold for the code: C76_free_behind_the_obstacle, C57_device_misses_free_cell. Assumes float operations without contraction and a correctly rounded root; the rounding of the product of the two poses is C78."
  },
  {
   "property": "C77",
   "status": "proved",
   "theorems": [
    "VGT.C77_point_kept",
    "VGT.C77_point_kept_partial",
    "VGT.C77_device_point_kept",
    "VGT.C77_device_point_kept_partial",
    "VGT.C77_double_clearance",
    "VGT.C77_double_clearance_partial",
    "VGT.C77_double_measured",
    "VGT.C77_float_clearance",
    "VGT.C77_float_clearance_partial",
    "VGT.C77_float_measured",
    "VGT.C77_field_exists",
    "VGT.C77_answer_exists",
    "VGT.C77_double_kept_anywhere",
    "VGT.C77_float_kept_anywhere",
    "VGT.C77_double_clearance_anywhere",
    "VGT.C77_float_clearance_anywhere"
   ],
   "note": "Both directions on the CPU and on devices, for sensors anywhere (`_anywhere`; the forms without it have smaller tolerances but a bound on how far away sensors are, the `_partial` forms those of sensors in the grid). Points nearer to a face of the grid or to the range than the tolerance may be dropped by rounding. Percentage 1 and threshold 1 in the clearance direction, since other filters drop measured points by design. The edge of a cell is a double; the error of the computed grid-frame coordinates of the location enters as the distance of two points (bounded in C83); the pose of a cloud is given in the frame of the grid (for the frame of the world see C78). That voxelization has a result is C84."
  },
  {
   "property": "C78",
   "status": "partial",
   "theorems": [
    "VGT.C78_filled_is_real",
    "VGT.C78_obstacle_is_filled",
    "VGT.C78_free_is_seen_or_short",
    "VGT.C78_seen_is_free_partial",
    "VGT.C78_has_result",
    "VGT.C78_device_filled_is_real",
    "VGT.C78_device_obstacle_is_filled",
    "VGT.C78_device_free_is_seen_or_short",
    "VGT.C78_device_seen_is_free_partial",
    "VGT.C78_device_has_result",
    "VGT.C78_clearance",
    "VGT.C78_measured",
    "VGT.C78_device_clearance",
    "VGT.C78_device_measured",
    "VGT.C78_obstacle_anywhere",
    "VGT.C78_clearance_anywhere",
    "VGT.C78_device_obstacle_anywhere",
    "VGT.C78_device_clearance_anywhere"
   ],
   "note": "Missing: what is looked through from sensors outside the grid becomes free, which does not hold (C73_grazing_ray_lost, C57_device_misses_free_cell); free cells were looked through on devices, for sensors outside the grid further than 620 cells from its origin. The distance between the place of a point and the place that the stored poses of the grid, of which one should be the inverse of the other, give it enters the clearance bounds (bounded in C83). Eigen products are taken without contraction."
  },
  {
   "property": "C79",
   "status": "proved",
   "theorems": [
    "VGT.C79_coarse_float",
    "VGT.C79_coarse_double",
    "VGT.C79_slopes",
    "VGT.C79_coarse_world",
    "VGT.C79_fine_float",
    "VGT.C79_fine_double",
    "VGT.C79_fine_bounded_float",
    "VGT.C79_fine_bounded_double",
    "VGT.C79_window_lost",
    "VGT.C79_tiny_window"
   ],
   "note": "Against the field generated exactly from the same occupancy. The error of the transform of a location into the frame of the grid is a parameter. With one neighbour outside the grid only the size of the fine gradient is bounded."
  },
  {
   "property": "C80",
   "status": "proved",
   "theorems": [
    "VGT.C80_small_triangles_fill",
    "VGT.C80_enforced",
    "VGT.C80_enforced_somewhere",
    "VGT.C80_only_near",
    "VGT.C80_small_triangles_only_near",
    "VGT.C80_fine_mesh_double",
    "VGT.C80_new_map_shifted",
    "VGT.C80_new_map_double",
    "VGT.C80_corner_lost"
   ],
   "note": "The stated bounds are proved, for every rounding with small relative errors and for double. They say nothing about cells whose centre is farther from the surface than half the diagonal minus D, so nothing about triangles larger than that; C43_misses_cells shows that these can miss cells, C80_corner_lost that points near corners of cells can be lost at every size. Squares of normals must be zero or between 2^-900 and 2^900. Rotated maps are excluded (C43_rotated_map_stays_empty)."
  },
  {
   "property": "C81",
   "status": "proved",
   "theorems": [
    "VGT.C81_clearance",
    "VGT.C81_clearance_inside",
    "VGT.C81_surface_near",
    "VGT.C81_new_map",
    "VGT.C81_field_exists",
    "VGT.C81_answer_exists"
   ],
   "note": "Combines C80 (which cells are filled) and the bounds of C68 (what the answers of a field say), for both scalar types. The map and the field are without rotation and the field has the exact translation of the map; the error of transforming the location enters as the distance between two places. Surface points near corners of cells have no bound of their own, only that of a point next to them; C80_corner_lost shows that some such condition is needed. The upper bound needs a field without virtual border."
  },
  {
   "property": "C82",
   "status": "proved",
   "theorems": [
    "VGT.C82_objects_float",
    "VGT.C82_objects_double",
    "VGT.C82_least_object_distance",
    "VGT.C82_unnamed_obstacle_missed",
    "VGT.C82_named_clear_ball",
    "VGT.C82_named_float",
    "VGT.C82_named_double",
    "VGT.C82_all_named"
   ],
   "note": "The field of chosen objects and the field of free space and named objects as bounds on clearance, in machine arithmetic; how the separate fields and the whole field are related. The error dist3 q q' of the location in the frame of the grid is a parameter, as in C68."
  },
  {
   "property": "C83",
   "status": "proved",
   "theorems": [
    "VGT.C83_coordinate_error",
    "VGT.C83_location_error",
    "VGT.C83_stored_inverse",
    "VGT.C83_answer_exists",
    "VGT.C83_clear_ball",
    "VGT.C83_clear_ball_inside",
    "VGT.C83_projection_clear",
    "VGT.C83_named_clear",
    "VGT.C83_mesh_place",
    "VGT.C83_mesh_clearance",
    "VGT.C83_located",
    "VGT.C83_stored_place",
    "VGT.C83_world_clearance",
    "VGT.C83_world_measured",
    "VGT.C83_world_device_clearance",
    "VGT.C83_world_device_measured",
    "VGT.C83_world_clearance_anywhere",
    "VGT.C83_world_device_clearance_anywhere"
   ],
   "note": "The inverse of an Eigen isometry (transposed rotation, computed translation) and its product with a location are trusted to be sums of products, in any order and with or without fused operations; rounding is IEEE double without overflow. C83_located discharges what the theorems on fine gradients (C79) assume of the transform. In the theorems on cameras the product of the two poses is that of C78 (without fused operations). Not covered: the rounding of the pose a user computes before storing it, other than as δ and as the choice of the true pose; the stored translation is taken as true."
  },
  {
   "property": "C84",
   "status": "proved",
   "theorems": [
    "VGT.C84_ray_defined",
    "VGT.C84_double_has_result",
    "VGT.C84_float_has_result",
    "VGT.C84_world_has_result",
    "VGT.C84_world_float_has_result",
    "VGT.C84_device_undefined",
    "VGT.C84_point_at_sensor"
   ],
   "note": "The two negative theorems show that the conditions cannot be dropped. Devices: float operations without contraction and a correctly rounded root. A conversion out of range counts as undefined in the model; OpenCL leaves its value open and CUDA saturates, after which the difference of two indices can overflow."
  },
  {
   "property": "C85",
   "status": "proved",
   "theorems": [
    "VGT.C85_obstacle_is_filled",
    "VGT.C85_filled_is_real",
    "VGT.C85_point_kept",
    "VGT.C85_clearance",
    "VGT.C85_device_obstacle_is_filled",
    "VGT.C85_device_filled_is_real",
    "VGT.C85_device_point_kept",
    "VGT.C85_device_clearance",
    "VGT.fusedDouble_accurate",
    "VGT.fastFloat_accurate",
    "VGT.fairShare_rough",
    "VGT.fairShare_float",
    "VGT.fastDeviceRuns_float",
    "VGT.fast_defined"
   ],
   "note": "C85 is about what is filled. That free cells were looked through is C89; that a result exists is C88. Reordering of additions (allowed by -cl-unsafe-math-optimizations) is not covered. fastDeviceRuns_float: with IEEE division the device model of C85 is that of C76."
  },
  {
   "property": "C86",
   "status": "proved",
   "theorems": [
    "VGT.C86_clear_ball_float",
    "VGT.C86_clear_ball_inside_float",
    "VGT.C86_clear_ball_double",
    "VGT.C86_projection_clear_float",
    "VGT.C86_estimate_defined",
    "VGT.C86_clear_ball_fused",
    "VGT.C86_clearance",
    "VGT.C86_device_clearance",
    "VGT.C86_answer_exists",
    "VGT.C86_clear_ball_world",
    "VGT.C86_answer_exists_world",
    "VGT.C86_projection_clear_world"
   ],
   "note": "FairQuery says what is assumed of the arithmetic; fusedQuery_fair and roundedQuery_fair show that fused and IEEE arithmetic meet it. Numbers have no limits, so overflow is not covered, and the order of operations is that of the source. The field is the generated one of C01: fusing does not change it, because squared distances are exact integers and one of the two products whose difference is taken is zero. C86_clear_ball_world and C86_answer_exists_world include the transform of the location (C83), with fused operations in any order."
  },
  {
   "property": "C87",
   "status": "proved",
   "theorems": [
    "VGT.C87_obstacle_is_filled",
    "VGT.C87_filled_is_real",
    "VGT.C87_device_obstacle_is_filled",
    "VGT.C87_device_filled_is_real",
    "VGT.C87_clearance",
    "VGT.C87_device_clearance",
    "VGT.WorldGiven.given",
    "VGT.worldRoom_double",
    "VGT.worldRoom_float",
    "VGT.C87_projection",
    "VGT.C87_device_projection"
   ],
   "note": "Poses are multiplied in double by any order of additions and with or without fused operations (PoseRuns); what follows is any arithmetic of C85 and C86, with the additions in the order of the source. WorldGiven.given bounds the error of the multiplied pose. The pose of the grid is stored with the error delta of C83. As in C85, that free cells were looked through is not part of it; that a result exists is C88."
  },
  {
   "property": "C88",
   "status": "proved",
   "theorems": [
    "VGT.C88_has_result",
    "VGT.C88_device_has_result",
    "VGT.C88_world_has_result",
    "VGT.C88_device_world_has_result",
    "VGT.C88_fused_double_has_result",
    "VGT.C88_fast_float_has_result"
   ],
   "note": "The conditions are those of C84 with other constants; C84_device_undefined and C84_point_at_sensor show for IEEE arithmetic that they cannot be dropped. The range must be stored as it is (not an unrounded product). Additions in the order of the source."
  },
  {
   "property": "C89",
   "status": "partial",
   "theorems": [
    "VGT.C89_free_is_seen_partial",
    "VGT.C89_seen_is_free_partial",
    "VGT.C89_device_free_is_seen_partial",
    "VGT.C89_device_seen_is_free_partial",
    "VGT.C89_fused_double_free_partial",
    "VGT.C89_fast_float_free_partial",
    "VGT.C89_world_free_is_seen_partial",
    "VGT.C89_world_seen_is_free_partial",
    "VGT.C89_device_world_free_is_seen_partial",
    "VGT.C89_device_world_seen_is_free_partial",
    "VGT.fused_walk",
    "VGT.fusedDouble_walk",
    "VGT.fastFloat_walk",
    "VGT.C89_free_is_seen_or_short",
    "VGT.C89_world_free_is_seen_or_short",
    "VGT.C89_device_free_is_seen_or_short",
    "VGT.C89_device_world_free_is_seen_or_short",
    "VGT.C89_fused_double_free_is_seen_or_short",
    "VGT.C89_fast_float_free_is_seen_or_short",
    "VGT.fusedDouble_tiny",
    "VGT.fastFloat_tiny"
   ],
   "note": "Proved for sensors in the grid, in both directions, on the CPU and on devices, also for cameras in the frame of the world (product of poses as in C87). For sensors anywhere (the *_or_short theorems) free cells are within 50 u N^2 e + 300 u N e + 4000 u B of a measured segment, or some measured segment of that camera does not lead into the grid by 3000 u B + 1e-9; this exception is needed, since the code marks cells behind points that lie before the grid already with IEEE arithmetic (C74_free_behind_the_obstacle, C76_free_behind_the_obstacle). Missing: that cells looked through become free for sensors outside the grid, which does not hold for the code (C73_grazing_ray_lost, C57_device_misses_free_cell). Additions in the order of the source. The range must be stored as it is and not be zero."
  },
  {
   "property": "C90",
   "status": "proved",
   "theorems": [
    "VGT.C90_coarse",
    "VGT.C90_coarse_world",
    "VGT.C90_coarse_fused_float",
    "VGT.C90_coarse_fused_double",
    "VGT.fair_rotate",
    "VGT.fusedStored_step",
    "VGT.C79_slopes"
   ],
   "note": "The slopes are the specification SlopeUpTo of C79. The rotation is the sum of three products in the order of the source (fair_rotate); C90_coarse_world takes any rotation that is computed to within some bound. No overflow."
  },
  {
   "property": "C91",
   "status": "proved",
   "theorems": [
    "VGT.C91_fine",
    "VGT.C91_fine_fused_float",
    "VGT.C91_fine_fused_double",
    "VGT.fair_fine_defined",
    "VGT.fair_fine_bounded",
    "VGT.C91_located",
    "VGT.C91_fine_world_float",
    "VGT.C91_fine_world_double",
    "VGT.fair_fine_near",
    "VGT.C91_fine_near",
    "VGT.C91_fine_near_float",
    "VGT.C91_fine_near_double",
    "VGT.C91_fine_near_world_float",
    "VGT.C91_fine_near_world_double"
   ],
   "note": "In general the computed coordinates in the frame of the grid are given with an error bound (FairLocated); C91_located shows it for the inverse of a stored pose, computed and applied in any order with fused operations. No overflow. The bound 8 is that of C79: seven for the slope of the interpolated field (four times the root of three) and one for rounding. The C91_fine_near theorems compare with the gradient of an exactly generated field, with both neighbours in the grid along every axis and a margin for errors; nearer to the border only the bound is proved."
  },
  {
   "property": "C92",
   "status": "proved",
   "theorems": [
    "VGT.C92_wall_normal_float",
    "VGT.C92_wall_normal_double",
    "VGT.C92_wall_normal_world_float",
    "VGT.C92_wall_normal_world_double",
    "VGT.C92_wall_normal_ieee_float",
    "VGT.C92_wall_normal_ieee_double",
    "VGT.wall_fine",
    "VGT.C92_wall_everywhere",
    "VGT.C92_wall_everywhere_float",
    "VGT.C92_wall_everywhere_double",
    "VGT.C92_wall_everywhere_world_float",
    "VGT.C92_wall_everywhere_world_double"
   ],
   "note": "wall_fine is the exact case; the others follow from it with C91 (fused operations) and C79 (IEEE operations). In the theorems that are not named world, the error of the coordinates in the frame of the grid is given; those named world take it from the stored pose. No overflow. Walls without a virtual border. The theorems named everywhere need no room in the grid: wherever a gradient is returned, with one-sided differences too, it is the normal; they follow from C93."
  },
  {
   "property": "C93",
   "status": "proved",
   "theorems": [
    "VGT.C93_wall_distance",
    "VGT.C93_wall_distance_float",
    "VGT.C93_wall_distance_double",
    "VGT.C93_wall_distance_world_float",
    "VGT.C93_wall_distance_world_double"
   ],
   "note": "Follows from the exact case (C52_flat_wall_exact) and the error of an estimate in any accurate arithmetic. In the theorems that are not named world, the coordinates in the frame of the grid are those computed. That there is an answer is C86_answer_exists_world. No overflow. Walls without a virtual border."
  },
  {
   "property": "C94",
   "status": "proved",
   "theorems": [
    "VGT.C94_continuous",
    "VGT.C94_continuous_float",
    "VGT.C94_continuous_double"
   ],
   "note": "The exact case is C59, which also shows that the constant 1 of a true distance does not hold. The constant root of three between the outermost centres is in C94_continuous, for computed coordinates; the theorems for locations in the world give the constant that holds everywhere. No overflow."
  }
 ]
}