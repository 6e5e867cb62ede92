# Formal model of voxelized_geometry_tools

Target: `/repo` (calderpg/voxelized_geometry_tools, C++). Language of the model: Lean 4.33.0, with single
Mathlib modules. All Lean code is in `lean/Verif/`. Nothing was compiled or run from `/repo`; the tie between
code and model is reading only, and every definition cites the file and lines it transcribes.

## Layout

| directory | contents |
|-----------|----------|
| `Verif/Model/` | transcription of the code, function by function, with citations |
| `Verif/Spec/` | small vocabulary in which the properties are stated; does not use the model's algorithms |
| `Verif/Lemmas/` | proofs about the model that are not properties themselves |
| `Verif/Props/` | the property theorems `Cnn_…`, each with an `example` that shows its hypotheses can be met |
| `Verif/Audit.lean` | `#print axioms` for every theorem named in `MANIFEST.json` |

`properties.jsonl` states the properties in words, `MANIFEST.json` says which theorems prove which property and what is
missing, `seeded/LOG.jsonl` records the seeded faults (see the end).

Naming: a theorem with the suffix `_partial` proves less than the property; its comment says what is missing. Theorems
without the suffix whose statement is a counterexample or a "fails if and only if" record a disagreement between the
code and the property. Theorems with `repaired` in the name are counterfactuals: they are about the model with the one
line changed that the comment names, and they show that this line is the whole reason of the disagreement.

## Trusted base

1. The Lean 4.33.0 kernel. Every property theorem depends at most on the axioms `propext`,
   `Classical.choice`, `Quot.sound` (printed by `Verif/Audit.lean`). No axiom, `sorry`, `native_decide`, `bv_decide`,
   `implemented_by` or `unsafe` is used. Concrete witnesses are evaluated with `decide +kernel`.
2. Faithfulness of the transcription (by reading).
3. Assumptions on code outside `/repo`, all from `common_robotics_utilities` (CRU), Eigen, zlib, the device runtimes and
   the C++ runtime:
   * a dense voxel grid is a total map from in-bounds indices to cells; `GetIndexImmutable` returns an empty
     query exactly out of bounds; `GetIndexMutable`/`SetIndex` first ask the virtual `OnMutableAccess` and do
     nothing / return empty if it answers false or if the index is out of bounds; raw access asks `OnMutableRawAccess`;
   * `OwningMaybe`/queries: `operator bool` is `HasValue`; `Value()` on an empty one throws;
   * `SerializeMemcpyable` writes the object's bytes, `SerializeString` and `SerializeVectorLike` a 64-bit length and then
     the elements; deserializers are the inverse and report the bytes read; `VoxelGridBase` serializes its own fields
     with the supplied cell serializer and then calls the derived hook. The format of those fields is a parameter of
     the theorems (any format that round trips); `C12_dense_base_round_trip` gives one concrete instance;
   * `CompressBytes`/`DecompressBytes` are inverse to each other;
   * `StaticParallelFor*Loop` runs every iteration exactly once, on one thread, with thread numbers below the
     configured degree, returns after all iterations finished, and rethrows an exception of an iteration;
   * `LocationInGridFrameToGridIndex` is the per-axis floor of coordinate / cell size, and
     `GridIndexToLocationInGridFrame` the cell centre (index + 1/2) * cell size;
   * `TrilinearInterpolate` is the usual formula without clamping; `ClampValue` clamps; `VectorRejection(base, v)` is `v`
     minus its projection on `base`, which is zero for a zero `base`; grid sizes made from lengths round the number of
     cells up; `LookupUniqueColor` and `InterpolateHotToCold` are arbitrary functions;
   * Eigen multiplies a pose and a point by adding products in a fixed order per coordinate (the order is stated at
     `cpuTransform`), and `norm()` is the square root of the sum of squares; theorems on accuracy in `double` assume that
     `std::sqrt` returns the rounded root (`IeeeSqrt`, a hypothesis);
   * the inverse of an `Eigen::Isometry3d` is the transposed linear part and the translation `-Rᵀ t`; its entries are sums of products in any
     order, with or without fused operations (C83); CRU computes it once when a grid is made; the product for the index of a location and the one
     for interpolation are assumed to give the same coordinates.
   * the CUDA and OpenCL runtimes run every work item once, atomic additions are atomic, commands of one queue or stream run
     in order, and buffers live until the kernels that use them have finished;
   * theorems in `float` on the device kernels (C56, C57, C72, C73, C76) assume that every operation of the kernel source is
     rounded once, by itself, to nearest. Compilers for devices may do otherwise: `nvcc` fuses a product and a sum into one
     operation unless told not to, and OpenCL allows less exact division and roots; the build files of `/repo` ask for
     `-use_fast_math` (CMakeLists.txt.ros1:138-140, CMakeLists.txt.ros2:111), the OpenCL helper for `-cl-unsafe-math-optimizations`
     (opencl_voxelization_helpers.cc:511-512), and `-march=native` lets a compiler fuse operations on the CPU
     (CMakeLists.txt.ros1:93-96, CMakeLists.txt.ros2:67-70). The theorems for an arbitrary arithmetic (C56, C57) do not depend on
     this; the numbers of C72 to C74, C76 to C78 and C84 do. C85 has what matters for safety, filled cells and clearance, for every
     arithmetic with small errors, fused operations and fast math among them, with the additions in the order of the source.
     C86 has the same for distance queries, with fused products and sums and without overflow, and for the way from measured
     points to answers; C87 adds the product of poses, in any order and with fused operations; that there is a result is C88; free cells are C89, in both directions for sensors in the grid; for sensors anywhere, that free cells were looked through or a ray of the camera ends before the grid (assumed: the constant 1e-10 is a number up to 1, `TinyGiven`, and room for the way to the grid, `FarRoom`). coarse gradients are C90 (assumed of differences of stored distances and of comparisons: `Spec/FairGradient`). Fine gradients are bounded by C91, which also compares them with the exact ones where both neighbours are in the grid (assumed of the magnitude of the window: that it is kept; of the computed coordinates: an error bound, `FairLocated`, shown for stored poses by `C91_located`); C92 and C93 are the case of a flat wall (C92 also where differences are one-sided, wherever a gradient is returned). C94 bounds the change of estimates between two locations. Theorems in `double` on queries other than C86 and C90–C94 (C67, C68, C79, C83) assume IEEE operations;
4. Numbers.
   * Integers are unbounded `Nat`/`Int` unless a property is about overflow. Overflow is modelled in: the filter
     decision (`int32_t` sum), access checks to point buffers (`int64_t`), device buffer addresses (`int32_t` and `size_t`),
     PointCloud2 sizes (`uint32_t`, `size_t`), component counters (ids are `uint32_t`; maps below 2^32 cells).
   * Squared distances in the distance transform, the colours of SDF displays and the filter percentages go through
     IEEE-754 round-to-nearest-even (`Model/IEEE.lean`, including subnormal numbers, without overflow to infinity), or
     through an arbitrary monotone rounding. NaN and the infinities are separate values (`Fl`, `Rl`), so that their absence is a
     theorem.
   * Interpolation, gradients, projection and mesh rasterization are written over an arbitrary linearly ordered field with
     floor and are exact: no rounding. Ray casting exists twice: exact, in the same way (`Raycast`), and with every
     floating-point operation left open (`RaycastFloat`), with IEEE `double` and `float` and exact arithmetic as instances;
     `C56_exact` connects the two. The open model covers the CPU function and both device kernels. Queries on fields also
     exist twice (`SDFQuery`, `SDFQueryFloat`), connected by `C65_exact_*`; the open one has products with transforms, norms
     and `TrilinearInterpolate` as unknown functions, and two formulas for the last one.
   * Signed zeros are not distinguished.
5. Undefined behaviour and exceptions are separate outcomes in the model where the code can reach them.

## What is modelled

| code in /repo | model | properties |
|---------------|-------|------------|
| `signed_distance_field_generation.cpp` (whole file) | `EDT`, `EDT3`, `Par` | C01, C02 |
| `signed_distance_field_generation.hpp` (whole file) | `SDFGen`, `Rl` | C01–C07, C52 |
| SDF extraction of the four map types (`*_map.hpp`) | `MapSDF`, `Cells` | C08, C09, C82 |
| `signed_distance_field.hpp`: lock, extrema, serialization | `Serial` | C10, C11 |
| `signed_distance_field.hpp`: estimates, gradients, projection, local extrema | `SDFQuery` | C15–C20, C52–C54, C58–C60, C62, C63 |
| the same functions, any arithmetic | `SDFQueryFloat` | C65–C68, C79, C86 |
| the stored inverse of a pose and its product with a location (used at `signed_distance_field.hpp:320-321`), rounded; the product of the poses of grid and camera, fused or not | `PoseFloat` | C83, C87 |
| cell and map serialization, files (`*_map.cpp`), messages (`ros_interface.cpp`) | `Serial` | C12–C14 |
| `topology_computation.hpp:59-196`, `UpdateConnectedComponents`, `UpdateSpatialSegments` | `Components`, `ComponentState` | C21–C26, C45, C75 |
| `topology_computation.hpp:198-670` | `Surface`, `Topology` | C27, C28 |
| `topology_computation.hpp:672-714` | `StaticSurface` | C55 |
| `IsSurfaceIndex`, `IsConnectedComponentSurfaceIndex`, `CheckIfCandidateCorner` | `Surface` | C28–C30 |
| `occupancy_map_conversions.cpp` | `Surface`, `Convert` | C31 |
| `pointcloud_voxelization_interface.hpp` | `Filter`, `Voxelize` | C32, C33, C39, C46 |
| `cpu_pointcloud_voxelization.cpp` | `Raycast`, `Filter`, `Voxelize` | C33–C38, C48–C51 |
| public members of `CpuPointCloudVoxelizer` (cpu_pointcloud_voxelization.cpp:67-131) | `CpuApi` | C61 |
| `device_pointcloud_voxelization.cpp`, filter kernels and addresses of the `.cu`/`.cc` helpers | `Filter`, `Voxelize`, `DeviceIndex` | C33, C35, C47 |
| ray casting of the CPU code and of both device kernels, any arithmetic | `RaycastFloat` | C56, C72, C73 |
| `DoVoxelizePointClouds` of the CPU code, any arithmetic | `VoxelizeFloat` | C74 |
| the product of the poses in both voxelizers, any arithmetic | `PoseProduct` | C78 |
| `device_pointcloud_voxelization.cpp` with both helpers, from end to end, tracking grids read back | `DeviceVoxelize` | C57, C64, C76 |
| the filter kernels with any division; arithmetic with fused operations | `DeviceFast`, `Fused`, `FusedQuery`, `FusedGradient`, `FusedLocation` | C85–C94 |
| `pointcloud_voxelization.cpp`, constructors of the voxelizers, device listing | `Backends` | C40 |
| `pointcloud_voxelization_ros_interface.{hpp,cpp}` | `PointCloud2` | C41 |
| `mesh_rasterizer.cpp` (whole file) | `Rasterize` | C42, C43, C70, C71 |
| the same, any arithmetic | `RasterizeFloat` | C69, C71, C80, C81 |
| display functions of `ros_interface.{hpp,cpp}` | `Export` | C44 |

## What is not modelled

* `cl.hpp` (third party), the tests, the examples, build files.
* Full accuracy under rounding. For ray casting, field queries and rasterization with rounding there are the safety properties
  C56, C65 and C69, for estimated distances also the size of the error (C67, C68), for new maps of meshes that they hold the
  mesh (C69); which cells a ray marks is proved with rounding up to a tolerance
  (C72, C73), and for the CPU also which cells a whole voxelization fills and frees, in words of the true positions of
  sensors and points (C74), and the same for devices with the conversion to `float` (C76); that there is a result for sensors anywhere is C84, without IEEE arithmetic C88; free cells without it are C89; obstacles
  and clearance hold for sensors anywhere, in the grid up to `doubleTol`/`floatTol`, outside of it up to `doubleFarTol`/`floatFarTol`, whose
  summand `(1 + B) / 10^8` comes from the absolute constants `1e-10` of the slab test; the chain from measured points over voxelization,
  extraction and queries to the distance of a location is C77, for cameras in the frame of the world C78; how accurate gradients are is C79 (fine gradients with a
  neighbour outside the grid only by a bound on their size); which cells a mesh fills is proved with rounding for small triangles in maps
  without rotation (C80), on to the answers of the field of such a map (C81), otherwise for exact arithmetic only.
* In C72 to C77 the pose of a cloud in the frame of the grid (`X_GC`) is an input. C78 adds the rounding of the product of two
  poses it comes from (`X_GW * X_WC`), whatever the order of additions in Eigen, without contraction to fused operations; C87 allows that too. The
  query model takes the transform into the frame of the grid as an unknown function; in C83 it is computed, with rounding, from the stored
  inverse of the pose, and that inverse (`X_GW` of the voxelizers) from the pose. What rounding a user does before storing a pose enters C83 as
  the distance `δ` of the stored rotation from a true one.
* Logging, timing, memory use, allocation failure, copying (`Clone`), locale and file system errors other than "no such
  file".
* The `DynamicSpatialHashed` map beyond serialization hook and display (its storage is CRU code).
* Marker headers, scales, poses, namespaces of the displays.
* The float/double convenience wrappers (`…Double`, `…Float`) that only fix a template parameter.

## Disagreements between code and properties

Each is a theorem about the model; the citation is the line to look at.

| what | where | theorems |
|------|-------|----------|
| neighbour above looked up at `Z() - 1`: topology throws `out_of_range` for solids thicker than one cell, or reports wrong numbers | topology_computation.hpp:388-391 | `C27_filled_map_throws`, `C27_wrong_numbers`; repaired: `C27_repaired_every_map` |
| voids that touch in edges make the hole formula negative and the result constructor throws | topology_computation.hpp:31-44, 631-642 | `C27_touching_voids_throw` |
| `OwningMaybe<bool>` used as condition: every cell of the requested type is extracted as surface | `ExtractComponentSurfaces` of both component maps | `C28_extracts_every_cell_of_type`, `C28_interior_cell_extracted` |
| the same in the surface displays | ros_interface.cpp:106-129 and siblings | `C44_surface_export_shows_all`, `C44_object_surfaces_show_all` |
| conversion of a surface map to a vector keeps value 1 only, everything else counts any value but 0 | topology_computation.hpp:674-690 | `C55_other_values_dropped` |
| inverted emptiness test: a supplied object colour map is never used, and without one nothing is shown | ros_interface.cpp:584 and siblings | `C44_color_map_ignored`, `C44_no_color_map_shows_nothing` |
| the fields of `MakeAllObjectSDFs` together miss obstacles without id: nearer ones are in none of the fields | tagged_object_occupancy_map.hpp:264-290 | `C82_unnamed_obstacle_missed`; with ids on all obstacles: `C82_least_object_distance` |
| infinite fields get NaN colours; `double` distances are tested after conversion to `float` | ros_interface.hpp:332-411 | `C44_infinite_field_has_nan_color`, `C44_tiny_distance_shown_as_collision` |
| mode of `UpdateConnectedComponents` is not part of the cache key | tagged_object_occupancy_component_map.cpp | `C25_mode_switch_returns_stale_answer` |
| threshold and parameters of `UpdateSpatialSegments` are not part of the cache key | tagged_object_occupancy_component_map.cpp:781-784 | `C75_other_parameters_ignored` |
| labelling through mutable access invalidates the other labelling | tagged_object_occupancy_component_map.cpp | `C26_updates_invalidate_each_other` |
| a reference kept across an update changes cells without clearing the flag; the same for the lock of a field | design of `OnMutableAccess` | `C24_stale_reference_breaks_flag`, `C10_stale_write_breaks` |
| empty fields and NaN make `GetMinimumMaximum`/`Lock` undefined | signed_distance_field.hpp:765-803 | `C10_min_max_defined_iff`, `C10_empty_lock_undefined` |
| the derived deserialization hook leaves an already locked object with old extrema | signed_distance_field.hpp:564-597 | `C11_read_into_locked_is_stale` |
| kinds that share a file header are accepted and misread | `*_map.cpp`, signed_distance_field.hpp | `C13_component_map_file_accepted`, `C13_component_map_file_misread`, `C13_double_sdf_file_accepted` |
| scalar type of uncompressed SDF messages is not checked | ros_interface.hpp | `C14_uncompressed_scalar_type_ignored` |
| estimates in the outer half cell extrapolate | signed_distance_field.hpp:278-380 | `C15_extrapolates` |
| fine gradient throws where both neighbours are outside, is 0/0 for a zero window, uses a window twice as wide as documented | signed_distance_field.hpp:214-258, 1051-1092 | `C18_throws_iff`, `C18_zero_window_nan`, `C18_window_is_doubled` |
| three-argument `ProjectedPosition` has w = 0 | signed_distance_field.hpp:140-141 | `C19_xyz_constructor_not_a_point` |
| projection throws at ridges and can loop forever | signed_distance_field.hpp:1137-1205 | `C19_can_throw`, `C53_can_loop_forever`, `C53_corridors_loop_forever` |
| a fine gradient window below the last place of a coordinate gives NaN without notice | signed_distance_field.hpp:214-255, 1051-1092 | `C79_window_lost`, `C79_tiny_window` |
| gradients (no unit) are compared with fractions of the resolution (a length): projections and extrema depend on the unit; at resolutions of 14 (58) and more they do nothing | signed_distance_field.hpp:482-497, 515, 1181 | `C62_large_numbers_never_project`, `C62_large_numbers_all_extrema` |
| fields of completely filled or empty maps: estimates are NaN, gradients are NaN, projection returns the start location as clear (also in a full map) | signed_distance_field.hpp:315-379, 1155-1203 | `C66_estimate_nan`, `C66_gradient_nan`, `C66_full_map_projection` |
| local extrema follow world-frame gradients on grid axes | signed_distance_field.hpp:499-541 | `C54_extrema_depend_on_pose` |
| `int32_t` sum of the counters overflows | pointcloud_voxelization_interface.hpp:55-92 | `C32_overflow_undefined` |
| CPU reads the output map and ignores the static one, device the other way round | cpu/device_pointcloud_voxelization.cpp | `C33_cpu_ignores_static_occupancy`, `C33_device_overwrites_output` |
| device compares percentages in `float` | cuda/opencl helpers | `C35_filters_differ` |
| point equal to a sensor position outside the grid: NaN converted to an integer | cpu_pointcloud_voxelization.cpp:208-436 | `C36_point_at_origin_is_undefined` |
| slab test never shrinks its upper bound: cells off the ray are marked free | cpu_pointcloud_voxelization.cpp:208-436 | `C37_marks_behind_the_point`, `C37_marks_beyond_the_range` |
| rays flatter than 1e-10 from outside are dropped | same | `C48_flat_ray_lost` |
| the nudge of 1e-10 into the grid is lost in `float`: rays entering through an upper face mark no free cell on a device | cuda_voxelization_helpers.cu:220, opencl_voxelization_helpers.cc:196 | `C56_device_loses_free_cells` |
| finite points beyond 2^31 cells are converted to `int32_t` on a device | cuda_voxelization_helpers.cu:228-240, opencl_voxelization_helpers.cc:204-210 | `C56_far_point_undefined_on_device` |
| the cell in front of a point stays unknown on a device while the CPU declares it free (consequence of the lost nudge) | same | `C57_device_misses_free_cell` |
| `point_index * 3` is computed in 32 bits: clouds of more than 715827882 points | cuda_voxelization_helpers.cu:92-94, opencl_voxelization_helpers.cc:71-73 | `C57_large_clouds_undefined` |
| the estimated distance can exceed the true distance to a filled cell (diagonal neighbours: half a cell edge is taken off where up to half a cell diagonal would be) | signed_distance_field.hpp, `GetCorrectedCenterDistance` | `C58_overestimates` |
| the estimated distance is not Lipschitz with constant 1 (√3 holds) | signed_distance_field.hpp, interpolation | `C59_not_one_lipschitz` |
| the coarse gradient next to a flat wall has length 3/2 (2 at the end of the grid): it is taken from uncorrected centre distances | signed_distance_field.hpp:922-1025 | `C60_wall_gradient_too_long` |
| the poses of tracking grids and maps are not compared: results land in the wrong place | cpu_pointcloud_voxelization.cpp:111-131, pointcloud_voxelization_interface.hpp:262-292 | `C61_pose_not_compared` |
| counters of a tracking grid that is used on and on wrap around: a free cell becomes unknown | cpu_pointcloud_voxelization.cpp:374-396 | `C61_counters_wrap` |
| index check overflows near `INT64_MAX` | pointcloud_voxelization_interface.hpp:184-193 | `C39_huge_position_undefined` |
| NaN percentages and ranges pass validation | pointcloud_voxelization_interface.hpp:23-43, ros interface | `C46_nan_accepted`, `C41_nan_range_accepted` |
| PointCloud2: read past the end, size wrap, unchecked fields, row padding and byte order | pointcloud_voxelization_ros_interface.{hpp,cpp} | `C41_reads_past_end`, `C41_size_wraps`, `C41_fields_outside_point`, `C41_padded_rows_misread` |
| edge candidates compared by their distance to the origin; visited cells from world-frame corners | mesh_rasterizer.cpp | `C43_not_the_closest`, `C43_misses_cells`, `C43_rotated_map_stays_empty`, `C42_outside_not_noticed` |
| for the same reason the cells filled depend on where the world's origin is and, at ties, on the order of the corners | mesh_rasterizer.cpp:82-99 | `C70_origin_matters`, `C70_order_matters` |
| a triangle with sides of 2^-60 cells at a corner of a cell is lost; a new map always has the lower corner of the mesh there | mesh_rasterizer.cpp:117-119, 164-183, 238-273 | `C80_corner_lost` |
| a triangle with corners on a line fills its whole bounding box | mesh_rasterizer.cpp:26-43, 66-73 | `C71_degenerate_fills_its_box`, `C71_diagonal_fills_plate` |
| NaN in the first corner is converted to an index; in the second corner the opposite edge is filled; in the third nothing, without an error | mesh_rasterizer.cpp:85-99, 133-144 | `C71_nan_first_vertex`, `C71_nan_second_vertex`, `C71_nan_third_vertex` |
| the slab test in a whole voxelization: an obstacle before the grid makes a cell behind it free, in `double` and on devices | cpu_pointcloud_voxelization.cpp:237-290, cuda_voxelization_helpers.cu:153-213 | `C74_free_behind_the_obstacle`, `C76_free_behind_the_obstacle` |
| rays that enter the grid through an upper face at a small angle mark no free cell, in `double` too: the nudge of 1e-10 along the ray is lost | cpu_pointcloud_voxelization.cpp:287-289 | `C73_grazing_ray_lost` |
| on a device the start of a ray that passes the grid almost parallel to a face has an index beyond `int32_t`, with all coordinates below 130 cells | cuda_voxelization_helpers.cu:177-230, opencl_voxelization_helpers.cc:153-206 | `C84_device_undefined` |
| a point measured at a sensor outside the grid, with rounding, from end to end | cpu_pointcloud_voxelization.cpp:239-295, same | `C84_point_at_sensor` |
| new maps of meshes 2^53 cells from the origin do not hold the mesh | mesh_rasterizer.cpp:255-275 | `C69_far_mesh_throws` |
| only one CUDA device is tried; the list of CUDA devices stops at the first failing one | pointcloud_voxelization.cpp, cuda_voxelization_helpers.cu | `C40_other_cuda_devices_not_tried`, `C40_usable_device_not_listed` |
| device buffers above 2^31 counters | cuda/opencl helpers | `C47_cuda_filter_out_of_bounds`, `C47_opencl_out_of_bounds` |

## How the larger proofs go

* Distance transform: invariant of the lower-envelope sweep for an arbitrary monotone rounding of the intersection points;
  the three passes compose to the minimum over all source cells; exactness follows because all competing values are
  integers below 2^53.
* Schedules: programs are lists of reads and writes per thread; disjoint footprints make every interleaving equal to the
  sequential run.
* Components: breadth-first search invariant (queued set closed up to the queue), then the sweep invariant.
* Topology: the surface of the solid is a two-dimensional complex. Local vertex degrees count curvature, and the
  Euler–Poincaré formula is proved over ZMod 2 by a rank argument (`Lemmas/TopologyRank`, `TopologyBound`), which also gives
  that the numbers are non-negative without edge or point contacts.
* Ray casting: the loop invariant relates the three `t` values to the plane crossings of the ray.
* Mesh rasterization: closest points of a triangle over an ordered field, without square roots.

## Seeded faults

A scratch copy of the Lean project gets one small wrong change in a definition of the model; the whole project is built; the
change counts as found if a theorem fails. Each line of `seeded/LOG.jsonl` says which. Changes that survived led to new or
stronger theorems (`theorems_tightened`).
