{"id": "C01", "title": "Generated SDF is the exact Euclidean distance to the nearest opposite cell", "statement": "ExtractSignedDistanceField (no virtual border) returns, for every cell, +resolution times the Euclidean distance (in cells) to the nearest filled cell if the cell is free, and minus resolution times the distance to the nearest free cell if it is filled; +inf / -inf when no cell of the other kind exists.", "quantifier": "every grid size from 1 cell per axis (so both the short-axis and the long-axis algorithm), up to 2^26 cells per axis and a squared diagonal of at most 2^53 cells (with virtual layers, where the code adds them); every filled/free assignment, every cell", "why_tests_cant": "Correctness of the lower-envelope sweep depends on the whole line contents including arbitrary runs of infinities; a test can only sample obstacle layouts and sizes.", "anchors": ["include/voxelized_geometry_tools/signed_distance_field_generation.hpp: ExtractSignedDistanceField", "src/voxelized_geometry_tools/signed_distance_field_generation.cpp: ComputeDistanceFieldTransformInPlace", "src/voxelized_geometry_tools/signed_distance_field_generation.cpp: ComputeOneDimensionDistanceTransformInPlaceLinear, ComputeOneDimensionDistanceTransformInPlaceBruteForce"]}
{"id": "C02", "title": "SDF generation does not depend on the thread schedule", "statement": "The SDF produced is the same for every degree of parallelism, every split of the work into thread ranges, and every interleaving of the threads' reads and writes; no thread reads or writes a cell another thread works on in the same pass.", "quantifier": "every number of threads, every partition of the iteration range, every interleaving of micro-steps", "why_tests_cant": "Schedules cannot be enumerated by running the code; a race may show up once in millions of runs.", "anchors": ["src/voxelized_geometry_tools/signed_distance_field_generation.cpp: ComputeDistanceFieldTransformInPlace (per_range_work, get_indicies_from_iteration)"]}
{"id": "C03", "title": "Sign and magnitude of a generated SDF", "statement": "In a generated SDF (no virtual border) a filled cell always holds a value <= -resolution, a free cell a value >= +resolution; no cell holds 0 or NaN, although infinities are subtracted along the way.", "quantifier": "every grid, up to 2^26 cells per axis and a squared diagonal of at most 2^53 cells (with virtual layers, where the code adds them), and every filled/free assignment including all-free and all-filled", "why_tests_cant": "NaN and zero would appear only for particular patterns of empty lines; the claim is about all of them.", "anchors": ["include/voxelized_geometry_tools/signed_distance_field_generation.hpp: ExtractSignedDistanceField", "src/voxelized_geometry_tools/signed_distance_field_generation.cpp: ComputeDistanceFieldTransformInPlace"]}
{"id": "C04", "title": "Virtual border semantics", "statement": "With AddVirtualBorder, every free cell holds the positive distance to the nearest cell that is filled or lies just outside the grid, and every filled cell the negative distance to the nearest cell that is free or lies just outside the grid, where \"outside\" exists only on axes with more than one cell; the value is never 0 and is finite as soon as one axis has more than one cell.", "quantifier": "every grid size including degenerate 1-cell axes, up to 2^26 cells per axis and a squared diagonal of at most 2^53 cells (with virtual layers, where the code adds them); every filled/free assignment", "why_tests_cant": "Requires agreement of three index mappings for every size and pattern.", "anchors": ["include/voxelized_geometry_tools/signed_distance_field_generation.hpp: ExtractSignedDistanceField (AddVirtualBorder branch)"]}
{"id": "C05", "title": "SDF of the complement is the negated SDF", "statement": "Swapping filled and free cells negates every value of the generated SDF, with and without a virtual border.", "quantifier": "every grid, up to 2^26 cells per axis and a squared diagonal of at most 2^53 cells (with virtual layers, where the code adds them), and assignment", "why_tests_cant": "Relates two runs over every possible input.", "anchors": ["include/voxelized_geometry_tools/signed_distance_field_generation.hpp: ExtractSignedDistanceField", "src/voxelized_geometry_tools/signed_distance_field_generation.cpp: ComputeDistanceFieldTransformInPlace"]}
{"id": "C06", "title": "SDF is monotone in the filled set", "statement": "Filling more cells never increases any SDF value; in particular treating unknown cells (occupancy exactly 0.5) as filled never yields a larger value than treating them as free.", "quantifier": "every occupancy map, up to 2^26 cells per axis and a squared diagonal of at most 2^53 cells (with virtual layers, where the code adds them), and every pair of filled sets A subset of B", "why_tests_cant": "Relational property over all pairs of inputs.", "anchors": ["include/voxelized_geometry_tools/signed_distance_field_generation.hpp: ExtractSignedDistanceField", "src/voxelized_geometry_tools/signed_distance_field_generation.cpp: ComputeDistanceFieldTransformInPlace", "include/voxelized_geometry_tools/occupancy_map.hpp: ExtractSignedDistanceField", "include/voxelized_geometry_tools/signed_distance_field.hpp: SignedDistanceFieldGenerationParameters"]}
{"id": "C07", "title": "SDF Lipschitz bound between cells", "statement": "For two cells on the same side the SDF values differ by at most resolution times the distance between the cells; for a free cell and a filled cell each magnitude is at most that distance, so face-adjacent cells of opposite kind hold exactly +resolution and -resolution.", "quantifier": "every grid, up to 2^26 cells per axis and a squared diagonal of at most 2^53 cells (with virtual layers, where the code adds them), assignment and pair of cells; distances with exact square root and product (C01 has the rounding of the stored value)", "why_tests_cant": "Quantifies over all pairs of cells of all grids.", "anchors": ["include/voxelized_geometry_tools/signed_distance_field_generation.hpp: ExtractSignedDistanceField", "src/voxelized_geometry_tools/signed_distance_field_generation.cpp: ComputeDistanceFieldTransformInPlace"]}
{"id": "C08", "title": "Which cells count as filled for SDF generation", "statement": "OccupancyMap and OccupancyComponentMap treat a cell as an obstacle iff occupancy > 0.5, or occupancy == 0.5 and unknown-is-filled is set; the tagged maps additionally require the object id to be in objects_to_use when that list is non-empty; an out-of-grid query throws and is never issued by generation.", "quantifier": "every float occupancy, every parameter combination, every object list; generation on grids up to 2^26 cells per axis and a squared diagonal of at most 2^53 cells (with virtual layers, where the code adds them)", "why_tests_cant": "Decision table over unbounded object lists and all occupancies.", "anchors": ["include/voxelized_geometry_tools/occupancy_map.hpp: ExtractSignedDistanceField", "include/voxelized_geometry_tools/occupancy_component_map.hpp: ExtractSignedDistanceField", "include/voxelized_geometry_tools/tagged_object_occupancy_map.hpp: ExtractSignedDistanceField", "include/voxelized_geometry_tools/tagged_object_occupancy_component_map.hpp: ExtractSignedDistanceField"]}
{"id": "C09", "title": "Per-object SDFs: keys and contents", "statement": "MakeSeparateObjectSDFs returns exactly one SDF per requested object id, equal to ExtractSignedDistanceField for that single id; MakeAllObjectSDFs has a key exactly for every non-zero object id carried by some cell of the grid; the combined free/named-objects SDF holds the distance to the nearest obstacle in free cells, the (negative) named-object distance in obstacle cells of named objects and zero in unnamed obstacle cells.", "quantifier": "every tagged map, up to 2^26 cells per axis and a squared diagonal of at most 2^53 cells (with virtual layers, where the code adds them), every list of object ids (with duplicates)", "why_tests_cant": "Unbounded id sets and grids.", "anchors": ["include/voxelized_geometry_tools/tagged_object_occupancy_map.hpp: MakeSeparateObjectSDFs, MakeAllObjectSDFs, ExtractFreeAndNamedObjectsSignedDistanceField", "include/voxelized_geometry_tools/tagged_object_occupancy_component_map.hpp: MakeSeparateObjectSDFs, MakeAllObjectSDFs"]}
{"id": "C10", "title": "A locked SDF cannot be changed and its cached min/max is right", "statement": "While IsLocked() is true no grid API call changes any distance, and GetMinimumMaximum() equals the true minimum and maximum of the stored distances; after Unlock() mutation works again and GetMinimumMaximum() still equals the true extrema.", "quantifier": "every history of Lock, Unlock, SetIndex/GetIndexMutable, raw access and queries that does not write through a reference obtained before Lock", "why_tests_cant": "Histories are unbounded.", "anchors": ["include/voxelized_geometry_tools/signed_distance_field.hpp: Lock, Unlock, IsLocked, OnMutableAccess, OnMutableRawAccess, GetMinimumMaximum"]}
{"id": "C11", "title": "SDF serialization round trip", "statement": "Deserialize(Serialize(sdf)) yields an SDF with the same geometry, distances, frame and lock state and the same min/max, consumes exactly the bytes written, and works at any offset inside a larger buffer.", "quantifier": "every SDF of uniform voxel size reached by a history without writes through old references, every buffer prefix and suffix, every frame of fewer than 2^64 bytes; base class and cell formats that round-trip (trusted base)", "why_tests_cant": "All byte strings and contents.", "anchors": ["include/voxelized_geometry_tools/signed_distance_field.hpp: Serialize, Deserialize, DerivedSerializeSelf, DerivedDeserializeSelf"]}
{"id": "C12", "title": "Map and cell serialization round trip", "statement": "Deserialize(Serialize(map)) restores every occupancy map kind with the same cells (occupancy, component, object id, spatial segment), geometry, frame, counters and validity flags, consuming exactly the bytes written.", "quantifier": "every map of every kind with uniform voxel sizes, every surrounding buffer, every frame of fewer than 2^64 bytes; base class format that round-trips (trusted base)", "why_tests_cant": "All contents and offsets.", "anchors": ["src/voxelized_geometry_tools/occupancy_map.cpp: DerivedSerializeSelf", "src/voxelized_geometry_tools/occupancy_component_map.cpp: DerivedSerializeSelf", "src/voxelized_geometry_tools/tagged_object_occupancy_map.cpp: DerivedSerializeSelf", "src/voxelized_geometry_tools/tagged_object_occupancy_component_map.cpp: DerivedSerializeSelf", "src/voxelized_geometry_tools/dynamic_spatial_hashed_occupancy_map.cpp: DerivedSerializeSelf"]}
{"id": "C13", "title": "Files load back as what was saved, and files of another kind are rejected", "statement": "LoadFromFile(SaveToFile(x, compress)) == x for both values of compress; a file written for one type is rejected with an exception by LoadFromFile of any other type.", "quantifier": "every object of each type, both compress settings, every ordered pair of types", "why_tests_cant": "All contents; the rejection must hold for every content, not just small samples.", "anchors": ["include/voxelized_geometry_tools/signed_distance_field.hpp: SaveToFile, LoadFromFile", "src/voxelized_geometry_tools/occupancy_map.cpp: SaveToFile, LoadFromFile", "src/voxelized_geometry_tools/occupancy_component_map.cpp: SaveToFile, LoadFromFile", "src/voxelized_geometry_tools/tagged_object_occupancy_map.cpp: SaveToFile, LoadFromFile", "src/voxelized_geometry_tools/tagged_object_occupancy_component_map.cpp: SaveToFile, LoadFromFile", "src/voxelized_geometry_tools/dynamic_spatial_hashed_occupancy_map.cpp: SaveToFile, LoadFromFile"]}
{"id": "C14", "title": "ROS message round trip and scalar type check", "statement": "LoadFromMessageRepresentation(GetMessageRepresentation(x)) == x; a message whose scalar type differs from the requested SDF scalar type is rejected, compressed or not.", "quantifier": "every SDF/map and every message", "why_tests_cant": "All contents and all message field combinations.", "anchors": ["include/voxelized_geometry_tools/ros_interface.hpp: GetMessageRepresentation, LoadFromMessageRepresentation", "src/voxelized_geometry_tools/ros_interface.cpp: GetMessageRepresentation, LoadFromMessageRepresentation"]}
{"id": "C15", "title": "Interpolated distance: bounds safety and agreement at cell centres", "statement": "EstimateLocationDistance returns a value exactly for locations inside the grid, never accesses a cell outside the grid, returns at a cell centre exactly that cell's boundary-corrected value, and everywhere lies between the least and the largest corrected value of the cells used.", "quantifier": "every grid size (including 1 cell per axis), every location", "why_tests_cant": "Infinitely many locations; edge and corner cells of every size.", "anchors": ["include/voxelized_geometry_tools/signed_distance_field.hpp: EstimateLocationDistance4d, EstimateDistanceInterpolateFromNeighbors, GetAxisInterpolationIndices, GetCorrectedCenterDistance"]}
{"id": "C16", "title": "Interpolated distance is continuous across cell boundaries", "statement": "The interpolated distance has no jump where the set of interpolating cells changes: on the plane through a cell centre (where the lower/upper neighbour choice flips) both choices give the same value.", "quantifier": "every grid, every location on a switching plane", "why_tests_cant": "Continuity is a statement about all points of all planes.", "anchors": ["include/voxelized_geometry_tools/signed_distance_field.hpp: EstimateDistanceInterpolateFromNeighbors"]}
{"id": "C17", "title": "Coarse gradient: availability and exactness on affine fields", "statement": "GetIndexCoarseGradient returns a gradient for an interior cell, for an edge cell (so for every cell, if some axis has one cell only) exactly when edge gradients are enabled, and none outside the grid; the component along a one-cell axis is 0; for a field that is affine in the cell index it returns exactly the field's slope rotated to the query frame.", "quantifier": "every grid size, cell and affine field (slope 0 along one-cell axes, where no slope can be seen); exact arithmetic (rounding: C65, C79)", "why_tests_cant": "All sizes and slopes; boundary cells of degenerate grids.", "anchors": ["include/voxelized_geometry_tools/signed_distance_field.hpp: GetIndexCoarseGradient, GetGridAlignedIndexCoarseGradient"]}
{"id": "C18", "title": "Fine gradient: never fails inside the grid and is exact on affine fields", "statement": "GetLocationFineGradient at an in-grid location uses only in-grid estimates for each axis, shrinks the window at the grid edge, and returns the exact slope for a locally affine estimate; it throws only if neither side of an axis is available.", "quantifier": "every location, window size and grid", "why_tests_cant": "Infinitely many locations and window sizes.", "anchors": ["include/voxelized_geometry_tools/signed_distance_field.hpp: GetLocationFineGradient, ComputeAxisFineGradient"]}
{"id": "C19", "title": "Projection out of collision reaches the requested clearance", "statement": "If ProjectLocationOutOfCollisionToMinimumDistance returns for an in-grid start, the estimated distance at the returned location exceeds the requested minimum distance; an already clear or out-of-grid location is returned unchanged; the returned position always satisfies its own homogeneous-coordinate invariant.", "quantifier": "every SDF, start and parameters", "why_tests_cant": "Unbounded iteration count.", "anchors": ["include/voxelized_geometry_tools/signed_distance_field.hpp: ProjectLocationOutOfCollisionToMinimumDistance4d, ProjectedPosition"]}
{"id": "C20", "title": "Local extrema map is complete and terminates", "statement": "ComputeLocalExtremaMap terminates on every SDF and assigns every cell either a cell location reached by following gradients or the documented \"no local extremum\" value; no cell is left at its initial value.", "quantifier": "every SDF including cyclic and flat gradients", "why_tests_cant": "Termination and completeness over all fields.", "anchors": ["include/voxelized_geometry_tools/signed_distance_field.hpp: ComputeLocalExtremaMap, FollowGradientsToLocalExtremaUnsafe, GetNextFromGradient"]}
{"id": "C21", "title": "Connected components are exactly the connectivity classes", "statement": "After UpdateConnectedComponents two cells carry the same component id iff they are joined by a path of face-adjacent cells in which consecutive cells are connectable (same filled/empty/unknown class; for tagged maps also same object unless connect-across-objects).", "quantifier": "every map of fewer than 2^32 cells whose components are not marked valid (if they are, the call does nothing, C24), every occupancy assignment", "why_tests_cant": "Paths of unbounded length in unbounded grids.", "anchors": ["include/voxelized_geometry_tools/topology_computation.hpp: ComputeConnectedComponents, MarkConnectedComponent", "src/voxelized_geometry_tools/occupancy_component_map.cpp: UpdateConnectedComponents", "src/voxelized_geometry_tools/tagged_object_occupancy_component_map.cpp: UpdateConnectedComponents"]}
{"id": "C22", "title": "Component ids are 1..n without gaps and n is the returned count", "statement": "After UpdateConnectedComponents every cell carries an id between 1 and the returned count, every id in that range occurs, NumConnectedComponents returns the same count, and ids are numbered in the order their first cell appears in x,y,z scan order.", "quantifier": "every map of fewer than 2^32 cells whose components are not marked valid", "why_tests_cant": "All grids.", "anchors": ["include/voxelized_geometry_tools/topology_computation.hpp: ComputeConnectedComponents", "include/voxelized_geometry_tools/occupancy_component_map.hpp: NumConnectedComponents"]}
{"id": "C23", "title": "Component labelling ignores old labels and is repeatable", "statement": "The labels and count computed by UpdateConnectedComponents depend only on the occupancy data, not on labels present before, and occupancies are unchanged by it.", "quantifier": "every map of fewer than 2^32 cells whose components are not marked valid, every prior labelling", "why_tests_cant": "All prior labellings.", "anchors": ["include/voxelized_geometry_tools/topology_computation.hpp: ComputeConnectedComponents", "src/voxelized_geometry_tools/occupancy_component_map.cpp: UpdateConnectedComponents"]}
{"id": "C24", "title": "AreComponentsValid is never stale", "statement": "In every history without Force* calls and without writes through previously obtained references, whenever AreComponentsValid() is true the stored labels and NumConnectedComponents() are those of the current occupancy data, and NumConnectedComponents() is empty whenever they may be stale.", "quantifier": "every finite sequence of API calls on an OccupancyComponentMap of fewer than 2^32 cells", "why_tests_cant": "Unbounded histories.", "anchors": ["src/voxelized_geometry_tools/occupancy_component_map.cpp: OnMutableAccess, OnMutableRawAccess, UpdateConnectedComponents", "include/voxelized_geometry_tools/occupancy_component_map.hpp: AreComponentsValid, NumConnectedComponents"]}
{"id": "C25", "title": "Tagged map: UpdateConnectedComponents(connect_across_objects) answers for the requested mode", "statement": "UpdateConnectedComponents(b) returns the component count for mode b and leaves labels for mode b, whatever calls came before.", "quantifier": "every history of calls on a TaggedObjectOccupancyComponentMap", "why_tests_cant": "History dependent.", "anchors": ["src/voxelized_geometry_tools/tagged_object_occupancy_component_map.cpp: UpdateConnectedComponents, NumConnectedComponents"]}
{"id": "C26", "title": "Tagged map: components and spatial segments can be valid at the same time", "statement": "After updating connected components and then spatial segments (or the reverse) both AreComponentsValid and AreSpatialSegmentsValid hold, since neither update changes occupancy or object ids.", "quantifier": "every map, every order of updates", "why_tests_cant": "Interaction of two caches over histories.", "anchors": ["src/voxelized_geometry_tools/tagged_object_occupancy_component_map.cpp: UpdateConnectedComponents, UpdateSpatialSegments, OnMutableAccess"]}
{"id": "C27", "title": "Hole/void topology computation succeeds on every component surface and reports the right invariants", "statement": "ComputeComponentTopology terminates without throwing on every map and for a solid box reports one component with 0 holes and 0 voids.", "quantifier": "every map", "why_tests_cant": "All shapes; the surface vertex classification has 64 neighbour cases per vertex.", "anchors": ["include/voxelized_geometry_tools/topology_computation.hpp: ComputeHolesAndVoidsInSurface, ComputeConnectivityOfSurfaceVertices, ComputeComponentTopology"]}
{"id": "C28", "title": "Extracted component surfaces contain exactly the surface cells", "statement": "ExtractComponentSurfaces(types) returns, per component, exactly the cells of a requested type that have a face neighbour outside the grid or of a different component.", "quantifier": "every map and type mask", "why_tests_cant": "All grids.", "anchors": ["src/voxelized_geometry_tools/occupancy_component_map.cpp: ExtractComponentSurfaces, IsConnectedComponentSurfaceIndex", "include/voxelized_geometry_tools/topology_computation.hpp: ExtractComponentSurfaces"]}
{"id": "C29", "title": "IsSurfaceIndex decides the occupancy boundary", "statement": "IsSurfaceIndex(i) is empty iff i is outside the grid; otherwise it is true iff some in-grid cell of the 26-neighbourhood falls into a different occupancy class in the way the class rules state; unknown-vs-other transitions are symmetric.", "quantifier": "every map and index; symmetry: occupancies that are not NaN", "why_tests_cant": "All grids and all edge positions.", "anchors": ["src/voxelized_geometry_tools/occupancy_map.cpp: IsSurfaceIndex", "src/voxelized_geometry_tools/occupancy_component_map.cpp: IsSurfaceIndex"]}
{"id": "C30", "title": "Candidate corner test", "statement": "CheckIfCandidateCorner(i) is empty iff i is outside the grid and otherwise true iff at least two in-grid face neighbours belong to a different component.", "quantifier": "every map and index", "why_tests_cant": "All grids.", "anchors": ["src/voxelized_geometry_tools/occupancy_component_map.cpp: CheckIfCandidateCorner", "src/voxelized_geometry_tools/tagged_object_occupancy_component_map.cpp: CheckIfCandidateCorner"]}
{"id": "C31", "title": "Map conversions preserve geometry and occupancy", "statement": "Converting an occupancy map to the component map of its kind, or back, keeps origin transform, frame, sizes, every occupancy (also default and out-of-bounds cells) and every object id the target can hold; converting to a richer type and back is the identity; derived labels start at 0 and derived caches invalid.", "quantifier": "every map; the four conversions the library has (occupancy map to occupancy component map and back, tagged object map to tagged object component map and back)", "why_tests_cant": "All contents and all pairs.", "anchors": ["include/voxelized_geometry_tools/occupancy_map_conversions.hpp", "src/voxelized_geometry_tools/occupancy_map_conversions.cpp"]}
{"id": "C32", "title": "Voxelizer filter decision", "statement": "A non-filled cell of the output becomes 1.0 iff at least one camera counts it filled, else 0.0 iff at least NumCamerasSeenFree cameras count it free, else 0.5; a camera counts it filled/free according to the outlier threshold and free-percentage rule, the rule is monotone (more free hits never turn free into filled, more filled hits above threshold never turn filled into free).", "quantifier": "every option set with a percentage that is not NaN, every number of cameras, all counts whose sum fits in 32 bits (beyond, the sum is undefined; clouds of fewer than 2^31 points stay below, C49)", "why_tests_cant": "All integer counts and camera numbers.", "anchors": ["include/voxelized_geometry_tools/pointcloud_voxelization_interface.hpp: CountsSeenAs", "src/voxelized_geometry_tools/cpu_pointcloud_voxelization.cpp: DoCombineAndFilterGrids"]}
{"id": "C33", "title": "Filled static cells stay filled; every other cell becomes exactly 0, 0.5 or 1", "statement": "VoxelizePointClouds never changes a cell with occupancy > 0.5, and every other cell of the result is 0, 0.5 or 1, for any clouds including none.", "quantifier": "every environment, options, clouds", "why_tests_cant": "All inputs.", "anchors": ["src/voxelized_geometry_tools/cpu_pointcloud_voxelization.cpp: DoVoxelizePointClouds, DoCombineAndFilterGrids", "src/voxelized_geometry_tools/device_pointcloud_voxelization.cpp: DoVoxelizePointClouds"]}
{"id": "C34", "title": "Voxelization is independent of thread schedule, point order and camera order", "statement": "The result of VoxelizePointClouds is the same for every interleaving of the per-point work, every permutation of the points in a cloud and every permutation of the clouds.", "quantifier": "every schedule and permutation; exact arithmetic of the rays (with rounding: C74)", "why_tests_cant": "Schedules/permutations are unbounded.", "anchors": ["src/voxelized_geometry_tools/cpu_pointcloud_voxelization.cpp: DoRaycastPointCloud, DoCombineAndFilterGrids", "include/voxelized_geometry_tools/cpu_pointcloud_voxelization.hpp: CpuVoxelizationTrackingCell"]}
{"id": "C35", "title": "CPU and device backends agree", "statement": "Given the same per-camera hit counts, the CPU filter and the device filter kernels write the same occupancy to every cell, also with zero cameras; both backends honour the static environment in the same way.", "quantifier": "all counts, options, cameras, environments", "why_tests_cant": "All inputs; needs two backends.", "anchors": ["src/voxelized_geometry_tools/cpu_pointcloud_voxelization.cpp: DoCombineAndFilterGrids", "src/voxelized_geometry_tools/cuda_voxelization_helpers.cu: FilterGridsKernel", "src/voxelized_geometry_tools/opencl_voxelization_helpers.cc: FilterGrids", "src/voxelized_geometry_tools/device_pointcloud_voxelization.cpp: DoVoxelizePointClouds"]}
{"id": "C36", "title": "Raycasting terminates and stays in the grid", "statement": "Casting any finite point terminates after at most |dx|+|dy|+|dz| voxel steps, only touches in-grid cells, adds at most one filled mark, and that mark is on the cell containing the (unclipped) point.", "quantifier": "every origin, point, range and grid", "why_tests_cant": "All real inputs; termination.", "anchors": ["src/voxelized_geometry_tools/cpu_pointcloud_voxelization.cpp: DoRaycastSinglePoint"]}
{"id": "C37", "title": "Cells are marked free only along the sensor ray", "statement": "A cell gets a free mark only if the segment from the sensor origin to the measured point, cut at the maximum range, passes through it; nothing behind the measured point or beyond the range is marked.", "quantifier": "every origin (inside or outside the grid), point, range and grid", "why_tests_cant": "All real inputs.", "anchors": ["src/voxelized_geometry_tools/cpu_pointcloud_voxelization.cpp: DoRaycastSinglePoint", "src/voxelized_geometry_tools/cuda_voxelization_helpers.cu: RaycastPoint"]}
{"id": "C38", "title": "No cell on the sensor ray is skipped", "statement": "With the sensor inside the grid, every in-grid cell whose interior the segment from sensor to (range-limited) point crosses before the end receives a free mark.", "quantifier": "every origin inside the grid, point, range from 0 and grid; exact arithmetic (with rounding: C72)", "why_tests_cant": "All real inputs.", "anchors": ["src/voxelized_geometry_tools/cpu_pointcloud_voxelization.cpp: DoRaycastSinglePoint"]}
{"id": "C39", "title": "Invalid voxelizer input is rejected before anything is written", "statement": "VoxelizePointClouds throws for uninitialized or size-mismatched environments and null clouds and then the output is unchanged; point access outside a cloud and copies that do not fit the destination throw and write nothing.", "quantifier": "every call", "why_tests_cant": "All inputs, including extreme 64-bit indices.", "anchors": ["include/voxelized_geometry_tools/pointcloud_voxelization_interface.hpp: VoxelizePointClouds, EnforcePointIndexInRange, EnforceVectorIndexInRange"]}
{"id": "C40", "title": "Backend selection order and fallback", "statement": "MakeBestAvailablePointCloudVoxelizer tries the CUDA backend, then the OpenCL backend, then the CPU backend, each on the device that the options name, returns the first that constructs, and always succeeds when the CPU backend constructs, provided failures are reported as runtime_error.", "quantifier": "every device list and failure pattern", "why_tests_cant": "All failure combinations.", "anchors": ["src/voxelized_geometry_tools/pointcloud_voxelization.cpp: MakeBestAvailablePointCloudVoxelizer, GetAvailableBackends"]}
{"id": "C41", "title": "PointCloud2 access reads the right bytes and never leaves the buffer", "statement": "A PointCloud2 wrapper only constructs for clouds with three consecutive float32 x,y,z fields, and reading point i returns the 12 bytes at i*point_step + x offset, never reading outside the message data.", "quantifier": "every message", "why_tests_cant": "All field layouts and sizes.", "anchors": ["src/voxelized_geometry_tools/pointcloud_voxelization_ros_interface.cpp: PointCloud2Wrapper", "include/voxelized_geometry_tools/pointcloud_voxelization_ros_interface.hpp: GetStartingOffsetForPointXYZ, Size"]}
{"id": "C42", "title": "Mesh rasterization only fills and is order independent", "statement": "RasterizeMesh / RasterizeTriangle only ever set cells to 1.0 inside the map, leave all other cells unchanged, are idempotent, and the result does not depend on triangle order or thread schedule; a triangle outside the map throws iff enforcement is requested.", "quantifier": "every mesh, map and triangle order", "why_tests_cant": "All meshes and orders.", "anchors": ["src/voxelized_geometry_tools/mesh_rasterizer.cpp: RasterizeTriangle, RasterizeMesh"]}
{"id": "C43", "title": "Mesh rasterization fills every cell the triangle passes through", "statement": "Every map cell whose box contains a point of the triangle is filled: the cell test uses the point of the triangle closest to the cell centre.", "quantifier": "every non-degenerate triangle, pose and map", "why_tests_cant": "All real triangles and poses.", "anchors": ["src/voxelized_geometry_tools/mesh_rasterizer.cpp: CalcClosestPointOnTriangle, RasterizeTriangle"]}
{"id": "C44", "title": "RViz export shows exactly the selected cells", "statement": "Exported markers contain one point per cell whose colour has positive alpha, in scan order, with equally many points and colours; surface exports contain only surface cells; a supplied object colour map is honoured.", "quantifier": "every map and colour choice", "why_tests_cant": "All maps.", "anchors": ["include/voxelized_geometry_tools/ros_interface.hpp: ExportVoxelGridToRViz", "src/voxelized_geometry_tools/ros_interface.cpp: ExportForDisplay, ExportSurfacesForDisplay"]}
{"id": "C45", "title": "Spatial segments are connectivity classes of cells with nearby extrema", "statement": "On a map whose segments are not marked valid, UpdateSpatialSegments gives segment 0 to exactly the cells that are neither free nor part of a named object or have no finite extremum; two other cells get the same segment iff a chain of face-adjacent participating cells of the same object with nearby extrema joins them; segments are numbered 1..n in scan order and n is returned and reported by NumSpatialSegments.", "quantifier": "every tagged map of fewer than 2^32 cells, every extrema map, every nearness relation that is symmetric", "why_tests_cant": "Chains of unbounded length in unbounded grids.", "anchors": ["src/voxelized_geometry_tools/tagged_object_occupancy_component_map.cpp: UpdateSpatialSegments", "include/voxelized_geometry_tools/topology_computation.hpp: ComputeConnectedComponents"]}
{"id": "C46", "title": "Filter options are valid once constructed", "statement": "PointCloudVoxelizationFilterOptions can only be constructed with a free-percentage in (0, 1], an outlier threshold >= 1 and a camera count >= 1; every other combination throws.", "quantifier": "every double (including NaN and infinities) and every pair of int32", "why_tests_cant": "All doubles and integers, including special values.", "anchors": ["include/voxelized_geometry_tools/pointcloud_voxelization_interface.hpp: PointCloudVoxelizationFilterOptions"]}
{"id": "C47", "title": "Device tracking-grid addressing stays inside its buffer and cameras never share a counter", "statement": "For every camera, cell and counter the flat index used by the CUDA/OpenCL kernels lies inside the allocated tracking buffer and different (camera, cell, counter) triples use different indices, also for grids whose buffer is larger than 2^31 entries.", "quantifier": "every grid size, number of cameras, camera, cell", "why_tests_cant": "Needs grids far larger than a test can allocate.", "anchors": ["src/voxelized_geometry_tools/cuda_voxelization_helpers.cu: RaycastPoint, FilterGridsKernel, PrepareTrackingGrids", "src/voxelized_geometry_tools/opencl_voxelization_helpers.cc: RaycastPoint, FilterGrids"]}
{"id": "C48", "title": "A measured point in the grid and in range is recorded", "statement": "Casting a point that lies in the grid and within the maximum range puts exactly one filled mark on the cell containing it and no free mark on that cell.", "quantifier": "every origin (inside or outside the grid), point, range and grid", "why_tests_cant": "All real inputs.", "anchors": ["src/voxelized_geometry_tools/cpu_pointcloud_voxelization.cpp: DoRaycastSinglePoint"]}
{"id": "C49", "title": "Hit counters are exact and voxelization is always defined", "statement": "After casting a cloud the seen-free / seen-filled counters of every cell hold exactly the number of points whose ray passes through / ends in that cell, without wrap-around or lost updates, and the whole CPU voxelization has a defined result.", "quantifier": "every cloud of fewer than 2^31 points, every schedule of the atomic increments, every cell, every option set; exact arithmetic; definedness: ranges from 0 and no point exactly at a sensor outside the grid (C36)", "why_tests_cant": "Lost updates and counter wrap-around depend on schedules and cloud sizes that no test enumerates.", "anchors": ["src/voxelized_geometry_tools/cpu_pointcloud_voxelization.cpp: DoRaycastPointCloud, DoRaycastSinglePoint, DoCombineAndFilterGrids"]}
{"id": "C50", "title": "A measured obstacle always ends up filled", "statement": "With the default free percentage (1.0), a cell that holds at least OutlierPointsThreshold measured points of one camera within its range is filled in the result, however many rays of this or other cameras pass through it.", "quantifier": "every map, set of clouds of fewer than 2^31 points with ranges from 0, cell not filled before (filled ones stay filled, C33), threshold and camera count; sensors inside the grid; exact arithmetic", "why_tests_cant": "The claim ranges over all combinations of rays, counts and schedules; a counterexample would need a special ratio of counts.", "anchors": ["src/voxelized_geometry_tools/cpu_pointcloud_voxelization.cpp: DoVoxelizePointClouds", "include/voxelized_geometry_tools/pointcloud_voxelization_interface.hpp: CountsSeenAs"]}
{"id": "C51", "title": "Cells change only for a measured reason", "statement": "A cell that was not filled becomes 1 only if some camera measured at least OutlierPointsThreshold in-range points inside it, and becomes 0 only if at least NumCamerasSeenFree cameras have a range-limited ray through it.", "quantifier": "every map, set of clouds of fewer than 2^31 points, options and cell; for the second part sensors inside the grid and ranges from 0; exact arithmetic", "why_tests_cant": "Absence of spurious free or filled cells is a statement about all rays and all cells.", "anchors": ["src/voxelized_geometry_tools/cpu_pointcloud_voxelization.cpp: DoVoxelizePointClouds, DoRaycastSinglePoint", "include/voxelized_geometry_tools/pointcloud_voxelization_interface.hpp: CountsSeenAs"]}
{"id": "C52", "title": "A flat wall is seen at its true distance everywhere", "statement": "For an occupancy grid whose cells are filled exactly below some plane between two cell layers along one axis, the generated SDF queried through interpolated distance estimation returns exactly the true signed distance to the wall's surface at every location in the grid (including the outer half cell, where the estimate extrapolates).", "quantifier": "every grid size, up to 2^26 cells per axis and a squared diagonal of at most 2^53 cells (with virtual layers, where the code adds them), resolution, axis, wall position, grid pose and query location in the grid; exact arithmetic", "why_tests_cant": "Composition of SDF generation and interpolation over a continuum of query points and all grid sizes.", "anchors": ["include/voxelized_geometry_tools/signed_distance_field.hpp: EstimateLocationDistance4d, GetCorrectedCenterDistance", "src/voxelized_geometry_tools/signed_distance_field_generation.cpp"]}
{"id": "C53", "title": "Projection out of collision terminates", "statement": "ProjectLocationOutOfCollisionToMinimumDistance returns or throws after finitely many steps for every SDF, start, minimum distance and stepsize multiplier.", "quantifier": "every SDF, start location, minimum distance, positive stepsize multiplier", "why_tests_cant": "Non-termination cannot be observed by a finite test; unbounded iteration count.", "anchors": ["include/voxelized_geometry_tools/signed_distance_field.hpp: ProjectLocationOutOfCollisionToMinimumDistance4d"]}
{"id": "C54", "title": "The local extrema map does not depend on the pose of the grid", "statement": "Two SDFs with equal cells, resolution and distances but different origin transforms get the same local extrema map (it is stored in grid frame).", "quantifier": "every SDF, every pair of origin transforms", "why_tests_cant": "All fields and all rotations; the examples use axis-aligned grids only.", "anchors": ["include/voxelized_geometry_tools/signed_distance_field.hpp: ComputeLocalExtremaMap, GetNextFromGradient, GetIndexCoarseGradient"]}
{"id": "C55", "title": "Surfaces convert between map and vector without loss", "statement": "ExtractStaticSurface returns every cell of an extracted surface exactly once, ConvertToDynamicSurface turns the vector back into the same map, and BuildSurfaceIndexMap sends each cell to its position in the vector, whatever the order of iteration of the hash map.", "quantifier": "every surface, every hash map iteration order", "why_tests_cant": "Hash map iteration order is unspecified; surfaces are unbounded.", "anchors": ["include/voxelized_geometry_tools/topology_computation.hpp: ExtractStaticSurface, ConvertToDynamicSurface, BuildSurfaceIndexMap"]}
{"id": "C56", "title": "A ray is safe whatever the arithmetic", "statement": "Whatever rounding, contraction or precision the floating-point operations have, casting one point either runs into a conversion to an index type that cannot hold the value or ends after at most as many steps as the grid has cells along its edges; it then touches only cells of the grid, each at most once, along a face-to-face path toward the measured point's cell, and counts at most that cell as filled (free instead, if clipped). With exact arithmetic the marks are those of the exact model (C36-C38, C48). In float with 32-bit indices and in double with 64-bit indices nothing is undefined within 2^30 and 2^62 cells, from a sensor in the grid; for rays cut at the range, within 2^28 and 2^60 cells.", "quantifier": "every arithmetic, grid, sensor position, point, range; the definedness bounds: finite coordinates and inverse cell size, for cut rays a range from 0 and coordinates a factor of 16 below the overflow threshold", "why_tests_cant": "All roundings of all coordinates, on CPU, CUDA and OpenCL; termination and memory safety must hold for NaN, infinities and unlucky rounding too.", "anchors": ["src/voxelized_geometry_tools/cpu_pointcloud_voxelization.cpp: DoRaycastSinglePoint", "src/voxelized_geometry_tools/cuda_voxelization_helpers.cu: RaycastPoint", "src/voxelized_geometry_tools/opencl_voxelization_helpers.cc: RaycastPoint"]}
{"id": "C57", "title": "Device voxelizers compute the documented decision, whatever the schedule", "statement": "A CUDA or OpenCL voxelization has one result for every interleaving of the atomic increments of all threads of all cameras, every block size and either API: each counter ends up, at the address the filter kernel reads, with the exact number of points of its camera whose ray passes through (ends in) the cell; every cell that is not filled in the static environment becomes the documented decision on these numbers; and the voxelization is undefined only if the ray of some point is (C56). In exact arithmetic the result is the CPU result.", "quantifier": "every arithmetic, grid, set of clouds, filter options, thread interleaving, block size, API (buffers below 2^31 counters)", "why_tests_cant": "All interleavings of millions of device threads; the repository's test needs a device and compares one scene.", "anchors": ["src/voxelized_geometry_tools/device_pointcloud_voxelization.cpp: DoVoxelizePointClouds", "src/voxelized_geometry_tools/cuda_voxelization_helpers.cu: RaycastPoint, FilterGrids, RaycastPoints, FilterTrackingGrids, CalcNumBlocks", "src/voxelized_geometry_tools/opencl_voxelization_helpers.cc: RaycastPoint, FilterGrids, RaycastPoints, FilterTrackingGrids"]}
{"id": "C58", "title": "A positive estimate means clear space, a negative one means depth", "statement": "Around a location where a generated SDF estimates distance e there is nothing filled within e - (sqrt 3 - 1/2) cell edges, in world coordinates, whatever the pose; where it estimates depth e there is nothing free within that radius. The distance D to the centre of a filled cell satisfies e + s/2 <= sqrt(D^2 + 3/4 s^2), so far away the estimate is exact up to half a cell. In the outer half of the outer cells, where the code extrapolates, the margin is sqrt 3 + 3 cell edges. The estimate is not pessimistic either: without virtual border, with free cells around the location and no filled centre nearer than r it is at least r - s/2 - (sqrt 3)/2 s. The margin cannot be dropped: an estimate can exceed the true distance.", "quantifier": "every set of filled cells, grid size (up to 2^26 cells per axis and a squared diagonal of at most 2^53 cells (with virtual layers, where the code adds them)), pose, resolution, every location (exact arithmetic after the transform); with or without virtual border, the lower bound on the estimate without", "why_tests_cant": "Tests compare a few locations of one scene; the property is about all locations, all layouts and all poses, and the worst layouts are not obvious.", "anchors": ["include/voxelized_geometry_tools/signed_distance_field.hpp: EstimateLocationDistance, GetCorrectedCenterDistance", "include/voxelized_geometry_tools/signed_distance_field_generation.hpp: ExtractSignedDistanceField"]}
{"id": "C59", "title": "The estimated distance changes no faster than the geometry allows", "statement": "Between two locations the estimate of a generated SDF changes by at most the sum of the coordinate differences along the grid axes, hence by at most sqrt 3 times the distance in the world (4 sqrt 3 where the code extrapolates); every component of a fine gradient is at most 4 sqrt 3, whatever the window. The constant 1 of a true distance does not hold.", "quantifier": "every set of filled cells, grid size (up to 2^26 cells per axis and a squared diagonal of at most 2^53 cells (with virtual layers, where the code adds them)), pose, resolution, pair of locations, window; exact arithmetic", "why_tests_cant": "A planner that steps by the estimated clearance relies on this for every pair of locations.", "anchors": ["include/voxelized_geometry_tools/signed_distance_field.hpp: EstimateLocationDistance, EstimateDistanceInterpolateFromNeighbors, GetLocationFineGradient"]}
{"id": "C60", "title": "Coarse gradients of a generated SDF point out of obstacles", "statement": "A coarse gradient is, in grid frame and axis by axis, the difference quotient between the cells before and after (or the cell itself where the grid ends), turned to the world. On a generated SDF a component between cells of the same kind is at most 1; across a surface it points from the filled to the free side and is between 1 and 3/2, or exactly 2 where the grid ends. So next to a flat wall the gradient is not of length 1.", "quantifier": "every set of filled cells, grid size (up to 2^26 cells per axis and a squared diagonal of at most 2^53 cells (with virtual layers, where the code adds them)), pose, resolution, cell; exact arithmetic", "why_tests_cant": "The test checks a few cells of one scene; the direction must be right at every surface cell of every layout.", "anchors": ["include/voxelized_geometry_tools/signed_distance_field.hpp: GetIndexCoarseGradient, GetGridAlignedIndexCoarseGradient"]}
{"id": "C61", "title": "Voxelizing step by step with the CPU voxelizer", "statement": "RaycastPointCloud adds to the counters of every cell exactly the numbers of rays through and into it (32-bit), whatever the grid held before and however the work is scheduled; clouds may be cast in any order, split into parts, or cast point by point with RaycastSinglePoint, with the same counters. Casting each cloud into a fresh grid in the frame of the static environment and then calling CombineAndFilterGrids gives exactly what VoxelizePointClouds gives. An unusable grid, a grid of other sizes than the map and a non-finite point are rejected with nothing changed. Cameras need grids of their own, and poses are not compared.", "quantifier": "every grid size, earlier counts, list of clouds, pose, filter option, thread count and interleaving; exact arithmetic of the rays", "why_tests_cant": "No test calls these members; equality over all schedules and all divisions of the points cannot be sampled.", "anchors": ["src/voxelized_geometry_tools/cpu_pointcloud_voxelization.cpp:67-206", "include/voxelized_geometry_tools/pointcloud_voxelization_interface.hpp:262-292"]}
{"id": "C62", "title": "Answers of an SDF do not depend on the unit of length", "statement": "Expressing resolution, placement and distances in another unit changes the answers by that unit only: interpolated distances are multiplied by it, coarse and fine gradients stay the same, a field generated from the same cells has its distances multiplied by it, and projections and local extrema are the same points.", "quantifier": "every field, pose, resolution, unit, point, window, clearance; for generated fields every layout, with or without a virtual border", "why_tests_cant": "Tests use one resolution; independence of the unit is a statement about pairs of runs at all scales.", "anchors": ["include/voxelized_geometry_tools/signed_distance_field.hpp:482-497, 499-538, 1155-1203"]}
{"id": "C63", "title": "A point is pushed straight out of a flat wall, to just the requested clearance", "statement": "On the SDF of a flat wall (any axis, pose, number of layers, cells of an edge below 4) a point with less than the requested clearance is moved along the wall's normal only, in at most as many steps as cover the missing clearance, to a point whose clearance exceeds the request by at most a thousandth of a step: the smallest number of full steps, or the request plus a thousandth of a step if that is nearer. If that place is beyond the end of the grid the call throws.", "quantifier": "every grid size (up to 2^26 cells per axis and a squared diagonal of at most 2^53 cells (with virtual layers, where the code adds them)), wall, pose, resolution below 4, start point without the requested clearance, clearance, positive step multiplier; field without virtual border, exact arithmetic", "why_tests_cant": "A test projects a few points of one scene; the step count, direction and overshoot must hold for all starts and step sizes.", "anchors": ["include/voxelized_geometry_tools/signed_distance_field.hpp:1155-1203"]}
{"id": "C64", "title": "A camera's tracking grid read back from a device holds that camera's ray counts and nothing else", "statement": "After the raycasting of all clouds, RetrieveTrackingGrid for one cloud yields two numbers per cell in grid order: how many rays of that cloud pass through the cell and how many end in it. Rays of other clouds, running at the same time in the shared buffer, never show up. Asking for a cloud that does not exist is an exception, and the copy never leaves the buffer.", "quantifier": "every grid size, number of clouds and points, arithmetic, interleaving of kernel threads, block size; CUDA and OpenCL", "why_tests_cant": "Offsets in the shared buffer are computed for all cameras and cells, and kernels interleave at random; a test sees a few schedules on small grids.", "anchors": ["src/voxelized_geometry_tools/cuda_voxelization_helpers.cu:641-657, 734-752", "src/voxelized_geometry_tools/opencl_voxelization_helpers.cc:592-641, 764-788", "include/voxelized_geometry_tools/device_voxelization_interface.hpp:84-95"]}
{"id": "C65", "title": "Queries on a signed distance field are safe whatever the rounding", "statement": "For every floating-point behaviour (any rounding, infinities, NaN): a distance estimate never throws, has no value exactly outside the grid, and is interpolated from eight cells in the grid that surround the cell of the location; coarse gradients never throw and exist exactly for the documented cells; a fine gradient throws exactly if both neighbours on an axis are outside; a projected location is one whose estimate is not below the requested clearance, or the given location outside the grid; the local extrema computation ends and gives every cell a value. The only undefined behaviour is the conversion of a location to a cell index: of the given location, of its neighbours if it is in the grid (fine gradients), of the locations reached by steps along the gradient (projection). A projection throws exactly if such a step leads off the grid or the last coordinate at the end is not 1, and gives up exactly where the gradient is too small.", "quantifier": "every arithmetic, grid size, stored distances including infinities and NaN, location, clearance and step size", "why_tests_cant": "A wrong index would need a location where rounding moves it across a cell border; tests cannot try all doubles, let alone all compiler modes.", "anchors": ["include/voxelized_geometry_tools/signed_distance_field.hpp:214-541, 820-1231"]}
{"id": "C66", "title": "Queries on maps without any boundary", "statement": "In the field of a map without a filled cell every estimated distance is +infinity and every location has any requested clearance; in the field of a map without a free cell every estimated distance is -infinity and projection reports failure.", "quantifier": "every grid size, resolution, location in the grid, rounding, requested clearance, both usual interpolation formulas", "why_tests_cant": "Tests use maps with obstacles and free space; infinity minus infinity appears only without them.", "anchors": ["include/voxelized_geometry_tools/signed_distance_field.hpp:260-379", "include/voxelized_geometry_tools/signed_distance_field.hpp:820-835", "include/voxelized_geometry_tools/signed_distance_field.hpp:922-1025", "include/voxelized_geometry_tools/signed_distance_field.hpp:1155-1203"]}
{"id": "C67", "title": "Rounding moves an estimated distance by a bounded, tiny amount", "statement": "The distance estimate computed in floating point differs from the exact interpolation of the stored distances by at most 4400 u N M (u the unit roundoff, N the largest number of cells along an axis, M the largest distance), also where rounding picks other cells than exact arithmetic would; in double that is 2^-40 N M. Estimates exist for all locations more than 5uN cells inside the grid and for none that far outside (coordinates of up to N cells). Hence a computed estimate in a generated field still guarantees free space around the location, less that error and the margin of C58.", "quantifier": "every rounding with the given error bounds, field, pose, location in the grid, transformed exactly; double: up to 2^43 cells per axis and cell sizes from 2^-1022 to 2^1022, or from 2^-340 to 2^511 for the second usual interpolation formula (9300 u N M)", "why_tests_cant": "Rounding errors at cell borders show up for single doubles among 2^192 locations; a tolerance in a test says nothing about the worst case.", "anchors": ["include/voxelized_geometry_tools/signed_distance_field.hpp:260-379", "include/voxelized_geometry_tools/signed_distance_field.hpp:820-835"]}
{"id": "C68", "title": "A clearance computed in machine arithmetic from end to end is real clearance", "statement": "Occupancy grid to distance field with double arithmetic and float or double storage, then a distance query computed in double: if the query answers e at a location, no point of a filled cell is nearer than e less sqrt(3)+3 cell edges (sqrt(3)-1/2 away from the outer half cells), less the rounding margin N/2^18 + N^2/2^37 cell edges (N/2^44 + N^2/2^37 for double storage), less the error of the computed grid-frame coordinates; likewise no point of a free cell is nearer than -e less the same. A location returned by projection to a minimum distance m has every filled cell farther than m less that margin.", "quantifier": "every occupancy with finite field, grid size (N bounds the cells along an axis, N up to 2^43), cell size from 2^-100 to 2^100, with or without virtual border, pose, location with an answer (also those just outside that rounding moves inside), schedule of the parallel generation, both usual interpolation formulas", "why_tests_cant": "Three roundings in generation, the conversion to float and some sixty in the query add up; a test sees a few of the 2^192 locations and none of the worst cases, and no test relates the answer to all points of all filled cells.", "anchors": ["include/voxelized_geometry_tools/signed_distance_field_generation.hpp:60-285", "src/voxelized_geometry_tools/signed_distance_field_generation.cpp", "include/voxelized_geometry_tools/signed_distance_field.hpp:260-379", "include/voxelized_geometry_tools/signed_distance_field.hpp:820-835", "include/voxelized_geometry_tools/signed_distance_field.hpp:1155-1203"]}
{"id": "C69", "title": "Mesh rasterization in machine arithmetic", "statement": "Whatever the rounding, and with NaN or infinite coordinates: RasterizeMesh only sets cells of the map to 1.0, only between the indices computed for the corners of a triangle's box; the result depends neither on the order of the triangles nor on threads; calling it again after a call that returned changes nothing; without enforcement it does not throw for valid vertex numbers. RasterizeMeshIntoOccupancyMap builds a map that holds the whole mesh and does not throw, for double coordinates within 2^48 cells of the world's origin.", "quantifier": "every arithmetic (all operations open), mesh, map, split of the work and interleaving, outcomes without undefined conversions (order and repetition: calls that return); new maps: every monotone rounding with small relative error, double for resolutions from 2^-1022 to 2^1022", "why_tests_cant": "Rounding decides whether a vertex on the rim of the new map gets an index inside; the failing inputs are rare and far apart, and tests see one schedule.", "anchors": ["src/voxelized_geometry_tools/mesh_rasterizer.cpp:104-278"]}
{"id": "C70", "title": "Rasterization does not depend on unit, origin or order of corners", "statement": "Which cells a mesh fills does not depend on the unit of length, on where the origin of the world is (mesh and map moved together), or on the order in which the corners of a triangle are named.", "quantifier": "every mesh, map pose, scale factor, translation and permutation of corners", "why_tests_cant": "A relation between pairs of runs over all meshes and maps; failures need ties or particular places of the origin.", "anchors": ["src/voxelized_geometry_tools/mesh_rasterizer.cpp:26-102", "src/voxelized_geometry_tools/mesh_rasterizer.cpp:104-201"]}
{"id": "C71", "title": "Degenerate and non-finite triangles", "statement": "A triangle whose corners lie on a line (or coincide) fills the cells it passes through and no cell farther than half a cell diagonal from it; a triangle with a NaN coordinate is reported.", "quantifier": "every degenerate triangle and map; NaN in any corner", "why_tests_cant": "Meshes from real scans contain slivers of every kind; tests use well-shaped triangles.", "anchors": ["src/voxelized_geometry_tools/mesh_rasterizer.cpp:26-43", "src/voxelized_geometry_tools/mesh_rasterizer.cpp:66-73", "src/voxelized_geometry_tools/mesh_rasterizer.cpp:129-144"]}
{"id": "C72", "title": "Raycasting in machine arithmetic: sensor in the grid", "statement": "With IEEE arithmetic, a ray from a sensor in the grid marks only cells within a tolerance of 33 u n^2 s of the segment (u the unit roundoff, n the number of cells along an axis plus two, s the edge of a cell; cut rays: plus 5 u times the length of the segment), and marks every cell the segment passes at this depth: free, or filled for the cell of a measured point within range. For double and a thousand cells along an axis this is 4e-9 of a cell.", "quantifier": "every grid up to two million cells (double) or 526 cells (float) along an axis with cells of an edge between 2^-60 and 2^60 (2^-30 and 2^30), every sensor position in the grid, every point within 2^60 (2^40) of it, range and computed ray length; cut rays: ranges from 2^-60 (2^-30) and lengths up to 2^60 (2^40)", "why_tests_cant": "Rounding errors add up over the steps of the walk and differ for every ray; a test sees a handful of rays and cannot bound the error.", "anchors": ["src/voxelized_geometry_tools/cpu_pointcloud_voxelization.cpp:208-436", "src/voxelized_geometry_tools/cuda_voxelization_helpers.cu:73-356", "src/voxelized_geometry_tools/opencl_voxelization_helpers.cc:59-327"]}
{"id": "C73", "title": "Raycasting in machine arithmetic: sensor outside the grid", "statement": "With IEEE arithmetic, a ray from a sensor outside the grid marks only cells within a tolerance of the part of the segment in the grid, and every cell the segment passes deeper than the tolerance.", "quantifier": "every grid, every sensor position outside the grid within reach, every point, range and computed ray length", "why_tests_cant": "The entry point is computed with a chain of rounded operations and an absolute nudge; whether rays get lost depends on angle and distance.", "anchors": ["src/voxelized_geometry_tools/cpu_pointcloud_voxelization.cpp:228-290", "src/voxelized_geometry_tools/cpu_pointcloud_voxelization.cpp:292-436"]}
{"id": "C74", "title": "CPU voxelization in machine arithmetic, from clouds to occupancy", "statement": "Voxelizing point clouds on the CPU in double precision gives, whatever the number of threads and the interleaving, one result: every cell that was not filled gets the documented decision on the numbers of points whose computed rays pass and end in it. A cell becomes filled only if some camera measured at least `threshold` points within its range whose true positions are in the cell up to a small tolerance; it becomes free only if enough cameras have a true ray that passes the cell up to that tolerance before its range; and points deep in a cell fill it (percentage 1).", "quantifier": "for all poses, clouds, ranges, options, grids (within stated bounds of coordinates), numbers of threads, work splits and interleavings, and for the rounding of every single operation", "why_tests_cant": "tests compare a handful of scenes with expected occupancies away from cell borders; no test can try all rounded transforms, ray directions and interleavings, nor tell whether a rounding error ever moves a mark by more than the tolerance", "anchors": ["src/voxelized_geometry_tools/cpu_pointcloud_voxelization.cpp:133-206", "src/voxelized_geometry_tools/cpu_pointcloud_voxelization.cpp:208-436"]}
{"id": "C75", "title": "Spatial segments are never stale", "statement": "Whenever AreSpatialSegmentsValid holds, the stored segments and their number are the answer for the current occupancies and object ids and for the threshold and parameters of the last call of UpdateSpatialSegments; otherwise NumSpatialSegments has no value.", "quantifier": "every history of accesses, raw writes, component updates, segment updates and forced invalidations, every size of map, every sequence of parameters", "why_tests_cant": "A property of histories of unbounded length with two caches that invalidate each other; the test calls each update once per map.", "anchors": ["src/voxelized_geometry_tools/tagged_object_occupancy_component_map.cpp:775-868", "include/voxelized_geometry_tools/tagged_object_occupancy_component_map.hpp:260-331"]}
{"id": "C76", "title": "Device voxelization in float, from clouds to occupancy", "statement": "Voxelizing on a device converts poses, points, ranges and the size of cells to float and computes in float. A cell becomes filled only if some camera measured at least `threshold` points within its range whose true positions (before any conversion) are in the true cell up to a tolerance of (34 n^2 e + 310 B) / 2^24 (n cells along an axis, e their edge, B the bound of coordinates); points deeper than the tolerance in a cell fill it (percentage 1); cells become free only if enough cameras look through them up to the tolerance, and become free if looked through deeper than it.", "quantifier": "for all poses, clouds, ranges, options, grids up to 526 cells along an axis, all coordinates up to 2^30, both device backends, all numbers of threads and interleavings, and the rounding of every conversion and operation", "why_tests_cant": "Tests compare the backends on a scene made of whole numbers of cells; the error of the conversion to float grows with the size of the coordinates and with the number of cells, and shows only at places near cell borders that depend on every input.", "anchors": ["src/voxelized_geometry_tools/device_pointcloud_voxelization.cpp:60-196", "src/voxelized_geometry_tools/cuda_voxelization_helpers.cu:73-356", "src/voxelized_geometry_tools/opencl_voxelization_helpers.cc:59-327"]}
{"id": "C77", "title": "From measured points to clearance", "statement": "Voxelize point clouds (percentage 1, threshold 1), extract the signed distance field of the occupancy map, and query it at a location: if the answer is e', every measured point that is truly in the grid and within the range of its sensor, both by more than an explicit tolerance, is at least e' away from the location, less 4.8 cell edges, less the error of the location in the frame of the grid, less an explicit rounding tolerance. And at a location in the open, with any filter, a measured point (or a cell filled before) is at most e' away, plus 2.3 cell edges and the same errors. Every map with an obstacle and a cell that is none has a field, and every location in the grid by a little more than the rounding error has an answer.", "quantifier": "for all poses, clouds, ranges (from 2^-60, or infinite), sensors anywhere, grids (up to 2^21 cells along an axis and coordinates up to 2^60 on the CPU, 526 cells and 2^30 on devices), locations and cell contents, all numbers of threads and interleavings of voxelization and field generation, the rounding of every operation (double on the CPU, float on devices, double with float storage in the field)", "why_tests_cant": "It is the composition that a planner relies on: the errors of raycasting, filtering, distance transform, storage and interpolation add up over every scene; no test runs the chain from clouds to queries, and a bound needs all points at all positions in their cells.", "anchors": ["src/voxelized_geometry_tools/cpu_pointcloud_voxelization.cpp:133-500", "src/voxelized_geometry_tools/device_pointcloud_voxelization.cpp:60-196", "include/voxelized_geometry_tools/occupancy_map.hpp:174-210", "src/voxelized_geometry_tools/signed_distance_field_generation.cpp:1-395", "include/voxelized_geometry_tools/signed_distance_field.hpp:260-379", "include/voxelized_geometry_tools/signed_distance_field.hpp:808-835"]}
{"id": "C78", "title": "Cameras in the frame of the world", "statement": "Users give the pose of every point cloud in the frame of the world; both voxelizers multiply it, in double, with the stored inverse pose of the grid (the device code then converts the product to float). What C74, C76 and C77 say about true positions in the frame of the grid holds for the true positions in the world: filled cells hold their measured points, measured obstacles are kept wherever the sensor is, free cells were looked through unless a ray ends before the grid, what is looked through from sensors in the grid becomes free, voxelization has a result, and clearance answers bound the distance to the measured points in the world from both sides. Coordinates of up to B cost at most five times the tolerance share of B and a further 60 B / 2^53.", "quantifier": "for all poses of grid and clouds (rows and columns of length one up to 1/4000), all clouds, ranges, grids, locations and cell contents, all orders in which the three products of a value are added, all numbers of threads and interleavings, the rounding of every operation", "why_tests_cant": "Every test of the voxelizers uses a few poses for which the product is exact; the rounding of the product moves every ray of a cloud by an amount that depends on the pose, on the size of the coordinates and on the instructions of the machine.", "anchors": ["src/voxelized_geometry_tools/cpu_pointcloud_voxelization.cpp:167-180", "src/voxelized_geometry_tools/device_pointcloud_voxelization.cpp:91-135", "include/voxelized_geometry_tools/signed_distance_field.hpp:260-379"]}
{"id": "C79", "title": "Gradients with rounding", "statement": "Fields stored as float or double, queried in double: a coarse gradient is, along every axis of the grid, within N/2^21 (float) or N/2^47 (double) of an exact slope, where N bounds the cells along an axis: at most 1 between cells of the same kind, between 1 and 3/2 from a filled to a free cell (2 at the ends of the axis), and the reverse, so that its sign can be trusted; rotated to the world it keeps this accuracy. A fine gradient answers where both neighbours along every axis are in the grid, and its answer is that of the exact field up to the errors of the estimates divided by the window. No fine gradient, with one neighbour or two, is larger than 8 up to the same errors. A window lost in the rounding of a coordinate gives NaN.", "quantifier": "all grids (up to 2^26 cells per axis and a squared diagonal of at most 2^53 cells (with virtual layers, where the code adds them)) with cells of an edge between 2^-100 and 2^100, occupancies, poses, cells, locations and windows from 2^-1022 and not below 2^-46 of the coordinates (2^-48 for the comparison with the exact field), all schedules of field generation, the rounding of every operation of generation, storage and query; errors of the transforms as parameters", "why_tests_cant": "Tests compare a few gradients with a loose tolerance. The error of a difference quotient grows with the distance values, with the size of the coordinates and with the inverse of the window, all unbounded; a bound needs all of them.", "anchors": ["include/voxelized_geometry_tools/signed_distance_field.hpp:214-255", "include/voxelized_geometry_tools/signed_distance_field.hpp:895-1092"]}
{"id": "C80", "title": "Meshes of small triangles, with rounding", "statement": "In maps without rotation, with every operation of the rasterizer rounded: if the sides of the triangles are at most D, every point of the surface is, up to rounding, in a cell (its own cell, unless it is on a face) that is filled if the distance from the point to the centre of the cell plus D is below half the diagonal of a cell by the rounding error; with enforcement this cell is in the map if the call returns. A filled cell has a point of the surface within half a cell and D of its centre on each axis. A new map made for a mesh in double with coordinates within 2^40 cells of the origin gets this for any number of threads. Near corners of cells even the smallest triangle can be lost.", "quantifier": "for all meshes with representable vertices whose computed squared normals are zero or neither underflow nor overflow, all cells and points of the surface, all resolutions between 2^-100 and 2^100, all schedules of threads, the rounding of every operation", "why_tests_cant": "Tests rasterize one coarse mesh and count cells. Which cells are filled depends on the choice among edge candidates, on a normal that cancels and on a comparison with a computed diagonal; the claim is about all points of all surfaces.", "anchors": ["src/voxelized_geometry_tools/mesh_rasterizer.cpp:26-229", "src/voxelized_geometry_tools/mesh_rasterizer.cpp:232-280"]}
{"id": "C81", "title": "From a mesh to a clearance", "statement": "A mesh with triangles of sides at most D is rasterized into its own new map in double, a float or double signed distance field is extracted from the map, and the field answers e' at a location. Take a point of the surface whose distance to the centre of its cell (of every cell it is in, up to rounding) plus D is at most half the diagonal of a cell, less rounding. Its distance from the location is at least e' less (√3 + 3) cell edges, less the error of the location in the frame of the grid, less an explicit rounding tolerance; for locations not in the outer half of an outer cell (√3 - 1/2) cell edges suffice. Other points of the surface get the bound of such a point, less their distance from it. Conversely, in a field without virtual border and at a location not in the outer half of an outer cell, if every point of the surface is farther than 25/16 cell edges plus D (and rounding) away on some axis, then some point of the surface is at most e' away, plus (√3 + 1/2) cell edges, √3 D and the same errors. A map with an empty and a filled cell for which generation is defined has a field, and every location in the grid by a little more than the rounding error has an answer.", "quantifier": "for all meshes with representable vertices within 2^40 cells of the origin, valid indices and squared normals that are zero or in range, all resolutions between 2^-100 and 2^100, all bounds N up to 2^43 on the cells of an axis (the tolerance grows with N), all locations and points of the surface, every outcome of the threads of rasterization, the rounding of every operation of rasterization, storage and interpolation", "why_tests_cant": "No test goes from a mesh to a queried distance. The errors of rasterization, distance transform, storage and interpolation add up, and the statement is about every point of every such surface and every location.", "anchors": ["src/voxelized_geometry_tools/mesh_rasterizer.cpp:26-229", "src/voxelized_geometry_tools/mesh_rasterizer.cpp:232-280", "include/voxelized_geometry_tools/occupancy_map.hpp:174-210", "include/voxelized_geometry_tools/signed_distance_field.hpp:260-379", "include/voxelized_geometry_tools/signed_distance_field.hpp:808-835"]}
{"id": "C82", "title": "What the fields of objects say about the space", "statement": "The signed distance field that a tagged map makes for chosen object ids answers e' at a location: every point of an obstacle cell of a chosen object is at least e' away, and every point of any other cell at least -e', less (√3 + 3) cell edges, the error of the location in the frame of the grid and an explicit rounding tolerance. The field of free space and named objects gives the same for all obstacles, with or without id, and for free cells; in exact arithmetic and for locations not in the outer half of an outer cell (√3 - 1/2) cell edges suffice. If every obstacle has an id, that field is the field of all obstacles, and at a free cell the least of the distances of the separate object fields is the distance to the nearest obstacle. An obstacle without id nearer than all objects is missed by every separate field.", "quantifier": "for all maps with uniform cells for which generation is defined, all parameters, all lists of ids, all finite float and double fields, all locations with an answer, all resolutions between 2^-100 and 2^100, all bounds N up to 2^43 on the cells of an axis (the tolerance grows with N), the rounding of generation, storage and interpolation, every schedule; the comparisons of fields for every rounding, the last statement for exact arithmetic without virtual border", "why_tests_cant": "Tests look at a few cells of a small map with two objects. The combined field is glued from two distance fields of different sets of cells, with zeros between, and then interpolated and rounded; that a planner may take its answers as clearance is about all maps and locations.", "anchors": ["include/voxelized_geometry_tools/tagged_object_occupancy_map.hpp:199-378", "include/voxelized_geometry_tools/tagged_object_occupancy_component_map.hpp:360-542", "include/voxelized_geometry_tools/signed_distance_field.hpp:260-379", "include/voxelized_geometry_tools/signed_distance_field.hpp:808-835"]}
{"id": "C83", "title": "Poses stored with rounding", "statement": "CRU stores the pose of a grid and its inverse in double; the rotation is not exactly orthogonal, the translation of the inverse is computed with rounding, and so is every product of the inverse with a location. If the entries of the stored rotation are within δ of a rotation and no coordinate of the location and of the origin of the grid exceeds X, the coordinates used by queries are within (2^-47 + 6δ)X of the true ones on each axis, so that the place they stand for is within (2^-46 + 12δ)X of the location. Locations in the grid by more than that have an answer. The clearance that answers, projections, and fields of named objects and of meshes promise therefore holds for the location itself, less that distance, in grids that are turned and moved. The place where the voxelizers see a point of the world is within (36/2^53 + 12δ)X of the point; from points measured by cameras to the clearance of a location all errors are explicit.", "quantifier": "for all poses with entries of the rotation within δ ≤ 1/1000 of an orthogonal matrix, all locations, all X from 2^-1022, every order of the additions of a product and with or without fused multiplication and addition in each, all fields as in C68, C77, C78, C81 and C82; overflow is not modelled", "why_tests_cant": "Tests use the identity or a few poses near the origin and compare with a tolerance. The error grows with the distance of the grid from the origin of the world and depends on the compiler's choice of order and fused operations; that a margin covers all of them is about all poses and locations.", "anchors": ["include/voxelized_geometry_tools/signed_distance_field.hpp:314-321", "include/voxelized_geometry_tools/signed_distance_field.hpp:808-835", "include/voxelized_geometry_tools/signed_distance_field.hpp:1155-1203", "src/voxelized_geometry_tools/cpu_pointcloud_voxelization.cpp:171-178", "src/voxelized_geometry_tools/device_pointcloud_voxelization.cpp:91-125"]}
{"id": "C84", "title": "Voxelization is defined wherever the sensors are", "statement": "With sensors and points anywhere, also outside the grid, a voxelization has a result: no conversion to an integer is out of range and no NaN is converted. On the CPU this holds if coordinates are at most 2^22 cells and every point of a sensor outside the grid is at least 1000 B/2^53 from the sensor, B being the bound on coordinates. On devices, whose indices have 32 bits, the point has to be at least 1000 B/2^24 from the sensor, and along every axis the sensor has to be between the faces of the grid or the ray has to make up a share of at least 4ν of its length, where 9B + 3 edges of the grid are at most 2^26 ν cells. The same holds, with somewhat larger numbers, for cameras in the frame of the world and the rounding of the product of the poses. The conditions are needed: a point measured at a sensor outside the grid makes CPU and device voxelization undefined, and on a device so does a ray that passes the grid almost parallel to a face, with all coordinates below 130 cells, for which the CPU has a result.", "quantifier": "for all grids of up to 2^21 (devices: 526) cells along an axis and cell edges from 2^-60 to 2^60 (devices: 2^-20 to 2^20), all sizes of the grid stored with rounding, all cameras, ranges and filter options, all divisions of the work and interleavings, the rounding of all operations in double and float; one ray for every rounding with an error of at most 1%", "why_tests_cant": "Tests put the camera in front of a small grid and look at it. Whether the start point of a ray, computed by divisions through small components of its direction, always has an index that fits its type is about all positions and directions, and the failing directions on devices are a sliver that tests do not hit.", "anchors": ["src/voxelized_geometry_tools/cpu_pointcloud_voxelization.cpp:208-334", "src/voxelized_geometry_tools/cuda_voxelization_helpers.cu:129-240", "src/voxelized_geometry_tools/opencl_voxelization_helpers.cc:108-210"]}
{"id": "C85", "title": "Obstacles are kept without IEEE arithmetic", "statement": "The build files of the repository allow fused operations on the CPU and, on devices, fused operations, approximate division and roots, and no denormal numbers. Let every operation be right up to a relative error u and a tiny absolute one, products being rounded or not when they are added to something, and let pose, points, range and grid be given up to u (sizes and the inverse of the edge up to 4u). With percentage 1, a cell with at least threshold measured points of one camera in it, deeper than 800uB + B/10^8 and nearer than the range by 400uB, is filled afterwards. A cell becomes filled only if some camera measured at least threshold points in it, or within 400uB of it, that are not beyond the range. With threshold 1, every measured point truly in the grid and in range is in, or within 400uB of, a cell that is filled, and the distance estimated from the field of the map is not larger than the distance to the point by more than the error of the field, that of the location and 800uB. This holds also if the division of the filter kernel is approximate.", "quantifier": "for all arithmetics with u up to 1/9000 and room for the numbers, among them double with fused operations (u = 3/2^53) and float with fused operations, rough division and denormal numbers flushed to zero (u = 3/2^24); all cameras with coordinates up to B anywhere, all grids, filter options, numbers of threads and interleavings; in the filter kernel all divisions with an error below 1/L for clouds of up to L points; the order of additions is that of the source; for executions with a result", "why_tests_cant": "Tests run one compiler's output on one machine and compare with a tolerance chosen by hand. Which operations a compiler fuses differs between machines and versions, and a fused operation can make a difference of equal products non-zero. That an obstacle survives every such choice is about all arithmetics with small errors.", "anchors": ["CMakeLists.txt.ros1:93-96", "CMakeLists.txt.ros1:138-140", "CMakeLists.txt.ros2:67-70", "CMakeLists.txt.ros2:111", "src/voxelized_geometry_tools/opencl_voxelization_helpers.cc:511-512", "src/voxelized_geometry_tools/cpu_pointcloud_voxelization.cpp:208-436", "src/voxelized_geometry_tools/cuda_voxelization_helpers.cu:91-424", "src/voxelized_geometry_tools/opencl_voxelization_helpers.cc:69-385"]}
{"id": "C86", "title": "Answers are not too large without IEEE arithmetic", "statement": "Let every operation of a query be right up to a relative error u and a tiny absolute one, products being rounded or not when they are added to or subtracted from something. The distance estimated at a location from a generated field with N cells along an axis is not larger than the distance to any filled cell by more than sqrt(3) + 3 + N/2^18 + 174120 u N^2 cell edges and the error of the location in the frame of the grid (sqrt(3) - 1/2 instead of sqrt(3) + 3 away from the outer half of the outer cells, 2^44 instead of 2^18 for fields of double); the same holds for the negated estimate and free cells. A location returned by the projection is clear of filled cells by the requested distance less this. There is an answer at every location in the grid by 30 u N cell edges, and none outside by more than 60 u N. Together with C85: when map, field and answer are all made without IEEE arithmetic, every measured point that is in the grid and in range is at least the answer away, less these errors. For locations in the world the error of the location is (2^-46 + 12 k) X, for coordinates up to X and a stored rotation with entries within k of the true one.", "quantifier": "for all arithmetics with u N up to 1/10^5, among them double with fused products and sums (u = 3/2^53) whichever operand is taken unrounded; all maps, cell edges from 2^-100, locations, poses, both interpolation formulas; all cameras, grids, numbers of threads and interleavings for the combination; operations in the order of the source and without overflow", "why_tests_cant": "A test compares one compiler's output at some locations with a tolerance. Which products are fused differs between machines, and the interpolation divides differences of products by small products; that no choice makes the answer larger than allowed is about all fields, locations and arithmetics.", "anchors": ["CMakeLists.txt.ros1:93-96", "CMakeLists.txt.ros2:67-70", "include/voxelized_geometry_tools/signed_distance_field.hpp:214-379", "include/voxelized_geometry_tools/signed_distance_field.hpp:1155-1203"]}
{"id": "C87", "title": "Obstacles and clearance in the world without IEEE arithmetic", "statement": "Cameras and queries are given in the frame of the world; the grid may be turned in it. The voxelizers multiply the stored inverse of the pose of the grid with the pose of each camera, in double, with additions in any order and fused or not, convert the result to their own numbers, and go on in an arithmetic whose operations are right up to a relative error u. Coordinates are up to B. With percentage 1, a cell with at least threshold measured points of one camera in it, deeper than 4000uB + 5B/10^8 and nearer than the range by 2000uB, is filled afterwards; a cell becomes filled only if some camera measured at least threshold points in it, or within 2000uB of it, that are not beyond the range. With threshold 1, a location of the world is at least the answer of the query away from every measured point that is truly in the grid and in range, less sqrt(3) + 3 + N/2^18 + 174120 u' N^2 cell edges for field and query (in an arithmetic right up to u'), less 4000uB, and less 164/2^53 + 24 delta times the size of the world for the poses, where delta is the error of the stored pose of the grid. A location that projection returns is clear of every such point by the requested distance, less the same errors.", "quantifier": "for all poses of cameras and grids whose rows and columns have a squared length up to 2001/2000, all orders of additions and choices of fused operations in the products of poses, all arithmetics as in C85 and C86 with u at least 15/2^53 and three times the error of the conversions, among them double and float with fused operations, rough division and no denormal numbers; all points, grids, numbers of threads and interleavings; for executions with a result", "why_tests_cant": "Each test has a few poses, mostly without rotation, and one compiler. Eigen chooses the order of the additions and the compiler the fused operations by the machine it is built for, and the error of the pose is multiplied by the distance of the camera; that no measured obstacle is lost is about all poses and all these choices.", "anchors": ["CMakeLists.txt.ros1:93-96", "src/voxelized_geometry_tools/cpu_pointcloud_voxelization.cpp:170-200", "src/voxelized_geometry_tools/device_pointcloud_voxelization.cpp:92-132", "include/voxelized_geometry_tools/signed_distance_field.hpp:309-379", "include/voxelized_geometry_tools/signed_distance_field.hpp:1155-1203"]}
{"id": "C88", "title": "Voxelization is defined without IEEE arithmetic", "statement": "Every operation is right up to a relative error u and a tiny absolute error, products may be fused with sums, and numbers up to L have indices. A voxelization then has a result: no conversion to an integer is out of range, no difference of indices overflows and no NaN is converted. On the CPU this holds if (51 * 10^11/9 * B + 1/10^7)/e + 4 is at most L, for coordinates up to B and cells with edge e, and no point is measured at a sensor outside the grid (nearer than 1000uB); with 64 bits B may be 2^22 cells. On devices it holds if each sensor is in the grid, or for each of its points, along each axis, the sensor is between the faces of the grid or the ray advances by at least 1000uB and by at least 4v of its length, where (51B/v + 1/10^7)/e + 4 is at most L; with 32 bits B may be v * 2^24 cells. Both also for cameras given in the frame of the world, with poses multiplied as in C87.", "quantifier": "for all arithmetics as in C85 that keep results of roots and the constant 1e-10 as they are, among them double and float with fused operations, rough division and no denormal numbers; for all poses, points, ranges, grids, filter options and approximate shares of the device filter; sensors anywhere within B", "why_tests_cant": "Undefined conversions happen for rays that graze a face of the grid or points near a sensor; which ones depends on the fused operations the compiler chose, and tests sample a few rays with one build. That no ray of any cloud is undefined is about all rays and all builds.", "anchors": ["CMakeLists.txt.ros1:93-96", "CMakeLists.txt.ros1:138-140", "src/voxelized_geometry_tools/cpu_pointcloud_voxelization.cpp:208-436", "src/voxelized_geometry_tools/cuda_voxelization_helpers.cu:91-355", "src/voxelized_geometry_tools/opencl_voxelization_helpers.cc:69-326"]}
{"id": "C89", "title": "Free cells were looked through without IEEE arithmetic", "statement": "Every operation of the walk through the grid is right up to a relative error u and a tiny absolute one, products may be fused with sums, quotients and sums that are too large are infinite. The grid has fewer than N - 1 cells with edge e along each axis, coordinates are up to B. A cell that was not filled becomes free only if, for at least the required number of cameras, the true segment from the sensor to some measured point passes within 50 u N^2 e + 300 u N e + 400 u B of the cell, not beyond the range by more than that. Conversely a cell becomes free if for at least the required number of cameras such a segment passes the cell deeper than this, and before the range by this, and no camera measured a point in or within 400 u B of the cell.", "quantifier": "for all arithmetics as in C85 with 100 u N^2 + 600 u N up to 1 and 9000 u N up to 1 that store sums, differences, quotients, magnitudes and roots, among them double with fused operations (N up to 2^22) and float with fused operations, rough division and no denormal numbers (N up to 202); for all poses, points, ranges, filter options, approximate shares of the device filter, numbers of threads and interleavings; for executions with a result, which exist by C88; sensors anywhere in the property; in the theorems, sensors in the grid for both directions, and sensors anywhere for the first, with 4000 u B in place of 400 u B and up to cameras with a segment that does not lead into the grid by 3000 u B + 1e-9", "why_tests_cant": "The walk adds the crossing times of up to three N faces, each with its own error, and compares them with each other and with the range; a wrong comparison marks a cell beside the ray. Tests compare a few rays with one build, while the fused operations depend on the compiler and the machine. That the errors never add up to more than the tolerance is about all rays and all builds.", "anchors": ["CMakeLists.txt.ros1:93-96", "CMakeLists.txt.ros1:138-140", "src/voxelized_geometry_tools/cpu_pointcloud_voxelization.cpp:208-436", "src/voxelized_geometry_tools/cuda_voxelization_helpers.cu:91-355", "src/voxelized_geometry_tools/opencl_voxelization_helpers.cc:69-326"]}
{"id": "C90", "title": "Coarse gradients can be trusted without IEEE arithmetic", "statement": "Let every operation of a coarse gradient be right up to a relative error u and a tiny absolute one, products being rounded or not when they are added to something, and differences of stored distances right up to us. Along every axis of the grid the gradient of a generated field with N cells along an axis is within (4 v + 8 us + 240 u) N of an exact slope, v being the rounding error of the stored distances: at most 1 between cells of the same kind, between 1 and 3/2 from a filled to a free cell (2 at the ends of the axis), and the reverse, so that its sign can be trusted; along an axis with one cell it is zero. In double with fused operations this is N/2^19 for fields of float and N/2^43 for fields of double. Rotated to the world with entries within k of a rotation, each component is within 3 t + (k + 10 u)(7 + 3 t) of the rotated exact slopes, t being the bound above.", "quantifier": "for all arithmetics with u N up to 1/10^5 and us up to 1/10^5, among them double with fused products and sums whichever operand is taken unrounded (N up to 2^34); all maps, cell edges from 2^-100 to 2^100, poses, cells in the grid with or without neighbours on both sides, all schedules of field generation", "why_tests_cant": "Which products are fused with which sums depends on the compiler, its options and the machine; a test sees one build and a few cells. Whether the sign of a gradient can ever be wrong is about all maps and all builds.", "anchors": ["CMakeLists.txt.ros1:93-96", "CMakeLists.txt.ros2:67-70", "include/voxelized_geometry_tools/signed_distance_field.hpp:895-1025"]}
{"id": "C91", "title": "Fine gradients are bounded, and right inside the grid, without IEEE arithmetic", "statement": "Let every operation of a fine gradient be right up to a relative error u and a tiny absolute one, products being rounded or not when they are added to something. No component of the fine gradient of a generated field with N cells of edge s along an axis, with a window w, is larger in magnitude than 8 + (3 E + 3000 u N s + 30 d)/w. Here E = (174000 u N + 54 (v + 2^-51)) N s bounds the error of an estimate, v is the rounding error of the stored distances and d bounds the error of the coordinates in the frame of the grid. In double with fused operations this is 8 + 3 ((N/2^18 + N^2/2^34) s + 10 d)/w for fields of float and 8 + 3 ((N/2^40 + N^2/2^34) s + 10 d)/w for fields of double. Where conversions to indices are defined, there is such a gradient if there are answers at the location and on one side of it along each axis. For locations in the world, d is (2^-46 + 6 k) X for coordinates up to X/2, a shift of the grid up to X and a stored rotation with entries within k of the true one. Where both neighbours are in the grid along every axis (by another window and the errors above), there is a fine gradient, and each component is that of the exactly generated field up to (2 E + 1500 u N s + 15 d + 44 (u (B + w) + e))/w + 18 u, B bounding the coordinates and e being the tiny absolute error; in double with fused operations up to ((N/2^17 + N^2/2^33) s + 15 d + B/2^45)/w + 2^-44 for fields of float and with N/2^40 instead of N/2^17 for fields of double.", "quantifier": "for all arithmetics with u N up to 1/10^5, among them double with fused products and sums whichever operand is taken unrounded (N up to 2^34); all maps, cell edges from 2^-100 to 2^100, poses, both interpolation formulas, all locations with an answer, windows of either sign with magnitude at least 2^-1000 and at least 2^-40 of the coordinates; all schedules of field generation", "why_tests_cant": "A difference of two interpolated values is divided by a difference of two coordinates, and both suffer cancellation. Which products are fused depends on the compiler, its options and the machine. That the quotient never leaves the bound is about all maps, locations, windows and builds, while a test sees a few of each.", "anchors": ["CMakeLists.txt.ros1:93-96", "CMakeLists.txt.ros2:67-70", "include/voxelized_geometry_tools/signed_distance_field.hpp:214-255", "include/voxelized_geometry_tools/signed_distance_field.hpp:1051-1092"]}
{"id": "C92", "title": "The fine gradient of a flat wall is its normal, with rounding", "statement": "Let the cells below one layer of an axis of the grid be filled and the others free, and let the field be generated without a virtual border. Where both neighbours at the window w are in the grid along every axis of the world (by another window and the errors below), there is a fine gradient, and it is the direction of that axis of the grid in the world: a unit vector straight out of the wall, on both sides of the surface of the wall, however the grid is turned. Each component is right up to ((N/2^17 + N^2/2^33) s + 15 d + B/2^45)/w + 2^-44 in double with fused operations for fields of float, with N/2^40 instead of N/2^17 for fields of double, and up to ((N/2^18 + N^2/2^37) s + 16 d + B/2^48)/w + 2^-46 and the same with N/2^42 in IEEE double. N bounds the number of cells along an axis, s is their edge, B bounds the coordinates and d the error of coordinates in the frame of the grid. In exact arithmetic the gradient is exactly the direction. Nearer to the edge of the grid, wherever a fine gradient is returned at all (also from one-sided differences), it is the same direction, each component right up to ((N/2^16 + N^2/2^32) s + 3 d + B/2^45)/w + 2^-44 for fields of float and with N/2^41 instead of N/2^16 for fields of double, with fused operations.", "quantifier": "for all walls (axis, layer, number of cells), cell edges from 2^-100 to 2^100, poses, locations with room for the window, windows of either sign, both interpolation formulas, fields of float and double, IEEE operations or fused ones whichever operand is taken unrounded; all schedules of field generation", "why_tests_cant": "The coarse gradient at a wall is up to half too long next to the surface. That the fine one is not, at any place and window, follows from how the correction of distances and the interpolation fit together at the surface of the wall and at the edge of the grid; a test sees a few places, one pose and one build.", "anchors": ["include/voxelized_geometry_tools/signed_distance_field.hpp:214-379", "include/voxelized_geometry_tools/signed_distance_field.hpp:1051-1092", "CMakeLists.txt.ros1:93-96"]}
{"id": "C93", "title": "Estimated distances to a flat wall are right up to rounding", "statement": "Let the cells below one layer of an axis of the grid be filled and the others free, and let the field be generated without a virtual border. Every estimated distance is the signed distance to the plane between filled and free cells, positive on the free side, up to rounding only: (N/2^18 + N^2/2^34) s + (2^-47 + 6 k) X for fields of float and the same with N/2^44 for fields of double, in double with fused operations. The size of a cell does not enter. N bounds the number of cells along an axis, s is their edge, X bounds the coordinates of the location and the shift of the grid, k the errors of the stored rotation. In any arithmetic with relative error u and a tiny absolute one, relative to the computed coordinates the error is at most (174000 u N + 54 (v + 2^-51)) N s + 60 u N s, where v is the rounding error of stored distances.", "quantifier": "for all walls (axis, layer, number of cells), cell edges from 2^-100 to 2^100, poses, all locations with an answer up to the edge of the grid, both interpolation formulas, fields of float and double; all arithmetics with u N up to 1/10^5, among them double with fused products and sums whichever operand is taken unrounded (N up to 2^34); all schedules of field generation", "why_tests_cant": "For general maps an estimate may be off by more than a cell, so a test must allow for that and cannot see a small error. That nothing of this is left at a wall, at every location and with every rounding, depends on the correction of distances by half a cell, the handling of the cells at the edge of the grid and the choice of cells for interpolation next to cell centres.", "anchors": ["include/voxelized_geometry_tools/signed_distance_field.hpp:214-379", "src/voxelized_geometry_tools/signed_distance_field_generation.cpp:60-395", "CMakeLists.txt.ros1:93-96"]}
{"id": "C94", "title": "Estimated distances do not jump, with rounding", "statement": "The estimated distances at two locations of a generated field differ by at most 4 sqrt 3 times the distance of the locations and a tolerance for rounding: (N/2^17 + N^2/2^33) s + 14 (2^-46 + 12 k) X for fields of float and the same with N/2^40 for fields of double, in double with fused operations, for locations in the world. N bounds the number of cells along an axis, s is their edge, X bounds the coordinates of the locations and the shift of the grid, k the errors of the stored rotation. In any arithmetic with relative error u and a tiny absolute one the tolerance is 2 (174000 u N + 54 (v + 2^-51)) N s + 1680 u N s relative to the computed coordinates, where v is the rounding error of stored distances; with both locations between the outermost cell centres the factor is sqrt 3. The two locations may be in different cells, also where rounding puts one of them in the wrong cell.", "quantifier": "for all maps, with and without a virtual border, cell edges from 2^-100 to 2^100, poses, all pairs of locations with answers, both interpolation formulas, fields of float and double; all arithmetics with u N up to 1/10^5, among them double with fused products and sums whichever operand is taken unrounded (N up to 2^34); all schedules of field generation", "why_tests_cant": "Which cells are used for interpolation changes at the faces and at the centres of cells, and rounding decides on which side a location is. A jump would show only at few locations, for few builds; a planner that steps by the estimated clearance relies on its absence at every pair.", "anchors": ["include/voxelized_geometry_tools/signed_distance_field.hpp:214-379", "CMakeLists.txt.ros1:93-96", "CMakeLists.txt.ros2:67-70"]}
