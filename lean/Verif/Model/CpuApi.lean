import Verif.Model.Voxelize

/-!
The public members of `CpuPointCloudVoxelizer` with which a caller does the steps of `VoxelizePointClouds` one at a time:
`RaycastPointCloud`, `RaycastSinglePoint`, `CombineAndFilterGrids` (cpu_pointcloud_voxelization.cpp:67-131).

Arithmetic is exact, as in `Model/Raycast.lean`; the conversion of coordinates to indices is therefore always defined here.
-/
set_option autoImplicit false

namespace VGT
open VGT.EDT VGT.Par

variable {K : Type} [Field K] [LinearOrder K] [IsStrictOrderedRing K] [FloorRing K]

/-- A `CpuVoxelizationTrackingGrid` (cpu_pointcloud_voxelization.hpp:34-39): a CRU `VoxelGrid` of counters.  `inv` is
`InverseOriginTransform()` (world to grid frame), `uniform` is `HasUniformVoxelSize()`, `cellSize` the voxel size of a
uniform grid. -/
structure TrackGrid (K : Type) where
  initialized : Bool
  uniform : Bool
  dims : Dims
  cellSize : K
  inv : Vec K → Vec K
  data : Track

/-- A freshly made tracking grid (all counters 0, cpu_pointcloud_voxelization.cpp:146-149). -/
def TrackGrid.fresh (d : Dims) (s : K) (inv : Vec K → Vec K) : TrackGrid K := ⟨true, true, d, s, inv, fun _ => (0, 0)⟩

/-- A `PointCloudWrapper`: `origin` is `PointCloudOriginTransform()` (camera to world frame); a point is `none` if it is
not finite. -/
structure WorldCloud (K : Type) where
  origin : Vec K → Vec K
  range : WithTop K
  points : List (Option (Vec K))

/-- The cloud in the frame of a grid: `X_GC = X_GW * X_WC` (cpu_pointcloud_voxelization.cpp:171-176). -/
def WorldCloud.inFrame (w : WorldCloud K) (inv : Vec K → Vec K) : Cloud K := ⟨fun x => inv (w.origin x), w.range, w.points⟩

/-- `DoRaycastPointCloud` (cpu_pointcloud_voxelization.cpp:167-206) on a grid that already holds counts `tr₀`: `tr` is a
possible result, over all thread counts, work splits and interleavings of the atomic increments. -/
def CloudRunsOn (d : Dims) (s : K) (norm : Vec K → K) (c : Cloud K) (tr₀ tr : Track) : Prop :=
  ∃ split : List (List ℕ), IsSplit c.points.length split ∧ ∃ marks : List (List Mark),
    split.map (threadMarks d s norm c) = marks.map some ∧ ∃ sched : List ℕ,
      (∀ l ∈ (sched.foldl (markStep d) (marks, tr₀)).1, l = []) ∧
      (sched.foldl (markStep d) (marks, tr₀)).2 = tr

/-- `RaycastPointCloud` (cpu_pointcloud_voxelization.cpp:67-79): `(threw, g')` is a possible outcome.  Undefined behaviour
is no outcome. -/
def RaycastCloudRuns (norm : Vec K → K) (w : WorldCloud K) (g : TrackGrid K) (threw : Bool) (g' : TrackGrid K) : Prop :=
  if g.initialized && g.uniform then
    threw = false ∧ ∃ tr, CloudRunsOn g.dims g.cellSize norm (w.inFrame g.inv) g.data tr ∧ g' = { g with data := tr }
  else threw = true ∧ g' = g

/-- `RaycastSinglePoint` (cpu_pointcloud_voxelization.cpp:81-109); the points are in grid frame, `none` if a coordinate is
not finite.  `none`: undefined behaviour; the flag says whether the call threw. -/
def raycastSinglePoint (norm : Vec K → K) (o p : Option (Vec K)) (range : WithTop K) (g : TrackGrid K) :
    Option (Bool × TrackGrid K) :=
  match o with
  | none => some (true, g)
  | some o =>
    match p with
    | none => some (true, g)
    | some p =>
      if !g.initialized || !g.uniform then some (true, g)
      else (raycast g.dims g.cellSize o p (norm fun a => p a - o a) range).map fun ms =>
        (false, { g with data := ms.foldl (addMark g.dims) g.data })

/-- Calls of `RaycastSinglePoint` one after the other; a caller stops at the first exception. -/
def raycastPoints (norm : Vec K → K) (o : Option (Vec K)) (range : WithTop K) :
    List (Option (Vec K)) → TrackGrid K → Option (Bool × TrackGrid K)
  | [], g => some (false, g)
  | p :: ps, g =>
    match raycastSinglePoint norm o p range g with
    | none => none
    | some (true, g') => some (true, g')
    | some (false, g') => raycastPoints norm o range ps g'

/-- An `OccupancyMap` with its pose: `inv` is `InverseOriginTransform()`. -/
structure PlacedMap (K : Type) extends VoxMap K where
  inv : Vec K → Vec K

/-- The check of `CombineAndFilterGrids` for one tracking grid (cpu_pointcloud_voxelization.cpp:118-127); `true`: throws.
`ControlSizes()` are the numbers of voxels and the voxel sizes, not the pose. -/
def combineRejects (g : TrackGrid K) (m : PlacedMap K) : Bool :=
  !g.initialized || !g.uniform || decide (g.dims ≠ m.dims ∨ g.cellSize ≠ m.cellSize)

/-- `CombineAndFilterGrids` (cpu_pointcloud_voxelization.cpp:111-131): `(threw, m')` is a possible outcome. -/
def CombineRuns (o : FilterOptions) (gs : List (TrackGrid K)) (m : PlacedMap K) (threw : Bool) (m' : PlacedMap K) : Prop :=
  if gs.any fun g => combineRejects g m then threw = true ∧ m' = m
  else threw = false ∧ ∃ data',
    FilterRuns (fun v => o.filterCell (gs.map fun g => g.data v)) m.dims.total m.data data' ∧
      m' = { m with data := data' }

/-- `VoxelizePointClouds` with an output argument (pointcloud_voxelization_interface.hpp:262-292) on maps with poses, CPU
backend: the rays are cast in the frame of the static environment (cpu_pointcloud_voxelization.cpp:142, 146-149), the
output keeps its own pose. -/
def PlacedVoxelizeRuns (norm : Vec K → K) (static : PlacedMap K) (o : FilterOptions) (clouds : List (Option (WorldCloud K)))
    (output : PlacedMap K) (threw : Bool) (output' : PlacedMap K) : Prop :=
  ∃ m, VoxelizeRuns norm static.toVoxMap o (clouds.map fun c => c.map fun w => w.inFrame static.inv) output.toVoxMap threw m ∧
    output' = { output with toVoxMap := m }

end VGT
