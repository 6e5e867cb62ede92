import Verif.Model.Raycast
import Verif.Model.Filter

/-!
Point cloud voxelization: `PointCloudVoxelizationInterface::VoxelizePointClouds`
(pointcloud_voxelization_interface.hpp:246-292), `CpuPointCloudVoxelizer` (cpu_pointcloud_voxelization.cpp) and the
filtering half of `DevicePointCloudVoxelizer` (device_pointcloud_voxelization.cpp:65-181).

Grid contents are indexed by data index (position in the dense backing vector).
-/
set_option autoImplicit false

namespace VGT
open VGT.EDT VGT.Par

/-- Data index of an in-grid index (CRU dense grid; written out in cuda_voxelization_helpers.cu:281-283). -/
def dataIndex (d : Dims) (i : IVec) : ℕ := ((i 0).toNat * d.ny + (i 1).toNat) * d.nz + (i 2).toNat

/-- Contents of a `CpuVoxelizationTrackingGrid`: (seen_free_count, seen_filled_count) per cell
(cpu_pointcloud_voxelization.hpp:24-32). -/
abbrev Track := ℕ → ℤ × ℤ

/-- Result of `std::atomic<int32_t>::fetch_add`: wraps around. -/
def wrap32 (x : ℤ) : ℤ := (x + 2 ^ 31) % 2 ^ 32 - 2 ^ 31

/-- One `fetch_add(1)` (cpu_pointcloud_voxelization.cpp:374, 379, 396). -/
def addMark (d : Dims) (tr : Track) : Mark → Track
  | .free i => Function.update tr (dataIndex d i) (wrap32 ((tr (dataIndex d i)).1 + 1), (tr (dataIndex d i)).2)
  | .filled i => Function.update tr (dataIndex d i) ((tr (dataIndex d i)).1, wrap32 ((tr (dataIndex d i)).2 + 1))

section
variable {K : Type} [Field K] [LinearOrder K] [IsStrictOrderedRing K] [FloorRing K]

/-- A `PointCloudWrapper` as the voxelizer uses it: `tf` is `X_GC` (camera frame to grid frame), a point is `none` if it
is not finite. -/
structure Cloud (K : Type) where
  tf : Vec K → Vec K
  range : WithTop K
  points : List (Option (Vec K))

/-- The marks made for one point (`per_item_work`, cpu_pointcloud_voxelization.cpp:186-199).  They do not depend on the
shared grid contents.  `norm` is the Euclidean norm. -/
def pointMarks (d : Dims) (s : K) (norm : Vec K → K) (c : Cloud K) : Option (Vec K) → Option (List Mark)
  | none => some []
  | some x =>
    let o := c.tf fun _ => 0
    let p := c.tf x
    raycast d s o p (norm fun a => p a - o a) c.range

/-- The marks made by a thread that handles the given point indices one after the other. -/
def threadMarks (d : Dims) (s : K) (norm : Vec K → K) (c : Cloud K) : List ℕ → Option (List Mark)
  | [] => some []
  | i :: is =>
    (pointMarks d s norm c (c.points.getD i none)).bind fun ms =>
    (threadMarks d s norm c is).map fun rest => ms ++ rest

end

/-- One scheduler step: thread `t` does its next `fetch_add` (no effect if it is finished). -/
def markStep (d : Dims) (s : List (List Mark) × Track) (t : ℕ) : List (List Mark) × Track :=
  match s.1[t]? with
  | some (m :: ms) => (s.1.set t ms, addMark d s.2 m)
  | _ => s

section
variable {K : Type} [Field K] [LinearOrder K] [IsStrictOrderedRing K] [FloorRing K]

/-- `DoRaycastPointCloud` (cpu_pointcloud_voxelization.cpp:167-206) on a zeroed grid: `tr` is a possible
result, over all thread counts, work splits and interleavings of the atomic increments. -/
def CloudRuns (d : Dims) (s : K) (norm : Vec K → K) (c : Cloud K) (tr : Track) : Prop :=
  ∃ split : List (List ℕ), IsSplit c.points.length split ∧ ∃ marks : List (List Mark),
    split.map (threadMarks d s norm c) = marks.map some ∧ ∃ sched : List ℕ,
      (∀ l ∈ (sched.foldl (markStep d) (marks, fun _ => (0, 0))).1, l = []) ∧
      (sched.foldl (markStep d) (marks, fun _ => (0, 0))).2 = tr

/-- The body of the filter loop as a thread program on the occupancy vector. -/
def filterWork (cell : ℕ → Fl → Option (Option Fl)) (v : ℕ) : Prog ℕ Fl :=
  .read v fun occ =>
    match cell v occ with
    | none => .ub
    | some none => .done
    | some (some x) => .write v x .done

/-- A thread does its cells one after the other. -/
def filterThread (cell : ℕ → Fl → Option (Option Fl)) : List ℕ → Prog ℕ Fl
  | [] => .done
  | v :: vs => (filterWork cell v).andThen (filterThread cell vs)

/-- The parallel loop over all cells (cpu_pointcloud_voxelization.cpp:493-496; the kernel launch
cuda_voxelization_helpers.cu:722-731): possible results over all splits and interleavings. -/
def FilterRuns (cell : ℕ → Fl → Option (Option Fl)) (N : ℕ) (occ occ' : ℕ → Fl) : Prop :=
  ∃ split : List (List ℕ), IsSplit N split ∧ ∃ sched : List ℕ,
    let st := runSched { threads := split.map (filterThread cell), mem := occ } sched
    finished st ∧ st.mem = occ'

/-- Number of cells (`NumTotalVoxels`). -/
def _root_.VGT.EDT.Dims.total (d : Dims) : ℕ := d.nx * d.ny * d.nz

/-- An `OccupancyMap` as far as the voxelizer uses it. -/
structure VoxMap (K : Type) where
  initialized : Bool
  dims : Dims
  cellSize : K
  data : ℕ → Fl

/-- `CpuPointCloudVoxelizer::DoVoxelizePointClouds` (cpu_pointcloud_voxelization.cpp:133-165).  The occupancies of
`static` are not used, only its sizes and pose (which is in the clouds' `tf`). -/
def CpuVoxelizeRuns (norm : Vec K → K) (static : VoxMap K) (o : FilterOptions) (clouds : List (Cloud K))
    (output output' : VoxMap K) : Prop :=
  ∃ tracks : List Track, List.Forall₂ (CloudRuns static.dims static.cellSize norm) clouds tracks ∧
    ∃ data', FilterRuns (fun v => o.filterCell (tracks.map fun tr => tr v)) output.dims.total output.data data' ∧
      output' = { output with data := data' }

/-- The filtering half of `DevicePointCloudVoxelizer::DoVoxelizePointClouds`
(device_pointcloud_voxelization.cpp:76-82, 152-177), given the tracking grids the raycasting kernels left: at least one
tracking grid exists, the filter grid starts as a copy of the static environment's data, and the result replaces the
data of the output environment. -/
def DeviceFilterRuns (static : VoxMap K) (o : FilterOptions) (tracks : List Track) (output output' : VoxMap K) : Prop :=
  let tracks' := if tracks = [] then [fun _ => (0, 0)] else tracks
  ∃ data', FilterRuns (fun v => o.deviceFilterCell (tracks'.map fun tr => tr v)) static.dims.total static.data data' ∧
    output' = { output with data := data' }

/-- The checks of `VoxelizePointClouds` (pointcloud_voxelization_interface.hpp:267-289); `true`: throws. -/
def voxelizeRejects [DecidableEq K] (static output : VoxMap K) (clouds : List (Option (Cloud K))) : Bool :=
  !static.initialized || !output.initialized || decide (static.dims ≠ output.dims ∨ static.cellSize ≠ output.cellSize)
    || clouds.any Option.isNone

/-- `VoxelizePointClouds` with an output argument (pointcloud_voxelization_interface.hpp:262-292), CPU backend:
`(threw, output')` is a possible outcome. -/
def VoxelizeRuns [DecidableEq K] (norm : Vec K → K) (static : VoxMap K) (o : FilterOptions)
    (clouds : List (Option (Cloud K))) (output : VoxMap K) (threw : Bool) (output' : VoxMap K) : Prop :=
  if voxelizeRejects static output clouds then threw = true ∧ output' = output
  else threw = false ∧ CpuVoxelizeRuns norm static o (clouds.filterMap id) output output'

/-- `VoxelizePointClouds` returning a new map (pointcloud_voxelization_interface.hpp:246-260); `none`: throws. -/
def VoxelizeCopyRuns [DecidableEq K] (norm : Vec K → K) (static : VoxMap K) (o : FilterOptions)
    (clouds : List (Option (Cloud K))) (r : Option (VoxMap K)) : Prop :=
  ∃ threw out, VoxelizeRuns norm static o clouds static threw out ∧ r = if threw then none else some out

end

/-! ### Access to the points of a cloud -/

/-- Outcome of a checked access. -/
inductive Access where
  | ok
  | throws
  | ub
  deriving DecidableEq, Repr

/-- `EnforcePointIndexInRange` (pointcloud_voxelization_interface.hpp:175-181). -/
def enforcePointIndex (index size : ℤ) : Access := if index < 0 ∨ index ≥ size then .throws else .ok

/-- `EnforceVectorIndexInRange` (pointcloud_voxelization_interface.hpp:183-192) on `int64_t` values:
`vector_index + 3` may overflow. -/
def enforceVectorIndex (index size : ℤ) : Access :=
  if index < 0 then .throws
  else if index + 3 ≥ 2 ^ 63 then .ub
  else if index + 3 > size then .throws else .ok

/-- `CopyPointLocationIntoVectorDouble/Float` (pointcloud_voxelization_interface.hpp:145-159): both checks, then
the three values are written at `vectorIndex`; returns the outcome and the destination. -/
def copyPoint {V : Type} (cloud : List (V × V × V)) (index : ℤ) (dest : List V) (vectorIndex : ℤ) : Access × List V :=
  match enforceVectorIndex vectorIndex dest.length with
  | .ok =>
    match enforcePointIndex index cloud.length with
    | .ok =>
      match cloud[index.toNat]? with
      | some p => (.ok, ((dest.set vectorIndex.toNat p.1).set (vectorIndex.toNat + 1) p.2.1).set (vectorIndex.toNat + 2) p.2.2)
      | none => (.ub, dest)
    | a => (a, dest)
  | a => (a, dest)

end VGT
