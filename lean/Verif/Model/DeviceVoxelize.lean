import Verif.Model.RaycastFloat
import Verif.Model.DeviceIndex

/-!
The device voxelizers from end to end: `DevicePointCloudVoxelizer::DoVoxelizePointClouds`
(device_pointcloud_voxelization.cpp:65-181) with the CUDA helper (cuda_voxelization_helpers.cu) or the OpenCL helper
(opencl_voxelization_helpers.cc).

All cameras share one buffer of 32-bit counters, addressed by number.  Kernel threads of one launch, and of the launches
for different clouds, run in any interleaving of their atomic increments; the buffer is zeroed before the first and read
after the last (in-order queue or stream: trusted).  Simplifications: allocation does not fail; clouds have fewer than
2^31 points, so that `static_cast<int32_t>(raw_points.size() / 3)` (cuda_voxelization_helpers.cu:673) is the number of points;
the numbers of cells fit into `int32_t`.
-/
set_option autoImplicit false

namespace VGT
open VGT.EDT VGT.Par

/-- What differs between the two helpers. -/
structure DeviceApi where
  /-- counter incremented by a raycasting thread -/
  rayIndex : Dims → ℤ → IVec → ℤ → Option ℤ
  /-- counter read by a filter thread -/
  filterIndex : Dims → ℤ → ℤ → ℤ → Option ℤ
  /-- number of threads started for a cloud of `n` points -/
  launch : ℕ → Option ℕ

/-- CUDA with `T` threads per block (`CalcNumBlocks`, cuda_voxelization_helpers.cu:777-782). -/
def cudaApi (T : ℕ) : DeviceApi where
  rayIndex := cudaRayIndex
  filterIndex := cudaFilterIndex
  launch := fun n => (int32 ((n : ℤ) + (T - 1))).map fun (m : ℤ) => (m / T * T).toNat

/-- OpenCL: one work item per point (opencl_voxelization_helpers.cc:701-703). -/
def openclApi : DeviceApi where
  rayIndex := clRayIndex
  filterIndex := clFilterIndex
  launch := some

/-- The arguments of one `RaycastPoints` call (device_pointcloud_voxelization.cpp:118-142): the sixteen values of the
transform, the range, the points (`none`: not finite). -/
structure DevCloud (F : Type) where
  tf : ℕ → F
  range : F
  points : List (Option (Fin 3 → F))

section
variable {F : Type} (api : DeviceApi) (A : Arith F) (sqrt : F → F) (g : RayGrid F)

/-- `p_GP` (cuda_voxelization_helpers.cu:102-114, opencl_voxelization_helpers.cc:81-93). -/
def kernelTransform (tf : ℕ → F) (p : Fin 3 → F) (a : Fin 3) : F :=
  A.add (A.add (A.add (A.mul (tf a) (p 0)) (A.mul (tf (4 + a)) (p 1))) (A.mul (tf (8 + a)) (p 2))) (tf (12 + a))

/-- `p_GCo` (cuda_voxelization_helpers.cu:116-119, opencl_voxelization_helpers.cc:95-98). -/
def kernelOrigin (tf : ℕ → F) (a : Fin 3) : F := tf (12 + a)

/-- The marks made for one point (cuda_voxelization_helpers.cu:91-355, opencl_voxelization_helpers.cc:69-326). -/
def kernelPoint (c : DevCloud F) : Option (Fin 3 → F) → Option (List Mark)
  | none => some []
  | some x =>
    let o := kernelOrigin c.tf
    let p := kernelTransform A c.tf x
    flRaycast A g o p (flLength A sqrt o p) c.range

/-- An access to the counter buffer; `none`: out of bounds. -/
def inBuffer (elements : ℤ) (a : ℤ) : Option ℤ := if 0 ≤ a ∧ a < elements then some a else none

/-- The counter a mark goes to (cuda_voxelization_helpers.cu:281-292, 313-316, opencl_voxelization_helpers.cc:248-262,
282-287). -/
def markAddr (elements : ℤ) (grid : ℕ) : Mark → Option ℤ
  | .free i => (api.rayIndex g.dims grid i 0).bind (inBuffer elements)
  | .filled i => (api.rayIndex g.dims grid i 1).bind (inBuffer elements)

/-- The counters of a list of marks. -/
def markAddrs (elements : ℤ) (grid : ℕ) : List Mark → Option (List ℤ)
  | [] => some []
  | m :: ms => (markAddr api g elements grid m).bind fun a => (markAddrs elements grid ms).map fun l => a :: l

/-- The counters that thread `n` of a launch increments, in order (cuda_voxelization_helpers.cu:73-356,
opencl_voxelization_helpers.cc:59-327).  Threads beyond the cloud return at once (CUDA; OpenCL starts none);
`point_index * 3 + 2` is an `int32_t`. -/
def kernelThread (elements : ℤ) (grid : ℕ) (c : DevCloud F) (n : ℕ) : Option (List ℤ) :=
  match c.points[n]? with
  | none => some []
  | some x =>
    (int32 (n * 3 + 2)).bind fun _ =>
    (kernelPoint A sqrt g c x).bind fun ms => markAddrs api g elements grid ms

/-- All threads of the launch for cloud number `grid` (device_pointcloud_voxelization.cpp:111-144); an empty cloud is not
dispatched. -/
def launchThreads (elements : ℤ) (c : DevCloud F) (grid : ℕ) : List (Option (List ℤ)) :=
  if c.points = [] then []
  else
    match api.launch c.points.length with
    | none => [none]
    | some n => (List.range n).map (kernelThread api A sqrt g elements grid c)

/-- All threads of all launches. -/
def deviceThreads (elements : ℤ) (clouds : List (DevCloud F)) : List (Option (List ℤ)) :=
  clouds.zipIdx.flatMap fun c => launchThreads api A sqrt g elements c.1 c.2

end

/-- One scheduler step: thread `t` does its next `atomicAdd` (cuda_voxelization_helpers.cu:286, 291, 316;
opencl_voxelization_helpers.cc:255, 260, 287). -/
def counterStep (s : List (List ℤ) × (ℤ → ℤ)) (t : ℕ) : List (List ℤ) × (ℤ → ℤ) :=
  match s.1[t]? with
  | some (a :: as) => (s.1.set t as, fun b => if b = a then wrap32 (s.2 a + 1) else s.2 b)
  | _ => s

/-- `mem` is a possible content of the counter buffer after all raycasting threads have finished without undefined
behaviour. -/
def CountersRun (threads : List (Option (List ℤ))) (mem : ℤ → ℤ) : Prop :=
  ∃ addrs : List (List ℤ), threads = addrs.map some ∧ ∃ sched : List ℕ,
    (∀ l ∈ (sched.foldl counterStep (addrs, fun _ => 0)).1, l = []) ∧
    (sched.foldl counterStep (addrs, fun _ => 0)).2 = mem

/-- Number of tracking grids (device_pointcloud_voxelization.cpp:76-80). -/
def numTrackingGrids {F : Type} (clouds : List (DevCloud F)) : ℕ := max clouds.length 1

/-- A filter thread reads the counters of all grids (cuda_voxelization_helpers.cu:375-383,
opencl_voxelization_helpers.cc:342-349). -/
def readCounters (api : DeviceApi) (d : Dims) (elements : ℤ) (mem : ℤ → ℤ) (v : ℕ) : List ℕ → Option (List (ℤ × ℤ))
  | [] => some []
  | grid :: grids =>
    ((api.filterIndex d grid v 0).bind (inBuffer elements)).bind fun a =>
    ((api.filterIndex d grid v 1).bind (inBuffer elements)).bind fun b =>
    (readCounters api d elements mem v grids).map fun l => (mem a, mem b) :: l

/-- The filter kernel for one cell, with its reads (cuda_voxelization_helpers.cu:358-424,
opencl_voxelization_helpers.cc:329-385).  All reads are done before the counts are combined; the kernel alternates. -/
def bufferFilterCell (api : DeviceApi) (d : Dims) (o : FilterOptions) (elements : ℤ) (mem : ℤ → ℤ) (grids v : ℕ)
    (occ : Fl) : Option (Option Fl) :=
  if occ.le .half then
    (readCounters api d elements mem v (List.range grids)).bind fun counts => o.deviceFilterCell counts occ
  else some none

/-- `DevicePointCloudVoxelizer::DoVoxelizePointClouds` (device_pointcloud_voxelization.cpp:65-181): `output'` is a
possible result. -/
def DeviceVoxelizeRuns {F K : Type} (api : DeviceApi) (A : Arith F) (sqrt : F → F) (g : RayGrid F) (o : FilterOptions)
    (clouds : List (DevCloud F)) (static output output' : VoxMap K) : Prop :=
  ∃ mem, CountersRun (deviceThreads api A sqrt g (trackingElements g.dims.total (numTrackingGrids clouds)) clouds) mem ∧
    ∃ data', FilterRuns (bufferFilterCell api g.dims o (trackingElements g.dims.total (numTrackingGrids clouds)) mem
        (numTrackingGrids clouds)) static.dims.total static.data data' ∧
      output' = { output with data := data' }

/-- The starting offsets kept in the handle (cuda_voxelization_helpers.cu:647-653, opencl_voxelization_helpers.cc:630-637). -/
def trackingOffsets (cells grids : ℕ) : List ℤ := (List.range grids).map fun (grid : ℕ) => gridOffset cells grid

/-- `RetrieveTrackingGrid` (cuda_voxelization_helpers.cu:734-752, opencl_voxelization_helpers.cc:764-788), in bytes as the
copy functions take them; `none`: an exception, from `at` in `GetTrackingGridStartingOffset`
(device_voxelization_interface.hpp:84-87) or because the copy would leave the buffer.  The caller's memory is taken to be
large enough. -/
def retrieveTrackingGrid (cells grids : ℕ) (mem : ℤ → ℤ) (index : ℕ) : Option (List ℤ) :=
  ((trackingOffsets cells grids)[index]?).bind fun (start : ℤ) =>
    let itemSize : ℕ := 4 * 2
    let size : ℕ := cells * itemSize
    if start * 4 + size ≤ 4 * trackingElements cells grids then
      some ((List.range (size / 4)).map fun (n : ℕ) => mem (start + n))
    else none

end VGT
