import Verif.Model.DeviceVoxelize

/-!
Device voxelizers whose kernels are compiled without IEEE division (`-use_fast_math`, `-cl-unsafe-math-optimizations`): the one division of
floating-point numbers in the filter kernels is any function of the two counts.
-/
set_option autoImplicit false

namespace VGT
open VGT.Par VGT.EDT

/-- The loop over the tracking grids in the filter kernel (cuda_voxelization_helpers.cu:375-406, opencl_voxelization_helpers.cc:342-371);
`share a n` is what `static_cast<float>(a) / static_cast<float>(n)` gives. -/
def fastSeenBy (share : ℤ → ℤ → Fl) (percent : Fl) (threshold : ℤ) : List (ℤ × ℤ) → ℤ → ℤ → Option (ℤ × ℤ)
  | [], seenFilled, seenFree => some (seenFilled, seenFree)
  | c :: cs, seenFilled, seenFree =>
    let filtered := if c.2 ≥ threshold then c.2 else 0
    if c.1 > 0 ∧ filtered > 0 then
      match int32 (c.1 + filtered) with
      | none => none
      | some sum =>
        if percent.le (share c.1 sum) then fastSeenBy share percent threshold cs seenFilled (seenFree + 1)
        else fastSeenBy share percent threshold cs (seenFilled + 1) seenFree
    else if c.1 > 0 then fastSeenBy share percent threshold cs seenFilled (seenFree + 1)
    else if filtered > 0 then fastSeenBy share percent threshold cs (seenFilled + 1) seenFree
    else fastSeenBy share percent threshold cs seenFilled seenFree

/-- The filter kernel for one cell (cuda_voxelization_helpers.cu:358-424, opencl_voxelization_helpers.cc:329-385), with its reads and with its
arguments as set by `DevicePointCloudVoxelizer::DoVoxelizePointClouds` (device_pointcloud_voxelization.cpp:154-168).  All reads are done
before the counts are combined; the kernel alternates. -/
def fastFilterCell (share : ℤ → ℤ → Fl) (api : DeviceApi) (d : Dims) (o : FilterOptions) (elements : ℤ) (mem : ℤ → ℤ) (grids v : ℕ)
    (occ : Fl) : Option (Option Fl) :=
  if occ.le .half then
    (readCounters api d elements mem v (List.range grids)).bind fun counts =>
      (fastSeenBy share o.percent.toFloat o.threshold counts 0 0).map fun r =>
        if r.1 > 0 then some (.fin 1)
        else if r.2 ≥ o.cameras then some (.fin 0)
        else some .half
  else some none

/-- `DevicePointCloudVoxelizer::DoVoxelizePointClouds` (device_pointcloud_voxelization.cpp:65-181): `output'` is a possible result. -/
def FastDeviceRuns {F K : Type} (share : ℤ → ℤ → Fl) (api : DeviceApi) (A : Arith F) (sqrt : F → F) (g : RayGrid F) (o : FilterOptions)
    (clouds : List (DevCloud F)) (static output output' : VoxMap K) : Prop :=
  ∃ mem, CountersRun (deviceThreads api A sqrt g (trackingElements g.dims.total (numTrackingGrids clouds)) clouds) mem ∧
    ∃ data', FilterRuns (fastFilterCell share api g.dims o (trackingElements g.dims.total (numTrackingGrids clouds)) mem
        (numTrackingGrids clouds)) static.dims.total static.data data' ∧
      output' = { output with data := data' }

end VGT
