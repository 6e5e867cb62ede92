import Verif.Model.DeviceVoxelize

/-!
The CPU voxelizer with the arithmetic left open: `CpuPointCloudVoxelizer::DoVoxelizePointClouds`
(cpu_pointcloud_voxelization.cpp:133-206) around `DoRaycastSinglePoint` as in `flRaycast`.

Simplifications: the sums of Eigen's matrix product and norm are taken from left to right and without contraction; the
fourth component of `ray`, which is zero, is left out of the norm.  `X_GC` is given by its sixteen values.
-/
set_option autoImplicit false

namespace VGT
open VGT.EDT VGT.Par

/-- One cloud: the values of `X_GC` in column order (cpu_pointcloud_voxelization.cpp:171-176), the range
(cpu_pointcloud_voxelization.cpp:183) and the points (`none`: not finite). -/
structure CpuCloud (F : Type) where
  tf : ℕ → F
  range : F
  points : List (Option (Fin 3 → F))

section
variable {F : Type} (A : Arith F) (sqrt : F → F) (g : RayGrid F)

/-- `X_GC * p` (cpu_pointcloud_voxelization.cpp:178, 195); the products are added in the order of the coordinates, the shift
last. -/
def cpuTransform (tf : ℕ → F) (p : Fin 3 → F) (a : Fin 3) : F :=
  A.add (A.add (A.add (A.mul (tf a) (p 0)) (A.mul (tf (4 + a)) (p 1))) (A.mul (tf (8 + a)) (p 2)))
    (A.mul (tf (12 + a)) A.one)

/-- `p_GCo` (cpu_pointcloud_voxelization.cpp:178). -/
def cpuOrigin (tf : ℕ → F) : Fin 3 → F := cpuTransform A tf fun _ => A.zero

/-- The marks made for one point (`per_item_work`, cpu_pointcloud_voxelization.cpp:186-199). -/
def cpuPoint (c : CpuCloud F) : Option (Fin 3 → F) → Option (List Mark)
  | none => some []
  | some x =>
    let o := cpuOrigin A c.tf
    let p := cpuTransform A c.tf x
    flRaycast A g o p (flLength A sqrt o p) c.range

/-- The marks made by a thread that handles the given points one after the other. -/
def cpuThread (c : CpuCloud F) : List ℕ → Option (List Mark)
  | [] => some []
  | i :: is =>
    (cpuPoint A sqrt g c (c.points.getD i none)).bind fun ms =>
    (cpuThread c is).map fun rest => ms ++ rest

/-- `DoRaycastPointCloud` (cpu_pointcloud_voxelization.cpp:167-206) on a zeroed grid: `tr` is a possible result, over
all thread counts, work splits and interleavings of the atomic increments.  The index of the sensor is computed first,
also if there are no points. -/
def CpuCloudRuns (c : CpuCloud F) (tr : Track) : Prop :=
  (flIndex A g (cpuOrigin A c.tf)).isSome ∧
  ∃ split : List (List ℕ), IsSplit c.points.length split ∧ ∃ marks : List (List Mark),
    split.map (cpuThread A sqrt g c) = marks.map some ∧ ∃ sched : List ℕ,
      (∀ l ∈ (sched.foldl (markStep g.dims) (marks, fun _ => (0, 0))).1, l = []) ∧
      (sched.foldl (markStep g.dims) (marks, fun _ => (0, 0))).2 = tr

/-- `DoVoxelizePointClouds` (cpu_pointcloud_voxelization.cpp:133-165): `output'` is a possible result. -/
def FlVoxelizeRuns {K : Type} (o : FilterOptions) (clouds : List (CpuCloud F)) (output output' : VoxMap K) : Prop :=
  ∃ tracks : List Track, List.Forall₂ (CpuCloudRuns A sqrt g) clouds tracks ∧
    ∃ data', FilterRuns (fun v => o.filterCell (tracks.map fun tr => tr v)) output.dims.total output.data data' ∧
      output' = { output with data := data' }

end

end VGT
