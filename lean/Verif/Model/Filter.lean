import Verif.Model.Cells
import Verif.Model.IEEE
import Mathlib.Data.Rat.Floor

/-!
Filter options and the per-cell filter of the point cloud voxelizers
(pointcloud_voxelization_interface.hpp:18-92, cpu_pointcloud_voxelization.cpp:438-491,
cuda_voxelization_helpers.cu:358-426, opencl_voxelization_helpers.cc:330-390).

`int32_t` values are integers; the one addition that can overflow is checked, overflow is undefined behaviour.
`double` and `float` are `Fl` with the actual IEEE rounding (no overflow to infinity; none can occur here).
-/
set_option autoImplicit false

namespace VGT

/-- `SeenAs` (pointcloud_voxelization_interface.hpp:18). -/
inductive SeenAs where
  | unknown
  | filled
  | free
  deriving DecidableEq, Repr

/-- Data members of `PointCloudVoxelizationFilterOptions` (pointcloud_voxelization_interface.hpp:88-91). -/
structure FilterOptions where
  percent : Fl
  threshold : ℤ
  cameras : ℤ
  deriving DecidableEq, Repr

/-- The constructor (pointcloud_voxelization_interface.hpp:23-42); `none`: throws `std::invalid_argument`. -/
def FilterOptions.make (percent : Fl) (threshold cameras : ℤ) : Option FilterOptions :=
  if percent.le (.fin 0) || Fl.lt (.fin 1) percent then none
  else if threshold ≤ 0 then none
  else if cameras ≤ 0 then none
  else some ⟨percent, threshold, cameras⟩

/-- The default constructor (pointcloud_voxelization_interface.hpp:44-47). -/
def FilterOptions.default : FilterOptions := ⟨.fin 1, 1, 1⟩

/-- An `int32_t` result; `none`: signed overflow, undefined behaviour. -/
def int32 (x : ℤ) : Option ℤ := if -2 ^ 31 ≤ x ∧ x < 2 ^ 31 then some x else none

/-- `CountsSeenAs` (pointcloud_voxelization_interface.hpp:55-86); `none` is undefined behaviour. -/
def FilterOptions.countsSeenAs (o : FilterOptions) (free filled : ℤ) : Option SeenAs :=
  let filtered := if filled ≥ o.threshold then filled else 0
  if free > 0 ∧ filtered > 0 then
    (int32 (free + filtered)).map fun (sum : ℤ) =>
      let percent := Fl.div roundDouble (.fin (roundDouble (free : ℚ))) (.fin (roundDouble (sum : ℚ)))
      if o.percent.le percent then .free else .filled
  else if free > 0 then some .free
  else if filtered > 0 then some .filled
  else some .unknown

/-- The loop over the tracking grids for one cell (cpu_pointcloud_voxelization.cpp:455-473):
numbers of cameras that saw it filled and free. -/
def FilterOptions.seenBy (o : FilterOptions) : List (ℤ × ℤ) → ℤ → ℤ → Option (ℤ × ℤ)
  | [], seenFilled, seenFree => some (seenFilled, seenFree)
  | c :: cs, seenFilled, seenFree =>
    match o.countsSeenAs c.1 c.2 with
    | none => none
    | some .free => o.seenBy cs seenFilled (seenFree + 1)
    | some .filled => o.seenBy cs (seenFilled + 1) seenFree
    | some .unknown => o.seenBy cs seenFilled seenFree

/-- The work on one cell (cpu_pointcloud_voxelization.cpp:447-491) with occupancy `occ` and the per-camera counts
(free, filled); `none`: undefined behaviour, `some none`: cell left alone, `some (some x)`: `SetOccupancy(x)`. -/
def FilterOptions.filterCell (o : FilterOptions) (counts : List (ℤ × ℤ)) (occ : Fl) : Option (Option Fl) :=
  if occ.le .half then
    (o.seenBy counts 0 0).map fun r =>
      if r.1 > 0 then some (.fin 1)
      else if r.2 ≥ o.cameras then some (.fin 0)
      else some .half
  else some none

/-- `static_cast<float>` of a double (device_pointcloud_voxelization.cpp:154-155). -/
def Fl.toFloat : Fl → Fl
  | .fin q => .fin (roundFloat q)
  | x => x

/-- The loop over the tracking grids in the filter kernel (cuda_voxelization_helpers.cu:375-406,
opencl_voxelization_helpers.cc:342-371); `percent` is a `float`. -/
def kernelSeenBy (percent : Fl) (threshold : ℤ) : List (ℤ × ℤ) → ℤ → ℤ → Option (ℤ × ℤ)
  | [], seenFilled, seenFree => some (seenFilled, seenFree)
  | c :: cs, seenFilled, seenFree =>
    let filtered := if c.2 ≥ threshold then c.2 else 0
    if c.1 > 0 ∧ filtered > 0 then
      match int32 (c.1 + filtered) with
      | none => none
      | some sum =>
        if percent.le (Fl.div roundFloat (.fin (roundFloat (c.1 : ℚ))) (.fin (roundFloat (sum : ℚ)))) then
          kernelSeenBy percent threshold cs seenFilled (seenFree + 1)
        else kernelSeenBy percent threshold cs (seenFilled + 1) seenFree
    else if c.1 > 0 then kernelSeenBy percent threshold cs seenFilled (seenFree + 1)
    else if filtered > 0 then kernelSeenBy percent threshold cs (seenFilled + 1) seenFree
    else kernelSeenBy percent threshold cs seenFilled seenFree

/-- The filter kernel for one cell (cuda_voxelization_helpers.cu:368-424, opencl_voxelization_helpers.cc:337-385). -/
def kernelFilterCell (percent : Fl) (threshold cameras : ℤ) (counts : List (ℤ × ℤ)) (occ : Fl) : Option (Option Fl) :=
  if occ.le .half then
    (kernelSeenBy percent threshold counts 0 0).map fun r =>
      if r.1 > 0 then some (.fin 1)
      else if r.2 ≥ cameras then some (.fin 0)
      else some .half
  else some none

/-- The filter kernel with its arguments as set by `DevicePointCloudVoxelizer::DoVoxelizePointClouds`
(device_pointcloud_voxelization.cpp:154-168). -/
def FilterOptions.deviceFilterCell (o : FilterOptions) (counts : List (ℤ × ℤ)) (occ : Fl) : Option (Option Fl) :=
  kernelFilterCell o.percent.toFloat o.threshold o.cameras counts occ

end VGT
