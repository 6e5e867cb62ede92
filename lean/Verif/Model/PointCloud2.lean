import Verif.Model.Fl
import Verif.Model.Voxelize

/-!
`PointCloud2Wrapper`: reading points out of a ROS `sensor_msgs/PointCloud2` message.

Bytes are natural numbers; `uint32_t`, `uint8_t` and `size_t` (64 bits) values are natural numbers, with the wrap-around of
the arithmetic written out.  Simplification: the origin transform is left out.
-/
set_option autoImplicit false

namespace VGT.Pc2

/-- `sensor_msgs/PointField`, without `count`, which the code does not read. -/
structure Field where
  name : String
  offset : ℕ
  datatype : ℕ
  deriving DecidableEq, Repr

/-- `sensor_msgs/PointCloud2`, without the header, `is_bigendian` and `is_dense`, which the code does not read. -/
structure Msg where
  height : ℕ
  width : ℕ
  fields : List Field
  pointStep : ℕ
  rowStep : ℕ
  data : List ℕ
  deriving DecidableEq, Repr

/-- `PointField::FLOAT32`. -/
def FLOAT32 : ℕ := 7

/-- Outcome of the constructor. -/
inductive Built where
  | invalidArgument
  | runtimeError
  | outOfRange
  | ok (xyzOffset : ℕ)
  deriving DecidableEq, Repr

/-- `field_type_map[field.name] = …; field_offset_map[field.name] = …` for all fields, then `.at(name)`
(pointcloud_voxelization_ros_interface.cpp:43-50): the last field of that name. -/
def fieldAt (fields : List Field) (name : String) : Option Field :=
  fields.foldl (fun found f => if f.name = name then some f else found) none

/-- `PointCloud2Wrapper` constructor (pointcloud_voxelization_ros_interface.cpp:30-78); `cloud = none` is a null pointer. -/
def build (cloud : Option Msg) (maxRange : Fl) : Built :=
  match cloud with
  | none => .invalidArgument
  | some c =>
    if Fl.le maxRange (.fin 0) then .runtimeError
    else
      match fieldAt c.fields "x" with
      | none => .outOfRange
      | some x =>
        if x.datatype ≠ FLOAT32 then .invalidArgument
        else
          match fieldAt c.fields "y" with
          | none => .outOfRange
          | some y =>
            if y.datatype ≠ FLOAT32 then .invalidArgument
            else
              match fieldAt c.fields "z" with
              | none => .outOfRange
              | some z =>
                if z.datatype ≠ FLOAT32 then .invalidArgument
                else if (z.offset + 2 ^ 64 - y.offset) % 2 ^ 64 = 4 ∧ (y.offset + 2 ^ 64 - x.offset) % 2 ^ 64 = 4 then
                  .ok x.offset
                else .invalidArgument

/-- `Size` (pointcloud_voxelization_ros_interface.hpp:44-47): the product is a `uint32_t`. -/
def size (c : Msg) : ℤ := ((c.width * c.height % 2 ^ 32 : ℕ) : ℤ)

/-- `GetStartingOffsetForPointXYZ` (pointcloud_voxelization_ros_interface.hpp:84-91); `index` is not negative here. -/
def startingOffset (c : Msg) (xyzOffset : ℕ) (index : ℤ) : ℕ :=
  (index.toNat * c.pointStep % 2 ^ 64 + xyzOffset) % 2 ^ 64

/-- Outcome of reading a point. -/
inductive Read (V : Type) where
  | throws
  | ub
  | value (v : V)
  deriving DecidableEq, Repr

/-- `CopyPointLocationIntoFloatPtr` (pointcloud_voxelization_interface.hpp:168-173) with
`CopyPointLocationIntoFloatPtrImpl` (pointcloud_voxelization_ros_interface.hpp:76-82): the 12 bytes copied.  `.at` checks the
first byte; `memcpy` reads all 12, which is undefined behaviour if they are not all in the vector. -/
def readBytes (c : Msg) (xyzOffset : ℕ) (index : ℤ) : Read (List ℕ) :=
  match enforcePointIndex index (size c) with
  | .ok =>
    let start := startingOffset c xyzOffset index
    if start ≥ c.data.length then .throws
    else if start + 12 > c.data.length then .ub
    else .value ((c.data.drop start).take 12)
  | .throws => .throws
  | .ub => .ub

/-- `CopyPointLocationIntoDoublePtr` (pointcloud_voxelization_interface.hpp:161-166) with
`CopyPointLocationIntoDoublePtrImpl` (pointcloud_voxelization_ros_interface.hpp:68-74): the three floats of the point, each
converted to `double`.  `widen` takes the four bytes of a `float` to the `double`. -/
def readDoubles {V : Type} (widen : List ℕ → V) (c : Msg) (xyzOffset : ℕ) (index : ℤ) : Read (V × V × V) :=
  match enforcePointIndex index (size c) with
  | .ok =>
    match readBytes c xyzOffset index with
    | .value b => .value (widen (b.take 4), widen ((b.drop 4).take 4), widen ((b.drop 8).take 4))
    | .throws => .throws
    | .ub => .ub
  | .throws => .throws
  | .ub => .ub

end VGT.Pc2
