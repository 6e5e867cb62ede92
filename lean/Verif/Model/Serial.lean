import Verif.Model.Fl

/-!
Serialization to bytes, files and ROS messages, and the lock of a signed distance field.

The grid base class and the primitive serializers belong to common_robotics_utilities (CRU) and are outside /repo.
The primitives are written down here as DESIGN.md describes them; the serializer of the grid base class is a parameter
(`BaseFormat`).  A fixed-size value (float, double, uint32) is its object representation, a list of bytes of the right
length, so equality is equality of bits.
-/
set_option autoImplicit false

namespace VGT.Ser

/-- `std::vector<uint8_t>`. -/
abbrev Bytes := List UInt8

/-- A value of `n` bytes. -/
abbrev Raw (n : ℕ) := {l : Bytes // l.length = n}

/-- A serializer (the bytes it appends to the buffer) and a deserializer (from buffer and starting offset to value and
number of bytes read; `none`: it throws). -/
structure Codec (α : Type) where
  ser : α → Bytes
  de : Bytes → ℕ → Option (α × ℕ)

/-- One read at `current_position`, followed by `current_position += BytesRead()`. -/
def rd {α : Type} (c : Codec α) (buf : Bytes) (pos : ℕ) : Option (α × ℕ) := (c.de buf pos).map fun r => (r.1, pos + r.2)

/-- CRU `SerializeMemcpyable` / `DeserializeMemcpyable` for a type of `n` bytes. -/
def raw (n : ℕ) : Codec (Raw n) where
  ser x := x.1
  de buf off := if h : off + n ≤ buf.length then
      some (⟨(buf.drop off).take n, by rw [List.length_take, List.length_drop]; omega⟩, n)
    else none

/-- The low `k` bytes of `n`, least significant first. -/
def leBytes : ℕ → ℕ → Bytes
  | 0, _ => []
  | k + 1, n => UInt8.ofNat (n % 256) :: leBytes k (n / 256)

/-- The number with the given bytes. -/
def fromLe : Bytes → ℕ
  | [] => 0
  | b :: bs => b.toNat + 256 * fromLe bs

/-- CRU: `n` elements one after the other; the second result is the final position. -/
def deMany {α : Type} (c : Codec α) (buf : Bytes) : ℕ → ℕ → Option (List α × ℕ)
  | 0, pos => some ([], pos)
  | n + 1, pos => (rd c buf pos).bind fun r => (deMany c buf n r.2).map fun s => (r.1 :: s.1, s.2)

/-- CRU `SerializeVectorLike` / `DeserializeVectorLike`: 64-bit length, then the elements. -/
def vec {α : Type} (c : Codec α) : Codec (List α) where
  ser l := leBytes 8 l.length ++ l.flatMap c.ser
  de buf off := (rd (raw 8) buf off).bind fun n => (deMany c buf (fromLe n.1.1) n.2).map fun r => (r.1, r.2 - off)

/-- One byte. -/
def byte : Codec UInt8 where
  ser b := [b]
  de buf off := (buf[off]?).map fun b => (b, 1)

/-- CRU `SerializeString` / `DeserializeString<char>`. -/
def str : Codec Bytes := vec byte

/-- `SerializeMemcpyable<uint8_t>(static_cast<uint8_t>(flag))` and `static_cast<bool>(...)` on the way back. -/
def flag : Codec Bool where
  ser b := byte.ser (if b then 1 else 0)
  de buf off := (byte.de buf off).map fun r => (decide (r.1 ≠ 0), r.2)

/-! ### Cells -/

/-- `OccupancyCell` (occupancy_map.hpp:28-52). -/
structure OccCell where
  occ : Raw 4
  deriving DecidableEq

/-- `OccupancyCell::Serialize` / `Deserialize` (occupancy_map.cpp:23-46). -/
def occCell : Codec OccCell where
  ser c := (raw 4).ser c.occ
  de buf off := (rd (raw 4) buf off).bind fun occ => some (⟨occ.1⟩, occ.2 - off)

/-- `OccupancyComponentCell` (occupancy_component_map.hpp:29-65). -/
structure OccCompCell where
  occ : Raw 4
  component : Raw 4
  deriving DecidableEq

/-- `OccupancyComponentCell::Serialize` / `Deserialize` (occupancy_component_map.cpp:23-54). -/
def occCompCell : Codec OccCompCell where
  ser c := (raw 4).ser c.occ ++ (raw 4).ser c.component
  de buf off := (rd (raw 4) buf off).bind fun occ => (rd (raw 4) buf occ.2).bind fun comp =>
    some (⟨occ.1, comp.1⟩, comp.2 - off)

/-- `TaggedObjectOccupancyCell` (tagged_object_occupancy_map.hpp:29-66). -/
structure TagCell where
  occ : Raw 4
  objectId : Raw 4
  deriving DecidableEq

/-- `TaggedObjectOccupancyCell::Serialize` / `Deserialize` (tagged_object_occupancy_map.cpp:23-54). -/
def tagCell : Codec TagCell where
  ser c := (raw 4).ser c.occ ++ (raw 4).ser c.objectId
  de buf off := (rd (raw 4) buf off).bind fun occ => (rd (raw 4) buf occ.2).bind fun obj =>
    some (⟨occ.1, obj.1⟩, obj.2 - off)

/-- `TaggedObjectOccupancyComponentCell` (tagged_object_occupancy_component_map.hpp:30-96). -/
structure TagCompCell where
  occ : Raw 4
  objectId : Raw 4
  component : Raw 4
  segment : Raw 4
  deriving DecidableEq

/-- `TaggedObjectOccupancyComponentCell::Serialize` / `Deserialize` (tagged_object_occupancy_component_map.cpp:23-71). -/
def tagCompCell : Codec TagCompCell where
  ser c := (raw 4).ser c.occ ++ ((raw 4).ser c.objectId ++ ((raw 4).ser c.component ++ (raw 4).ser c.segment))
  de buf off := (rd (raw 4) buf off).bind fun occ => (rd (raw 4) buf occ.2).bind fun obj =>
    (rd (raw 4) buf obj.2).bind fun comp => (rd (raw 4) buf comp.2).bind fun seg =>
    some (⟨occ.1, obj.1, comp.1, seg.1⟩, seg.2 - off)

/-! ### Maps -/

/-- What CRU contributes to a grid class: the serializer of the base-class members, made from the cell serializer, and
`HasUniformVoxelSize`. -/
structure BaseFormat (Cell B : Type) where
  codec : Codec Cell → Codec B
  uniform : B → Bool

/-- CRU `SerializeSelf`/`DeserializeSelf`: base members, then the hook of the derived class
(`DerivedSerializeSelf`/`DerivedDeserializeSelf`), which first calls `EnforceUniformVoxelSize`. -/
def withDerived {B α : Type} (base : Codec B) (uniform : B → Bool) (baseOf : α → B) (derivedSer : α → Bytes)
    (derivedDe : B → Bytes → ℕ → Option (α × ℕ)) : Codec α where
  ser x := base.ser (baseOf x) ++ derivedSer x
  de buf off := (rd base buf off).bind fun b =>
    if uniform b.1 then (derivedDe b.1 buf b.2).map fun r => (r.1, b.2 + r.2 - off) else none

/-- `OccupancyMap`, `TaggedObjectOccupancyMap` and `DynamicSpatialHashedOccupancyMap`: base members and frame. -/
structure PlainMap (B : Type) where
  base : B
  frame : Bytes
  deriving DecidableEq

/-- `DerivedSerializeSelf` / `DerivedDeserializeSelf` of the three classes with only a frame
(occupancy_map.cpp:56-84, tagged_object_occupancy_map.cpp:66-94, dynamic_spatial_hashed_occupancy_map.cpp:32-61). -/
def plainMap {Cell B : Type} (F : BaseFormat Cell B) (cell : Codec Cell) : Codec (PlainMap B) :=
  withDerived (F.codec cell) F.uniform PlainMap.base (fun m => str.ser m.frame) fun b buf off =>
    (rd str buf off).bind fun frame => some (⟨b, frame.1⟩, frame.2 - off)

/-- `OccupancyComponentMap`. -/
structure CompMap (B : Type) where
  base : B
  num : Raw 4
  frame : Bytes
  valid : Bool
  deriving DecidableEq

/-- `DerivedSerializeSelf` / `DerivedDeserializeSelf` (occupancy_component_map.cpp:66-108). -/
def compMap {Cell B : Type} (F : BaseFormat Cell B) (cell : Codec Cell) : Codec (CompMap B) :=
  withDerived (F.codec cell) F.uniform CompMap.base
    (fun m => (raw 4).ser m.num ++ (str.ser m.frame ++ flag.ser m.valid)) fun b buf off =>
    (rd (raw 4) buf off).bind fun num => (rd str buf num.2).bind fun frame => (rd flag buf frame.2).bind fun valid =>
    some (⟨b, num.1, frame.1, valid.1⟩, valid.2 - off)

/-- `TaggedObjectOccupancyComponentMap`. -/
structure TagCompMap (B : Type) where
  base : B
  num : Raw 4
  numSegments : Raw 4
  frame : Bytes
  valid : Bool
  segmentsValid : Bool
  deriving DecidableEq

/-- `DerivedSerializeSelf` / `DerivedDeserializeSelf` (tagged_object_occupancy_component_map.cpp:82-139). -/
def tagCompMap {Cell B : Type} (F : BaseFormat Cell B) (cell : Codec Cell) : Codec (TagCompMap B) :=
  withDerived (F.codec cell) F.uniform TagCompMap.base
    (fun m => (raw 4).ser m.num ++ ((raw 4).ser m.numSegments ++ (str.ser m.frame ++ (flag.ser m.valid ++ flag.ser m.segmentsValid))))
    fun b buf off =>
    (rd (raw 4) buf off).bind fun num => (rd (raw 4) buf num.2).bind fun numSegments =>
    (rd str buf numSegments.2).bind fun frame => (rd flag buf frame.2).bind fun valid =>
    (rd flag buf valid.2).bind fun segmentsValid =>
    some (⟨b, num.1, numSegments.1, frame.1, valid.1, segmentsValid.1⟩, segmentsValid.2 - off)

/-! ### Signed distance fields: lock and cached extrema -/

/-- `SignedDistanceField` (signed_distance_field.hpp:207-212): base members, frame, lock flag, `minimum_maximum_`. -/
structure SDFSt (B S : Type) where
  base : B
  frame : Bytes
  locked : Bool
  cache : S × S
  deriving DecidableEq

/-- What the field needs to know about its base members: the vector of distances, and the value of a distance. -/
structure SDFBase (B S : Type) where
  data : B → List S
  setData : B → List S → B
  val : S → Fl

variable {B S : Type}

/-- `std::minmax_element` and dereferencing both iterators: first smallest and last largest element.
`none`: undefined behaviour (empty range dereferenced, or NaN, for which `<` is not a strict weak order). -/
def minMaxElement (val : S → Fl) : List S → Option (S × S)
  | [] => none
  | x :: xs =>
    if (x :: xs).any (fun y => val y = .nan) then none
    else some (xs.foldl (fun m y => if (val y).lt (val m) then y else m) x,
      xs.foldl (fun m y => if (val y).lt (val m) then m else y) x)

/-- `GetMinimumMaximum` (signed_distance_field.hpp:765-779). The check `minimum > maximum` of the returned object
(signed_distance_field.hpp:180-188) cannot fire on NaN-free data and is left out. -/
def SDFSt.minMax (D : SDFBase B S) (s : SDFSt B S) : Option (S × S) :=
  if s.locked then some s.cache else minMaxElement D.val (D.data s.base)

/-- `Lock` (signed_distance_field.hpp:783-787). -/
def SDFSt.lock (D : SDFBase B S) (s : SDFSt B S) : Option (SDFSt B S) :=
  (s.minMax D).map fun m => { s with cache := m, locked := true }

/-- `Unlock` (signed_distance_field.hpp:789). -/
def SDFSt.unlock (s : SDFSt B S) : SDFSt B S := { s with locked := false }

/-- Operations of the public interface that can change a field (assignment from another field continues that field's
history and needs no operation of its own). -/
inductive SDFOp (S : Type) where
  /-- `GetIndexMutable`/`SetIndex`/`SetLocation` at the cell with linear index `k`, with an immediate write -/
  | access (k : ℕ) (f : S → S)
  /-- `GetMutableRawData` or `SetRawData` and an immediate change of the whole vector -/
  | rawAccess (f : List S → List S)
  | lock
  | unlock
  | setFrame (frame : Bytes)
  /-- write through a reference obtained by an earlier mutable access -/
  | staleWrite (k : ℕ) (f : S → S)

/-- One operation. `OnMutableAccess` and `OnMutableRawAccess` (signed_distance_field.hpp:599-610) refuse a locked field
and the base class then writes nothing (it returns an empty query or throws). `none`: undefined behaviour. -/
def SDFSt.step (D : SDFBase B S) (s : SDFSt B S) : SDFOp S → Option (SDFSt B S)
  | .access k f => some (if s.locked then s else { s with base := D.setData s.base ((D.data s.base).modify k f) })
  | .rawAccess f => some (if s.locked then s else { s with base := D.setData s.base (f (D.data s.base)) })
  | .lock => s.lock D
  | .unlock => some s.unlock
  | .setFrame frame => some { s with frame := frame }
  | .staleWrite k f => some { s with base := D.setData s.base ((D.data s.base).modify k f) }

/-- A history. -/
def SDFSt.run (D : SDFBase B S) (s : SDFSt B S) : List (SDFOp S) → Option (SDFSt B S)
  | [] => some s
  | o :: os => (s.step D o).bind fun s => s.run D os

/-- `DerivedSerializeSelf` (signed_distance_field.hpp:551-562). -/
def sdfDerivedSer (s : SDFSt B S) : Bytes := str.ser s.frame ++ flag.ser s.locked

/-- `DerivedDeserializeSelf` (signed_distance_field.hpp:564-600) on the object `old`, whose base members have just been
replaced by `b`. `none`: exception or undefined behaviour. -/
def sdfDerivedDe (D : SDFBase B S) (old : SDFSt B S) (b : B) (buf : Bytes) (off : ℕ) : Option (SDFSt B S × ℕ) :=
  (rd str buf off).bind fun frame => (rd flag buf frame.2).bind fun locked =>
    let s : SDFSt B S := { old with base := b, frame := frame.1 }
    (if locked.1 then s.lock D else some s.unlock).map fun s => (s, locked.2 - off)

/-- `Serialize` (signed_distance_field.hpp:622-630) and `DeserializeSelf` into the object `old`. -/
def sdfInto {Cell : Type} (D : SDFBase B S) (F : BaseFormat Cell B) (cell : Codec Cell) (old : SDFSt B S) : Codec (SDFSt B S) :=
  withDerived (F.codec cell) F.uniform SDFSt.base sdfDerivedSer (sdfDerivedDe D old)

/-- A default constructed field (signed_distance_field.hpp:760-762, 211). -/
def SDFSt.fresh (b : B) (zero : S) : SDFSt B S := ⟨b, [], false, (zero, zero)⟩

/-- `Serialize` / `Deserialize` (signed_distance_field.hpp:622-642): `Deserialize` reads into a default constructed field. -/
def sdf {Cell : Type} (D : SDFBase B S) (F : BaseFormat Cell B) (cell : Codec Cell) (b0 : B) (zero : S) : Codec (SDFSt B S) :=
  sdfInto D F cell (.fresh b0 zero)

/-! ### Files -/

/-- The classes that can be saved to a file. -/
inductive Kind where
  | sdfFloat | sdfDouble | occ | occComp | tag | tagComp | dsh
  deriving DecidableEq

/-- The bytes of a four-character header. -/
def chars (s : String) : Bytes := s.toList.map fun c => UInt8.ofNat c.toNat

/-- The headers (signed_distance_field.hpp:652,662; occupancy_map.cpp:126,136; occupancy_component_map.cpp:156,166;
tagged_object_occupancy_map.cpp:137,147; tagged_object_occupancy_component_map.cpp:190,200;
dynamic_spatial_hashed_occupancy_map.cpp:105,115). -/
def header : Kind → Bool → Bytes
  | .sdfFloat, true => chars "SDFZ"
  | .sdfFloat, false => chars "SDFR"
  | .sdfDouble, true => chars "SDFZ"
  | .sdfDouble, false => chars "SDFR"
  | .occ, true => chars "CMGZ"
  | .occ, false => chars "CMGR"
  | .occComp, true => chars "CMGZ"
  | .occComp, false => chars "CMGR"
  | .tag, true => chars "TMGZ"
  | .tag, false => chars "TMGR"
  | .tagComp, true => chars "TMGZ"
  | .tagComp, false => chars "TMGR"
  | .dsh, true => chars "DMGZ"
  | .dsh, false => chars "DMGR"

/-- CRU `zlib_helpers`. -/
structure Zlib where
  compress : Bytes → Bytes
  decompress : Bytes → Option Bytes

/-- `SaveToFile` (e.g. occupancy_map.cpp:116-144): the bytes of the file. -/
def saveFile {α : Type} (z : Zlib) (k : Kind) (c : Codec α) (x : α) (compress : Bool) : Bytes :=
  if compress then header k true ++ z.compress (c.ser x) else header k false ++ c.ser x

/-- A C string: up to the first zero byte. -/
def cString (b : Bytes) : Bytes := b.takeWhile fun x => x ≠ 0

/-- Outcome of `LoadFromFile`; all but `ok` are exceptions. -/
inductive Load (α : Type) where
  | noFile
  | tooSmall
  | badHeader
  | malformed
  | ok (x : α)
  deriving DecidableEq

/-- Value or exception. -/
def Load.ofOption {α : Type} : Option (α × ℕ) → Load α
  | none => .malformed
  | some r => .ok r.1

/-- `LoadFromFile` (e.g. occupancy_map.cpp:146-191); `none`: there is no such file. -/
def loadFile {α : Type} (z : Zlib) (k : Kind) (c : Codec α) : Option Bytes → Load α
  | none => .noFile
  | some file =>
    if file.length ≥ 4 then
      let head := cString (file.take 4 ++ [0])
      let rest := file.drop 4
      if head = header k true then
        match z.decompress rest with
        | none => .malformed
        | some b => .ofOption (c.de b 0)
      else if head = header k false then .ofOption (c.de rest 0)
      else .badHeader
    else .tooSmall

/-! ### ROS messages -/

/-- A map message (msg/OccupancyMapMessage.msg and its siblings). -/
structure MapMessage where
  frameId : Bytes
  serialized : Bytes
  isCompressed : Bool

/-- `GetMessageRepresentation` for maps (ros_interface.cpp:204-214, 429-440, 515-526, 792-803, 1150-1161). -/
def mapMessage {α : Type} (z : Zlib) (c : Codec α) (frame : α → Bytes) (x : α) : MapMessage :=
  ⟨frame x, z.compress (c.ser x), true⟩

/-- `LoadFromMessageRepresentation` for maps (ros_interface.cpp:216-229, 442-457, 528-544, 805-820, 1163-1179). -/
def loadMapMessage {α : Type} (z : Zlib) (c : Codec α) (m : MapMessage) : Option α :=
  if m.isCompressed then (z.decompress m.serialized).bind fun b => (c.de b 0).map (·.1)
  else (c.de m.serialized 0).map (·.1)

/-- `SCALAR_TYPE_UNKNOWN`, `SCALAR_TYPE_FLOAT`, `SCALAR_TYPE_DOUBLE` (msg/SignedDistanceFieldMessage.msg). -/
inductive Scalar where
  | float | double
  deriving DecidableEq

/-- The constant for a scalar type. -/
def Scalar.code : Scalar → UInt8
  | .float => 1
  | .double => 2

/-- A signed distance field message (msg/SignedDistanceFieldMessage.msg). -/
structure SDFMessage where
  frameId : Bytes
  serialized : Bytes
  scalarType : UInt8
  isCompressed : Bool

/-- `GetMessageRepresentation` (ros_interface.hpp:415-441). -/
def sdfMessage {α : Type} (z : Zlib) (c : Codec α) (frame : α → Bytes) (t : Scalar) (x : α) : SDFMessage :=
  ⟨frame x, z.compress (c.ser x), t.code, true⟩

/-- `LoadFromMessageRepresentation` (ros_interface.hpp:444-487) for the requested scalar type. -/
def loadSDFMessage {α : Type} (z : Zlib) (c : Codec α) (t : Scalar) (m : SDFMessage) : Option α :=
  if m.isCompressed then
    if m.scalarType ≠ t.code then none
    else (z.decompress m.serialized).bind fun b => (c.de b 0).map (·.1)
  else (c.de m.serialized 0).map (·.1)

/-! ### A concrete base format -/

/-- The members of CRU `VoxelGridBase` that are written: initialized flag, origin transform (4×4 doubles), cells, cell
sizes and counts, default and out-of-bounds value. -/
structure GridBase (Cell : Type) where
  initialized : Bool
  origin : Raw 128
  data : List Cell
  sizes : Raw 48
  default : Cell
  oob : Cell
  deriving DecidableEq

/-- CRU `VoxelGridBase::SerializeSelf` without the derived hook (outside /repo; used for examples and witnesses only, the
round trip theorems hold for every base format that round trips). `HasUniformVoxelSize` compares the three sizes. -/
def cruDense (Cell : Type) : BaseFormat Cell (GridBase Cell) where
  codec c :=
    { ser := fun b => flag.ser b.initialized ++ ((raw 128).ser b.origin ++ ((vec c).ser b.data ++ ((raw 48).ser b.sizes ++
        (c.ser b.default ++ c.ser b.oob))))
      de := fun buf off =>
        (rd flag buf off).bind fun i => (rd (raw 128) buf i.2).bind fun o => (rd (vec c) buf o.2).bind fun d =>
        (rd (raw 48) buf d.2).bind fun s => (rd c buf s.2).bind fun df => (rd c buf df.2).bind fun ob =>
        some (⟨i.1, o.1, d.1, s.1, df.1, ob.1⟩, ob.2 - off) }
  uniform b := decide (b.sizes.1.take 8 = (b.sizes.1.drop 8).take 8 ∧ b.sizes.1.take 8 = (b.sizes.1.drop 16).take 8)

end VGT.Ser
