import Verif.Model.ComponentState
import Verif.Model.Surface

/-!
Map conversions together with the cached state of the target (occupancy_map_conversions.cpp:13-77).
-/
set_option autoImplicit false

namespace VGT
open VGT.EDT

/-- Number of cells that a map with these dimensions allocates (`VoxelGridBase`, trusted base). -/
def storeSize (d : Dims) : ℕ := d.nx * d.ny * d.nz

/-- Position of a cell in the backing store (`VoxelGridBase`, trusted base: z fastest). -/
def storeIndex (d : Dims) (i : Idx) : ℕ := (i.1 * d.ny + i.2.1) * d.nz + i.2.2

/-- The cells of a backing store by their index. -/
def storeAt {C : Type} (d : Dims) (default : C) (cells : List C) (i : Idx) : C := (cells[storeIndex d i]?).getD default

/-- The state of the map that `ConvertToOccupancyComponentMap` returns (occupancy_map_conversions.cpp:13-46, 50-55): the
constructor leaves counter 0 and flag false (occupancy_component_map.hpp:89-92, 154-165), and `GetMutableRawData` calls
`OnMutableRawAccess` (occupancy_component_map.cpp:123-127).  Outer `none`: exception; inner `none`: not initialized. -/
def convertedOccState (m : Option (MapOf Dims OccCell)) : Option (Option OccMapSt) :=
  match convertMap storeSize toOccComp m with
  | none => none
  | some none => some none
  | some (some t) =>
    ((OccMapSt.init fun _ => t.default).step t.geometry (.raw (storeAt t.geometry t.default t.cells))).map some

/-- The state of the map that `ConvertToTaggedObjectOccupancyComponentMap` returns (occupancy_map_conversions.cpp:13-46,
64-70; tagged_object_occupancy_component_map.hpp:120-126; tagged_object_occupancy_component_map.cpp:155-160). -/
def convertedTagState (m : Option (MapOf Dims TagCell)) : Option (Option TagMapSt) :=
  match convertMap storeSize toTagComp m with
  | none => none
  | some none => some none
  | some (some t) =>
    ((TagMapSt.init fun _ => t.default).step t.geometry (.raw (storeAt t.geometry t.default t.cells))).map some

end VGT
