import Verif.Model.Components

/-!
The component maps as state machines: cells, cached counts and validity flags
(occupancy_component_map.{hpp,cpp}, tagged_object_occupancy_component_map.{hpp,cpp}).

Mutable references: `access i f` is `GetIndexMutable(i)` (or `SetIndex`, `SetLocation`) followed
immediately by a write; a write through a reference that was obtained earlier is the separate operation
`staleWrite`, which does not call `OnMutableAccess`.
-/
set_option autoImplicit false

namespace VGT
open VGT.EDT

/-- `OccupancyComponentMap` (occupancy_component_map.hpp:80-92): cells, `number_of_components_`,
`components_valid_`. The frame plays no role here. -/
structure OccMapSt where
  data : Idx → OccCompCell
  num : Nat
  valid : Bool

/-- A newly constructed map (occupancy_component_map.hpp:89-92, 148-178): counter 0, flag false. -/
def OccMapSt.init (data : Idx → OccCompCell) : OccMapSt := { data := data, num := 0, valid := false }

/-- `UpdateConnectedComponents` (occupancy_component_map.cpp:447-509): new state and returned count. -/
def OccMapSt.update (d : Dims) (s : OccMapSt) : Option (OccMapSt × Nat) :=
  if s.valid then some (s, s.num)
  else
    match computeCC occOps d s.data with
    | none => none
    | some (data', n) => some ({ data := data', num := n, valid := true }, n)

/-- `NumConnectedComponents` (occupancy_component_map.hpp:200-212). -/
def OccMapSt.numComponents (s : OccMapSt) : Option Nat := if s.valid then some s.num else none

/-- Operations of the public interface. -/
inductive OccOp where
  /-- mutable access to one cell and an immediate write -/
  | access (i : ZIdx) (f : OccCompCell → OccCompCell)
  /-- `GetMutableRawData` / `SetRawData` and an immediate write of all cells -/
  | raw (data : Idx → OccCompCell)
  /-- `UpdateConnectedComponents` -/
  | update
  /-- `ForceComponentsToBeInvalid` -/
  | forceInvalid
  /-- `ForceComponentsToBeValid` -/
  | forceValid
  /-- write through a reference obtained by an earlier mutable access -/
  | staleWrite (i : ZIdx) (f : OccCompCell → OccCompCell)

/-- Write one cell if the index is in the grid. -/
def writeCell {C : Type} (d : Dims) (data : Idx → C) (i : ZIdx) (f : C → C) : Idx → C :=
  match getImm d data i with
  | some _ => fun j => if j = toN i then f (data j) else data j
  | none => data

/-- One operation. `OnMutableAccess` and `OnMutableRawAccess` (occupancy_component_map.cpp:110-127) clear the
flag; they are called by the base class for in-bounds indices only. `none`: an exception. -/
def OccMapSt.step (d : Dims) (s : OccMapSt) : OccOp → Option OccMapSt
  | .access i f =>
    match getImm d s.data i with
    | some _ => some { s with data := writeCell d s.data i f, valid := false }
    | none => some s
  | .raw data => some { s with data := data, valid := false }
  | .update => (s.update d).map Prod.fst
  | .forceInvalid => some { s with valid := false }
  | .forceValid => some { s with valid := true }
  | .staleWrite i f => some { s with data := writeCell d s.data i f }

/-- A sequence of operations. -/
def OccMapSt.run (d : Dims) : OccMapSt → List OccOp → Option OccMapSt
  | s, [] => some s
  | s, o :: os => (s.step d o).bind fun s' => s'.run d os

/-- The operations that properties quantify over: no forcing to valid, no stale references. -/
def OccOp.Plain : OccOp → Prop
  | .forceValid => False
  | .staleWrite _ _ => False
  | _ => True

/-- `TaggedObjectOccupancyComponentMap` (tagged_object_occupancy_component_map.hpp:110-130). -/
structure TagMapSt where
  data : Idx → TagCompCell
  num : Nat
  numSeg : Nat
  valid : Bool
  segValid : Bool

/-- A newly constructed map. -/
def TagMapSt.init (data : Idx → TagCompCell) : TagMapSt :=
  { data := data, num := 0, numSeg := 0, valid := false, segValid := false }

/-- The flags after a run of `ComputeConnectedComponents` on this map: every `mark_component_fn` call
goes through `GetIndexMutable`, whose `OnMutableAccess` clears both flags
(tagged_object_occupancy_component_map.cpp:142-152); the reset loop makes such a call for every cell, so
both are cleared iff there is a cell. -/
def flagAfterMarking (d : Dims) (flag : Bool) : Bool := if (allIdx d).isEmpty then flag else false

/-- `UpdateConnectedComponents` (tagged_object_occupancy_component_map.cpp:689-773). -/
def TagMapSt.update (d : Dims) (s : TagMapSt) (across : Bool) : Option (TagMapSt × Nat) :=
  if s.valid then some (s, s.num)
  else
    match computeCC (tagOps across) d s.data with
    | none => none
    | some (data', n) =>
      some ({ s with data := data', num := n, valid := true, segValid := flagAfterMarking d s.segValid }, n)

/-- `UpdateSpatialSegments` (tagged_object_occupancy_component_map.cpp:775-868); the extrema map is summarised by
`fin` and `near` (see `segOps`), functions of the cells' occupancies and object ids. -/
def TagMapSt.updateSegments (d : Dims) (s : TagMapSt) (fin : (Idx → Fl × Nat) → Idx → Bool)
    (near : (Idx → Fl × Nat) → Idx → Idx → Bool) : Option (TagMapSt × Nat) :=
  if s.segValid then some (s, s.numSeg)
  else
    let view := fun i => ((s.data i).occ, (s.data i).obj)
    match computeCC (segOps (fin view) (near view)) d s.data with
    | none => none
    | some (data', n) =>
      some ({ s with data := data', numSeg := n, segValid := true, valid := flagAfterMarking d s.valid }, n)

/-- `NumConnectedComponents`, `NumSpatialSegments`
(tagged_object_occupancy_component_map.hpp:260-272, 320-331). -/
def TagMapSt.numComponents (s : TagMapSt) : Option Nat := if s.valid then some s.num else none
@[inherit_doc TagMapSt.numComponents]
def TagMapSt.numSegments (s : TagMapSt) : Option Nat := if s.segValid then some s.numSeg else none

/-- Operations of the tagged map (without forcing flags to valid and without stale references). -/
inductive TagOp where
  | access (i : ZIdx) (f : TagCompCell → TagCompCell)
  | raw (data : Idx → TagCompCell)
  | update (across : Bool)
  | segments (fin : (Idx → Fl × Nat) → Idx → Bool) (near : (Idx → Fl × Nat) → Idx → Idx → Bool)
  | forceInvalid
  | forceSegInvalid

/-- One operation. -/
def TagMapSt.step (d : Dims) (s : TagMapSt) : TagOp → Option TagMapSt
  | .access i f =>
    match getImm d s.data i with
    | some _ => some { s with data := writeCell d s.data i f, valid := false, segValid := false }
    | none => some s
  | .raw data => some { s with data := data, valid := false, segValid := false }
  | .update across => (s.update d across).map Prod.fst
  | .segments fin near => (s.updateSegments d fin near).map Prod.fst
  | .forceInvalid => some { s with valid := false }
  | .forceSegInvalid => some { s with segValid := false }

/-- A sequence of operations. -/
def TagMapSt.run (d : Dims) : TagMapSt → List TagOp → Option TagMapSt
  | s, [] => some s
  | s, o :: os => (s.step d o).bind fun s' => s'.run d os

end VGT
