import Verif.Model.SDFGen
import Mathlib.Data.List.Dedup

/-!
SDF generation from the four map types (the templates in `occupancy_map.hpp`,
`occupancy_component_map.hpp`, `tagged_object_occupancy_map.hpp`,
`tagged_object_occupancy_component_map.hpp`).  `none` as an outcome is an exception.
-/
set_option autoImplicit false

namespace VGT
open VGT.EDT

/-- The parts of `SignedDistanceFieldGenerationParameters` that matter
(signed_distance_field.hpp:1233-1270). The degree of parallelism is the schedule. -/
structure GenParams where
  oob : Rl
  unknownIsFilled : Bool
  addBorder : Bool

/-- A map: grid data and cells. -/
structure CellMap (C : Type) where
  info : GridInfo
  data : Idx → C

/-- The occupancy test inside every `is_filled_fn`, for example
occupancy_map.hpp:187-199: `occupancy > 0.5`, or `UnknownIsFilled() && occupancy == 0.5`. -/
def occFilled (p : GenParams) (occupancy : Fl) : Bool :=
  if Fl.lt .half occupancy then true
  else if p.unknownIsFilled && Fl.eq occupancy .half then true
  else false

/-- `is_filled_fn` of `OccupancyMap` (occupancy_map.hpp:181-205) and `OccupancyComponentMap`
(occupancy_component_map.hpp:277-301); `occ` is `Occupancy()` of the cell type. -/
def isFilledPlain {C : Type} (occ : C → Fl) (m : CellMap C) (p : GenParams) (i : ZIdx) : Option Bool :=
  match getImm m.info.dims m.data i with
  | some c => some (occFilled p (occ c))
  | none => none

/-- `is_filled_fn` of `TaggedObjectOccupancyMap` (tagged_object_occupancy_map.hpp:206-242) and
`TaggedObjectOccupancyComponentMap` (tagged_object_occupancy_component_map.hpp:367-403). -/
def isFilledTagged {C : Type} (occ : C → Fl) (obj : C → Nat) (m : CellMap C) (objectsToUse : List Nat) (p : GenParams)
    (i : ZIdx) : Option Bool :=
  match getImm m.info.dims m.data i with
  | some c =>
    if objectsToUse.contains (obj c) || objectsToUse.length == 0 then some (occFilled p (occ c)) else some false
  | none => none

/-- `OccupancyMap::ExtractSignedDistanceField` (occupancy_map.hpp:174-210) and the
`OccupancyComponentMap` one (occupancy_component_map.hpp:270-306). -/
def ExtractPlain {C : Type} (occ : C → Fl) (ro : Rounding) (m : CellMap C) (p : GenParams) (r : Option (Idx → Rl)) : Prop :=
  GridGenRuns ro m.info (isFilledPlain occ m p) p.addBorder p.oob r

/-- `TaggedObjectOccupancyMap::ExtractSignedDistanceField` (tagged_object_occupancy_map.hpp:199-247) and
the component map's (tagged_object_occupancy_component_map.hpp:360-409). -/
def ExtractTagged {C : Type} (occ : C → Fl) (obj : C → Nat) (ro : Rounding) (m : CellMap C) (p : GenParams)
    (objectsToUse : List Nat) (r : Option (Idx → Rl)) : Prop :=
  GridGenRuns ro m.info (isFilledTagged occ obj m objectsToUse p) p.addBorder p.oob r

/-- `per_object_sdfs[id] = v`. -/
def mapSet {F : Type} (m : Nat → Option F) (k : Nat) (v : F) : Nat → Option F := fun j => if j = k then some v else m j

/-- `MakeSeparateObjectSDFs` (tagged_object_occupancy_map.hpp:249-262;
tagged_object_occupancy_component_map.hpp:411-424).  The `std::map` is a partial function. -/
def SeparateRuns {F : Type} (ext : List Nat → Option F → Prop) :
    List Nat → (Nat → Option F) → Option (Nat → Option F) → Prop
  | [], m, r => r = some m
  | id :: ids, m, r =>
    (ext [id] none ∧ r = none) ∨ ∃ v, ext [id] (some v) ∧ SeparateRuns ext ids (mapSet m id v) r

/-- The object id collection of `MakeAllObjectSDFs` (tagged_object_occupancy_map.hpp:269-288;
tagged_object_occupancy_component_map.hpp:431-450): an ordered set without repetition. -/
def objectIds {C : Type} (obj : C → Nat) (m : CellMap C) : List Nat :=
  (((allIdx m.info.dims).map fun i => obj (m.data i)).filter (fun o => o > 0)).dedup.mergeSort

/-- `MakeSeparateObjectSDFs`. -/
def MakeSeparate {C : Type} (occ : C → Fl) (obj : C → Nat) (ro : Rounding) (m : CellMap C) (p : GenParams)
    (ids : List Nat) (r : Option (Nat → Option (Idx → Rl))) : Prop :=
  SeparateRuns (ExtractTagged occ obj ro m p) ids (fun _ => none) r

/-- `MakeAllObjectSDFs` (tagged_object_occupancy_map.hpp:264-290;
tagged_object_occupancy_component_map.hpp:426-452). -/
def MakeAll {C : Type} (occ : C → Fl) (obj : C → Nat) (ro : Rounding) (m : CellMap C) (p : GenParams)
    (r : Option (Nat → Option (Idx → Rl))) : Prop :=
  MakeSeparate occ obj ro m p (objectIds obj m) r

/-- `object_filled_fn` (tagged_object_occupancy_map.hpp:321-340;
tagged_object_occupancy_component_map.hpp:484-503). -/
def isFilledNamed {C : Type} (occ : C → Fl) (obj : C → Nat) (m : CellMap C) (p : GenParams) (i : ZIdx) : Option Bool :=
  match getImm m.info.dims m.data i with
  | some c => if obj c > 0 then some (occFilled p (occ c)) else some false
  | none => none

/-- `ExtractFreeAndNamedObjectsSignedDistanceField` (tagged_object_occupancy_map.hpp:292-378;
tagged_object_occupancy_component_map.hpp:454-542).  `free_sdf_filled_fn` is the plain test. -/
def ExtractFreeAndNamed {C : Type} (occ : C → Fl) (obj : C → Nat) (ro : Rounding) (m : CellMap C) (p : GenParams)
    (r : Option (Idx → Rl)) : Prop :=
  (GridGenRuns ro m.info (isFilledPlain occ m p) p.addBorder p.oob none ∧ r = none) ∨
  ∃ free, GridGenRuns ro m.info (isFilledPlain occ m p) p.addBorder p.oob (some free) ∧
    ((GridGenRuns ro m.info (isFilledNamed occ obj m p) p.addBorder p.oob none ∧ r = none) ∨
     ∃ named, GridGenRuns ro m.info (isFilledNamed occ obj m p) p.addBorder p.oob (some named) ∧
       r = some fun i => if m.info.dims.In i then borderCombine (free i) (named i) else free i)

end VGT
