import Verif.Model.Components

/-!
Surface cells, candidate corners, extraction of component surfaces and map conversions.

The four map types have textually equal `IsSurfaceIndex`, and the two component maps textually equal
`IsConnectedComponentSurfaceIndex`, `CheckIfCandidateCorner` and `ExtractComponentSurfaces`; the model is generic in the
cell type, with the accessors `Occupancy()` and `Component()` as parameters.  `none` at the outer level is an exception
(`.Value()` of an empty query); an empty `OwningMaybe<bool>` is the inner `none`.
-/
set_option autoImplicit false

namespace VGT
open VGT.EDT

/-- CRU `CheckGridIndexInBounds`. -/
def checkInBounds (d : Dims) (i : ZIdx) : Bool :=
  decide (0 ≤ i.1) && decide (i.1 < d.nx) && decide (0 ≤ i.2.1) && decide (i.2.1 < d.ny) &&
    decide (0 ≤ i.2.2) && decide (i.2.2 < d.nz)

/-- The values of `for (int64_t k = lo; k <= hi; k++)`. -/
def loopRange (lo hi : ℤ) : List ℤ := (List.range (hi + 1 - lo).toNat).map fun (k : ℕ) => lo + (k : ℤ)

/-- The three nested loops over `min_check .. max_check` (occupancy_map.cpp:212-226;
occupancy_component_map.cpp:245-259; tagged_object_occupancy_map.cpp:226-240;
tagged_object_occupancy_component_map.cpp:281-295). -/
def neighborhood (d : Dims) (i : ZIdx) : List ZIdx :=
  (loopRange (max 0 (i.1 - 1)) (min ((d.nx : ℤ) - 1) (i.1 + 1))).flatMap fun (x : ℤ) =>
    (loopRange (max 0 (i.2.1 - 1)) (min ((d.ny : ℤ) - 1) (i.2.1 + 1))).flatMap fun (y : ℤ) =>
      (loopRange (max 0 (i.2.2 - 1)) (min ((d.nz : ℤ) - 1) (i.2.2 + 1))).map fun (z : ℤ) => (x, y, z)

/-- The three comparisons of the loop body (occupancy_map.cpp:230-241; occupancy_component_map.cpp:265-276). -/
def transition (our other : Fl) : Bool :=
  if Fl.lt our .half && Fl.le .half other then true
  else if Fl.lt .half our && Fl.le other .half then true
  else if Fl.eq our .half && !Fl.eq other .half then true
  else false

/-- The loop body with the early return. -/
def surfaceLoop {C : Type} (occ : C → Fl) (d : Dims) (data : Idx → C) (i : ZIdx) (our : Fl) : List ZIdx → Option Bool
  | [] => some false
  | j :: js =>
    if j.1 ≠ i.1 ∨ j.2.1 ≠ i.2.1 ∨ j.2.2 ≠ i.2.2 then
      match getImm d data j with
      | none => none
      | some c => if transition our (occ c) then some true else surfaceLoop occ d data i our js
    else surfaceLoop occ d data i our js

/-- `IsSurfaceIndex` (occupancy_map.cpp:195-247; occupancy_component_map.cpp:226-281;
tagged_object_occupancy_map.cpp:207-262; tagged_object_occupancy_component_map.cpp:262-317). -/
def isSurfaceIndex {C : Type} (occ : C → Fl) (d : Dims) (data : Idx → C) (i : ZIdx) : Option (Option Bool) :=
  if checkInBounds d i then
    match getImm d data i with
    | none => none
    | some c => (surfaceLoop occ d data i (occ c) (neighborhood d i)).map some
  else some none

/-- The chain of six comparisons (occupancy_component_map.cpp:311-346). -/
def chainDiffers {C : Type} (comp : C → Nat) (d : Dims) (data : Idx → C) (our : Nat) : List ZIdx → Option Bool
  | [] => some false
  | j :: js =>
    match getImm d data j with
    | none => none
    | some c => if our ≠ comp c then some true else chainDiffers comp d data our js

/-- `IsConnectedComponentSurfaceIndex` (occupancy_component_map.cpp:283-348;
tagged_object_occupancy_component_map.cpp:319-384). -/
def isComponentSurfaceIndex {C : Type} (comp : C → Nat) (d : Dims) (data : Idx → C) (i : ZIdx) : Option (Option Bool) :=
  if checkInBounds d i then
    if i.1 = 0 ∨ i.2.1 = 0 ∨ i.2.2 = 0 ∨ i.1 = (d.nx : ℤ) - 1 ∨ i.2.1 = (d.ny : ℤ) - 1 ∨ i.2.2 = (d.nz : ℤ) - 1 then
      some (some true)
    else
      match getImm d data i with
      | none => none
      | some c =>
        (chainDiffers comp d data (comp c)
          [(i.1, i.2.1, i.2.2 - 1), (i.1, i.2.1, i.2.2 + 1), (i.1, i.2.1 - 1, i.2.2), (i.1, i.2.1 + 1, i.2.2),
           (i.1 - 1, i.2.1, i.2.2), (i.1 + 1, i.2.1, i.2.2)]).map some
  else some none

/-- One of the six `if (cell && cell.Value().Component() != …) different_neighbors++`. -/
def countIfDifferent {C : Type} (comp : C → Nat) (d : Dims) (data : Idx → C) (our : Nat) (j : ZIdx) (n : Nat) : Nat :=
  match getImm d data j with
  | some c => if comp c ≠ our then n + 1 else n
  | none => n

/-- `CheckIfCandidateCorner` (occupancy_component_map.cpp:380-445;
tagged_object_occupancy_component_map.cpp:416-481). -/
def candidateCorner {C : Type} (comp : C → Nat) (d : Dims) (data : Idx → C) (i : ZIdx) : Option Bool :=
  match getImm d data i with
  | some c =>
    let count := countIfDifferent comp d data (comp c)
    let n := count (i.1 - 1, i.2.1, i.2.2) 0
    let n := count (i.1 + 1, i.2.1, i.2.2) n
    let n := count (i.1, i.2.1 - 1, i.2.2) n
    let n := count (i.1, i.2.1 + 1, i.2.2) n
    let n := count (i.1, i.2.1, i.2.2 - 1) n
    let n := count (i.1, i.2.1, i.2.2 + 1) n
    if n ≤ 1 then some false else some true
  | none => none

/-! ### Component surfaces -/

/-- `COMPONENT_TYPES` (occupancy_component_map.hpp:244-246): which bits of the mask are set. -/
structure TypeMask where
  filled : Bool
  empty : Bool
  unknown : Bool
  deriving DecidableEq, Repr

/-- `if (IsConnectedComponentSurfaceIndex(index)) return true;`: the condition is the conversion of the
`OwningMaybe<bool>` to `bool`, which is `HasValue()`. -/
def maybeAsBool (m : Option (Option Bool)) : Option Bool := m.map Option.isSome

/-- `is_surface_index_fn` of `ExtractComponentSurfaces` and `ComputeComponentTopology`
(occupancy_component_map.cpp:530-567, 614-650; tagged_object_occupancy_component_map.cpp:502-539, 586-622). -/
def surfaceTest {C : Type} (occ : C → Fl) (comp : C → Nat) (d : Dims) (data : Idx → C) (m : TypeMask) (i : ZIdx) :
    Option Bool :=
  match getImm d data i with
  | none => none
  | some c =>
    if Fl.lt .half (occ c) then
      if m.filled then maybeAsBool (isComponentSurfaceIndex comp d data i) else some false
    else if Fl.lt (occ c) .half then
      if m.empty then maybeAsBool (isComponentSurfaceIndex comp d data i) else some false
    else
      if m.unknown then maybeAsBool (isComponentSurfaceIndex comp d data i) else some false

/-- The result of `ExtractComponentSurfaces`: a `std::map` from component to a hash map of cells (all stored values
are 1).  The outer list is sorted by component; the inner lists are in order of insertion. -/
abbrev Surfaces := List (Nat × List ZIdx)

/-- `component_surfaces[component][index] = 1`. -/
def addSurfaceCell (component : Nat) (i : ZIdx) : Surfaces → Surfaces
  | [] => [(component, [i])]
  | (k, cells) :: rest =>
    if component < k then (component, [i]) :: (k, cells) :: rest
    else if component = k then (k, if i ∈ cells then cells else cells ++ [i]) :: rest
    else (k, cells) :: addSurfaceCell component i rest

/-- `get_component_fn` (occupancy_component_map.cpp:516-529). -/
def componentAt {C : Type} (comp : C → Nat) (d : Dims) (data : Idx → C) (i : ZIdx) : ℤ :=
  match getImm d data i with
  | some c => (comp c : ℤ)
  | none => -1

/-- The loops of `topology_computation::ExtractComponentSurfaces` (topology_computation.hpp:301-329). -/
def extractLoop {C : Type} (comp : C → Nat) (d : Dims) (data : Idx → C) (test : ZIdx → Option Bool) :
    List Idx → Surfaces → Option Surfaces
  | [], acc => some acc
  | i :: is, acc =>
    match test (toZ i) with
    | none => none
    | some true => extractLoop comp d data test is (addSurfaceCell (toU32 (componentAt comp d data (toZ i))) (toZ i) acc)
    | some false => extractLoop comp d data test is acc

/-- `ExtractComponentSurfaces` (occupancy_component_map.cpp:511-571;
tagged_object_occupancy_component_map.cpp:483-542). -/
def extractSurfaces {C : Type} (occ : C → Fl) (comp : C → Nat) (d : Dims) (data : Idx → C) (m : TypeMask) :
    Option Surfaces :=
  extractLoop comp d data (surfaceTest occ comp d data m) (allIdx d) []

/-! ### Conversions -/

/-- A map of any of the four types: geometry (`G` stands for origin transform and control sizes, which the conversion
copies), frame, default and out-of-bounds cell, backing store; `none` is a map that is not initialized. -/
structure MapOf (G C : Type) where
  geometry : G
  frame : String
  default : C
  oob : C
  cells : List C
  deriving DecidableEq

/-- `ConvertOccupancyMapImpl` (occupancy_map_conversions.cpp:13-44).  `size` is the number of cells that the
constructor allocates for a geometry; outer `none`: exception.  Simplification: a map that is not initialized is the
inner `none`, its frame and default values are not modelled.  The assignment loop is `List.map`. -/
def convertMap {G A B : Type} (size : G → Nat) (conv : A → B) (m : Option (MapOf G A)) : Option (Option (MapOf G B)) :=
  match m with
  | some f =>
    let target : MapOf G B :=
      { geometry := f.geometry, frame := f.frame, default := conv f.default, oob := conv f.oob,
        cells := List.replicate (size f.geometry) (conv f.default) }
    if f.cells.length ≠ target.cells.length then none
    else some (some { target with cells := f.cells.map conv })
  | none => some none

/-- `ConvertToOccupancyComponentCell` (occupancy_map_conversions.hpp:15-19). -/
def toOccComp (c : OccCell) : OccCompCell := { occ := c.occ, comp := 0 }
/-- `ConvertFromOccupancyComponentCell` (occupancy_map_conversions.hpp:21-25). -/
def fromOccComp (c : OccCompCell) : OccCell := { occ := c.occ }
/-- `ConvertToTaggedObjectOccupancyComponentCell` (occupancy_map_conversions.hpp:27-33). -/
def toTagComp (c : TagCell) : TagCompCell := { occ := c.occ, obj := c.obj, comp := 0, seg := 0 }
/-- `ConvertFromTaggedObjectOccupancyComponentCell` (occupancy_map_conversions.hpp:35-41). -/
def fromTagComp (c : TagCompCell) : TagCell := { occ := c.occ, obj := c.obj }

end VGT
