import Verif.Model.SDFGen

/-!
Connected components: `include/voxelized_geometry_tools/topology_computation.hpp:59-196` and the
`UpdateConnectedComponents` callbacks of the two component maps.

`none` is an exception (or, in `markConnected`, a loop that did not finish within the given number of
iterations; that this never happens is part of the theorems).
-/
set_option autoImplicit false

namespace VGT
open VGT.EDT

/-- What the callbacks `get_component_fn`, `mark_component_fn`, `are_connected_fn` do on a cell type:
read and write the label, decide whether the cell takes part at all (`get_component_fn` returns -1 for a
cell that does not), and compare two cells. -/
structure CompOps (C : Type) where
  get : C → Nat
  set : Nat → C → C
  active : Idx → C → Bool
  conn : Idx → Idx → C → C → Bool

/-- The stored index of an in-grid `GridIndex`. -/
def toN (i : ZIdx) : Idx := (i.1.toNat, i.2.1.toNat, i.2.2.toNat)

/-- `get_component_fn` (occupancy_component_map.cpp:482-494;
tagged_object_occupancy_component_map.cpp:746-758, 821-853). -/
def getComponent {C : Type} (ops : CompOps C) (d : Dims) (data : Idx → C) (i : ZIdx) : ℤ :=
  match getImm d data i with
  | some c => if ops.active (toN i) c then (ops.get c : ℤ) else -1
  | none => -1

/-- Conversion of the `int64_t` result when the callback is passed as
`std::function<uint32_t(const GridIndex&)>` to `MarkConnectedComponent`
(topology_computation.hpp:65, 180-184). -/
def toU32 (v : ℤ) : Nat := (v % 2 ^ 32).toNat

/-- `mark_component_fn` (occupancy_component_map.cpp:495-503;
tagged_object_occupancy_component_map.cpp:759-767, 854-862). -/
def markComponent {C : Type} (ops : CompOps C) (d : Dims) (data : Idx → C) (i : ZIdx) (label : Nat) : Idx → C :=
  match getImm d data i with
  | some _ => fun j => if j = toN i then ops.set label (data j) else data j
  | none => data

/-- `are_connected_fn`; `.Value()` of an empty query throws. -/
def areConnected {C : Type} (ops : CompOps C) (d : Dims) (data : Idx → C) (i j : ZIdx) : Option Bool :=
  match getImm d data i, getImm d data j with
  | some a, some b => some (ops.conn (toN i) (toN j) a b)
  | _, _ => none

/-- Working queue and set of queued indices (the hash set is a list without repetition). -/
structure BfsState where
  queue : List ZIdx
  queued : List ZIdx

/-- `handle_neighbor_index` (topology_computation.hpp:85-101). -/
def handleNeighbor {C : Type} (ops : CompOps C) (d : Dims) (data : Idx → C) (current neighbor : ZIdx) (st : BfsState) :
    Option BfsState :=
  if toU32 (getComponent ops d data neighbor) = 0 then
    match areConnected ops d data current neighbor with
    | none => none
    | some true =>
      if neighbor ∈ st.queued then some st
      else some { queue := st.queue ++ [neighbor], queued := st.queued ++ [neighbor] }
    | some false => some st
  else some st

/-- The six calls of `handle_neighbor_index` in order. -/
def handleNeighbors {C : Type} (ops : CompOps C) (d : Dims) (data : Idx → C) (current : ZIdx) :
    List ZIdx → BfsState → Option BfsState
  | [], st => some st
  | nb :: nbs, st =>
    match handleNeighbor ops d data current nb st with
    | none => none
    | some st' => handleNeighbors ops d data current nbs st'

/-- The six face neighbours (topology_computation.hpp:116-133). -/
def sixNeighbors (i : ZIdx) : List ZIdx :=
  [(i.1 - 1, i.2.1, i.2.2), (i.1 + 1, i.2.1, i.2.2), (i.1, i.2.1 - 1, i.2.2), (i.1, i.2.1 + 1, i.2.2),
   (i.1, i.2.1, i.2.2 - 1), (i.1, i.2.1, i.2.2 + 1)]

/-- The `while (working_queue.size() > 0)` loop (topology_computation.hpp:103-135), at most `fuel`
iterations; returns the cells and `marked_cells`. -/
def markLoopCC {C : Type} (ops : CompOps C) (d : Dims) (label : Nat) : Nat → (Idx → C) → BfsState → Nat → Option ((Idx → C) × Nat)
  | fuel, data, st, marked =>
    match st.queue with
    | [] => some (data, marked)
    | current :: rest =>
      match fuel with
      | 0 => none
      | fuel + 1 =>
        let data' := markComponent ops d data current label
        match handleNeighbors ops d data' current (sixNeighbors current) { queue := rest, queued := st.queued } with
        | none => none
        | some st' => markLoopCC ops d label fuel data' st' (marked + 1)

/-- `MarkConnectedComponent` (topology_computation.hpp:59-136). -/
def markConnected {C : Type} (ops : CompOps C) (d : Dims) (data : Idx → C) (start : ZIdx) (label : Nat) :
    Option ((Idx → C) × Nat) :=
  markLoopCC ops d label (d.nx * d.ny * d.nz) data { queue := [start], queued := [start] } 0

/-- The reset loop (topology_computation.hpp:149-159). -/
def resetLabels {C : Type} (ops : CompOps C) (d : Dims) : List Idx → (Idx → C) → (Idx → C)
  | [], data => data
  | i :: is, data => resetLabels ops d is (markComponent ops d data (toZ i) 0)

/-- The sweep (topology_computation.hpp:161-195), with the early return; `components` is a
`uint32_t`. Simplification: `int64_t` counts are unbounded. -/
def sweepCC {C : Type} (ops : CompOps C) (d : Dims) (total : Nat) :
    List Idx → (Idx → C) → Nat → Nat → Option ((Idx → C) × Nat)
  | [], data, _, components => some (data, components)
  | i :: is, data, marked, components =>
    if getComponent ops d data (toZ i) = 0 then
      let components' := (components + 1) % 2 ^ 32
      match markConnected ops d data (toZ i) components' with
      | none => none
      | some (data', cells) =>
        if marked + cells = total then some (data', components')
        else sweepCC ops d total is data' (marked + cells) components'
    else sweepCC ops d total is data marked components

/-- `ComputeConnectedComponents` (topology_computation.hpp:138-196): the relabelled cells and the
number of components. -/
def computeCC {C : Type} (ops : CompOps C) (d : Dims) (data : Idx → C) : Option ((Idx → C) × Nat) :=
  sweepCC ops d (d.nx * d.ny * d.nz) (allIdx d) (resetLabels ops d (allIdx d) data) 0 0

/-- `are_connected_fn` of `OccupancyComponentMap::UpdateConnectedComponents`
(occupancy_component_map.cpp:457-481). -/
def sameOccupancyClass (a b : Fl) : Bool :=
  if Fl.lt .half a && Fl.lt .half b then true
  else if Fl.lt a .half && Fl.lt b .half then true
  else if Fl.eq a .half && Fl.eq b .half then true
  else false

/-- `are_connected_fn` of `TaggedObjectOccupancyComponentMap::UpdateConnectedComponents`
(tagged_object_occupancy_component_map.cpp:700-745). -/
def taggedConnected (across : Bool) (a b : TagCompCell) : Bool :=
  if Fl.lt .half a.occ && Fl.lt .half b.occ then (if across then true else decide (a.obj = b.obj))
  else if Fl.lt a.occ .half && Fl.lt b.occ .half then (if across then true else decide (a.obj = b.obj))
  else if Fl.eq a.occ .half && Fl.eq b.occ .half then (if across then true else decide (a.obj = b.obj))
  else false

/-- Callbacks of `OccupancyComponentMap::UpdateConnectedComponents`
(occupancy_component_map.cpp:447-509). -/
def occOps : CompOps OccCompCell where
  get := fun c => c.comp
  set := fun n c => { c with comp := n }
  active := fun _ _ => true
  conn := fun _ _ a b => sameOccupancyClass a.occ b.occ

/-- Callbacks of `TaggedObjectOccupancyComponentMap::UpdateConnectedComponents`
(tagged_object_occupancy_component_map.cpp:699-767). -/
def tagOps (across : Bool) : CompOps TagCompCell where
  get := fun c => c.comp
  set := fun n c => { c with comp := n }
  active := fun _ _ => true
  conn := fun _ _ a b => taggedConnected across a b

/-- Callbacks of `TaggedObjectOccupancyComponentMap::UpdateSpatialSegments`
(tagged_object_occupancy_component_map.cpp:796-862).  `finiteExtremum i`: no component of the extrema map
at `i` is infinite; `near i j`: the norm of the difference of the two extrema is below the threshold. -/
def segOps (finiteExtremum : Idx → Bool) (near : Idx → Idx → Bool) : CompOps TagCompCell where
  get := fun c => c.seg
  set := fun n c => { c with seg := n }
  active := fun i c => (Fl.lt c.occ .half || decide (c.obj > 0)) && finiteExtremum i
  conn := fun i j a b => decide (a.obj = b.obj) && near i j

end VGT
