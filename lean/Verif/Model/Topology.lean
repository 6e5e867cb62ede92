import Verif.Model.Surface
import Verif.Model.ComponentState

/-!
Hole and void counting: `include/voxelized_geometry_tools/topology_computation.hpp:198-299, 331-670`.

Hash containers: a hash set or map is a list without repetition in order of insertion; the order in which a range-for
visits it is an arbitrary function `order` (the theorems assume only that it permutes).  The six bits of a
`uint8_t` connectivity are six booleans.  Simplification: the `int32_t` counters are unbounded; logging is left out.
-/
set_option autoImplicit false

namespace VGT
open VGT.EDT

/-- Outcome of a computation with `.at` lookups and a `while` loop: a value, the exception `std::out_of_range`, the
exception `std::invalid_argument`, or more loop iterations than allowed (the theorems show that this does not happen). -/
inductive Run (α : Type) where
  | done (a : α)
  | outOfRange
  | invalidArgument
  | noFuel
  deriving DecidableEq, Repr

/-- Sequencing. -/
def Run.bind {α β : Type} : Run α → (α → Run β) → Run β
  | .done a, f => f a
  | .outOfRange, _ => .outOfRange
  | .invalidArgument, _ => .invalidArgument
  | .noFuel, _ => .noFuel

/-! ### Surface vertices -/

/-- `surface_vertices.insert(vertex)` if the condition holds. -/
def insertIf (c : Bool) (v : ZIdx) (s : List ZIdx) : List ZIdx := if c && !decide (v ∈ s) then s ++ [v] else s

/-- The body of the loop over surface voxels (topology_computation.hpp:382-489).  `zp` is the offset with which the
neighbour called `xyzp1_component` is looked up; the code uses `-1` (lines 388-391). -/
def cellVertices (zp : ℤ) (k : Nat) (g : ZIdx → ℤ) (c : ZIdx) (s : List ZIdx) : List ZIdx :=
  let x := c.1
  let y := c.2.1
  let z := c.2.2
  let xyzm1 := g (x, y, z - 1)
  let xyzp1 := g (x, y, z + zp)
  let xym1z := g (x, y - 1, z)
  let xyp1z := g (x, y + 1, z)
  let xm1yz := g (x - 1, y, z)
  let xp1yz := g (x + 1, y, z)
  let ne (v : ℤ) : Bool := decide ((k : ℤ) ≠ v)
  let s := insertIf (ne xyzm1 || ne xym1z || ne xm1yz) (x, y, z) s
  let s := insertIf (ne xyzp1 || ne xym1z || ne xm1yz) (x, y, z + 1) s
  let s := insertIf (ne xyzm1 || ne xyp1z || ne xm1yz) (x, y + 1, z) s
  let s := insertIf (ne xyzp1 || ne xyp1z || ne xm1yz) (x, y + 1, z + 1) s
  let s := insertIf (ne xyzm1 || ne xym1z || ne xp1yz) (x + 1, y, z) s
  let s := insertIf (ne xyzp1 || ne xym1z || ne xp1yz) (x + 1, y, z + 1) s
  let s := insertIf (ne xyzm1 || ne xyp1z || ne xp1yz) (x + 1, y + 1, z) s
  insertIf (ne xyzp1 || ne xyp1z || ne xp1yz) (x + 1, y + 1, z + 1) s

/-- The loop over the surface voxels (topology_computation.hpp:375-490); all stored values are 1
(`ExtractComponentSurfaces` stores nothing else). -/
def surfaceVerticesWith (zp : ℤ) (k : Nat) (g : ZIdx → ℤ) : List ZIdx → List ZIdx → List ZIdx
  | [], s => s
  | c :: cs, s => surfaceVerticesWith zp k g cs (cellVertices zp k g c s)

/-- The six bits of `vertex_connectivity` (topology_computation.hpp:504-623). -/
structure Conn where
  zm : Bool
  zp : Bool
  ym : Bool
  yp : Bool
  xm : Bool
  xp : Bool
  deriving DecidableEq, Repr

/-- The two nested conditions for an exposed edge: at least one of the four voxels around it is not in the component,
and not all four are outside. -/
def exposedEdge (k : Nat) (a b c e : ℤ) : Bool :=
  let ne (v : ℤ) : Bool := decide ((k : ℤ) ≠ v)
  if ne a || ne b || ne c || ne e then (if !(ne a && ne b && ne c && ne e) then true else false) else false

/-- The connectivity of a vertex (topology_computation.hpp:517-610). -/
def connectivity (k : Nat) (g : ZIdx → ℤ) (v : ZIdx) : Conn :=
  let x := v.1
  let y := v.2.1
  let z := v.2.2
  let mmm := g (x - 1, y - 1, z - 1)
  let mmp := g (x - 1, y - 1, z)
  let mpm := g (x - 1, y, z - 1)
  let mpp := g (x - 1, y, z)
  let pmm := g (x, y - 1, z - 1)
  let pmp := g (x, y - 1, z)
  let ppm := g (x, y, z - 1)
  let ppp := g (x, y, z)
  { zm := exposedEdge k mmm mpm pmm ppm
    zp := exposedEdge k mmp mpp pmp ppp
    ym := exposedEdge k mmm mmp pmm pmp
    yp := exposedEdge k mpm mpp ppm ppp
    xm := exposedEdge k mmm mmp mpm mpp
    xp := exposedEdge k pmm pmp ppm ppp }

/-- `edge_count`. -/
def Conn.count (c : Conn) : Nat :=
  c.zm.toNat + c.zp.toNat + c.ym.toNat + c.yp.toNat + c.xm.toNat + c.xp.toNat

/-! ### Connectivity of the surface vertices -/

/-- The vertices handed to `handle_connected_vertex`, in order (topology_computation.hpp:259-288). -/
def connected (c : Conn) (v : ZIdx) : List ZIdx :=
  (if c.zm then [(v.1, v.2.1, v.2.2 - 1)] else []) ++ (if c.zp then [(v.1, v.2.1, v.2.2 + 1)] else []) ++
  (if c.ym then [(v.1, v.2.1 - 1, v.2.2)] else []) ++ (if c.yp then [(v.1, v.2.1 + 1, v.2.2)] else []) ++
  (if c.xm then [(v.1 - 1, v.2.1, v.2.2)] else []) ++ (if c.xp then [(v.1 + 1, v.2.1, v.2.2)] else [])

/-- `handle_connected_vertex` (topology_computation.hpp:238-245). -/
def pushVertex (st : BfsState) (v : ZIdx) : BfsState :=
  if v ∈ st.queued then st else { queue := st.queue ++ [v], queued := st.queued ++ [v] }

/-- `surface_vertex_connectivity.at(v)`: the map holds the listed vertices. -/
def atVertex (verts : List ZIdx) (conn : ZIdx → Conn) (v : ZIdx) : Option Conn := if v ∈ verts then some (conn v) else none

/-- The `while` loop (topology_computation.hpp:247-289), at most `fuel` iterations: the new `vertex_components` and the
number of vertices processed. -/
def vertexLoop (verts : List ZIdx) (conn : ZIdx → Conn) (label : Nat) :
    Nat → (ZIdx → Nat) → BfsState → Nat → Run ((ZIdx → Nat) × Nat)
  | fuel, marks, st, n =>
    match st.queue with
    | [] => .done (marks, n)
    | v :: rest =>
      match fuel with
      | 0 => .noFuel
      | fuel + 1 =>
        let marks' := fun w => if w = v then label else marks w
        match atVertex verts conn v with
        | none => .outOfRange
        | some c =>
          vertexLoop verts conn label fuel marks'
            ((connected c v).foldl pushVertex { queue := rest, queued := st.queued }) (n + 1)

/-- The loop over the vertices (topology_computation.hpp:211-297) with the early exit. -/
def vertexSweep (verts : List ZIdx) (conn : ZIdx → Conn) :
    List ZIdx → (ZIdx → Nat) → (components processed : Nat) → Run Nat
  | [], _, components, _ => .done components
  | v :: vs, marks, components, processed =>
    if marks v > 0 then vertexSweep verts conn vs marks components processed
    else
      (vertexLoop verts conn (components + 1) (verts.length + 1) marks { queue := [v], queued := [v] } 0).bind fun r =>
        if processed + r.2 = verts.length then .done (components + 1)
        else vertexSweep verts conn vs r.1 (components + 1) (processed + r.2)

/-- `ComputeConnectivityOfSurfaceVertices` (topology_computation.hpp:198-299). -/
def surfaceCount (order : List ZIdx → List ZIdx) (verts : List ZIdx) (conn : ZIdx → Conn) : Run Nat :=
  vertexSweep verts conn (order verts) (fun _ => 0) 0 0

/-- `NumberOfHolesAndVoids` (topology_computation.hpp:23-49). -/
structure HolesAndVoids where
  holes : ℤ
  voids : ℤ
  deriving DecidableEq, Repr

/-- The constructor of `NumberOfHolesAndVoids` (topology_computation.hpp:32-44): negative numbers are refused. -/
def mkHolesAndVoids (holes voids : ℤ) : Run HolesAndVoids :=
  if holes < 0 then .invalidArgument
  else if voids < 0 then .invalidArgument
  else .done { holes := holes, voids := voids }

/-- The counters `M3`, `M5`, `M6` (topology_computation.hpp:611-623). -/
def countDegree (n : Nat) (conn : ZIdx → Conn) (verts : List ZIdx) : Nat := verts.countP fun v => (conn v).count = n

/-- `ComputeHolesAndVoidsInSurface` (topology_computation.hpp:331-643). -/
def holesAndVoidsWith (zp : ℤ) (order : List ZIdx → List ZIdx) (k : Nat) (surface : List ZIdx) (g : ZIdx → ℤ) :
    Run HolesAndVoids :=
  let verts := surfaceVerticesWith zp k g (order surface) []
  let conn := connectivity k g
  let m3 : ℤ := countDegree 3 conn (order verts)
  let m5 : ℤ := countDegree 5 conn (order verts)
  let m6 : ℤ := countDegree 6 conn (order verts)
  (surfaceCount order verts conn).bind fun surfaces =>
    let voids := (surfaces : ℤ) - 1
    let raw := 1 + Int.tdiv (m5 + 2 * m6 - m3) 8
    mkHolesAndVoids (raw + voids) voids

/-- `ComputeHolesAndVoidsInSurface` as written: `xyzp1_component` is looked up at `Z() - 1`. -/
def holesAndVoids : (List ZIdx → List ZIdx) → Nat → List ZIdx → (ZIdx → ℤ) → Run HolesAndVoids := holesAndVoidsWith (-1)

/-- The loop over the components (topology_computation.hpp:659-668). -/
def topologyLoop (hv : Nat → List ZIdx → Run HolesAndVoids) : Surfaces → Run (List (Nat × HolesAndVoids))
  | [] => .done []
  | (k, surface) :: rest =>
    (hv k surface).bind fun r => (topologyLoop hv rest).bind fun rs => .done ((k, r) :: rs)

/-- `topology_computation::ComputeComponentTopology` with the callbacks of the component maps, on the cells after
`UpdateConnectedComponents` (topology_computation.hpp:645-670; occupancy_component_map.cpp:594-653;
tagged_object_occupancy_component_map.cpp:564-625).  Outer `none`: exception of the extraction. -/
def topologyWith {C : Type} (zp : ℤ) (order : List ZIdx → List ZIdx) (occ : C → Fl) (comp : C → Nat) (d : Dims)
    (data : Idx → C) (m : TypeMask) : Option (Run (List (Nat × HolesAndVoids))) :=
  (extractSurfaces occ comp d data m).map fun s =>
    topologyLoop (fun k surface => holesAndVoidsWith zp order k surface (componentAt comp d data)) s

/-- `OccupancyComponentMap::ComputeComponentTopology` (occupancy_component_map.cpp:594-653): updates the components, then
computes. -/
def OccMapSt.topology (order : List ZIdx → List ZIdx) (d : Dims) (s : OccMapSt) (m : TypeMask) :
    Option (Run (List (Nat × HolesAndVoids))) :=
  (s.update d).bind fun r => topologyWith (-1) order OccCompCell.occ OccCompCell.comp d r.1.data m

/-- `TaggedObjectOccupancyComponentMap::ComputeComponentTopology`
(tagged_object_occupancy_component_map.cpp:564-625). -/
def TagMapSt.topology (order : List ZIdx → List ZIdx) (d : Dims) (s : TagMapSt) (across : Bool) (m : TypeMask) :
    Option (Run (List (Nat × HolesAndVoids))) :=
  (s.update d across).bind fun r => topologyWith (-1) order TagCompCell.occ TagCompCell.comp d r.1.data m

end VGT
