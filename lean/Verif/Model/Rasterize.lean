import Verif.Model.SDFQuery
import Verif.Model.Surface

/-!
Mesh rasterization (src/voxelized_geometry_tools/mesh_rasterizer.cpp).

`OccupancyMap` and `OccupancyComponentMap` go through the same templates; the model keeps the occupancies only, which are
all that the templates write.

Simplifications: exact arithmetic in an ordered field `K` instead of `double`, so no rounding, NaN or infinity;
`std::pow(r * std::sqrt(3.0), 2.0)` is `3 * r * r`; cells are cubes (`Resolution()`).
Exceptions are modelled: a triangle's work is a list of actions that may end in a throw.
-/
set_option autoImplicit false

namespace VGT
open VGT.EDT

section
variable {K : Type} [Field K] [LinearOrder K] [IsStrictOrderedRing K] [FloorRing K]

/-- Eigen `a - b`. -/
def vsub (a b : Vec K) : Vec K := fun i => a i - b i
/-- Eigen `a + b`. -/
def vadd (a b : Vec K) : Vec K := fun i => a i + b i
/-- Eigen `a * k`. -/
def vscale (a : Vec K) (k : K) : Vec K := fun i => a i * k
/-- Eigen `a.dot(b)`. -/
def dot3 (a b : Vec K) : K := a 0 * b 0 + a 1 * b 1 + a 2 * b 2
/-- Eigen `a.squaredNorm()`. -/
def sqNorm (a : Vec K) : K := dot3 a a
/-- Eigen `a.cross(b)`. -/
def cross3 (a b : Vec K) : Vec K :=
  ![a 1 * b 2 - a 2 * b 1, a 2 * b 0 - a 0 * b 2, a 0 * b 1 - a 1 * b 0]

/-- CRU `VectorRejection(base, v)`: `v` minus its projection on `base`.  Division by zero (zero `base`) gives the
projection zero, as CRU does. -/
def vectorRejection (base v : Vec K) : Vec K := vsub v (vscale base (dot3 base v / sqNorm base))

/-- The lambda `same_side` (mesh_rasterizer.cpp:30-38). -/
def sameSide (a b p1 p2 : Vec K) : Bool :=
  let ab := vsub b a
  let cross1 := cross3 ab (vsub p1 a)
  let cross2 := cross3 ab (vsub p2 a)
  decide (0 ≤ dot3 cross1 cross2)

/-- `PointProjectsInsideTriangle` (mesh_rasterizer.cpp:26-43). -/
def projectsInside (v1 v2 v3 q : Vec K) : Bool := sameSide v1 v2 v3 q && sameSide v2 v3 v1 q && sameSide v3 v1 v2 q

/-- CRU `ClampValue`. -/
def clampTo (x lo hi : K) : K := if hi < x then hi else if x < lo then lo else x

/-- `ClosestPointOnLineSegment` (mesh_rasterizer.cpp:45-57). -/
def closestOnSegment (a b q : Vec K) : Vec K :=
  let ab := vsub b a
  let aq := vsub q a
  let ratio := dot3 ab aq / sqNorm ab
  vadd a (vscale ab (clampTo ratio 0 1))

/-- The choice among the three candidates (mesh_rasterizer.cpp:85-99), by the keys computed before. -/
def pickCandidate (key : Vec K → K) (c12 c23 c31 : Vec K) : Vec K :=
  if key c12 ≤ key c23 ∧ key c12 ≤ key c31 then c12
  else if key c23 ≤ key c12 ∧ key c23 ≤ key c31 then c23
  else c31

/-- `CalcClosestPointOnTriangle` (mesh_rasterizer.cpp:59-102) with the key of the candidates as a parameter. -/
def closestOnTriangleBy (key : Vec K → K) (v1 v2 v3 normal q : Vec K) : Vec K :=
  if projectsInside v1 v2 v3 q then vadd v1 (vectorRejection normal (vsub q v1))
  else
    pickCandidate key (closestOnSegment v1 v2 q) (closestOnSegment v2 v3 q) (closestOnSegment v3 v1 q)

/-- `CalcClosestPointOnTriangle` (mesh_rasterizer.cpp:59-102): the keys are the squared norms of the candidates
themselves (82-84), not of their differences to the query point. -/
def closestOnTriangle (v1 v2 v3 normal q : Vec K) : Vec K := closestOnTriangleBy sqNorm v1 v2 v3 normal q

/-- The map as far as the rasterizer uses it. -/
structure RastMap (K : Type) where
  initialized : Bool
  dims : Dims
  s : K
  pose : Pose K

/-- `LocationToGridIndex(x, y, z)`. -/
def RastMap.indexOf (m : RastMap K) (p : Vec K) : IVec := cellOf m.s (m.pose.applyInv (point4 p)).v

/-- `GridIndexToLocation(index).head<3>()`. -/
def RastMap.centreOf (m : RastMap K) (i : ZIdx) : Vec K := (m.pose.apply (point4 (centre m.s ![i.1, i.2.1, i.2.2]))).v

/-- `std::min({a, b, c})` per axis (mesh_rasterizer.cpp:133-135). -/
def lowCorner (v1 v2 v3 : Vec K) : Vec K := fun a => min (min (v1 a) (v2 a)) (v3 a)
/-- `std::max({a, b, c})` per axis (mesh_rasterizer.cpp:137-139). -/
def highCorner (v1 v2 v3 : Vec K) : Vec K := fun a => max (max (v1 a) (v2 a)) (v3 a)

/-- The cells visited by the three loops (mesh_rasterizer.cpp:141-153), in their order. -/
def RastMap.boxOf (m : RastMap K) (v1 v2 v3 : Vec K) : List ZIdx :=
  let lo := m.indexOf (lowCorner v1 v2 v3)
  let hi := m.indexOf (highCorner v1 v2 v3)
  (loopRange (lo 0) (hi 0)).flatMap fun (x : ℤ) =>
    (loopRange (lo 1) (hi 1)).flatMap fun (y : ℤ) =>
      (loopRange (lo 2) (hi 2)).map fun (z : ℤ) => (x, y, z)

/-- `triangle_intersects` (mesh_rasterizer.cpp:117-119, 126-131, 155-183), with the candidate key as a function of the query
point. -/
def RastMap.hitBy (key : Vec K → Vec K → K) (m : RastMap K) (v1 v2 v3 : Vec K) (i : ZIdx) : Bool :=
  let normal := cross3 (vsub v2 v1) (vsub v3 v1)
  let q := m.centreOf i
  let r := m.s * (1 / 2)
  decide (sqNorm (vsub (closestOnTriangleBy (key q) v1 v2 v3 normal q) q) ≤ 3 * r * r)

/-- The key that the code uses: squared norm of the candidate, the query point does not enter. -/
def codeKey (_q c : Vec K) : K := sqNorm c

/-- One effect of a triangle's work on the map. -/
inductive RAct where
  /-- `query.Value().SetOccupancy(1.0f)` -/
  | fill (i : Idx)
  /-- any exception -/
  | throw
  deriving DecidableEq

/-- The body of the loops for a cell (mesh_rasterizer.cpp:185-197). -/
def actOn (d : Dims) (enforce : Bool) (i : ZIdx) : List RAct :=
  if checkInBounds d i then [.fill (toN i)] else if enforce then [.throw] else []

/-- `vertices.at(static_cast<size_t>(k))`: negative numbers become huge; `none` is `std::out_of_range`. -/
def vertexAt (vertices : List (Vec K)) (k : ℤ) : Option (Vec K) := if 0 ≤ k then vertices[k.toNat]? else none

/-- The three vertices of a triangle (mesh_rasterizer.cpp:121-124). -/
def corners (vertices : List (Vec K)) (t : ℤ × ℤ × ℤ) : Option (Vec K × Vec K × Vec K) :=
  (vertexAt vertices t.1).bind fun v1 => (vertexAt vertices t.2.1).bind fun v2 =>
    (vertexAt vertices t.2.2).map fun v3 => (v1, v2, v3)

/-- `RasterizeTriangleImpl` (mesh_rasterizer.cpp:104-201) after the check for initialization, as actions. -/
def RastMap.triangleActs (key : Vec K → Vec K → K) (m : RastMap K) (enforce : Bool) (vertices : List (Vec K))
    (t : ℤ × ℤ × ℤ) : List RAct :=
  match corners vertices t with
  | none => [.throw]
  | some (v1, v2, v3) => ((m.boxOf v1 v2 v3).filter fun i => m.hitBy key v1 v2 v3 i).flatMap fun i => actOn m.dims enforce i

end

/-- Perform actions until the end or the first throw: whether one was thrown, and the occupancies. -/
def runActs : List RAct → (Idx → Fl) → Bool × (Idx → Fl)
  | [], occ => (false, occ)
  | .throw :: _, occ => (true, occ)
  | .fill i :: as, occ => runActs as (fun j => if j = i then .fin 1 else occ j)

/-- State of the parallel loop: the remaining actions of every thread, the occupancies, and whether a thread has
thrown.  A thread that throws stops; the exception leaves the loop after all threads are done. -/
structure RastState where
  threads : List (List RAct)
  occ : Idx → Fl
  threw : Bool

/-- Thread `t` does its next action. -/
def rastStep (s : RastState) (t : ℕ) : RastState :=
  match s.threads[t]? with
  | some (.fill i :: as) => { s with threads := s.threads.set t as, occ := fun j => if j = i then .fin 1 else s.occ j }
  | some (.throw :: _) => { s with threads := s.threads.set t [], threw := true }
  | _ => s

section
variable {K : Type} [Field K] [LinearOrder K] [IsStrictOrderedRing K] [FloorRing K]

/-- `RasterizeTriangle` (mesh_rasterizer.cpp:104-201, 281-303). -/
def RastMap.rasterizeTriangle (key : Vec K → Vec K → K) (m : RastMap K) (enforce : Bool) (vertices : List (Vec K))
    (triangles : List (ℤ × ℤ × ℤ)) (index : ℕ) (occ : Idx → Fl) : Bool × (Idx → Fl) :=
  if !m.initialized then (true, occ)
  else
    match triangles[index]? with
    | none => (true, occ)
    | some t => runActs (m.triangleActs key enforce vertices t) occ

/-- The actions of one thread that has been given the triangles `is`. -/
def RastMap.threadActs (key : Vec K → Vec K → K) (m : RastMap K) (enforce : Bool) (vertices : List (Vec K))
    (triangles : List (ℤ × ℤ × ℤ)) (is : List ℕ) : List RAct :=
  is.flatMap fun k => match triangles[k]? with
    | none => [.throw]
    | some t => m.triangleActs key enforce vertices t

/-- `RasterizeMesh` (mesh_rasterizer.cpp:203-229, 305-327): `(threw, occ')` is a possible outcome, over all splits of
the triangles between threads and all interleavings. -/
def RastMap.MeshRuns (key : Vec K → Vec K → K) (m : RastMap K) (enforce : Bool) (vertices : List (Vec K))
    (triangles : List (ℤ × ℤ × ℤ)) (occ : Idx → Fl) (threw : Bool) (occ' : Idx → Fl) : Prop :=
  if !m.initialized then threw = true ∧ occ' = occ
  else
    ∃ split : List (List ℕ), IsSplit triangles.length split ∧ ∃ sched : List ℕ,
      let st := sched.foldl rastStep
        { threads := split.map (m.threadActs key enforce vertices triangles), occ := occ, threw := false }
      (∀ l ∈ st.threads, l = []) ∧ st.threw = threw ∧ st.occ = occ'

/-- `lower_corner` and `upper_corner` (mesh_rasterizer.cpp:243-253) of a non-empty list of vertices. -/
def meshLow (v : Vec K) (vs : List (Vec K)) : Vec K := vs.foldl (fun l w a => min (l a) (w a)) v
/-- See `meshLow`. -/
def meshHigh (v : Vec K) (vs : List (Vec K)) : Vec K := vs.foldl (fun l w a => max (l a) (w a)) v

/-- The map built by `RasterizeMeshIntoOccupancyMap` (mesh_rasterizer.cpp:238-273): `FromGridSizes` (CRU) takes
`ceil(size / resolution)` cells per axis; the pose is a translation.  `none`: `resolution` not positive.
Simplification: without vertices the corners are infinite; the model leaves that case out by asking for a first vertex. -/
def meshMap (resolution : K) (v : Vec K) (vs : List (Vec K)) : Option (RastMap K) :=
  if resolution ≤ 0 then none
  else
    let size : Vec K := fun a => meshHigh v vs a - meshLow v vs a + resolution * 2
    let n : Fin 3 → ℕ := fun a => ⌈size a / resolution⌉.toNat
    some { initialized := true, dims := ⟨n 0, n 1, n 2⟩, s := resolution,
           pose := ⟨fun i j => if i = j then 1 else 0, fun a => meshLow v vs a - resolution⟩ }

/-- `RasterizeMeshIntoOccupancyMap` (mesh_rasterizer.cpp:231-278, 329-348): all cells start empty, enforcement is on. -/
def MeshMapRuns (key : Vec K → Vec K → K) (resolution : K) (v : Vec K) (vs : List (Vec K))
    (triangles : List (ℤ × ℤ × ℤ)) (threw : Bool) (occ' : Idx → Fl) : Prop :=
  match meshMap resolution v vs with
  | none => threw = true
  | some m => m.MeshRuns key true (v :: vs) triangles (fun _ => .fin 0) threw occ'

end

end VGT
