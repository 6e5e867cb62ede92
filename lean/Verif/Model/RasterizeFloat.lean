import Verif.Model.Rasterize
import Verif.Model.RaycastFloat

/-!
Mesh rasterization (src/voxelized_geometry_tools/mesh_rasterizer.cpp) with the arithmetic left open.

`Rasterize` has the same functions in exact arithmetic.  Here every floating-point operation, comparison and conversion is a
field of a structure, so that one definition stands for any rounding, for infinities and NaN.  Dot and cross products
(Eigen), `VectorRejection` and `ClampValue` (CRU), `squaredNorm` (Eigen) and products with the origin transform and its
inverse are left open as a whole.  `none` is undefined behaviour: a conversion of a number that does not fit into an index.
-/
set_option autoImplicit false

namespace VGT
open VGT.EDT

/-- The operations of the rasterizer. -/
structure RastArith (F : Type) extends Arith F where
  dot : (Fin 3 → F) → (Fin 3 → F) → F
  cross : (Fin 3 → F) → (Fin 3 → F) → Fin 3 → F
  sqNorm : (Fin 3 → F) → F
  /-- CRU `VectorRejection(base, v)` -/
  rejection : (Fin 3 → F) → (Fin 3 → F) → Fin 3 → F
  /-- CRU `ClampValue(x, 0.0, 1.0)` -/
  clamp01 : F → F
  /-- `std::pow(x * std::sqrt(3.0), 2.0)` -/
  radiusSq : F → F

/-- The map as far as the rasterizer uses it. -/
structure FlRastMap (F : Type) where
  initialized : Bool
  dims : Dims
  s : F
  /-- inverse of the cell size -/
  inv : F
  /-- `InverseOriginTransform() *` -/
  toGrid : (Fin 3 → F) → Fin 3 → F
  /-- `OriginTransform() *` -/
  toWorld : (Fin 3 → F) → Fin 3 → F

section
variable {F : Type} (A : RastArith F)

/-- Eigen `a - b`. -/
def flVsub (a b : Fin 3 → F) : Fin 3 → F := fun i => A.sub (a i) (b i)
/-- Eigen `a + b`. -/
def flVadd (a b : Fin 3 → F) : Fin 3 → F := fun i => A.add (a i) (b i)
/-- Eigen `a * k`. -/
def flVscale (a : Fin 3 → F) (k : F) : Fin 3 → F := fun i => A.mul (a i) k

/-- The lambda `same_side` (mesh_rasterizer.cpp:30-38). -/
def flSameSide (a b p1 p2 : Fin 3 → F) : Bool :=
  A.le A.zero (A.dot (A.cross (flVsub A b a) (flVsub A p1 a)) (A.cross (flVsub A b a) (flVsub A p2 a)))

/-- `PointProjectsInsideTriangle` (mesh_rasterizer.cpp:26-43). -/
def flProjectsInside (v1 v2 v3 q : Fin 3 → F) : Bool :=
  flSameSide A v1 v2 v3 q && flSameSide A v2 v3 v1 q && flSameSide A v3 v1 v2 q

/-- `ClosestPointOnLineSegment` (mesh_rasterizer.cpp:45-57). -/
def flClosestOnSegment (a b q : Fin 3 → F) : Fin 3 → F :=
  flVadd A a (flVscale A (flVsub A b a)
    (A.clamp01 (A.div (A.dot (flVsub A b a) (flVsub A q a)) (A.sqNorm (flVsub A b a)))))

/-- The choice among the three candidates (mesh_rasterizer.cpp:82-99). -/
def flPickCandidate (c12 c23 c31 : Fin 3 → F) : Fin 3 → F :=
  if A.le (A.sqNorm c12) (A.sqNorm c23) && A.le (A.sqNorm c12) (A.sqNorm c31) then c12
  else if A.le (A.sqNorm c23) (A.sqNorm c12) && A.le (A.sqNorm c23) (A.sqNorm c31) then c23
  else c31

/-- `CalcClosestPointOnTriangle` (mesh_rasterizer.cpp:59-102). -/
def flClosestOnTriangle (v1 v2 v3 normal q : Fin 3 → F) : Fin 3 → F :=
  if flProjectsInside A v1 v2 v3 q then flVadd A v1 (A.rejection normal (flVsub A q v1))
  else flPickCandidate A (flClosestOnSegment A v1 v2 q) (flClosestOnSegment A v2 v3 q) (flClosestOnSegment A v3 v1 q)

/-- `std::min({a, b, c})` (mesh_rasterizer.cpp:133-135): a NaN in front stays, others are passed over. -/
def flMin3 (a b c : F) : F :=
  let m := if A.lt b a then b else a
  if A.lt c m then c else m

/-- `std::max({a, b, c})` (mesh_rasterizer.cpp:137-139). -/
def flMax3 (a b c : F) : F :=
  let m := if A.lt a b then b else a
  if A.lt m c then c else m

variable (m : FlRastMap F)

/-- CRU `LocationToGridIndex(x, y, z)` (mesh_rasterizer.cpp:141-144). -/
def flRastIndex (p : Fin 3 → F) : Option IVec := axes3 fun a => A.toInt (A.mul (m.toGrid p a) m.inv)

/-- `GridIndexToLocation(index).head<3>()` (mesh_rasterizer.cpp:155-159). -/
def flRastCentre (i : ZIdx) : Fin 3 → F :=
  m.toWorld fun a => A.mul (A.add (A.ofInt ((![i.1, i.2.1, i.2.2] : IVec) a)) A.half) m.s

/-- The cells visited by the three loops (mesh_rasterizer.cpp:146-153), in their order. -/
def indexBox (lo hi : IVec) : List ZIdx :=
  (loopRange (lo 0) (hi 0)).flatMap fun (x : ℤ) =>
    (loopRange (lo 1) (hi 1)).flatMap fun (y : ℤ) =>
      (loopRange (lo 2) (hi 2)).map fun (z : ℤ) => (x, y, z)

/-- `triangle_intersects` (mesh_rasterizer.cpp:117-119, 126-131, 155-183). -/
def flHit (v1 v2 v3 : Fin 3 → F) (i : ZIdx) : Bool :=
  let q := flRastCentre A m i
  let normal := A.cross (flVsub A v2 v1) (flVsub A v3 v1)
  A.le (A.sqNorm (flVsub A (flClosestOnTriangle A v1 v2 v3 normal q) q)) (A.radiusSq (A.mul m.s A.half))

/-- `RasterizeTriangleImpl` (mesh_rasterizer.cpp:104-201) after the check for initialization, as actions; `none`: undefined. -/
def flTriangleActs (enforce : Bool) (vertices : List (Fin 3 → F)) (t : ℤ × ℤ × ℤ) : Option (List RAct) :=
  match corners vertices t with
  | none => some [.throw]
  | some (v1, v2, v3) =>
    (flRastIndex A m fun a => flMin3 A (v1 a) (v2 a) (v3 a)).bind fun lo =>
    (flRastIndex A m fun a => flMax3 A (v1 a) (v2 a) (v3 a)).map fun hi =>
      ((indexBox lo hi).filter fun i => flHit A m v1 v2 v3 i).flatMap fun i => actOn m.dims enforce i

/-- `RasterizeTriangle` (mesh_rasterizer.cpp:104-201, 281-303); `none`: undefined. -/
def flRasterizeTriangle (enforce : Bool) (vertices : List (Fin 3 → F)) (triangles : List (ℤ × ℤ × ℤ)) (index : ℕ)
    (occ : Idx → Fl) : Option (Bool × (Idx → Fl)) :=
  if !m.initialized then some (true, occ)
  else
    match triangles[index]? with
    | none => some (true, occ)
    | some t => (flTriangleActs A m enforce vertices t).map fun acts => runActs acts occ

/-- The actions of all triangles; `none` if one of them is undefined. -/
def flMeshActs (enforce : Bool) (vertices : List (Fin 3 → F)) : List (ℤ × ℤ × ℤ) → Option (List (List RAct))
  | [] => some []
  | t :: ts => (flTriangleActs A m enforce vertices t).bind fun a => (flMeshActs enforce vertices ts).map fun as => a :: as

/-- `RasterizeMesh` (mesh_rasterizer.cpp:203-229, 305-327): `(threw, occ')` is a possible outcome, over all splits of the
triangles between threads and all interleavings.  Meshes with an undefined triangle have no outcome here. -/
def FlMeshRuns (enforce : Bool) (vertices : List (Fin 3 → F)) (triangles : List (ℤ × ℤ × ℤ)) (occ : Idx → Fl) (threw : Bool)
    (occ' : Idx → Fl) : Prop :=
  if !m.initialized then threw = true ∧ occ' = occ
  else
    ∃ acts, flMeshActs A m enforce vertices triangles = some acts ∧
    ∃ split : List (List ℕ), IsSplit triangles.length split ∧ ∃ sched : List ℕ,
      let st := sched.foldl rastStep
        { threads := split.map fun is => is.flatMap fun k => (acts[k]?).getD [.throw], occ := occ, threw := false }
      (∀ l ∈ st.threads, l = []) ∧ st.threw = threw ∧ st.occ = occ'

/-- Lower corner (mesh_rasterizer.cpp:243-252): `cwiseMin` of all vertices, from infinity; here from the first vertex. -/
def flMeshLow (v : Fin 3 → F) (vs : List (Fin 3 → F)) : Fin 3 → F :=
  vs.foldl (fun l w a => if A.lt (w a) (l a) then w a else l a) v
/-- Upper corner (mesh_rasterizer.cpp:245-253). -/
def flMeshHigh (v : Fin 3 → F) (vs : List (Fin 3 → F)) : Fin 3 → F :=
  vs.foldl (fun l w a => if A.lt (l a) (w a) then w a else l a) v

/-- The map built by `RasterizeMeshIntoOccupancyMap` (mesh_rasterizer.cpp:238-273).  `ceilInt` is
`static_cast<int64_t>(std::ceil(x))` of CRU's `FromGridSizes`.  The transform is a translation and
Eigen's products with it and its inverse have one rounding, as the others are multiplications by one and additions of zero.
`none`: the resolution is not positive or a number of cells does not fit.
Simplification: without vertices the corners are infinite; the model leaves that case out by asking for a first vertex. -/
def flMeshMap (ceilInt : F → Option ℤ) (two : F) (resolution : F) (v : Fin 3 → F) (vs : List (Fin 3 → F)) : Option (FlRastMap F) :=
  if A.le resolution A.zero then none
  else
    let size : Fin 3 → F := fun a => A.add (A.sub (flMeshHigh A v vs a) (flMeshLow A v vs a)) (A.mul resolution two)
    let t : Fin 3 → F := fun a => A.sub (flMeshLow A v vs a) resolution
    (axes3 fun a => ceilInt (A.div (size a) resolution)).map fun n =>
      { initialized := true, dims := ⟨(n 0).toNat, (n 1).toNat, (n 2).toNat⟩, s := resolution, inv := A.div A.one resolution,
        toGrid := fun p a => A.sub (p a) (t a), toWorld := fun p a => A.add (p a) (t a) }

end

/-! ### Instances -/

section
variable {K : Type} [Field K] [LinearOrder K] [FloorRing K]

/-- Exact arithmetic on an ordered field. -/
def exactRast : RastArith K where
  add := fun a b => a + b
  sub := fun a b => a - b
  mul := fun a b => a * b
  div := fun a b => a / b
  abs := fun a => |a|
  lt := fun a b => decide (a < b)
  le := fun a b => decide (a ≤ b)
  zero := 0
  one := 1
  half := 1 / 2
  inf := 0
  tiny := 1 / 10 ^ 10
  ofInt := fun i => (i : K)
  toInt := fun x => some ⌊x⌋
  fits := fun _ => true
  dot := dot3
  cross := cross3
  sqNorm := sqNorm
  rejection := vectorRejection
  clamp01 := fun x => clampTo x 0 1
  radiusSq := fun r => 3 * r * r

/-- The exact map seen by the open model. -/
def RastMap.open (m : RastMap K) : FlRastMap K where
  initialized := m.initialized
  dims := m.dims
  s := m.s
  inv := 1 / m.s
  toGrid := fun p => (m.pose.applyInv (point4 p)).v
  toWorld := fun p => (m.pose.apply (point4 p)).v

end

/-- IEEE arithmetic on top of `Arith Fl`: Eigen's `dot`, `cross` and `squaredNorm` without contraction and from left to right;
CRU's `VectorRejection` subtracts the projection, which is zero for a base of norm zero; `ClampValue` as in `clampTo`;
`std::sqrt(3.0)` is `root3`. -/
def ieeeRast (A : Arith Fl) (root3 : Fl) : RastArith Fl :=
  let dot : (Fin 3 → Fl) → (Fin 3 → Fl) → Fl := fun a b =>
    A.add (A.add (A.mul (a 0) (b 0)) (A.mul (a 1) (b 1))) (A.mul (a 2) (b 2))
  { A with
    dot := dot
    cross := fun a b => ![A.sub (A.mul (a 1) (b 2)) (A.mul (a 2) (b 1)), A.sub (A.mul (a 2) (b 0)) (A.mul (a 0) (b 2)),
      A.sub (A.mul (a 0) (b 1)) (A.mul (a 1) (b 0))]
    sqNorm := fun a => dot a a
    rejection := fun base v =>
      if A.lt A.zero (dot base base) then fun i => A.sub (v i) (A.mul (base i) (A.div (dot base v) (dot base base))) else v
    clamp01 := fun x => if A.lt A.one x then A.one else if A.lt x A.zero then A.zero else x
    radiusSq := fun r => A.mul (A.mul r root3) (A.mul r root3) }

/-- `static_cast<int64_t>(std::ceil(x))` for `bits = 64`. -/
def Fl.ceilInt (bits : ℕ) : Fl → Option ℤ
  | fin q => if -2 ^ (bits - 1) ≤ ⌈q⌉ ∧ ⌈q⌉ < 2 ^ (bits - 1) then some ⌈q⌉ else none
  | _ => none

/-- `double`. -/
def doubleRast : RastArith Fl := ieeeRast double64 (.fin (roundDouble (17320508075688772935 / 10 ^ 19)))

end VGT
