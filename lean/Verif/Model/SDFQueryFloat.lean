import Verif.Model.SDFQuery
import Verif.Model.RaycastFloat

/-!
Queries on a signed distance field with the arithmetic left open
(include/voxelized_geometry_tools/signed_distance_field.hpp).

`SDFQuery` has the same functions in exact arithmetic with finite stored distances.  Here every floating-point operation,
comparison and conversion is a field of a structure, so that one definition stands for any rounding, for infinities and
NaN.  Products with the origin transform and its inverse, `norm`, `normalized` and CRU's `TrilinearInterpolate` are left
open as a whole.  Eigen's product of an isometry and a homogeneous vector leaves the last coordinate as it is.
-/
set_option autoImplicit false

namespace VGT
open VGT.EDT

/-- The operations of the query code. -/
structure QueryArith (F : Type) extends Arith F where
  neg : F → F
  /-- difference of two stored values, computed in `ScalarType` -/
  storedSub : F → F → F
  two : F
  /-- `0.25` -/
  quarter : F
  /-- `0.06125` -/
  flatFactor : F
  /-- `1e-3` -/
  milli : F
  isOne : F → Bool
  norm : (Fin 3 → F) → F
  normalized : (Fin 3 → F) → Fin 3 → F
  /-- CRU `TrilinearInterpolate`: lower and upper corner, values at the corners (`true`: upper), location -/
  interp : (Fin 3 → F) → (Fin 3 → F) → (Bool → Bool → Bool → F) → (Fin 3 → F) → F

/-- The part of `SignedDistanceField` that queries look at. -/
structure FlSDF (F : Type) where
  dims : Dims
  s : F
  /-- inverse of the cell size -/
  inv : F
  data : Idx → F
  /-- `InverseOriginTransform() *` -/
  toGrid : Vec4 F → Fin 3 → F
  /-- `OriginTransform() *` on points -/
  toWorld : (Fin 3 → F) → Fin 3 → F
  /-- `OriginTransform() *` on directions -/
  rotate : (Fin 3 → F) → Fin 3 → F

/-- Outcome of a query: undefined behaviour (conversion of a number that does not fit into an index), an exception, an
empty query object, a value. -/
inductive Answer (α : Type) where
  | undefined
  | throws
  | empty
  | value (a : α)

section
variable {F : Type} (A : QueryArith F) (g : FlSDF F)

/-- CRU `LocationToGridIndex4d`; `none`: undefined. -/
def flIndexOf (loc : Vec4 F) : Option IVec := axes3 fun a => A.toInt (A.mul (g.toGrid loc a) g.inv)

/-- CRU `GridIndexToLocationInGridFrame`. -/
def flCentre (i : IVec) : Fin 3 → F := fun a => A.mul (A.add (A.ofInt (i a)) A.half) g.s

/-- CRU `GetIndexImmutable(...).Value()`; `none`: throws. -/
def FlSDF.get {F : Type} (g : FlSDF F) (i : IVec) : Option F := getImm g.dims g.data i.toIdx

/-- `GetCorrectedCenterDistance` (signed_distance_field.hpp:260-275). -/
def flCorrected (i : IVec) : Option F :=
  (g.get i).map fun nominal =>
    if A.le A.zero nominal then A.sub nominal (A.mul g.s A.half) else A.add nominal (A.mul g.s A.half)

/-- `GetAxisInterpolationIndices` (signed_distance_field.hpp:278-312); `up` is the outcome of `axis_offset >= 0.0`. -/
def flAxisIndices (initial size : ℤ) (up : Bool) : ℤ × ℤ :=
  if up then
    if initial + 1 ≥ size then
      if initial - 1 < 0 then (initial, initial) else (initial - 1, initial)
    else (initial, initial + 1)
  else
    if initial - 1 < 0 then
      if initial + 1 ≥ size then (initial, initial) else (initial, initial + 1)
    else (initial - 1, initial)

/-- The two cells used on an axis (signed_distance_field.hpp:327-339). -/
def flPair (loc : Vec4 F) (i : IVec) (a : Fin 3) : ℤ × ℤ :=
  flAxisIndices (i a) (axisCells g.dims a) (A.le A.zero (A.sub (g.toGrid loc a) (flCentre A g i a)))

/-- One of the two. -/
def pick (p : ℤ × ℤ) (upper : Bool) : ℤ := if upper then p.2 else p.1

/-- The eight corrected distances; `none`: throws. -/
def corners8 (f : Bool → Bool → Bool → Option F) : Option (Bool → Bool → Bool → F) :=
  (f false false false).bind fun mmm =>
  (f false false true).bind fun mmp =>
  (f false true false).bind fun mpm =>
  (f false true true).bind fun mpp =>
  (f true false false).bind fun pmm =>
  (f true false true).bind fun pmp =>
  (f true true false).bind fun ppm =>
  (f true true true).map fun ppp =>
    fun x y z => match x, y, z with
      | false, false, false => mmm
      | false, false, true => mmp
      | false, true, false => mpm
      | false, true, true => mpp
      | true, false, false => pmm
      | true, false, true => pmp
      | true, true, false => ppm
      | true, true, true => ppp

/-- `EstimateDistanceInterpolateFromNeighbors` (signed_distance_field.hpp:315-379). -/
def flInterpolate (loc : Vec4 F) (i : IVec) : Option F :=
  let cell : Bool → Bool → Bool → IVec := fun x y z =>
    ![pick (flPair A g loc i 0) x, pick (flPair A g loc i 1) y, pick (flPair A g loc i 2) z]
  let lower := flCentre A g (cell false false false)
  (corners8 fun x y z => flCorrected A g (cell x y z)).map fun vals =>
    A.interp lower (fun a => A.add (lower a) g.s) vals (g.toGrid loc)

/-- `EstimateLocationDistance4d` (signed_distance_field.hpp:820-835). -/
def flEstimate (loc : Vec4 F) : Answer F :=
  match flIndexOf A g loc with
  | none => .undefined
  | some i =>
    if inGrid g.dims i then
      match flInterpolate A g loc i with
      | none => .throws
      | some v => .value v
    else .empty

/-! ### Coarse gradient -/

/-- One axis of the interior branch (signed_distance_field.hpp:935-947). -/
def flInteriorAxis (i : IVec) (a : Fin 3) : Option F :=
  (g.get (moveTo i a (i a + 1))).bind fun hi => (g.get (moveTo i a (i a - 1))).map fun lo =>
    A.mul (A.storedSub hi lo) (A.div A.one (A.mul A.two g.s))

/-- One axis of the edge branch (signed_distance_field.hpp:957-1010). -/
def flEdgeAxis (i : IVec) (a : Fin 3) : Option F :=
  let low := max 0 (i a - 1)
  let high := min ((axisCells g.dims a : ℤ) - 1) (i a + 1)
  let increment := A.mul (A.ofInt (high - low)) g.s
  if A.lt A.zero increment then
    (g.get (moveTo i a high)).bind fun hi => (g.get (moveTo i a low)).map fun lo =>
      A.mul (A.sub hi lo) (A.div A.one increment)
  else some A.zero

/-- Three axis results to a vector; `none`: throws. -/
def flVec3 (x y z : Option F) : Option (Fin 3 → F) := x.bind fun x => y.bind fun y => z.map fun z => ![x, y, z]

/-- `none` is an exception. -/
def Answer.ofOption {α : Type} : Option α → Answer α
  | none => .throws
  | some a => .value a

/-- `GetGridAlignedIndexCoarseGradient` (signed_distance_field.hpp:922-1025). -/
def flCoarseGrid (i : IVec) (edge : Bool) : Answer (Fin 3 → F) :=
  if inGrid g.dims i then
    if i 0 > 0 ∧ i 1 > 0 ∧ i 2 > 0 ∧ i 0 < (g.dims.nx : ℤ) - 1 ∧ i 1 < (g.dims.ny : ℤ) - 1 ∧ i 2 < (g.dims.nz : ℤ) - 1 then
      .ofOption (flVec3 (flInteriorAxis A g i 0) (flInteriorAxis A g i 1) (flInteriorAxis A g i 2))
    else if edge then .ofOption (flVec3 (flEdgeAxis A g i 0) (flEdgeAxis A g i 1) (flEdgeAxis A g i 2))
    else .empty
  else .empty

/-- `GetIndexCoarseGradient` (signed_distance_field.hpp:895-920); the check of the last coordinate (65-80) passes. -/
def flCoarse (i : IVec) (edge : Bool) : Answer (Fin 3 → F) :=
  match flCoarseGrid A g i edge with
  | .value v => .value (g.rotate v)
  | r => r

/-- `GetLocationCoarseGradient4d` (signed_distance_field.hpp:879-893). -/
def flCoarseAt (loc : Vec4 F) (edge : Bool) : Answer (Fin 3 → F) :=
  match flIndexOf A g loc with
  | none => .undefined
  | some i => if inGrid g.dims i then flCoarse A g i edge else .empty

/-! ### Fine gradient -/

/-- `ComputeAxisFineGradient` (signed_distance_field.hpp:214-255); `none`: throws. -/
def flAxisFine (pt minus plus : Option F) (x xm xp : F) : Option F :=
  match pt, minus, plus with
  | some _, some m, some p => some (A.div (A.sub p m) (A.sub xp xm))
  | some c, some m, none => some (A.div (A.sub c m) (A.sub x xm))
  | some c, none, some p => some (A.div (A.sub p c) (A.sub xp x))
  | _, _, _ => none

/-- A point moved to `x` on axis `a`, with last coordinate 1. -/
def flMoved (p : Fin 3 → F) (a : Fin 3) (x : F) : Vec4 F := ⟨fun b => if b = a then x else p b, A.one⟩

/-- The query objects of several estimates; the first undefined or throwing one decides. -/
def flAll : List (Answer F) → Answer (List (Option F))
  | [] => .value []
  | .undefined :: _ => .undefined
  | .throws :: _ => .throws
  | .empty :: l =>
    match flAll l with
    | .value r => .value (none :: r)
    | r => r
  | .value v :: l =>
    match flAll l with
    | .value r => .value (some v :: r)
    | r => r

/-- `GetLocationFineGradient` (signed_distance_field.hpp:1051-1092). -/
def flFine (p : Fin 3 → F) (nominal : F) : Answer (Fin 3 → F) :=
  let h := A.abs nominal
  match flIndexOf A g ⟨p, A.one⟩ with
  | none => .undefined
  | some i =>
    if inGrid g.dims i then
      match flAll [flEstimate A g ⟨p, A.one⟩,
          flEstimate A g (flMoved A p 0 (A.sub (p 0) h)), flEstimate A g (flMoved A p 0 (A.add (p 0) h)),
          flEstimate A g (flMoved A p 1 (A.sub (p 1) h)), flEstimate A g (flMoved A p 1 (A.add (p 1) h)),
          flEstimate A g (flMoved A p 2 (A.sub (p 2) h)), flEstimate A g (flMoved A p 2 (A.add (p 2) h))] with
      | .value [c, mx, px, my, py, mz, pz] =>
        .ofOption (flVec3 (flAxisFine A c mx px (p 0) (A.sub (p 0) h) (A.add (p 0) h))
          (flAxisFine A c my py (p 1) (A.sub (p 1) h) (A.add (p 1) h))
          (flAxisFine A c mz pz (p 2) (A.sub (p 2) h) (A.add (p 2) h)))
      | .undefined => .undefined
      | _ => .throws
    else .empty

/-! ### Projection out of collision -/

/-- `ProjectedPosition(const Eigen::Vector4d&)` with `EnforceValidPosition` (signed_distance_field.hpp:116-138). -/
def flProjected (p : Vec4 F) : Answer (Vec4 F) := if A.isOne p.w then .value p else .throws

/-- `std::min`. -/
def flMin (a b : F) : F := if A.lt b a then b else a

/-- The `while` loop (signed_distance_field.hpp:1174-1200), at most `fuel` iterations (`none`: not finished).  The last
coordinate of the normalized gradient is zero. -/
def flProjectLoop (minDist margin maxStep : F) : ℕ → Vec4 F → F → Option (Answer (Vec4 F))
  | fuel, loc, dist =>
    if A.le dist minDist then
      match fuel with
      | 0 => none
      | fuel + 1 =>
        match flCoarseAt A g loc true with
        | .undefined => some .undefined
        | .throws => some .throws
        | .empty => some .empty
        | .value grad =>
          if A.lt (A.mul g.s A.quarter) (A.norm grad) then
            let step := flMin A maxStep (A.sub margin dist)
            let loc' : Vec4 F := ⟨fun a => A.add (loc.v a) (A.mul (A.normalized grad a) step), A.add loc.w (A.mul A.zero step)⟩
            match flEstimate A g loc' with
            | .undefined => some .undefined
            | .value dist' => flProjectLoop minDist margin maxStep fuel loc' dist'
            | _ => some .throws
          else some .empty
    else some (flProjected A loc)

/-- `ProjectLocationOutOfCollisionToMinimumDistance4d` (signed_distance_field.hpp:1155-1203). -/
def flProject (fuel : ℕ) (loc : Vec4 F) (minDist mult : F) : Option (Answer (Vec4 F)) :=
  match flIndexOf A g loc with
  | none => some .undefined
  | some i =>
    if inGrid g.dims i then
      match flEstimate A g loc with
      | .undefined => some .undefined
      | .value dist =>
        flProjectLoop A g minDist (A.add minDist (A.mul (A.mul g.s mult) A.milli)) (A.mul g.s mult) fuel loc dist
      | _ => some .throws
    else some (flProjected A loc)

/-! ### Local extrema -/

/-- `GradientIsEffectiveFlat` (signed_distance_field.hpp:482-497). -/
def flFlat (v : Fin 3 → F) : Bool :=
  A.le (A.abs (v 0)) (A.mul g.s A.flatFactor) && A.le (A.abs (v 1)) (A.mul g.s A.flatFactor) &&
    A.le (A.abs (v 2)) (A.mul g.s A.flatFactor)

/-- `GetNextFromGradient` (signed_distance_field.hpp:499-538); `d` is the stored distance at `i`. -/
def flNext (d : F) (i : IVec) (v : Fin 3 → F) : IVec := fun a =>
  let w := if A.lt d A.zero then A.mul (v a) (A.neg A.one) else v a
  let step := A.mul g.s A.flatFactor
  if A.lt step w then i a + 1 else if A.lt w (A.neg step) then i a - 1 else i a

/-- `flat` of a field at an in-grid cell. -/
def flFlatAt (i : IVec) : Bool :=
  match flCoarse A g i true with
  | .value v => flFlat A g v
  | _ => false

/-- `next` of a field at an in-grid cell. -/
def flNextAt (i : IVec) : IVec :=
  match flCoarse A g i true, g.get i with
  | .value v, some d => flNext A g d i v
  | _, _ => i

/-- `ComputeLocalExtremaMap` (signed_distance_field.hpp:1207-1231).  The cell centres that are stored are exact, in
`K`, for cells of edge `s`. -/
def flExtrema {K : Type} [Field K] [LinearOrder K] [IsStrictOrderedRing K] [FloorRing K] (s : K) (fuel : ℕ) : Option (ExtMap K) :=
  extremaMap g.dims s (flFlatAt A g) (flNextAt A g) fuel

end

/-! ### Formulas for the operations that are left open -/

section
variable {F : Type} (A : Arith F)

/-- The formula of `trilinear` (SDFQuery) with open arithmetic. -/
def flTrilinear (lo hi : Fin 3 → F) (v : Bool → Bool → Bool → F) (q : Fin 3 → F) : F :=
  let lerp (a : Fin 3) (vl vh : F) : F := A.add vl (A.mul (A.sub (q a) (lo a)) (A.div (A.sub vh vl) (A.sub (hi a) (lo a))))
  lerp 2 (lerp 1 (lerp 0 (v false false false) (v true false false)) (lerp 0 (v false true false) (v true true false)))
    (lerp 1 (lerp 0 (v false false true) (v true false true)) (lerp 0 (v false true true) (v true true true)))

/-- The other usual formula: a product of weights and values in the plane, divided by the area, and a slope along the last
axis. -/
def flBilinear (lo hi : Fin 3 → F) (v : Bool → Bool → Bool → F) (q : Fin 3 → F) : F :=
  let plane (z : Bool) : F :=
    let row (y : Bool) : F := A.add (A.mul (A.sub (hi 0) (q 0)) (v false y z)) (A.mul (A.sub (q 0) (lo 0)) (v true y z))
    A.mul (A.div A.one (A.mul (A.sub (hi 0) (lo 0)) (A.sub (hi 1) (lo 1))))
      (A.add (A.mul (row false) (A.sub (hi 1) (q 1))) (A.mul (row true) (A.sub (q 1) (lo 1))))
  A.add (plane false) (A.mul (A.mul (A.sub (plane true) (plane false)) (A.div A.one (A.sub (hi 2) (lo 2))))
    (A.sub (q 2) (lo 2)))

/-- Matrix times direction. -/
def flRotate (R : Fin 3 → Fin 3 → F) (v : Fin 3 → F) : Fin 3 → F := fun a =>
  A.add (A.add (A.mul (R a 0) (v 0)) (A.mul (R a 1) (v 1))) (A.mul (R a 2) (v 2))

end

/-- IEEE arithmetic with the rounding `r` (`rs` for `ScalarType`), indices of `bits` bits, a given norm and interpolation;
Eigen's `normalized` divides by the norm if that is positive. -/
def ieeeQuery (r rs : ℚ → Fl) (bits : ℕ) (norm : (Fin 3 → Fl) → Fl)
    (interp : (Fin 3 → Fl) → (Fin 3 → Fl) → (Bool → Bool → Bool → Fl) → (Fin 3 → Fl) → Fl) : QueryArith Fl where
  __ := ieee r bits
  neg := fun
    | .fin q => .fin (-q)
    | .pinf => .ninf
    | .ninf => .pinf
    | .nan => .nan
  storedSub := Fl.subR rs
  two := .fin 2
  quarter := .fin (1 / 4)
  flatFactor := r (6125 / 100000)
  milli := r (1 / 1000)
  isOne := fun x => decide (x = .fin 1)
  norm := norm
  normalized := fun v a => if Fl.lt (.fin 0) (norm v) then Fl.divR r (v a) (norm v) else v a
  interp := interp

end VGT
