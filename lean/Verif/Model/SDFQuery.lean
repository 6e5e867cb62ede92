import Verif.Model.Raycast

/-!
Queries on a signed distance field: interpolated distance, coarse and fine gradients, projection out of collision,
local extrema (include/voxelized_geometry_tools/signed_distance_field.hpp).

Simplifications: exact arithmetic in an ordered field `K` instead of `double`/`float`, so stored distances are finite;
the norm of a vector is a parameter; the inverse of the origin transform is the exact inverse.
An outer `none` is a C++ exception, an inner `none` an empty query object.
-/
set_option autoImplicit false

namespace VGT
open VGT.EDT

/-- `Eigen::Isometry3d`: rotation part and translation. -/
structure Pose (K : Type) where
  R : Fin 3 → Fin 3 → K
  t : Vec K

/-- `Eigen::Vector4d` as three coordinates and the homogeneous one. -/
structure Vec4 (K : Type) where
  v : Vec K
  w : K

/-- The part of `SignedDistanceField` that queries look at. -/
structure SDFGrid (K : Type) where
  dims : Dims
  s : K
  pose : Pose K
  data : Idx → K

section
variable {K : Type} [Field K] [LinearOrder K] [IsStrictOrderedRing K] [FloorRing K]

/-- Eigen: transform times homogeneous vector. -/
def Pose.apply (P : Pose K) (x : Vec4 K) : Vec4 K :=
  ⟨fun a => P.R a 0 * x.v 0 + P.R a 1 * x.v 1 + P.R a 2 * x.v 2 + P.t a * x.w, x.w⟩

/-- Eigen: inverse of an isometry times homogeneous vector (CRU `InverseOriginTransform() *`). -/
def Pose.applyInv (P : Pose K) (x : Vec4 K) : Vec4 K :=
  ⟨fun a => P.R 0 a * (x.v 0 - P.t 0 * x.w) + P.R 1 a * (x.v 1 - P.t 1 * x.w) + P.R 2 a * (x.v 2 - P.t 2 * x.w), x.w⟩

/-- The rotation part is orthogonal, as every `Isometry3d` promises. -/
def Pose.Valid (P : Pose K) : Prop :=
  (∀ a b, P.R 0 a * P.R 0 b + P.R 1 a * P.R 1 b + P.R 2 a * P.R 2 b = if a = b then 1 else 0) ∧
  (∀ a b, P.R a 0 * P.R b 0 + P.R a 1 * P.R b 1 + P.R a 2 * P.R b 2 = if a = b then 1 else 0)

/-- A point (`w = 1`). -/
def point4 (p : Vec K) : Vec4 K := ⟨p, 1⟩

/-- CRU `GridIndexToLocationInGridFrame`: the cell centre. -/
def centre (s : K) (i : IVec) : Vec K := fun a => ((i a : K) + 1 / 2) * s

/-- CRU `LocationToGridIndex4d`. -/
def SDFGrid.indexOf (g : SDFGrid K) (loc : Vec4 K) : IVec := cellOf g.s (g.pose.applyInv loc).v

/-- CRU `GridIndexToLocation`. -/
def SDFGrid.location (g : SDFGrid K) (i : IVec) : Vec4 K := g.pose.apply (point4 (centre g.s i))

/-- CRU `GetIndexImmutable(...).Value()`; `none`: throws. -/
def SDFGrid.get (g : SDFGrid K) (i : IVec) : Option K := getImm g.dims g.data i.toIdx

/-- `GetCorrectedCenterDistance` (signed_distance_field.hpp:260-275). -/
def SDFGrid.corrected (g : SDFGrid K) (i : IVec) : Option K :=
  (g.get i).map fun nominal => if nominal ≥ 0 then nominal - g.s * (1 / 2) else nominal + g.s * (1 / 2)

/-- `GetAxisInterpolationIndices` (signed_distance_field.hpp:278-312). -/
def axisIndices (initial size : ℤ) (offset : K) : ℤ × ℤ :=
  if offset ≥ 0 then
    if initial + 1 ≥ size then
      if initial - 1 < 0 then (initial, initial) else (initial - 1, initial)
    else (initial, initial + 1)
  else
    if initial - 1 < 0 then
      if initial + 1 ≥ size then (initial, initial) else (initial, initial + 1)
    else (initial - 1, initial)

/-- CRU `TrilinearInterpolate` (outside the repo; the usual formula, without clamping). -/
def trilinear (lo hi : Vec K) (mmm mmp mpm mpp pmm pmp ppm ppp : K) (q : Vec K) : K :=
  let lerp (a : Fin 3) (vl vh : K) : K := vl + (q a - lo a) * ((vh - vl) / (hi a - lo a))
  lerp 2 (lerp 1 (lerp 0 mmm pmm) (lerp 0 mpm ppm)) (lerp 1 (lerp 0 mmp pmp) (lerp 0 mpp ppp))

/-- `EstimateDistanceInterpolateFromNeighbors` (signed_distance_field.hpp:315-379). -/
def SDFGrid.interpolate (g : SDFGrid K) (loc : Vec4 K) (i : IVec) : Option K :=
  let q := (g.pose.applyInv loc).v
  let off := fun a => q a - centre g.s i a
  let x := axisIndices (i 0) g.dims.nx (off 0)
  let y := axisIndices (i 1) g.dims.ny (off 1)
  let z := axisIndices (i 2) g.dims.nz (off 2)
  let lower := centre g.s ![x.1, y.1, z.1]
  (g.corrected ![x.1, y.1, z.1]).bind fun mmm =>
  (g.corrected ![x.1, y.1, z.2]).bind fun mmp =>
  (g.corrected ![x.1, y.2, z.1]).bind fun mpm =>
  (g.corrected ![x.1, y.2, z.2]).bind fun mpp =>
  (g.corrected ![x.2, y.1, z.1]).bind fun pmm =>
  (g.corrected ![x.2, y.1, z.2]).bind fun pmp =>
  (g.corrected ![x.2, y.2, z.1]).bind fun ppm =>
  (g.corrected ![x.2, y.2, z.2]).bind fun ppp =>
  some (trilinear lower (fun a => lower a + g.s) mmm mmp mpm mpp pmm pmp ppm ppp q)

/-- `EstimateLocationDistance4d` (signed_distance_field.hpp:820-835). -/
def SDFGrid.estimate (g : SDFGrid K) (loc : Vec4 K) : Option (Option K) :=
  if inGrid g.dims (g.indexOf loc) then (g.interpolate loc (g.indexOf loc)).map some else some none

/-- `EstimateIndexDistance` (signed_distance_field.hpp:837-848). -/
def SDFGrid.estimateIndex (g : SDFGrid K) (i : IVec) : Option (Option K) := g.estimate (g.location i)

/-! ### Coarse gradient -/

/-- The index moved to coordinate `k` on axis `a`. -/
def moveTo (i : IVec) (a : Fin 3) (k : ℤ) : IVec := Function.update i a k

/-- One axis of the interior branch (signed_distance_field.hpp:935-947). -/
def SDFGrid.interiorAxis (g : SDFGrid K) (i : IVec) (a : Fin 3) : Option K :=
  (g.get (moveTo i a (i a + 1))).bind fun hi => (g.get (moveTo i a (i a - 1))).map fun lo =>
    (hi - lo) * (1 / (2 * g.s))

/-- One axis of the edge branch (signed_distance_field.hpp:957-1010). -/
def SDFGrid.edgeAxis (g : SDFGrid K) (i : IVec) (a : Fin 3) : Option K :=
  let low := max 0 (i a - 1)
  let high := min ((axisCells g.dims a : ℤ) - 1) (i a + 1)
  let increment : K := ((high - low : ℤ) : K) * g.s
  if increment > 0 then
    (g.get (moveTo i a high)).bind fun hi => (g.get (moveTo i a low)).map fun lo => (hi - lo) * (1 / increment)
  else some 0

/-- Three axis results to a vector. -/
def vec3 (x y z : Option K) : Option (Vec K) := x.bind fun x => y.bind fun y => z.map fun z => ![x, y, z]

/-- `GetGridAlignedIndexCoarseGradient` (signed_distance_field.hpp:922-1025). -/
def SDFGrid.coarseGrid (g : SDFGrid K) (i : IVec) (edge : Bool) : Option (Option (Vec K)) :=
  if inGrid g.dims i then
    if i 0 > 0 ∧ i 1 > 0 ∧ i 2 > 0 ∧ i 0 < (g.dims.nx : ℤ) - 1 ∧ i 1 < (g.dims.ny : ℤ) - 1 ∧ i 2 < (g.dims.nz : ℤ) - 1 then
      (vec3 (g.interiorAxis i 0) (g.interiorAxis i 1) (g.interiorAxis i 2)).map some
    else if edge then (vec3 (g.edgeAxis i 0) (g.edgeAxis i 1) (g.edgeAxis i 2)).map some
    else some none
  else some none

/-- `GradientQuery(const Eigen::Vector4d&)` with `EnforceValidGradient` (signed_distance_field.hpp:65-80). -/
def gradientQuery (x : Vec4 K) : Option (Option (Vec K)) := if x.w ≠ 0 then none else some (some x.v)

/-- `GetIndexCoarseGradient` (signed_distance_field.hpp:895-920). -/
def SDFGrid.coarse (g : SDFGrid K) (i : IVec) (edge : Bool) : Option (Option (Vec K)) :=
  (g.coarseGrid i edge).bind fun r =>
    match r with
    | some v => gradientQuery (g.pose.apply ⟨v, 0⟩)
    | none => some none

/-- `GetLocationCoarseGradient4d` (signed_distance_field.hpp:879-893); the 3d overload (863-877) is the case `w = 1`. -/
def SDFGrid.coarseAt (g : SDFGrid K) (loc : Vec4 K) (edge : Bool) : Option (Option (Vec K)) :=
  if inGrid g.dims (g.indexOf loc) then g.coarse (g.indexOf loc) edge else some none

/-! ### Fine gradient -/

/-- Outcome of a fine gradient: an exception, an empty query, a NaN component (0 / 0), a gradient. -/
inductive Fine (α : Type) where
  | throws
  | empty
  | nan
  | value (a : α)

instance {α : Type} [DecidableEq α] : DecidableEq (Fine α)
  | .throws, .throws => isTrue rfl
  | .throws, .empty => isFalse (by simp)
  | .throws, .nan => isFalse (by simp)
  | .throws, .value _ => isFalse (by simp)
  | .empty, .throws => isFalse (by simp)
  | .empty, .empty => isTrue rfl
  | .empty, .nan => isFalse (by simp)
  | .empty, .value _ => isFalse (by simp)
  | .nan, .throws => isFalse (by simp)
  | .nan, .empty => isFalse (by simp)
  | .nan, .nan => isTrue rfl
  | .nan, .value _ => isFalse (by simp)
  | .value _, .throws => isFalse (by simp)
  | .value _, .empty => isFalse (by simp)
  | .value _, .nan => isFalse (by simp)
  | .value a, .value b => decidable_of_iff (a = b) (by simp)

/-- `a / b` with `0 / 0` and `x / 0` as non-numbers. -/
def fineDiv (a b : K) : Fine K := if b = 0 then .nan else .value (a / b)

/-- `ComputeAxisFineGradient` (signed_distance_field.hpp:214-255). -/
def axisFine (pt minus plus : Option K) (x xm xp : K) : Fine K :=
  match pt, minus, plus with
  | some _, some m, some p => fineDiv (p - m) (xp - xm)
  | some c, some m, none => fineDiv (c - m) (x - xm)
  | some c, none, some p => fineDiv (p - c) (xp - x)
  | _, _, _ => .throws

/-- `EstimateLocationDistance` at the location moved by `h` along axis `a`. -/
def SDFGrid.estimateMoved (g : SDFGrid K) (p : Vec K) (a : Fin 3) (h : K) : Option (Option K) :=
  g.estimate (point4 (Function.update p a (p a + h)))

/-- One axis of `GetLocationFineGradient`. -/
def SDFGrid.fineAxis (g : SDFGrid K) (p : Vec K) (h : K) (a : Fin 3) : Fine K :=
  match g.estimate (point4 p), g.estimateMoved p a (-h), g.estimateMoved p a h with
  | some c, some m, some q => axisFine c m q (p a) (p a - h) (p a + h)
  | _, _, _ => .throws

/-- Three axis results to one outcome. -/
def fine3 (x y z : Fine K) : Fine (Vec K) :=
  match x, y, z with
  | .value x, .value y, .value z => .value ![x, y, z]
  | .throws, _, _ => .throws
  | _, .throws, _ => .throws
  | _, _, .throws => .throws
  | _, _, _ => .nan

/-- `GetLocationFineGradient` (signed_distance_field.hpp:1051-1092). -/
def SDFGrid.fine (g : SDFGrid K) (p : Vec K) (nominal : K) : Fine (Vec K) :=
  if inGrid g.dims (g.indexOf (point4 p)) then
    fine3 (g.fineAxis p |nominal| 0) (g.fineAxis p |nominal| 1) (g.fineAxis p |nominal| 2)
  else .empty

/-! ### Projection out of collision -/

/-- Outcome of a projection. -/
inductive Projection (K : Type) where
  | throws
  | empty
  | pos (p : Vec4 K)

/-- `ProjectedPosition(const Eigen::Vector4d&)` with `EnforceValidPosition` (signed_distance_field.hpp:116-138). -/
def projectedPosition (p : Vec4 K) : Projection K := if p.w ≠ 1 then .throws else .pos p

/-- The vector that `ProjectedPosition(x, y, z)` stores, without a check (signed_distance_field.hpp:140-141). -/
def projectedPositionXYZ (x y z : K) : Projection K := .pos ⟨![x, y, z], 0⟩

/-- Eigen `normalized()`: a zero vector stays as it is. -/
def normalized (norm : Vec K → K) (v : Vec K) : Vec K := if norm v > 0 then fun a => v a / norm v else v

/-- The `while` loop (signed_distance_field.hpp:1174-1200), at most `fuel` iterations (`none`: not finished). -/
def SDFGrid.projectLoop (g : SDFGrid K) (norm : Vec K → K) (minDist margin maxStep : K) :
    Nat → Vec4 K → K → Option (Projection K)
  | fuel, loc, dist =>
    if dist ≤ minDist then
      match fuel with
      | 0 => none
      | fuel + 1 =>
        match g.coarseAt loc true with
        | none => some .throws
        | some none => some .empty
        | some (some grad) =>
          if norm grad > g.s * (1 / 4) then
            let step := min maxStep (margin - dist)
            let loc' : Vec4 K := ⟨fun a => loc.v a + normalized norm grad a * step, loc.w⟩
            match g.estimate loc' with
            | some (some dist') => g.projectLoop norm minDist margin maxStep fuel loc' dist'
            | _ => some .throws
          else some .empty
    else some (projectedPosition loc)

/-- `ProjectLocationOutOfCollisionToMinimumDistance4d` (signed_distance_field.hpp:1155-1203). -/
def SDFGrid.project (g : SDFGrid K) (norm : Vec K → K) (fuel : Nat) (loc : Vec4 K) (minDist mult : K) :
    Option (Projection K) :=
  if inGrid g.dims (g.indexOf loc) then
    match g.estimate loc with
    | some (some dist) =>
      g.projectLoop norm minDist (minDist + g.s * mult * (1 / 1000)) (g.s * mult) fuel loc dist
    | _ => some .throws
  else some (projectedPosition loc)

/-! ### Local extrema -/

/-- A value of the extrema map: the documented "off the grid" value (plus infinity) or a location. -/
inductive Ext (K : Type) where
  | off
  | at (p : Vec K)

/-- `GradientIsEffectiveFlat` (signed_distance_field.hpp:482-497). -/
def effectivelyFlat (s : K) (v : Vec K) : Bool :=
  decide (|v 0| ≤ s * (6125 / 100000) ∧ |v 1| ≤ s * (6125 / 100000) ∧ |v 2| ≤ s * (6125 / 100000))

/-- `GetNextFromGradient` (signed_distance_field.hpp:499-538); `d` is the stored distance at `i`. -/
def nextFromGradient (s : K) (d : K) (i : IVec) (v : Vec K) : IVec := fun a =>
  let w := if d < 0 then v a * -1 else v a
  if w > s * (6125 / 100000) then i a + 1 else if w < -(s * (6125 / 100000)) then i a - 1 else i a

/-- The extrema map; `none` is the initial value (minus infinity). -/
abbrev ExtMap (K : Type) := IVec → Option (Ext K)

/-- CRU `SetIndex` on the extrema map: nothing happens outside the grid. -/
def ExtMap.set (d : Dims) (m : ExtMap K) (i : IVec) (e : Ext K) : ExtMap K :=
  if inGrid d i then fun j => if j = i then some e else m j else m

/-- The `while` loop (signed_distance_field.hpp:422-471), at most `fuel` iterations (`none`: not finished).
`flat i` and `next i` are `GradientIsEffectiveFlat` and `GetNextFromGradient` at cell `i`; the result is the extremum
and the keys of `path`. -/
def followLoop (d : Dims) (s : K) (flat : IVec → Bool) (next : IVec → IVec) (m : ExtMap K) :
    Nat → IVec → List IVec → Option (Ext K × List IVec)
  | 0, _, _ => none
  | fuel + 1, cur, path =>
    let cur' := next cur
    if cur' ∈ path then some (.at (centre s cur'), path)
    else if inGrid d cur' = false then some (.off, cur' :: path)
    else match m cur' with
      | some e => some (e, cur' :: path)
      | none =>
        if flat cur' then some (.at (centre s cur'), cur' :: path)
        else followLoop d s flat next m fuel cur' (cur' :: path)

/-- `FollowGradientsToLocalExtremaUnsafe` (signed_distance_field.hpp:382-480). -/
def followExtrema (d : Dims) (s : K) (flat : IVec → Bool) (next : IVec → IVec) (fuel : Nat) (m : ExtMap K) (i : IVec) :
    Option (ExtMap K) :=
  match m i with
  | some _ => some m
  | none =>
    if flat i then some (m.set d i (.at (centre s i)))
    else (followLoop d s flat next m fuel i [i]).map fun r => r.2.foldl (fun m j => m.set d j r.1) m

/-- The order in which the three nested loops visit the cells. -/
def sweepOrder (d : Dims) : List IVec :=
  (List.range d.nx).flatMap fun (x : ℕ) => (List.range d.ny).flatMap fun (y : ℕ) => (List.range d.nz).map fun (z : ℕ) =>
    ![(x : ℤ), (y : ℤ), (z : ℤ)]

/-- `ComputeLocalExtremaMap` (signed_distance_field.hpp:1207-1231) for given `flat` and `next`. -/
def extremaMap (d : Dims) (s : K) (flat : IVec → Bool) (next : IVec → IVec) (fuel : Nat) : Option (ExtMap K) :=
  (sweepOrder d).foldl (fun m i => m.bind fun m => followExtrema d s flat next fuel m i) (some fun _ => none)

/-- `flat` of a signed distance field at an in-grid cell. -/
def SDFGrid.flatAt (g : SDFGrid K) (i : IVec) : Bool :=
  match g.coarse i true with
  | some (some v) => effectivelyFlat g.s v
  | _ => false

/-- `next` of a signed distance field at an in-grid cell. -/
def SDFGrid.nextAt (g : SDFGrid K) (i : IVec) : IVec :=
  match g.coarse i true, g.get i with
  | some (some v), some d => nextFromGradient g.s d i v
  | _, _ => i

/-- `ComputeLocalExtremaMap` (signed_distance_field.hpp:1207-1231). -/
def SDFGrid.extrema (g : SDFGrid K) (fuel : Nat) : Option (ExtMap K) :=
  extremaMap g.dims g.s g.flatAt g.nextAt fuel

end
end VGT
