import Verif.Model.EDT3
import Verif.Model.Cells
import Verif.Model.Rl

/-!
SDF generation: `include/voxelized_geometry_tools/signed_distance_field_generation.hpp`.

Exceptions are the outcome `none`.  Schedules make the generation a relation between inputs and
possible outcomes.
-/
set_option autoImplicit false

namespace VGT.EDT
open VGT VGT.Par

/-- The three rounding functions involved: of the distance transform arithmetic, of the double
arithmetic after the square root, and of the cast to the SDF scalar type. -/
structure Rounding where
  rq : ℚ → ℚ
  rr : ℝ → ℝ
  cast : ℝ → ℝ

/-- All cell indices in the order of the triple loop
(signed_distance_field_generation.hpp:57-63, 85-90). -/
def allIdx (d : Dims) : List Idx :=
  (List.range d.nx).flatMap fun x => (List.range d.ny).flatMap fun y => (List.range d.nz).map fun z => (x, y, z)

/-- The marking loop (signed_distance_field_generation.hpp:57-74): `filled_distance_field` and
`free_distance_field`; `none` if `is_filled_fn` throws. -/
def markLoop (isFilled : ZIdx → Option Bool) : List Idx → Fld × Fld → Option (Fld × Fld)
  | [], s => some s
  | i :: is, (filled, free) =>
    match isFilled (toZ i) with
    | none => none
    | some true => markLoop isFilled is (Prog.set filled i (.fin 0), free)
    | some false => markLoop isFilled is (filled, Prog.set free i (.fin 0))

/-- Both fields start at infinity (signed_distance_field_generation.hpp:47-55). -/
def markCells (isFilled : ZIdx → Option Bool) (d : Dims) : Option (Fld × Fld) :=
  markLoop isFilled (allIdx d) (fun _ => .pinf, fun _ => .pinf)

/-- The value stored in one SDF cell (signed_distance_field_generation.hpp:91-105). -/
noncomputable def cellValue (ro : Rounding) (res : ℝ) (filledSq freeSq : Fl) : Rl :=
  let distance1 := Rl.mulFin ro.rr (Rl.sqrt ro.rr (Rl.ofFl filledSq)) res
  let distance2 := Rl.mulFin ro.rr (Rl.sqrt ro.rr (Rl.ofFl freeSq)) res
  Rl.cast ro.cast (Rl.sub ro.rr distance1 distance2)

/-- `ExtractSignedDistanceField(origin, sizes, is_filled_fn, frame, parameters)`
(signed_distance_field_generation.hpp:39-113).  `GenRuns ... r`: `r` is a possible outcome (`none`:
exception).  The result is the stored values; an index outside the grid stands for the
out-of-bounds value.  Origin transform and frame are passed through and not modelled here; the final
`Lock()` is modelled with the SDF state machine. -/
def GenRuns (ro : Rounding) (d : Dims) (res : ℝ) (isFilled : ZIdx → Option Bool) (oob : Rl)
    (r : Option (Idx → Rl)) : Prop :=
  match markCells isFilled d with
  | none => r = none
  | some (filled, free) => ∃ filled' free' : Fld,
    TransformRuns ro.rq d filled filled' ∧ TransformRuns ro.rq d free free' ∧
    r = some fun i => if d.In i then cellValue ro res (filled' i) (free' i) else oob

/-- `*_axis_size_offset` (signed_distance_field_generation.hpp:136-147). -/
def sizeOffset (n : Nat) : Nat := if n > 1 then 2 else 0
/-- `*_axis_query_offset` (signed_distance_field_generation.hpp:138-147). -/
def queryOffset (n : Nat) : Nat := if n > 1 then 1 else 0

/-- `enlarged_sizes` (signed_distance_field_generation.hpp:150-152, 238-239). -/
def enlarge (d : Dims) : Dims :=
  { nx := d.nx + sizeOffset d.nx, ny := d.ny + sizeOffset d.ny, nz := d.nz + sizeOffset d.nz }

/-- `free_is_filled_fn` (`border = true`, signed_distance_field_generation.hpp:156-194) and
`filled_is_filled_fn` (`border = false`, lines 197-235). -/
def borderFilled (d : Dims) (isFilled : ZIdx → Option Bool) (border : Bool) : ZIdx → Option Bool := fun v =>
  if sizeOffset d.nx > 0 ∧ (v.1 = 0 ∨ v.1 = ((enlarge d).nx : ℤ) - 1) then some border
  else if sizeOffset d.ny > 0 ∧ (v.2.1 = 0 ∨ v.2.1 = ((enlarge d).ny : ℤ) - 1) then some border
  else if sizeOffset d.nz > 0 ∧ (v.2.2 = 0 ∨ v.2.2 = ((enlarge d).nz : ℤ) - 1) then some border
  else isFilled (v.1 - queryOffset d.nx, v.2.1 - queryOffset d.ny, v.2.2 - queryOffset d.nz)

/-- `query_{x,y,z}_idx` (signed_distance_field_generation.hpp:257-259). -/
def shift (d : Dims) (i : Idx) : Idx := (i.1 + queryOffset d.nx, i.2.1 + queryOffset d.ny, i.2.2 + queryOffset d.nz)

open Classical in
/-- Combination of the two bordered SDF values (signed_distance_field_generation.hpp:265-276), also
used by `ExtractFreeAndNamedObjectsSignedDistanceField` (tagged_object_occupancy_map.hpp:358-370).
`-0.0` and `0.0` compare equal. -/
noncomputable def borderCombine (freeV filledV : Rl) : Rl :=
  if Rl.le (.fin 0) freeV then freeV
  else if Rl.le filledV (.fin 0) then filledV
  else .fin 0

/-- Voxel grid data used by generation: sizes and per-axis cell sizes. -/
structure GridInfo where
  dims : Dims
  sx : ℝ
  sy : ℝ
  sz : ℝ

/-- CRU `HasUniformVoxelSize`. -/
def GridInfo.Uniform (g : GridInfo) : Prop := g.sx = g.sy ∧ g.sx = g.sz

open Classical in
/-- `ExtractSignedDistanceField(grid, is_filled_fn, frame, parameters)`
(signed_distance_field_generation.hpp:115-285). -/
def GridGenRuns (ro : Rounding) (g : GridInfo) (isFilled : ZIdx → Option Bool) (addBorder : Bool) (oob : Rl)
    (r : Option (Idx → Rl)) : Prop :=
  if ¬ g.Uniform then r = none
  else if addBorder = false then GenRuns ro g.dims g.sx isFilled oob r
  else ∃ rFree rFilled : Option (Idx → Rl),
    GenRuns ro (enlarge g.dims) g.sx (borderFilled g.dims isFilled true) oob rFree ∧
    GenRuns ro (enlarge g.dims) g.sx (borderFilled g.dims isFilled false) oob rFilled ∧
    match rFree, rFilled with
    | some vFree, some vFilled =>
      -- `.Value()` on an out-of-grid query would throw
      if (allIdx g.dims).all (fun i => decide ((enlarge g.dims).In (shift g.dims i))) then
        r = some fun i => if g.dims.In i then borderCombine (vFree (shift g.dims i)) (vFilled (shift g.dims i)) else oob
      else r = none
    | _, _ => r = none

end VGT.EDT
