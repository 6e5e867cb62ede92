import Verif.Model.EDT3

/-!
Cells of the four map types and grid access.

Simplifications: occupancies are `Fl` values (a float is NaN, an infinity or a rational); 32-bit unsigned
ids are natural numbers; the atomic members are plain values.
-/
set_option autoImplicit false

namespace VGT
open VGT.EDT

/-- CRU `GridIndex` with signed components. -/
abbrev ZIdx := ℤ × ℤ × ℤ

/-- A non-negative index as a `GridIndex`. -/
def toZ (i : Idx) : ZIdx := ((i.1 : ℤ), (i.2.1 : ℤ), (i.2.2 : ℤ))

/-- `OccupancyCell` (occupancy_map.hpp:28-52). -/
structure OccCell where
  occ : Fl
  deriving DecidableEq, Repr

/-- `OccupancyComponentCell` (occupancy_component_map.hpp:29-65). -/
structure OccCompCell where
  occ : Fl
  comp : Nat
  deriving DecidableEq, Repr

/-- `TaggedObjectOccupancyCell` (tagged_object_occupancy_map.hpp:29-65). -/
structure TagCell where
  occ : Fl
  obj : Nat
  deriving DecidableEq, Repr

/-- `TaggedObjectOccupancyComponentCell` (tagged_object_occupancy_component_map.hpp:30-95). -/
structure TagCompCell where
  occ : Fl
  obj : Nat
  comp : Nat
  seg : Nat
  deriving DecidableEq, Repr

/-- CRU `GetIndexImmutable`: empty exactly outside the grid. -/
def getImm {C : Type} (d : Dims) (data : Idx → C) (i : ZIdx) : Option C :=
  if 0 ≤ i.1 ∧ i.1 < d.nx ∧ 0 ≤ i.2.1 ∧ i.2.1 < d.ny ∧ 0 ≤ i.2.2 ∧ i.2.2 < d.nz
  then some (data (i.1.toNat, i.2.1.toNat, i.2.2.toNat)) else none

/-- The float constant `0.5`. -/
def Fl.half : Fl := .fin (1 / 2)

/-- IEEE `a == b` (false if either is NaN). -/
def Fl.eq : Fl → Fl → Bool
  | .nan, _ => false
  | _, .nan => false
  | .ninf, .ninf => true
  | .pinf, .pinf => true
  | .fin a, .fin b => decide (a = b)
  | _, _ => false

end VGT
