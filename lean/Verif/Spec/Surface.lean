import Verif.Spec.Components

/-!
Specification vocabulary for surface cells and corners.
-/
set_option autoImplicit false

namespace VGT.Spec
open VGT VGT.EDT

/-- Occupancy classes. -/
inductive OccClass where
  | empty
  | unknown
  | filled
  | undefined
  deriving DecidableEq

/-- The class of an occupancy value: below, at or above one half; NaN is in none. -/
def classOf : Fl → OccClass
  | .nan => .undefined
  | .ninf => .empty
  | .pinf => .filled
  | .fin q => if q < 1 / 2 then .empty else if q = 1 / 2 then .unknown else .filled

/-- The cell has another cell of the grid among its 26 neighbours: they differ by at most one in every coordinate. -/
def Near26 (i j : Idx) : Prop :=
  i ≠ j ∧ (i.1 ≤ j.1 + 1 ∧ j.1 ≤ i.1 + 1) ∧ (i.2.1 ≤ j.2.1 + 1 ∧ j.2.1 ≤ i.2.1 + 1) ∧ (i.2.2 ≤ j.2.2 + 1 ∧ j.2.2 ≤ i.2.2 + 1)

/-- The cell lies in the outermost layer of the grid, so that one of its faces is not shared with another cell. -/
def OnBorder (d : Dims) (i : Idx) : Prop :=
  i.1 = 0 ∨ i.2.1 = 0 ∨ i.2.2 = 0 ∨ i.1 + 1 = d.nx ∨ i.2.1 + 1 = d.ny ∨ i.2.2 + 1 = d.nz

/-- The cell has a face on the surface of its component: at the border of the grid or shared with a cell with another
label. -/
def OnSurface (d : Dims) (label : Idx → ℕ) (i : Idx) : Prop :=
  OnBorder d i ∨ ∃ j, d.In j ∧ FaceAdj i j ∧ label j ≠ label i

end VGT.Spec
