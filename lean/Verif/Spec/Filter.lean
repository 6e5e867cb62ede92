import Verif.Model.Cells

/-!
The intended decision of the voxelizer filter.  `c = (free, filled)` are the hit counts of one camera in one cell.
-/
set_option autoImplicit false

namespace VGT.Spec
open VGT

/-- Counts that fit the code's `int32_t` arithmetic. -/
def CountsOk (c : ℤ × ℤ) : Prop := 0 ≤ c.1 ∧ 0 ≤ c.2 ∧ c.1 + c.2 < 2 ^ 31

/-- A camera counts as having seen the cell filled: enough filled hits, and the (rounded) share of free hits is below
`pct`. -/
def SawFilled (round : ℚ → ℚ) (pct : ℚ) (threshold : ℤ) (c : ℤ × ℤ) : Prop :=
  threshold ≤ c.2 ∧ (c.1 = 0 ∨ round ((c.1 : ℚ) / ((c.1 : ℚ) + c.2)) < pct)

/-- A camera counts as having seen the cell free: some free hits, and either the filled hits are too few to matter or
the (rounded) share of free hits is at least `pct`. -/
def SawFree (round : ℚ → ℚ) (pct : ℚ) (threshold : ℤ) (c : ℤ × ℤ) : Prop :=
  0 < c.1 ∧ (c.2 < threshold ∨ pct ≤ round ((c.1 : ℚ) / ((c.1 : ℚ) + c.2)))

open Classical in
/-- Occupancy of a cell that was not filled before. -/
noncomputable def decision (sawFilled sawFree : ℤ × ℤ → Prop) (cameras : ℤ) (counts : List (ℤ × ℤ)) : Fl :=
  if ∃ c ∈ counts, sawFilled c then .fin 1
  else if cameras ≤ counts.countP (fun c => decide (sawFree c)) then .fin 0
  else .fin (1 / 2)

/-- The same without any rounding: the share of free hits is at least `m / 2^j`. -/
def ExactShare (m : ℤ) (j : ℕ) (c : ℤ × ℤ) : Prop := m * (c.1 + c.2) ≤ c.1 * 2 ^ j

end VGT.Spec
