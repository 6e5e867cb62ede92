import Verif.Spec.Interp
import Verif.Spec.Ray
import Mathlib.Analysis.SpecialFunctions.Pow.NNReal

/-!
Distances between points in space, and the part of a grid between its outermost cell centres.
-/
set_option autoImplicit false

namespace VGT.Spec

/-- Euclidean distance. -/
noncomputable def dist3 (x y : Fin 3 → ℝ) : ℝ := Real.sqrt ((x 0 - y 0) ^ 2 + (x 1 - y 1) ^ 2 + (x 2 - y 2) ^ 2)

/-- On every axis with more than one cell the point is between the centres of the first and the last cell: it is not in the
outer half of an outer cell. -/
def BetweenCentres (n : Fin 3 → ℕ) (s : ℝ) (q : Fin 3 → ℝ) : Prop :=
  ∀ a, n a = 1 ∨ (s / 2 ≤ q a ∧ q a ≤ ((n a : ℝ) - 1 / 2) * s)

/-- The cell is one of those around the point: on no axis is its centre further away than one cell edge. -/
def Around (s : ℝ) (q : Fin 3 → ℝ) (c : Fin 3 → ℤ) : Prop := ∀ a, |cellCentre s c a - q a| ≤ s

/-- The cell as an array position. -/
def cellIdx (c : Fin 3 → ℤ) : ℕ × ℕ × ℕ := ((c 0).toNat, (c 1).toNat, (c 2).toNat)

end VGT.Spec
