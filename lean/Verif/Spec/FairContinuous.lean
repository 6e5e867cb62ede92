import Verif.Spec.Clearance

/-!
Points between the outermost centres of cells, by a margin.
-/
set_option autoImplicit false

namespace VGT.Spec

/-- Along every axis with more than one cell, the point is between the outermost centres and at least `κ` from both. -/
def BetweenCentresBy (κ : ℝ) (n : Fin 3 → ℕ) (s : ℝ) (q : Fin 3 → ℝ) : Prop :=
  ∀ a, n a = 1 ∨ (s / 2 + κ ≤ q a ∧ q a ≤ ((n a : ℝ) - 1 / 2) * s - κ)

end VGT.Spec
