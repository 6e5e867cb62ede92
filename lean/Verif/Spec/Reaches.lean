import Verif.Spec.Camera

/-!
Lines of sight that do not end before the grid.
-/
set_option autoImplicit false

namespace VGT.Spec
open VGT

/-- On the way from `o` to `q` nobody stops before a side of the grid (`n a` cells of edge `s` along axis `a`) they move towards: along every
axis, one of the two lies more than `tol` above the lower side or the way leads down by more than `tol`; and one of the two lies more than
`tol` below the upper side or the way leads up by more than `tol`. -/
def NotShort (tol s : ℚ) (n : Fin 3 → ℕ) (o q : Fin 3 → ℚ) : Prop :=
  ∀ a, (tol ≤ o a ∨ tol ≤ q a ∨ q a ≤ o a - tol) ∧ (o a ≤ n a * s - tol ∨ q a ≤ n a * s - tol ∨ o a + tol ≤ q a)

/-- The part of the segment from `o` to `p` that is well within range does not end before the grid. -/
def Reaches (tol s : ℚ) (n : Fin 3 → ℕ) (range : Fl) (o p : Fin 3 → ℚ) : Prop :=
  ∃ τ, 0 ≤ τ ∧ τ ≤ 1 ∧ WellWithin tol range o (onSeg o p τ) ∧ NotShort tol s n o (onSeg o p τ)

/-- Along every axis, `o` lies between the two sides of the grid, more than `tol` from either, or the way from `o` to `p` rises or falls by at
least `slope` per length. -/
def Steep (tol slope s : ℚ) (n : Fin 3 → ℕ) (o p : Fin 3 → ℚ) : Prop :=
  ∀ a, (tol ≤ o a ∧ o a ≤ n a * s - tol) ∨ slope ^ 2 * distSq o p ≤ (p a - o a) ^ 2

end VGT.Spec
