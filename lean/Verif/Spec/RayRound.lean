import Verif.Spec.Ray

/-!
Segments and cells up to a tolerance, in words of points only.
-/
set_option autoImplicit false

namespace VGT.Spec

variable {K : Type} [Field K] [LinearOrder K] [IsStrictOrderedRing K]

/-- The segment from `o` to `f` meets the cell `c` grown by `tol` on every side. -/
def PassesWithin (tol s : K) (o f : Fin 3 → K) (c : Fin 3 → ℤ) : Prop :=
  ∃ τ, 0 ≤ τ ∧ τ ≤ 1 ∧ ∀ a, (c a : K) * s - tol ≤ onSeg o f τ a ∧ onSeg o f τ a ≤ ((c a : K) + 1) * s + tol

/-- The segment from `o` to `f` meets the cell `c` shrunk by `tol` on every side. -/
def PassesDeep (tol s : K) (o f : Fin 3 → K) (c : Fin 3 → ℤ) : Prop :=
  ∃ τ, 0 ≤ τ ∧ τ ≤ 1 ∧ ∀ a, (c a : K) * s + tol ≤ onSeg o f τ a ∧ onSeg o f τ a ≤ ((c a : K) + 1) * s - tol

end VGT.Spec
