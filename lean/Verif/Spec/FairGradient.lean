import Verif.Spec.FairQuery

/-!
C90: what is assumed of the arithmetic of coarse gradients besides C86.
-/
set_option autoImplicit false

namespace VGT.Spec
open VGT VGT.EDT

/-- Comparisons are of kept values, the constants are exact, no steps times anything is nothing, and differences of stored distances, computed in the type
of the field, are right up to the relative error `us` and the absolute error `ηs`. -/
structure FairStep {F : Type} (A : QueryArith F) (val kept : F → ℝ) (us ηs : ℝ) : Prop where
  lt : ∀ x y, A.lt x y = decide (kept x < kept y)
  two : val A.two = 2
  nothing : ∀ y, kept (A.mul (A.ofInt 0) y) = 0
  stored : ∀ x y, |val (A.storedSub x y) - (val x - val y)| ≤ us * (|val x| + |val y|) + ηs

end VGT.Spec
