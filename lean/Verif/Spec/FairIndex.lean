import Verif.Spec.Accurate

/-!
C88: what is assumed of the indices of an arithmetic that is not IEEE.
-/
set_option autoImplicit false

namespace VGT.Spec
open VGT VGT.EDT

/-- Numbers up to `L` have indices and indices up to `L` fit their type; the constant `1e-10` and results of roots are stored. -/
structure FairIndex {F : Type} (A : Arith F) (sqrt : F → F) (val kept : F → Fl) (L : ℚ) : Prop where
  toInt : ∀ x q, kept x = .fin q → |q| ≤ L → (A.toInt x).isSome = true
  fits : ∀ i : ℤ, |(i : ℚ)| ≤ L → A.fits i = true
  tiny : ∃ t, val A.tiny = .fin t ∧ |t| ≤ 1 / 10 ^ 9
  root : ∀ x, kept (sqrt x) = val (sqrt x)

/-- There are indices for places up to `51 B / ν` from the origin. -/
structure IndexRoom (ν e B L M : ℚ) : Prop where
  ν_ge : 9 / 10 ^ 11 ≤ ν
  ν_le : ν ≤ 1
  L_le : L ≤ M
  L_ge : (51 * (B / ν) + 1 / 10 ^ 7) / e + 4 ≤ L

end VGT.Spec
