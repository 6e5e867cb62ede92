import Mathlib.Algebra.Order.Field.Basic
import Mathlib.Algebra.Order.Floor.Ring
import Mathlib.Data.Int.Log

/-!
IEEE-754 round-to-nearest-even, as a function on an ordered field (rationals or reals).

This is not code of /repo: it is what the C++ compiler and processor do with every `double` and `float`
operation.  Simplification: the exponent has no upper bound (a result above the largest finite number is not turned
into an infinity); subnormal numbers are included.
-/
set_option autoImplicit false

namespace VGT

variable {K : Type} [Field K] [LinearOrder K] [IsStrictOrderedRing K] [FloorRing K]

/-- Nearest integer, ties to the even one. -/
def roundHalfEven (x : K) : ℤ :=
  if x - ⌊x⌋ < 1 / 2 then ⌊x⌋
  else if 1 / 2 < x - ⌊x⌋ then ⌊x⌋ + 1
  else if ⌊x⌋ % 2 = 0 then ⌊x⌋ else ⌊x⌋ + 1

/-- Exponent of the last place of `x` with precision `p` and least exponent `emin`. -/
def lastPlace (p : ℕ) (emin : ℤ) (x : K) : ℤ := max (Int.log 2 |x| - ((p : ℤ) - 1)) emin

/-- Round to nearest even with `p` significant bits, least exponent `emin`. -/
def rne (p : ℕ) (emin : ℤ) (x : K) : K :=
  (roundHalfEven (x / 2 ^ lastPlace p emin x) : K) * 2 ^ lastPlace p emin x

/-- Rounding to binary64 (`double`). -/
def roundDouble (x : K) : K := rne 53 (-1074) x

/-- Rounding to binary32 (`float`). -/
def roundFloat (x : K) : K := rne 24 (-149) x

end VGT
