import Mathlib.Algebra.Order.Field.Rat
import Mathlib.Data.Rat.Defs

/-!
Model of the C++ `double` values that occur in the distance transform.

Simplification: a finite double is a rational number; every arithmetic operation computes the exact
rational result and passes it through a rounding function `rnd` (a parameter).  NaN and the two
infinities are separate values, with the IEEE-754 rules.  Signed zeros are not distinguished.
-/
set_option autoImplicit false

namespace VGT

/-- A C++ `double` (IEEE-754 binary64 seen as NaN, infinities and rationals). -/
inductive Fl where
  | nan
  | ninf
  | fin (q : ℚ)
  | pinf
  deriving DecidableEq, Repr

namespace Fl

/-- IEEE `a + b`. -/
def add (rnd : ℚ → ℚ) : Fl → Fl → Fl
  | nan, _ => nan
  | _, nan => nan
  | pinf, ninf => nan
  | ninf, pinf => nan
  | pinf, _ => pinf
  | _, pinf => pinf
  | ninf, _ => ninf
  | _, ninf => ninf
  | fin a, fin b => fin (rnd (a + b))

/-- IEEE `a - b`. -/
def sub (rnd : ℚ → ℚ) : Fl → Fl → Fl
  | nan, _ => nan
  | _, nan => nan
  | pinf, pinf => nan
  | ninf, ninf => nan
  | pinf, _ => pinf
  | ninf, _ => ninf
  | _, pinf => ninf
  | _, ninf => pinf
  | fin a, fin b => fin (rnd (a - b))

/-- IEEE `a / b` (unsigned zero: `x / 0` takes the sign of `x`). -/
def div (rnd : ℚ → ℚ) : Fl → Fl → Fl
  | nan, _ => nan
  | _, nan => nan
  | pinf, pinf => nan
  | pinf, ninf => nan
  | ninf, pinf => nan
  | ninf, ninf => nan
  | pinf, fin b => if 0 ≤ b then pinf else ninf
  | ninf, fin b => if 0 ≤ b then ninf else pinf
  | fin _, pinf => fin 0
  | fin _, ninf => fin 0
  | fin a, fin b =>
    if b = 0 then (if 0 < a then pinf else if a < 0 then ninf else nan) else fin (rnd (a / b))

/-- IEEE `a < b` (false if either is NaN). -/
def lt : Fl → Fl → Bool
  | nan, _ => false
  | _, nan => false
  | ninf, ninf => false
  | ninf, _ => true
  | _, ninf => false
  | pinf, _ => false
  | _, pinf => true
  | fin a, fin b => decide (a < b)

/-- IEEE `a <= b` (false if either is NaN). -/
def le : Fl → Fl → Bool
  | nan, _ => false
  | _, nan => false
  | ninf, _ => true
  | _, pinf => true
  | pinf, _ => false
  | _, ninf => false
  | fin a, fin b => decide (a ≤ b)

end Fl
end VGT
