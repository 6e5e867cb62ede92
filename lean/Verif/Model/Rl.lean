import Verif.Model.Fl
import Mathlib.Data.Real.Sqrt

/-!
Floating point values after the square root: reals instead of rationals.

Simplification: a finite value is a real number; every operation computes the exact real result and
passes it through a rounding function `rr` (a parameter).  Overflow of a finite result to infinity is
not modelled.  Signed zeros are not distinguished.
-/
set_option autoImplicit false

namespace VGT

/-- A C++ `double`/`float` value seen as NaN, infinities and reals. -/
inductive Rl where
  | nan
  | ninf
  | fin (r : ℝ)
  | pinf

namespace Rl

/-- A distance-transform value as a real-valued double. -/
noncomputable def ofFl : Fl → Rl
  | .nan => nan
  | .ninf => ninf
  | .fin q => fin (q : ℝ)
  | .pinf => pinf

/-- `std::sqrt`. -/
noncomputable def sqrt (rr : ℝ → ℝ) : Rl → Rl
  | nan => nan
  | ninf => nan
  | fin x => if x < 0 then nan else fin (rr (Real.sqrt x))
  | pinf => pinf

/-- `a * b` with a finite second operand. -/
noncomputable def mulFin (rr : ℝ → ℝ) : Rl → ℝ → Rl
  | nan, _ => nan
  | fin a, b => fin (rr (a * b))
  | pinf, b => if 0 < b then pinf else if b < 0 then ninf else nan
  | ninf, b => if 0 < b then ninf else if b < 0 then pinf else nan

/-- `a - b`. -/
noncomputable def sub (rr : ℝ → ℝ) : Rl → Rl → Rl
  | nan, _ => nan
  | _, nan => nan
  | pinf, pinf => nan
  | ninf, ninf => nan
  | pinf, _ => pinf
  | ninf, _ => ninf
  | _, pinf => ninf
  | _, ninf => pinf
  | fin a, fin b => fin (rr (a - b))

/-- `static_cast<SDFScalarType>(x)`; `c` is the rounding of the target type. -/
noncomputable def cast (c : ℝ → ℝ) : Rl → Rl
  | fin x => fin (c x)
  | x => x

/-- `-x`. -/
noncomputable def neg : Rl → Rl
  | nan => nan
  | ninf => pinf
  | fin x => fin (-x)
  | pinf => ninf

/-- `a <= b` (false if either is NaN). -/
def le : Rl → Rl → Prop
  | nan, _ => False
  | _, nan => False
  | ninf, _ => True
  | _, pinf => True
  | pinf, _ => False
  | _, ninf => False
  | fin a, fin b => a ≤ b

end Rl
end VGT
