import Verif.Spec.FairWalk
import Verif.Spec.Reaches

/-!
C89: what is assumed of the arithmetic for rays from outside the grid.
-/
set_option autoImplicit false

namespace VGT.Spec
open VGT VGT.EDT

/-- The constant `1e-10` has a value. -/
def TinyGiven {F : Type} (A : Arith F) (val : F → Fl) : Prop := ∃ t, val A.tiny = .fin t ∧ |t| ≤ 1

/-- The numbers have room for walks of rays that come from up to `2 B` away: `N + 12 B / e` cells. -/
structure FarRoom (u M e B N : ℚ) : Prop where
  small : 90 * (u * N * N) + 540 * (u * (N + 12 * (B / e))) ≤ 1
  fine : 9000 * (u * (N + 12 * (B / e))) ≤ 1
  M_n : 4 * (N + 12 * (B / e)) ≤ M

/-- How far from rays cells may be marked free. -/
def farFreeTol (u e B N : ℚ) : ℚ := 50 * (u * N ^ 2 * e) + 300 * (u * N * e) + 4000 * (u * B)

/-- How far into the grid rays have to lead; the share of the constant `1e-10` of the code comes on top. -/
def reachTol (u B : ℚ) : ℚ := 3000 * (u * B) + 1 / 10 ^ 9

end VGT.Spec
