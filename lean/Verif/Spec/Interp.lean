import Mathlib.Algebra.Order.Field.Basic
import Mathlib.Algebra.Order.Group.Unbundled.Abs

/-!
Grids in space, in words of points only.  `R` and `t` place the grid frame in the world: the grid-frame point `q` is the
world point `R q + t`.
-/
set_option autoImplicit false

namespace VGT.Spec

variable {K : Type} [Field K] [LinearOrder K] [IsStrictOrderedRing K]

/-- The world point `p` has grid-frame coordinates `q`. -/
def InFrame (R : Fin 3 → Fin 3 → K) (t q p : Fin 3 → K) : Prop :=
  ∀ a, p a = R a 0 * q 0 + R a 1 * q 1 + R a 2 * q 2 + t a

/-- `R` is orthogonal. -/
def Orthogonal (R : Fin 3 → Fin 3 → K) : Prop :=
  (∀ a b, R 0 a * R 0 b + R 1 a * R 1 b + R 2 a * R 2 b = if a = b then 1 else 0) ∧
  (∀ a b, R a 0 * R b 0 + R a 1 * R b 1 + R a 2 * R b 2 = if a = b then 1 else 0)

/-- The grid-frame point is in a grid of `n` cells of edge `s` per axis (low faces included, high faces not). -/
def InGridBox (n : Fin 3 → ℕ) (s : K) (q : Fin 3 → K) : Prop := ∀ a, 0 ≤ q a ∧ q a < n a * s

/-- The centre of a cell. -/
def cellCentre (s : K) (c : Fin 3 → ℤ) : Fin 3 → K := fun a => (c a : K) * s + s / 2

/-- A stored distance is measured to a cell centre; the boundary is half a cell nearer. -/
def boundaryDist (s d : K) : K := if 0 ≤ d then d - s / 2 else d + s / 2

end VGT.Spec
