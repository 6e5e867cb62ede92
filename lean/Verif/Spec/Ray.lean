import Mathlib.Algebra.Order.Field.Basic
import Mathlib.Algebra.Order.Monoid.WithTop

/-!
Segments and cells, in words of points only.  Cells are cubes of edge `s`, cell `c` has its low corner at `c * s`.
-/
set_option autoImplicit false

namespace VGT.Spec

variable {K : Type} [Field K] [LinearOrder K] [IsStrictOrderedRing K]

/-- The point at fraction `τ` of the way from `o` to `f`. -/
def onSeg (o f : Fin 3 → K) (τ : K) : Fin 3 → K := fun a => o a + τ * (f a - o a)

/-- Point `x` is in the half-open cell `c`. -/
def InCell (s : K) (c : Fin 3 → ℤ) (x : Fin 3 → K) : Prop := ∀ a, (c a : K) * s ≤ x a ∧ x a < ((c a : K) + 1) * s

/-- Point `x` is in the closed cell `c`. -/
def InClosedCell (s : K) (c : Fin 3 → ℤ) (x : Fin 3 → K) : Prop :=
  ∀ a, (c a : K) * s ≤ x a ∧ x a ≤ ((c a : K) + 1) * s

/-- Point `x` is in the interior of cell `c`. -/
def InOpenCell (s : K) (c : Fin 3 → ℤ) (x : Fin 3 → K) : Prop :=
  ∀ a, (c a : K) * s < x a ∧ x a < ((c a : K) + 1) * s

/-- The segment from `o` to `f` meets the closed cell `c`. -/
def Touches (s : K) (o f : Fin 3 → K) (c : Fin 3 → ℤ) : Prop :=
  ∃ τ, 0 ≤ τ ∧ τ ≤ 1 ∧ InClosedCell s c (onSeg o f τ)

/-- The segment from `o` to `f` meets the interior of cell `c`. -/
def Crosses (s : K) (o f : Fin 3 → K) (c : Fin 3 → ℤ) : Prop :=
  ∃ τ, 0 ≤ τ ∧ τ ≤ 1 ∧ InOpenCell s c (onSeg o f τ)

/-- `L` is the distance between `o` and `p`. -/
def IsDist (o p : Fin 3 → K) (L : K) : Prop :=
  0 ≤ L ∧ L * L = (p 0 - o 0) * (p 0 - o 0) + (p 1 - o 1) * (p 1 - o 1) + (p 2 - o 2) * (p 2 - o 2)

/-- `f` is the point `p` seen from `o`, pulled in to the maximum range. -/
def IsRangeEnd (o p : Fin 3 → K) (L : K) (range : WithTop K) (f : Fin 3 → K) : Prop :=
  ∃ lam, 0 ≤ lam ∧ lam ≤ 1 ∧ f = onSeg o p lam ∧ ((L : WithTop K) ≤ range → lam = 1) ∧
    (range < (L : WithTop K) → ((lam * L : K) : WithTop K) = range)

/-- Cell `c` is in a grid of `n` cells per axis. -/
def CellInGrid (n : Fin 3 → ℕ) (c : Fin 3 → ℤ) : Prop := ∀ a, 0 ≤ c a ∧ c a < n a

end VGT.Spec
