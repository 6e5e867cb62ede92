import Verif.Spec.Accurate

/-!
C89: what is assumed of the walk through the grid in an arithmetic that is not IEEE.
-/
set_option autoImplicit false

namespace VGT.Spec
open VGT VGT.EDT

/-- Integers and one half are there; sums, differences, quotients, magnitudes and roots are stored; quotients and sums above `M` are right up to the
error or infinite. -/
structure FairWalk {F : Type} (A : Arith F) (sqrt : F → F) (val kept : F → Fl) (u η M : ℚ) : Prop where
  half : val A.half = .fin (1 / 2)
  ofInt : ∀ i : ℤ, |(i : ℚ)| ≤ M → ∃ z, val (A.ofInt i) = .fin z ∧ |z - i| ≤ u * |(i : ℚ)| + η
  inf : val A.inf = .pinf ∧ kept A.inf = .pinf
  sum : ∀ x y, kept (A.add x y) = val (A.add x y)
  difference : ∀ x y, kept (A.sub x y) = val (A.sub x y)
  quotient : ∀ x y, kept (A.div x y) = val (A.div x y)
  magnitude : ∀ x, kept (A.abs x) = val (A.abs x)
  root : ∀ x, kept (sqrt x) = val (sqrt x)
  abs_inf : ∀ x, kept x = .pinf ∨ kept x = .ninf → kept (A.abs x) = .pinf
  div_big : ∀ x y a b, val x = .fin a → val y = .fin b → b ≠ 0 → M < |a / b| →
    (∃ z, val (A.div x y) = .fin z ∧ |z - a / b| ≤ u * |a / b| + η) ∨ val (A.div x y) = .pinf ∨ val (A.div x y) = .ninf
  div_zero : ∀ x y a, val x = .fin a → 0 < a → val y = .fin 0 → val (A.div x y) = .pinf ∨ val (A.div x y) = .ninf
  add_big : ∀ x y a b, val x = .fin a → val y = .fin b → 0 ≤ a → 0 ≤ b → M < a + b →
    (∃ z, val (A.add x y) = .fin z ∧ |z - (a + b)| ≤ u * (a + b) + η) ∨ val (A.add x y) = .pinf
  inf_add : ∀ x y, val x = .pinf → val y = .pinf ∨ (∃ b, val y = .fin b ∧ 0 ≤ b) → val (A.add x y) = .pinf
  add_inf : ∀ x y a, val x = .fin a → 0 ≤ a → val y = .pinf → val (A.add x y) = .pinf

/-- The numbers have room for a walk through a grid with fewer than `N - 1` cells along each axis. -/
structure WalkRoom (u η M e B N : ℚ) (d : Dims) : Prop where
  N_ge : 3 ≤ N
  dims : ∀ a, (axisCells d a : ℚ) + 2 ≤ N
  small : 100 * (u * N * N) + 600 * (u * N) ≤ 1
  fine : 9000 * (u * N) ≤ 1
  η_e : 2 * η ≤ u * e
  η_B : 16 * (η * B) ≤ u * e
  M_N : 4 * N ≤ M
  M_e : 8 * (N * e) ≤ M
  M_u : 1 ≤ u * M

/-- The edge of a cell as the voxelizer is given it. -/
def CellGiven {F : Type} (val : F → Fl) (u e : ℚ) (g : RayGrid F) : Prop := ∃ z, val g.cell = .fin z ∧ |z - e| ≤ u * e

/-- The range as it is given is a stored number, and not zero. -/
def RangeStored {F : Type} (val kept : F → Fl) (range : F) : Prop := kept range = val range ∧ kept range ≠ .fin 0

/-- The tolerance. -/
def freeTol (u e B N : ℚ) : ℚ := 50 * (u * N ^ 2 * e) + 300 * (u * N * e) + 400 * (u * B)

end VGT.Spec
