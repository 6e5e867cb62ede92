import Verif.Spec.Camera

/-!
C85: what is assumed of an arithmetic that is not IEEE: every operation is right up to a small error.

The repository's own build files let compilers leave IEEE arithmetic: `-march=native` (CMakeLists.txt.ros1:93-96, CMakeLists.txt.ros2:67-70)
lets a compiler contract products and sums on the CPU, `-use_fast_math` (CMakeLists.txt.ros1:138-140, CMakeLists.txt.ros2:111) makes division and
square root approximate, fuses products and sums and flushes denormal numbers on CUDA devices, and the OpenCL kernels are compiled with
`-cl-unsafe-math-optimizations` (opencl_voxelization_helpers.cc:511-512).
-/
set_option autoImplicit false

namespace VGT.Spec
open VGT VGT.EDT

/-- Every operation on numbers up to `M` is right up to the relative error `u` and the absolute error `η`.  An element of `F` has the value
`val`, which the next operation uses, and the value `kept` when it is stored, compared or converted to an integer: a product that will be fused
with a sum has its exact value as `val` and its rounded value as `kept`. -/
structure AccurateArith {F : Type} (A : Arith F) (sqrt : F → F) (val kept : F → Fl) (u η M : ℚ) : Prop where
  store : ∀ x a, val x = .fin a → |a| ≤ M → ∃ b, kept x = .fin b ∧ |b - a| ≤ u * |a| + η
  lt : ∀ x y, A.lt x y = Fl.lt (kept x) (kept y)
  le : ∀ x y, A.le x y = Fl.le (kept x) (kept y)
  toInt : ∀ x i, A.toInt x = some i → ∃ q, kept x = .fin q ∧ ⌊q⌋ = i
  zero : val A.zero = .fin 0 ∧ kept A.zero = .fin 0
  one : val A.one = .fin 1
  tiny : ∃ t, kept A.tiny = .fin t ∧ |t - 1 / 10 ^ 10| ≤ 1 / 10 ^ 12
  abs : ∀ x a, kept x = .fin a → kept (A.abs x) = .fin |a|
  add : ∀ x y a b, val x = .fin a → val y = .fin b → |a| + |b| ≤ M →
    ∃ z, val (A.add x y) = .fin z ∧ |z - (a + b)| ≤ u * (|a| + |b|) + η ∧ (0 ≤ a → 0 ≤ b → 0 ≤ z)
  sub : ∀ x y a b, val x = .fin a → val y = .fin b → |a| + |b| ≤ M →
    ∃ z, val (A.sub x y) = .fin z ∧ |z - (a - b)| ≤ u * (|a| + |b|) + η
  mul : ∀ x y a b, val x = .fin a → val y = .fin b → |a| ≤ M → |b| ≤ M → |a * b| ≤ M →
    ∃ z, val (A.mul x y) = .fin z ∧ |z - a * b| ≤ u * |a * b| + η ∧ (0 ≤ a * b → 0 ≤ z)
  div : ∀ x y a b, val x = .fin a → val y = .fin b → b ≠ 0 → |a| ≤ M → |b| ≤ M → |a / b| ≤ M →
    ∃ z, val (A.div x y) = .fin z ∧ |z - a / b| ≤ u * |a / b| + η
  root : ∀ x a, val x = .fin a → 0 ≤ a → a ≤ M → ∃ z, val (sqrt x) = .fin z ∧ 0 ≤ z ∧ |z ^ 2 - a| ≤ 3 * (u * a) + η

/-- The stored point is the measured one up to `ε` along each axis; points that are not finite are the same. -/
def PointGiven {F : Type} (val : F → Fl) (ε : ℚ) : Option (Fin 3 → F) → Option (Fin 3 → ℚ) → Prop
  | none, none => True
  | some y, some x => ∀ a, ∃ z, val (y a) = .fin z ∧ |z - x a| ≤ ε
  | _, _ => False

/-- The voxelizer is given the pose, the range and the points of camera `c`, with coordinates up to `B`, up to the relative error `u`. -/
structure Given {F : Type} (val kept : F → Fl) (u η B : ℚ) (c : Camera3) (tf : ℕ → F) (range : F) (points : List (Option (Fin 3 → F))) :
    Prop where
  turn : ∀ k < 12, ∃ z, val (tf k) = .fin z ∧ |z - c.pose k| ≤ u
  shift : ∀ a : Fin 3, ∃ z, val (tf (12 + a)) = .fin z ∧ |z - c.pose (12 + a)| ≤ u * B
  range : (c.range = .pinf ∧ kept range = .pinf) ∨
    ∃ r r', c.range = .fin r ∧ kept range = .fin r' ∧ 0 < r ∧ 0 ≤ r' ∧ |r' - r| ≤ u * r + η
  points : List.Forall₂ (PointGiven val (u * B)) points c.points

/-- The voxelizer is given a grid of cells with edge `e`, up to four times the relative error `u`. -/
structure GridGiven {F : Type} (val : F → Fl) (u e B : ℚ) (g : RayGrid F) : Prop where
  inv : ∃ v, val g.inv = .fin v ∧ |v * e - 1| ≤ 4 * u
  size : ∀ a, ∃ z, val (g.size a) = .fin z ∧ |z - axisCells g.dims a * e| ≤ 4 * (u * B)
  extent : ∀ a, axisCells g.dims a * e ≤ B

/-- The numbers have room for coordinates up to `B` and cells with edge `e`. -/
structure Room (u η M e B : ℚ) : Prop where
  u_pos : 0 < u
  u_le : 9000 * u ≤ 1
  η_nonneg : 0 ≤ η
  e_pos : 0 < e
  e_le : e ≤ B
  η_u : η ≤ u
  η_B : η ≤ u * B
  η_sq : η ≤ (u * B) ^ 2
  η_tiny : η ≤ 1 / 10 ^ 13
  M_one : 10 ^ 12 ≤ M
  M_B : 10 ^ 12 * B ≤ M
  M_sq : 200 * B ^ 2 ≤ M
  M_inv : 16 * (B / e) ≤ M ∧ 2 / e ≤ M

/-- The tolerance. -/
def fairTol (u B : ℚ) : ℚ := 400 * (u * B)

/-- The tolerance for sensors outside the grid: the share of the constant `1e-10` of the code comes on top. -/
def fairFarTol (u B : ℚ) : ℚ := 800 * (u * B) + B / 10 ^ 8

end VGT.Spec
