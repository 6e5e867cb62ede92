import Verif.Model.SDFQueryFloat
import Verif.Spec.Interp
import Mathlib.Data.Real.Archimedean

/-!
C86: what is assumed of the arithmetic of queries when it is not IEEE: every operation is right up to a small error.

The repository's own build files let compilers contract products and sums (`-march=native`, CMakeLists.txt.ros1:93-96, CMakeLists.txt.ros2:67-70).
-/
set_option autoImplicit false

namespace VGT.Spec
open VGT VGT.EDT

/-- Every operation is right up to the relative error `u` and the absolute error `η`.  An element of `F` has the value `val`, which the next sum or
difference may use, and the value `kept` when it is stored, compared, converted to an integer, multiplied or divided: a product that is fused with a
sum has its exact value as `val` and its rounded value as `kept`.  There is no overflow. -/
structure FairQuery {F : Type} (A : QueryArith F) (val kept : F → ℝ) (u η : ℝ) : Prop where
  store : ∀ x, |kept x - val x| ≤ u * |val x| + η
  le : ∀ x y, A.le x y = decide (kept x ≤ kept y)
  toInt : ∀ x i, A.toInt x = some i → ⌊kept x⌋ = i
  zero : kept A.zero = 0
  one : val A.one = 1
  half : val A.half = 1 / 2
  ofInt : ∀ i : ℤ, |val (A.ofInt i) - i| ≤ u * |(i : ℝ)| + η
  add : ∀ x y, |val (A.add x y) - (val x + val y)| ≤ u * (|val x| + |val y|) + η
  sub : ∀ x y, |val (A.sub x y) - (val x - val y)| ≤ u * (|val x| + |val y|) + η
  mul : ∀ x y, |val (A.mul x y) - kept x * kept y| ≤ u * |kept x * kept y| + η
  div : ∀ x y, kept y ≠ 0 → |val (A.div x y) - kept x / kept y| ≤ u * |kept x / kept y| + η

/-- The field in memory: cell size and distances are those of `g`, the inverse of the cell size is right up to a small error. -/
structure FairField {F : Type} (val kept : F → ℝ) (u : ℝ) (g : SDFGrid ℝ) (fg : FlSDF F) : Prop where
  dims : fg.dims = g.dims
  size : val fg.s = g.s
  inv : |val fg.inv - 1 / g.s| ≤ 2 * u / g.s
  data : ∀ i, g.dims.In i → val (fg.data i) = g.data i ∧ kept (fg.data i) = g.data i

/-- The numbers are precise enough for cells of edge `s` and `N` cells along an axis. -/
structure FairRoom (u η s N : ℝ) : Prop where
  u0 : 0 ≤ u
  eta0 : 0 ≤ η
  s0 : 0 < s
  one_le : 1 ≤ N
  small : u * N ≤ 1 / 10 ^ 5
  eta : η ≤ u
  eta_s : η ≤ u * s
  eta_s3 : η ≤ u * s ^ 3
  eta_is : η ≤ u / s ^ 2

/-- Both modelled interpolation formulas. -/
def FormulaInterp {F : Type} (A : QueryArith F) : Prop := A.interp = flTrilinear A.toArith ∨ A.interp = flBilinear A.toArith

end VGT.Spec
