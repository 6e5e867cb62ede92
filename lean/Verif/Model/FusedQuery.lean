import Verif.Model.SDFQueryFloat
import Mathlib.Data.Real.Archimedean

/-!
Arithmetic of queries in which a product is not rounded when it is added to or subtracted from something, as compilers may make it of the expressions
of signed_distance_field.hpp:214-379 and of CRU's index and interpolation functions with the options of the build files (CMakeLists.txt.ros1:93-96,
CMakeLists.txt.ros2:67-70).  Numbers have no limits; `inf` is not used.
-/
set_option autoImplicit false

namespace VGT

/-- A value, and whether it is a product that has not been rounded. -/
abbrev FusedReal := ℝ × Bool

/-- The value when it is stored, compared, converted, multiplied or divided. -/
noncomputable def FusedReal.kept (r : ℝ → ℝ) (x : FusedReal) : ℝ := if x.2 then r x.1 else x.1

/-- Fused arithmetic: a sum or difference takes its left (`left`) or its right operand unrounded if that is a product. -/
noncomputable def fusedReal (r : ℝ → ℝ) (left : Bool) : Arith FusedReal where
  add := fun x y => (if left then r (x.1 + FusedReal.kept r y) else r (FusedReal.kept r x + y.1), false)
  sub := fun x y => (if left then r (x.1 - FusedReal.kept r y) else r (FusedReal.kept r x - y.1), false)
  mul := fun x y => (FusedReal.kept r x * FusedReal.kept r y, true)
  div := fun x y => (r (FusedReal.kept r x / FusedReal.kept r y), false)
  abs := fun x => (|FusedReal.kept r x|, false)
  lt := fun x y => decide (FusedReal.kept r x < FusedReal.kept r y)
  le := fun x y => decide (FusedReal.kept r x ≤ FusedReal.kept r y)
  zero := (0, false)
  one := (1, false)
  half := (1 / 2, false)
  inf := (0, false)
  tiny := (r (1 / 10 ^ 10), false)
  ofInt := fun i => (r i, false)
  toInt := fun x => some ⌊FusedReal.kept r x⌋
  fits := fun _ => true

/-- The same with a given norm and interpolation. -/
noncomputable def fusedQuery (r : ℝ → ℝ) (left : Bool) (norm : (Fin 3 → FusedReal) → FusedReal)
    (interp : (Fin 3 → FusedReal) → (Fin 3 → FusedReal) → (Bool → Bool → Bool → FusedReal) → (Fin 3 → FusedReal) → FusedReal) : QueryArith FusedReal where
  __ := fusedReal r left
  neg := fun x => (-FusedReal.kept r x, false)
  storedSub := (fusedReal r left).sub
  two := (2, false)
  quarter := (1 / 4, false)
  flatFactor := (r (6125 / 100000), false)
  milli := (r (1 / 1000), false)
  isOne := fun x => decide (FusedReal.kept r x = 1)
  norm := norm
  normalized := fun v a => if 0 < FusedReal.kept r (norm v) then (fusedReal r left).div (v a) (norm v) else v a
  interp := interp

/-- The field in memory (signed_distance_field.hpp:193-197, CRU `VoxelGridBase`): cell size, its computed inverse and the stored distances. -/
noncomputable def SDFGrid.inMemory (g : SDFGrid ℝ) (r : ℝ → ℝ) (toGrid : Vec4 FusedReal → Fin 3 → FusedReal)
    (toWorld rotate : (Fin 3 → FusedReal) → Fin 3 → FusedReal) : FlSDF FusedReal :=
  ⟨g.dims, (g.s, false), (r (1 / g.s), false), fun i => (g.data i, false), toGrid, toWorld, rotate⟩

end VGT
