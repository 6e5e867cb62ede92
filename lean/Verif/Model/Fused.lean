import Verif.Model.RaycastFloat

/-!
Floating-point arithmetic in which a product is not rounded when it is added to or subtracted from something, as compilers may make it of the expressions
of the raycasting functions (cpu_pointcloud_voxelization.cpp:208-436, cuda_voxelization_helpers.cu:91-355, opencl_voxelization_helpers.cc:69-326) with the
options of the build files (CMakeLists.txt.ros1:93-96, 138-140, opencl_voxelization_helpers.cc:511-512).
-/
set_option autoImplicit false

namespace VGT

/-- A value, and whether it is a product that has not been rounded. -/
abbrev Fused := Fl × Bool

/-- The value when it is stored, compared or converted. -/
def Fused.kept (r : ℚ → Fl) : Fused → Fl
  | (.fin q, true) => r q
  | (x, _) => x

/-- Fused arithmetic: a sum takes its right operand, a difference its left operand unrounded if it is a product.  Division has its own rounding `rd`.  The
code has no product and no quotient with a product as an operand; here such operands are not rounded. -/
def fusedArith (r rd : ℚ → Fl) (bits : ℕ) : Arith Fused where
  add := fun x y => (Fl.addR r (x.kept r) y.1, false)
  sub := fun x y => (Fl.subR r x.1 (y.kept r), false)
  mul := fun x y => (Fl.mulR Fl.fin x.1 y.1, true)
  div := fun x y => (Fl.divR rd x.1 y.1, false)
  abs := fun x => (Fl.absF (x.kept r), false)
  lt := fun x y => Fl.lt (x.kept r) (y.kept r)
  le := fun x y => Fl.le (x.kept r) (y.kept r)
  zero := (.fin 0, false)
  one := (.fin 1, false)
  half := (.fin (1 / 2), false)
  inf := (.pinf, false)
  tiny := (r (1 / 10 ^ 10), false)
  ofInt := fun i => (r i, false)
  toInt := fun x => Fl.floorInt bits (x.kept r)
  fits := fun i => decide (-2 ^ (bits - 1) ≤ i ∧ i < 2 ^ (bits - 1))

/-- The square root of a value. -/
def fusedSqrt (sqrt : Fl → Fl) (x : Fused) : Fused := (sqrt x.1, false)

end VGT
