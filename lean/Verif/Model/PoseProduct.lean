import Verif.Model.DeviceVoxelize
import Verif.Model.VoxelizeFloat

/-!
The product of two poses, `X_GC = X_GW * X_WC` (cpu_pointcloud_voxelization.cpp:171-176,
device_pointcloud_voxelization.cpp:91-125).

Simplifications: products of `Eigen::Isometry3d` are taken value by value and without contraction; which two of the three
products of a value Eigen adds first depends on the instructions it may use and is left open.
-/
set_option autoImplicit false

namespace VGT

section
variable {F : Type} (A : Arith F)

/-- Sum of three values; `late`: the last two are added first. -/
def sum3 (late : Bool) (a b c : F) : F := if late then A.add a (A.add b c) else A.add (A.add a b) c

/-- A value of row `a` of the product of the rotation `x` with a column that starts at `b` of the pose `y`. -/
def poseRow (late : Bool) (x y : ℕ → F) (a b : ℕ) : F :=
  sum3 A late (A.mul (x a) (y b)) (A.mul (x (4 + a)) (y (b + 1))) (A.mul (x (8 + a)) (y (b + 2)))

/-- `X_GW * X_WC` (cpu_pointcloud_voxelization.cpp:176, device_pointcloud_voxelization.cpp:124-125), sixteen values in column order: the
rotations are multiplied, the shift of the second is turned and the shift of the first added; the last row is set. -/
def poseProduct (late : ℕ → Bool) (x y : ℕ → F) (k : ℕ) : F :=
  if 15 ≤ k then A.one else if k % 4 = 3 then A.zero else
  if k < 12 then poseRow A (late k) x y (k % 4) (k - k % 4) else A.add (poseRow A (late k) x y (k % 4) 12) (x k)

end

end VGT
