import Verif.Model.PoseProduct
import Verif.Spec.CameraDevice

/-!
Cameras in the frame of the world.
-/
set_option autoImplicit false

namespace VGT.Spec
open VGT

/-- A place in the frame of the world, in the frame of the grid; `gw` are the values of the pose of the world in the grid, in column
order. -/
def placeInGrid (gw : ℕ → ℚ) (w : Fin 3 → ℚ) : Fin 3 → ℚ := fun a => gw a * w 0 + gw (4 + a) * w 1 + gw (8 + a) * w 2 + gw (12 + a)

/-- Where the sensor of a camera is in the frame of the grid; its pose `c.pose` is in the frame of the world. -/
def Camera3.sensorIn (gw : ℕ → ℚ) (c : Camera3) : Fin 3 → ℚ := placeInGrid gw c.sensor

/-- Where a measured point is in the frame of the grid. -/
def Camera3.placeIn (gw : ℕ → ℚ) (c : Camera3) (x : Fin 3 → ℚ) : Fin 3 → ℚ := placeInGrid gw (c.place x)

/-- The rows of the rotation of `gw` and the columns of the rotation of the camera have length one, give or take some ten thousandths;
coordinates are at most `B`. -/
structure Posed (gw : ℕ → ℚ) (B : ℚ) (c : Camera3) : Prop where
  rows : ∀ a : Fin 3, gw a ^ 2 + gw (4 + a) ^ 2 + gw (8 + a) ^ 2 ≤ 2001 / 2000
  cols : ∀ b : Fin 3, c.pose (4 * b) ^ 2 + c.pose (4 * b + 1) ^ 2 + c.pose (4 * b + 2) ^ 2 ≤ 2001 / 2000
  grid : ∀ a : Fin 3, |gw (12 + a)| ≤ B
  shift : ∀ a : Fin 3, |c.pose (12 + a)| ≤ B
  points : ∀ x, some x ∈ c.points → ∀ a, |x a| ≤ B

/-- The computed pose of a camera in the frame of the grid, in `double`; its pose `c.pose` is in the frame of the world. -/
def Camera3.poseIn (late : ℕ → Bool) (gw : ℕ → ℚ) (c : Camera3) : ℕ → Fl :=
  poseProduct double64 late (fun k => .fin (gw k)) (fun k => .fin (c.pose k))

/-- The camera as the CPU voxelizer uses it (cpu_pointcloud_voxelization.cpp:171-183). -/
def Camera3.cloudIn (late : ℕ → Bool) (gw : ℕ → ℚ) (c : Camera3) : CpuCloud Fl :=
  ⟨c.poseIn late gw, c.range, c.points.map (Option.map fun x a => .fin (x a))⟩

/-- The camera as the kernels get it (device_pointcloud_voxelization.cpp:118-135). -/
def Camera3.devIn (R : ℚ → Fl) (late : ℕ → Bool) (gw : ℕ → ℚ) (c : Camera3) : DevCloud Fl :=
  ⟨fun k => convert R (c.poseIn late gw k), convert R c.range, c.points.map (Option.map fun x a => R (x a))⟩

end VGT.Spec
