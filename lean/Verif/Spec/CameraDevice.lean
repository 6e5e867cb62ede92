import Verif.Model.DeviceVoxelize
import Verif.Spec.Camera

/-!
Cameras as they are handed to the devices.
-/
set_option autoImplicit false

namespace VGT.Spec
open VGT

/-- Conversion of a number to the format whose rounding is `R`. -/
def convert (R : ℚ → Fl) : Fl → Fl
  | .fin q => R q
  | x => x

/-- The camera as the kernels get it: pose, range and points converted (device_pointcloud_voxelization.cpp:118-135). -/
def Camera3.dev (R : ℚ → Fl) (c : Camera3) : DevCloud Fl :=
  ⟨fun k => R (c.pose k), convert R c.range, c.points.map (Option.map fun x a => R (x a))⟩

/-- The values of the rotation are at most 1, give or take a thousandth. -/
def Camera3.Turns (c : Camera3) : Prop :=
  ∀ a : Fin 3, |c.pose a| ≤ 1001 / 1000 ∧ |c.pose (4 + a)| ≤ 1001 / 1000 ∧ |c.pose (8 + a)| ≤ 1001 / 1000

end VGT.Spec
