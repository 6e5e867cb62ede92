import Verif.Model.PoseFloat
import Verif.Model.IEEE
import Verif.Spec.World
import Verif.Spec.Accurate
import Mathlib.Data.Real.Archimedean

/-!
C87: cameras in the frame of the world and arithmetic that is not IEEE.
-/
set_option autoImplicit false

namespace VGT.Spec
open VGT VGT.EDT

/-- The camera with its true pose in the frame of the grid; `c.pose` is in the frame of the world. -/
def Camera3.inGrid (gw : ℕ → ℚ) (c : Camera3) : Camera3 where
  pose := fun k => if k % 4 = 3 then 0 else if k < 12 then
      gw (k % 4) * c.pose (k - k % 4) + gw (4 + k % 4) * c.pose (k - k % 4 + 1) + gw (8 + k % 4) * c.pose (k - k % 4 + 2)
    else gw (k - 12) * c.pose 12 + gw (4 + (k - 12)) * c.pose 13 + gw (8 + (k - 12)) * c.pose 14 + gw k
  range := c.range
  points := c.points

/-- The voxelizer computes the pose of camera `c` in the frame of the grid, in `double`, in any order and with or without fused operations, and converts
it; conversions and inputs are right up to the relative error `v`.  `B` bounds coordinates. -/
structure WorldGiven {F : Type} (val kept : F → Fl) (v η B : ℚ) (gw : ℕ → ℚ) (c : Camera3) (tf : ℕ → F) (range : F)
    (points : List (Option (Fin 3 → F))) : Prop where
  pose : ∃ z : ℕ → ℚ, PoseRuns (roundDouble : ℝ → ℝ) (fun k => gw k) (fun k => c.pose k) (fun k => z k) ∧
    (∀ a b : Fin 3, ∃ w, val (tf (4 * b + a)) = .fin w ∧ |w - z (4 * b + a)| ≤ v * |z (4 * b + a)| + η) ∧
    ∀ a : Fin 3, ∃ w, val (tf (12 + a)) = .fin w ∧ |w - z (12 + a)| ≤ v * |z (12 + a)| + η
  bottom : ∀ k < 12, k % 4 = 3 → val (tf k) = .fin 0
  range : (c.range = .pinf ∧ kept range = .pinf) ∨
    ∃ r r', c.range = .fin r ∧ kept range = .fin r' ∧ 0 < r ∧ 0 ≤ r' ∧ |r' - r| ≤ v * r + η
  points : List.Forall₂ (PointGiven val (v * B)) points c.points

/-- The bounds: `u` is at least three times the error `v` of inputs and the share of the multiplied poses. -/
structure WorldRoom (u v η B : ℚ) : Prop where
  v_nonneg : 0 ≤ v
  v_le : v ≤ 1 / 100
  η_v : η ≤ v
  η_B : η ≤ v * B
  u_ge : 15 / 2 ^ 53 + 3 * v ≤ u
  B_ge : 1 / 2 ^ 200 ≤ B

end VGT.Spec
