import Mathlib.Algebra.Order.Field.Basic
import Mathlib.Data.List.Perm.Basic
import Verif.Model.SDFQuery

/-!
Transforms of locations with rounding: the inverse of the pose of a grid that CRU stores, and its application to a location.
CRU and Eigen are not in the repository; what they do is part of the trusted base (DESIGN.md).
-/
set_option autoImplicit false

namespace VGT

section
variable {K : Type} [Field K]

/-- The values that `∑ aᵢ * bᵢ` may have when every operation is rounded by `r`: in any order, with or without fused multiplication
and addition. This is a product in Eigen as in `InverseOriginTransform() * query_location` (signed_distance_field.hpp:320-321); its
order depends on the compiler. -/
inductive DotRuns (r : K → K) : List (K × K) → K → Prop
  | one (a b : K) : DotRuns r [(a, b)] (r (a * b))
  | add {l l' : List (K × K)} {v v' : K} : DotRuns r l v → DotRuns r l' v' → DotRuns r (l ++ l') (r (v + v'))
  | fma {l : List (K × K)} {v : K} (a b : K) : DotRuns r l v → DotRuns r (l ++ [(a, b)]) (r (v + a * b))
  | perm {l l' : List (K × K)} {v : K} : l.Perm l' → DotRuns r l v → DotRuns r l' v

/-- `InverseOriginTransform()` (signed_distance_field.hpp:321), stored by CRU when the grid is made: the inverse of an
`Eigen::Isometry3d` is the transposed rotation (copied) and the translation `-Rᵀ * t` (computed). -/
def InverseRuns (r : K → K) (P : Pose K) (inv : Pose K) : Prop :=
  (∀ a b, inv.R a b = P.R b a) ∧
  ∀ a, DotRuns r [(-P.R 0 a, P.t 0), (-P.R 1 a, P.t 1), (-P.R 2 a, P.t 2)] (inv.t a)

/-- `InverseOriginTransform() * query_location` (signed_distance_field.hpp:320-321, and in CRU for the index of a location). -/
def ApplyRuns (r : K → K) (T : Pose K) (v : Vec4 K) (a : Fin 3) (x : K) : Prop :=
  DotRuns r [(T.R a 0, v.v 0), (T.R a 1, v.v 1), (T.R a 2, v.v 2), (T.t a, v.w)] x

/-- The computation of grid-frame locations from the stored pose. -/
def ToGridRuns (r : K → K) (P : Pose K) (toGrid : Vec4 K → Fin 3 → K) : Prop :=
  ∃ inv, InverseRuns r P inv ∧ ∀ v a, ApplyRuns r inv v a (toGrid v a)

/-- `X_GW * X_WC` (cpu_pointcloud_voxelization.cpp:176, device_pointcloud_voxelization.cpp:124-125), values in column order: the rotations are
multiplied, the shift of the second is turned and the shift of the first added, in any order, with or without fused operations.  A shift that is
added is a product with 1, the value of the last row of the second pose. -/
def PoseRuns (r : K → K) (x y z : ℕ → K) : Prop :=
  (∀ a b : Fin 3, DotRuns r [(x a, y (4 * b)), (x (4 + a), y (4 * b + 1)), (x (8 + a), y (4 * b + 2))] (z (4 * b + a))) ∧
  ∀ a : Fin 3, DotRuns r [(x a, y 12), (x (4 + a), y 13), (x (8 + a), y 14), (x (12 + a), 1)] (z (12 + a))

end

end VGT
