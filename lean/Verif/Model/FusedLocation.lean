import Verif.Model.FusedQuery
import Verif.Model.PoseFloat

/-!
Locations in arithmetic with fused operations.
-/
set_option autoImplicit false

namespace VGT

/-- `InverseOriginTransform() * query_location` (signed_distance_field.hpp:320-321, and in CRU for the index of a location): the
coordinates of the location are in memory, and so are the results.  `toGrid` is any order of the sums of products, with or without fused operations
(`ToGridRuns`). -/
noncomputable def storedToGrid (r : ℝ → ℝ) (toGrid : Vec4 ℝ → Fin 3 → ℝ) (l : Vec4 FusedReal) (a : Fin 3) : FusedReal :=
  (toGrid ⟨fun b => FusedReal.kept r (l.v b), FusedReal.kept r l.w⟩ a, false)

end VGT
