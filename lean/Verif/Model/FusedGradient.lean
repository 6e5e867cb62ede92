import Verif.Model.FusedQuery

/-!
Arithmetic of coarse gradients with fused products and sums.
-/
set_option autoImplicit false

namespace VGT

/-- `fusedQuery` whose differences of two stored values are rounded with `rs`, the precision of `ScalarType` (signed_distance_field.hpp:934-947). -/
noncomputable def fusedStored (r rs : ℝ → ℝ) (left : Bool) (norm : (Fin 3 → FusedReal) → FusedReal)
    (interp : (Fin 3 → FusedReal) → (Fin 3 → FusedReal) → (Bool → Bool → Bool → FusedReal) → (Fin 3 → FusedReal) → FusedReal) : QueryArith FusedReal :=
  { fusedQuery r left norm interp with storedSub := fun x y => (rs (FusedReal.kept r x - FusedReal.kept r y), false) }

end VGT
