import Verif.Model.SDFGen
import Verif.Spec.SDF

/-!
Hypotheses of the SDF generation theorems.
-/
set_option autoImplicit false

namespace VGT.EDT
open VGT VGT.Spec

/-- The grid is small enough for the integers in the transform to be exact doubles. -/
structure Fits (d : Dims) : Prop where
  x : d.nx ≤ 2 ^ 26
  y : d.ny ≤ 2 ^ 26
  z : d.nz ≤ 2 ^ 26
  sum : d.nx ^ 2 + d.ny ^ 2 + d.nz ^ 2 ≤ 2 ^ 53

/-- What is assumed of the arithmetic and of the grid: binary64 rounding in the transform, monotone
odd idempotent rounding afterwards, a positive representable cell size that does not underflow in the SDF
scalar type, and a grid small enough for exact integer squares. -/
structure GenOK (ro : Rounding) (g : GridInfo) : Prop where
  rq : IsDoubleRounding ro.rq
  rr : IsRounding ro.rr
  rc : IsRounding ro.cast
  uniform : g.Uniform
  res : 0 < g.sx
  repr : ro.rr g.sx = g.sx
  castPos : 0 < ro.cast g.sx
  fits : Fits (enlarge g.dims)

end VGT.EDT
