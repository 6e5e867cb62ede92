import Verif.Spec.Camera
import Verif.Spec.Filled
import Verif.Model.Voxelize
import Verif.Model.MapSDF
import Verif.Spec.SDFGenHyp
import Verif.Spec.Interp
import Verif.Model.SDFQuery

/-!
Vocabulary of C77.
-/
set_option autoImplicit false

namespace VGT
open VGT.EDT VGT.Spec

/-- A cell of the map with occupancy above one half is within `tol` of the place `y` (in the frame of the grid, `s` the edge of a cell). -/
def Kept {K : Type} (tol s : ℚ) (m : VoxMap K) (y : Fin 3 → ℚ) : Prop :=
  ∃ i : Fin 3 → ℤ, CellInGrid (axisCells m.dims) i ∧ NearBox tol s i y ∧ AboveHalf (m.data (dataIndex m.dims i))

/-- No occupancy of the map is NaN. -/
def NoNaN {K : Type} (m : VoxMap K) : Prop := ∀ v < m.dims.total, m.data v ≠ .nan

/-- The map as `ExtractSignedDistanceField` sees it (occupancy_map.hpp:174-210): cell `(x, y, z)` is at position `(x·ny + y)·nz + z` of the
data, and the edge of a cell is `s`. -/
def VoxMap.cells {K : Type} (m : VoxMap K) (s : ℝ) : CellMap Fl :=
  ⟨⟨m.dims, s, s, s⟩, fun i => m.data ((i.1 * m.dims.ny + i.2.1) * m.dims.nz + i.2.2)⟩

/-- `F` is a signed distance field extracted from the map, in the arithmetic `ro`. -/
structure FieldOf {K : Type} (ro : Rounding) (p : GenParams) (m : VoxMap K) (s : ℝ) (F : SDFGrid ℝ) : Prop where
  pose : Orthogonal F.pose.R
  ok : GenOK ro (m.cells s).info
  dims : F.dims = m.dims
  edge : F.s = s
  run : ∃ out, ExtractPlain id ro (m.cells s) p (some out) ∧ ∀ i, m.dims.In i → out i = .fin (F.data i)

end VGT
