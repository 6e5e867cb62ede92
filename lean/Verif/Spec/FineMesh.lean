import Verif.Spec.Clearance
import Verif.Spec.Rasterize

/-!
Specification vocabulary for meshes of small triangles.
-/
set_option autoImplicit false

namespace VGT.Spec

/-- The point `p` of the world is in cell `c`, at least `ε` from its faces; the frame of the map is at translation `t`. -/
def DeepInBox (ε s : ℝ) (t : Fin 3 → ℝ) (c : Fin 3 → ℤ) (p : Fin 3 → ℝ) : Prop :=
  ∀ a, (c a : ℝ) * s + ε ≤ p a - t a ∧ p a - t a ≤ ((c a : ℝ) + 1) * s - ε

/-- The point `p` of the world is in cell `c`, or at most `ε` outside it on each axis. -/
def InBoxUpTo (ε s : ℝ) (t : Fin 3 → ℝ) (c : Fin 3 → ℤ) (p : Fin 3 → ℝ) : Prop :=
  ∀ a, (c a : ℝ) * s - ε ≤ p a - t a ∧ p a - t a ≤ ((c a : ℝ) + 1) * s + ε

/-- The centre of cell `c` in the world. -/
noncomputable def worldCentre (s : ℝ) (t : Fin 3 → ℝ) (c : Fin 3 → ℤ) : Fin 3 → ℝ := fun a => cellCentre s c a + t a

/-- No side of the triangle is longer than `D`. -/
def SidesAtMost (D : ℝ) (v1 v2 v3 : Fin 3 → ℝ) : Prop := dist3 v1 v2 ≤ D ∧ dist3 v2 v3 ≤ D ∧ dist3 v3 v1 ≤ D

/-- The point `p` is nearer than half the diagonal of a cell, by `δ`, to the centre of the cell it is in (of every cell it is in,
up to `ε`). -/
def AwayFromCorners (ε δ s : ℝ) (t p : Fin 3 → ℝ) : Prop :=
  ∀ c, InBoxUpTo ε s t c p → dist3 p (worldCentre s t c) + δ ≤ Real.sqrt 3 / 2 * s

end VGT.Spec
