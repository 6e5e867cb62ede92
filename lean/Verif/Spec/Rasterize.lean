import Verif.Spec.Interp
import Verif.Spec.Ray

/-!
Specification vocabulary for mesh rasterization: triangles, squared distances, closest points.
-/
set_option autoImplicit false

namespace VGT.Spec

section
variable {K : Type} [Field K] [LinearOrder K] [IsStrictOrderedRing K]

/-- The point lies on the (filled) triangle: it is a convex combination of the vertices. -/
def OnTriangle (v1 v2 v3 p : Fin 3 → K) : Prop :=
  ∃ x y z : K, 0 ≤ x ∧ 0 ≤ y ∧ 0 ≤ z ∧ x + y + z = 1 ∧ ∀ a, p a = x * v1 a + y * v2 a + z * v3 a

/-- The vertices do not lie on one line. -/
def ProperTriangle (v1 v2 v3 : Fin 3 → K) : Prop :=
  ∀ x y : K, (∀ a, x * (v2 a - v1 a) + y * (v3 a - v1 a) = 0) → x = 0 ∧ y = 0

/-- Squared Euclidean distance. -/
def sqDistance (p q : Fin 3 → K) : K := (p 0 - q 0) ^ 2 + (p 1 - q 1) ^ 2 + (p 2 - q 2) ^ 2

/-- `c` is a point of `T` that is closest to `q`. -/
def IsClosest (T : (Fin 3 → K) → Prop) (q c : Fin 3 → K) : Prop := T c ∧ ∀ p, T p → sqDistance c q ≤ sqDistance p q

/-- The foot of the perpendicular from `q` to the plane of the triangle lies on the triangle. -/
def ProjectsOnto (v1 v2 v3 q : Fin 3 → K) : Prop :=
  ∃ f, OnTriangle v1 v2 v3 f ∧
    (q 0 - f 0) * (v2 0 - v1 0) + (q 1 - f 1) * (v2 1 - v1 1) + (q 2 - f 2) * (v2 2 - v1 2) = 0 ∧
    (q 0 - f 0) * (v3 0 - v1 0) + (q 1 - f 1) * (v3 1 - v1 1) + (q 2 - f 2) * (v3 2 - v1 2) = 0

/-- The box of cell `c`, in a map with cell size `s` whose frame is at translation `t` without rotation, contains the
point `p`. -/
def BoxHolds (s : K) (t : Fin 3 → K) (c : Fin 3 → ℤ) (p : Fin 3 → K) : Prop := InCell s c fun a => p a - t a

/-- The box of cell `c` contains a point of the triangle. -/
def PassesThrough (s : K) (t : Fin 3 → K) (v1 v2 v3 : Fin 3 → K) (c : Fin 3 → ℤ) : Prop :=
  ∃ p, OnTriangle v1 v2 v3 p ∧ BoxHolds s t c p

end

end VGT.Spec
