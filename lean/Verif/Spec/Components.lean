import Verif.Model.Cells
import Mathlib.Logic.Relation

/-!
Specification vocabulary for connected components.
-/
set_option autoImplicit false

namespace VGT.Spec
open VGT VGT.EDT

/-- The two cells share a face. -/
def FaceAdj (i j : Idx) : Prop :=
  (i.2 = j.2 ∧ (i.1 = j.1 + 1 ∨ j.1 = i.1 + 1)) ∨
  (i.1 = j.1 ∧ i.2.2 = j.2.2 ∧ (i.2.1 = j.2.1 + 1 ∨ j.2.1 = i.2.1 + 1)) ∨
  (i.1 = j.1 ∧ i.2.1 = j.2.1 ∧ (i.2.2 = j.2.2 + 1 ∨ j.2.2 = i.2.2 + 1))

/-- Joined by a path of face-adjacent in-grid cells, all satisfying `P`, in which consecutive cells are
related by `R`. -/
def Joined (d : Dims) (P : Idx → Prop) (R : Idx → Idx → Prop) : Idx → Idx → Prop :=
  Relation.ReflTransGen fun i j => d.In i ∧ d.In j ∧ P i ∧ P j ∧ FaceAdj i j ∧ R i j

/-- Scan order (x slowest, z fastest). -/
def ScanLE (i j : Idx) : Prop :=
  i.1 < j.1 ∨ (i.1 = j.1 ∧ (i.2.1 < j.2.1 ∨ (i.2.1 = j.2.1 ∧ i.2.2 ≤ j.2.2)))

/-- A correct labelling of the cells satisfying `P` with `n` components: labels of those cells are
`1 .. n` without gaps, two such cells have the same label iff they are joined, all other cells have label 0,
and labels are numbered by the first cell of each component in scan order. -/
structure IsLabelling (d : Dims) (P : Idx → Prop) (R : Idx → Idx → Prop) (label : Idx → ℕ) (n : ℕ) : Prop where
  range : ∀ i, d.In i → P i → 1 ≤ label i ∧ label i ≤ n
  zero : ∀ i, d.In i → ¬ P i → label i = 0
  onto : ∀ l, 1 ≤ l → l ≤ n → ∃ i, d.In i ∧ P i ∧ label i = l
  same : ∀ i j, d.In i → d.In j → P i → P j → (label i = label j ↔ Joined d P R i j)
  order : ∀ l, 1 ≤ l → l ≤ n → ∃ i, d.In i ∧ P i ∧ label i = l ∧ ∀ j, d.In j → l ≤ label j → ScanLE i j

/-- Occupancy class: empty, unknown, filled; a NaN occupancy has none. -/
def SameClass (a b : Fl) : Prop :=
  (∃ p q : ℚ, a = .fin p ∧ b = .fin q ∧ ((p < 1 / 2 ∧ q < 1 / 2) ∨ (p = 1 / 2 ∧ q = 1 / 2) ∨ (1 / 2 < p ∧ 1 / 2 < q))) ∨
  (a = .pinf ∧ (b = .pinf ∨ ∃ q : ℚ, b = .fin q ∧ 1 / 2 < q)) ∨ (b = .pinf ∧ ∃ q : ℚ, a = .fin q ∧ 1 / 2 < q) ∨
  (a = .ninf ∧ (b = .ninf ∨ ∃ q : ℚ, b = .fin q ∧ q < 1 / 2)) ∨ (b = .ninf ∧ ∃ q : ℚ, a = .fin q ∧ q < 1 / 2)

end VGT.Spec
