import Verif.Spec.Ray
import Mathlib.Data.List.Chain

/-!
Paths of cells, in words of integer coordinates only.
-/
set_option autoImplicit false

namespace VGT.Spec

/-- `c'` shares a face with `c` and is one step nearer to `f`. -/
def StepToward (f c c' : Fin 3 → ℤ) : Prop :=
  ∃ a, (∀ b, b ≠ a → c' b = c b) ∧ ((c a < f a ∧ c' a = c a + 1) ∨ (f a < c a ∧ c' a = c a - 1))

/-- `l` is a path of cells of the grid that starts in `i`, goes from face to face, each step nearer to `f`, and ends
before `f`.  It is empty only if `i` is `f` or outside the grid. -/
structure IsPath (n : Fin 3 → ℕ) (i f : Fin 3 → ℤ) (l : List (Fin 3 → ℤ)) : Prop where
  empty : l = [] ↔ i = f ∨ ¬ CellInGrid n i
  start : ∀ c ∈ l.head?, c = i
  steps : l.IsChain (StepToward f)
  inside : ∀ c ∈ l, CellInGrid n c ∧ c ≠ f

end VGT.Spec
