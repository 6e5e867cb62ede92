import Verif.Spec.Distance
import Verif.Model.Rl

/-!
Specification vocabulary for signed distance values.
-/
set_option autoImplicit false

namespace VGT.Spec
open VGT

/-- What is required of the rounding of real results (all IEEE round-to-nearest modes without
overflow satisfy it, and so does exact arithmetic, `id`). -/
structure IsRounding (r : ℝ → ℝ) : Prop where
  mono : ∀ a b, a ≤ b → r a ≤ r b
  zero : r 0 = 0
  one : r 1 = 1
  neg : ∀ a, r (-a) = - r a
  idem : ∀ a, r (r a) = r a

/-- `res * sqrt D`, computed with one rounded square root, one rounded product and one cast;
`+inf` if there is no cell. With `r = c = id` this is exactly `sqrt D * res`. -/
noncomputable def scaled (r c : ℝ → ℝ) (res : ℝ) : ℕ∞ → Rl
  | none => .pinf
  | some n => .fin (c (r (r (Real.sqrt n) * res)))

/-- Squared distance of two integer points. -/
def sqz (a b : ℤ × ℤ × ℤ) : ℕ := ((a.1 - b.1) ^ 2 + (a.2.1 - b.2.1) ^ 2 + (a.2.2 - b.2.2) ^ 2).natAbs

/-- Squared distance from `q` to the nearest element of `A`; `⊤` iff `A` is empty. -/
noncomputable def sqDistZ (A : Set (ℤ × ℤ × ℤ)) (q : ℤ × ℤ × ℤ) : ℕ∞ := ⨅ p ∈ A, (sqz q p : ℕ∞)

/-- Everything outside an `nx × ny × nz` grid, seen only along axes with more than one cell. -/
def Outside (nx ny nz : ℕ) : Set (ℤ × ℤ × ℤ) :=
  {p | (nx ≤ 1 → p.1 = 0) ∧ (ny ≤ 1 → p.2.1 = 0) ∧ (nz ≤ 1 → p.2.2 = 0) ∧
    ¬ (0 ≤ p.1 ∧ p.1 < nx ∧ 0 ≤ p.2.1 ∧ p.2.1 < ny ∧ 0 ≤ p.2.2 ∧ p.2.2 < nz)}

end VGT.Spec
