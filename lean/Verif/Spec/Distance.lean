import Mathlib.Data.ENat.Lattice
import Mathlib.Data.Set.Defs
import Mathlib.Data.Finset.Lattice.Fold
import Mathlib.Algebra.Order.Group.Unbundled.Abs
import Mathlib.Algebra.Order.Field.Rat
import Mathlib.Algebra.Order.Group.Int

/-!
Specification vocabulary for distance fields, independent of the model.
Squared distances are natural numbers; "no cell of that kind" is `⊤ : ℕ∞`.
-/
set_option autoImplicit false

namespace VGT.Spec

/-- Squared distance of two positions on a line. -/
def sqd (a b : ℕ) : ℕ := ((a : ℤ) - (b : ℤ)).natAbs ^ 2

/-- The exact 1-D squared distance transform of the samples `g 0 .. g (n-1)`:
`min over j < n of (q - j)^2 + g j`. -/
noncomputable def dt1 (n : ℕ) (g : ℕ → ℕ∞) (q : ℕ) : ℕ∞ :=
  (Finset.range n).inf fun j => (sqd q j : ℕ∞) + g j

/-- Squared Euclidean distance (in cells) of two grid indices. -/
def sq3 (a b : ℕ × ℕ × ℕ) : ℕ := sqd a.1 b.1 + sqd a.2.1 b.2.1 + sqd a.2.2 b.2.2

/-- Squared distance from `q` to the nearest element of `A`; `⊤` iff `A` is empty. -/
noncomputable def sqDist (A : Set (ℕ × ℕ × ℕ)) (q : ℕ × ℕ × ℕ) : ℕ∞ := ⨅ p ∈ A, (sq3 q p : ℕ∞)

/-- What is required of floating-point rounding: it is monotone, it is exact on integers of magnitude
up to 2^53, and it is exact on multiples of 2^-27 of magnitude up to 2^26 (53 significant bits).
All IEEE-754 binary64 rounding modes satisfy this. -/
structure IsDoubleRounding (rnd : ℚ → ℚ) : Prop where
  mono : ∀ a b, a ≤ b → rnd a ≤ rnd b
  exactInt : ∀ m : ℤ, |m| ≤ 2 ^ 53 → rnd m = m
  exactDyadic : ∀ m : ℤ, |m| ≤ 2 ^ 53 → rnd ((m : ℚ) / 2 ^ 27) = (m : ℚ) / 2 ^ 27

end VGT.Spec
