import Verif.Model.Serial

/-!
What a round trip and a minimum/maximum are.
-/
set_option autoImplicit false

namespace VGT.Spec
open VGT.Ser

/-- Wherever the bytes of `x` stand in a buffer, reading there gives back `x` and consumes exactly those bytes. -/
def RoundTrips {α : Type} (c : Codec α) (x : α) : Prop :=
  ∀ pre suf : Bytes, c.de (pre ++ c.ser x ++ suf) pre.length = some (x, (c.ser x).length)

/-- The base class is read back if the cells are. -/
def BaseRoundTrips {Cell B : Type} (F : BaseFormat Cell B) (b : B) : Prop :=
  ∀ c : Codec Cell, (∀ x, RoundTrips c x) → RoundTrips (F.codec c) b

/-- `lo` and `hi` are stored values, and no stored value is below `lo` or above `hi`. -/
def IsMinMax (l : List Fl) (lo hi : Fl) : Prop := lo ∈ l ∧ hi ∈ l ∧ ∀ x ∈ l, lo.le x = true ∧ x.le hi = true

end VGT.Spec
