import Verif.Model.Cells

/-!
Vocabulary for surfaces as maps and vectors.
-/
set_option autoImplicit false

namespace VGT.Spec

/-- The entries form a map: no key twice. -/
def IsMap {V : Type} (m : List (ZIdx × V)) : Prop := (m.map Prod.fst).Nodup

/-- The map sends the key to the value. -/
def Maps {V : Type} (m : List (ZIdx × V)) (key : ZIdx) (value : V) : Prop := (key, value) ∈ m

end VGT.Spec
