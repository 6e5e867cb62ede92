import Verif.Model.Export
import Verif.Spec.Surface

/-!
Specification vocabulary for display markers.
-/
set_option autoImplicit false

namespace VGT.Spec
open VGT VGT.EDT VGT.Export

/-- Scan order: by x, then y, then z. -/
def ScanBefore (i j : Idx) : Prop :=
  i.1 < j.1 ∨ (i.1 = j.1 ∧ (i.2.1 < j.2.1 ∨ (i.2.1 = j.2.1 ∧ i.2.2 < j.2.2)))

/-- The alpha of the colour is positive (NaN is not). -/
def Opaque (c : Color) : Prop := c.a = .pinf ∨ ∃ q : ℚ, c.a = .fin q ∧ 0 < q

/-- The marker shows exactly the cells of the set, once each, in scan order, each at its location and with its colour. -/
def ShowsExactly {P : Type} (m : Marker P) (loc : ZIdx → P) (cells : Idx → Prop) (color : Idx → Color) : Prop :=
  ∃ shown : List Idx, shown.Pairwise ScanBefore ∧ (∀ i, i ∈ shown ↔ cells i) ∧
    m.points = shown.map (fun i => loc (toZ i)) ∧ m.colors = shown.map color

end VGT.Spec
