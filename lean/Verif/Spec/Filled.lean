import Verif.Spec.SDFGenHyp

/-!
Specification of "the cell is an obstacle", and of signed distance fields of an obstacle predicate.
-/
set_option autoImplicit false

namespace VGT.Spec
open VGT VGT.EDT

/-- The float is a number greater than 1/2. -/
def AboveHalf (occ : Fl) : Prop := occ = .pinf ∨ ∃ q : ℚ, occ = .fin q ∧ 1 / 2 < q

/-- Obstacle: occupancy above one half, or exactly one half when unknown counts as filled. -/
def Obstacle (unknownIsFilled : Bool) (occ : Fl) : Prop :=
  AboveHalf occ ∨ (unknownIsFilled = true ∧ occ = .fin (1 / 2))

/-- Positions of the grid cells satisfying `P`, plus everything outside the grid if there is a virtual
border. -/
def cellsOf (d : Dims) (border : Bool) (P : Idx → Prop) : Set (ℤ × ℤ × ℤ) :=
  {z | ∃ p, d.In p ∧ P p ∧ z = ((p.1 : ℤ), (p.2.1 : ℤ), (p.2.2 : ℤ))} ∪ {z | border = true ∧ z ∈ Outside d.nx d.ny d.nz}

/-- `out` is the signed distance field of the obstacle predicate `P`: at free cells the distance to the
nearest obstacle, at obstacle cells minus the distance to the nearest free cell. -/
def IsSDFOf (ro : Rounding) (g : GridInfo) (border : Bool) (P : Idx → Prop) (out : Idx → Rl) : Prop :=
  ∀ i, g.dims.In i →
    (¬ P i → out i = scaled ro.rr ro.cast g.sx (sqDistZ (cellsOf g.dims border P) ((i.1 : ℤ), (i.2.1 : ℤ), (i.2.2 : ℤ)))) ∧
    (P i → out i =
      (scaled ro.rr ro.cast g.sx (sqDistZ (cellsOf g.dims border fun j => ¬ P j) ((i.1 : ℤ), (i.2.1 : ℤ), (i.2.2 : ℤ)))).neg)

end VGT.Spec
