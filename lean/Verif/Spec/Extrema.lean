import Mathlib.Logic.Relation

/-!
Following a step function on cells until it stops.
-/
set_option autoImplicit false

namespace VGT.Spec

variable {C : Type}

/-- One step from a cell of the grid that is not flat. -/
def StepTo (In flat : C → Prop) (next : C → C) (a b : C) : Prop := In a ∧ ¬ flat a ∧ next a = b

/-- From `a`, following steps, one comes to `b`. -/
def LeadsTo (In flat : C → Prop) (next : C → C) : C → C → Prop := Relation.ReflTransGen (StepTo In flat next)

/-- `e` is where following the steps from `a` ends: a flat cell, or a cell to which the steps return. -/
def EndsAt (In flat : C → Prop) (next : C → C) (a e : C) : Prop :=
  LeadsTo In flat next a e ∧ In e ∧ (flat e ∨ Relation.TransGen (StepTo In flat next) e e)

/-- Following the steps from `a` leaves the grid. -/
def RunsOff (In flat : C → Prop) (next : C → C) (a : C) : Prop := ∃ b, LeadsTo In flat next a b ∧ ¬ In b

end VGT.Spec
