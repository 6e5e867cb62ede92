import Verif.Model.Voxelize
import Verif.Spec.Ray

/-!
Vocabulary for voxelization results.
-/
set_option autoImplicit false

namespace VGT.Spec
open VGT VGT.EDT

variable {K : Type} [Field K] [LinearOrder K] [IsStrictOrderedRing K] [FloorRing K]

/-- Where the sensor of the cloud is, in grid frame. -/
def sensor (c : Cloud K) : Vec K := c.tf fun _ => 0

/-- `norm` gives the length of the ray to every finite point of the cloud, and the range is not negative. -/
def GoodCloud (norm : Vec K → K) (c : Cloud K) : Prop :=
  0 ≤ c.range ∧ ∀ x, some x ∈ c.points → IsDist (sensor c) (c.tf x) (norm fun a => c.tf x a - sensor c a)

/-- The cloud's sensor is in the grid. -/
def SensorInGrid (d : Dims) (s : K) (c : Cloud K) : Prop :=
  ∃ oc, InCell s oc (sensor c) ∧ CellInGrid (axisCells d) oc

/-- Casting the point puts the mark. -/
def Marks (d : Dims) (s : K) (norm : Vec K → K) (c : Cloud K) (m : Mark) (x : Option (Vec K)) : Prop :=
  ∃ ms, pointMarks d s norm c x = some ms ∧ m ∈ ms

open Classical in
/-- How many points of the cloud put the mark. -/
noncomputable def hitCount (d : Dims) (s : K) (norm : Vec K → K) (c : Cloud K) (m : Mark) : ℕ :=
  c.points.countP fun x => decide (Marks d s norm c m x)

/-- The same camera with its points in another order. -/
def SamePoints (c c' : Cloud K) : Prop := c.tf = c'.tf ∧ c.range = c'.range ∧ c.points.Perm c'.points

/-- The same cameras in another order, each with its points in another order. -/
def SameClouds (cs cs' : List (Cloud K)) : Prop := ∃ mid, List.Forall₂ SamePoints cs mid ∧ mid.Perm cs'

end VGT.Spec
