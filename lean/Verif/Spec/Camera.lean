import Verif.Model.VoxelizeFloat
import Verif.Spec.RayRound

/-!
Cameras and the true positions of what they see, in grid frame.
-/
set_option autoImplicit false

namespace VGT.Spec
open VGT

/-- A camera: the values of its pose in column order (numbers 3, 7, 11 and 15 are not used), its range and what it
measured, in its own frame (`none`: not a finite point). -/
structure Camera3 where
  pose : ℕ → ℚ
  range : Fl
  points : List (Option (Fin 3 → ℚ))

/-- The camera as the voxelizer gets it. -/
def Camera3.cloud (c : Camera3) : CpuCloud Fl :=
  ⟨fun k => .fin (c.pose k), c.range, c.points.map (Option.map fun x a => .fin (x a))⟩

/-- Where the sensor is. -/
def Camera3.sensor (c : Camera3) : Fin 3 → ℚ := fun a => c.pose (12 + a)

/-- Where the measured point is. -/
def Camera3.place (c : Camera3) (x : Fin 3 → ℚ) : Fin 3 → ℚ :=
  fun a => c.pose a * x 0 + c.pose (4 + a) * x 1 + c.pose (8 + a) * x 2 + c.pose (12 + a)

/-- Coordinates are at most `B`; the values of the rotation are at most 2 (1 for a rotation). -/
structure Camera3.Within (c : Camera3) (B : ℚ) : Prop where
  turn : ∀ a : Fin 3, |c.pose a| ≤ 2 ∧ |c.pose (4 + a)| ≤ 2 ∧ |c.pose (8 + a)| ≤ 2
  shift : ∀ a : Fin 3, |c.pose (12 + a)| ≤ B
  points : ∀ x, some x ∈ c.points → ∀ a, |x a| ≤ B

/-- Square of the distance. -/
def distSq (x y : Fin 3 → ℚ) : ℚ := (y 0 - x 0) ^ 2 + (y 1 - x 1) ^ 2 + (y 2 - x 2) ^ 2

/-- Point `x` is in cell `i` grown by `tol` on every side. -/
def NearBox (tol s : ℚ) (i : Fin 3 → ℤ) (x : Fin 3 → ℚ) : Prop :=
  ∀ a, (i a : ℚ) * s - tol ≤ x a ∧ x a ≤ ((i a : ℚ) + 1) * s + tol

/-- Point `x` is in cell `i` shrunk by `tol` on every side. -/
def DeepBox (tol s : ℚ) (i : Fin 3 → ℤ) (x : Fin 3 → ℚ) : Prop :=
  ∀ a, (i a : ℚ) * s + tol ≤ x a ∧ x a ≤ ((i a : ℚ) + 1) * s - tol

/-- `x` is at most `tol` farther from `o` than the range. -/
def NotBeyond (tol : ℚ) (range : Fl) (o x : Fin 3 → ℚ) : Prop := ∀ r, range = .fin r → distSq o x ≤ (r + tol) ^ 2

/-- `x` is at least `tol` nearer to `o` than the range. -/
def WellWithin (tol : ℚ) (range : Fl) (o x : Fin 3 → ℚ) : Prop :=
  ∀ r, range = .fin r → tol ≤ r ∧ distSq o x ≤ (r - tol) ^ 2

/-- Some point of the segment from `o` to `p` is within `tol` of cell `i` and not beyond the range. -/
def SeenNear (tol s : ℚ) (range : Fl) (o p : Fin 3 → ℚ) (i : Fin 3 → ℤ) : Prop :=
  ∃ τ, 0 ≤ τ ∧ τ ≤ 1 ∧ NearBox tol s i (onSeg o p τ) ∧ NotBeyond tol range o (onSeg o p τ)

/-- Some point of the segment from `o` to `p` is at least `tol` deep in cell `i` and well within the range. -/
def SeenDeep (tol s : ℚ) (range : Fl) (o p : Fin 3 → ℚ) (i : Fin 3 → ℤ) : Prop :=
  ∃ τ, 0 ≤ τ ∧ τ ≤ 1 ∧ DeepBox tol s i (onSeg o p τ) ∧ WellWithin tol range o (onSeg o p τ)

/-- The sensor is in the grid, at least `tol` from its sides. -/
def DeepInGrid (tol s : ℚ) (n : Fin 3 → ℕ) (x : Fin 3 → ℚ) : Prop := ∀ a, tol ≤ x a ∧ x a ≤ n a * s - tol

open Classical in
/-- How many of the measured points have the property. -/
noncomputable def Camera3.howMany (c : Camera3) (P : (Fin 3 → ℚ) → Prop) : ℕ :=
  c.points.countP fun y => decide (∃ x, y = some x ∧ P x)

end VGT.Spec
