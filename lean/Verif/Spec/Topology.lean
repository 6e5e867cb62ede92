import Verif.Model.Cells
import Mathlib.Logic.Relation
import Mathlib.Data.Set.Card

/-!
Specification vocabulary for the topology of a set of voxels.
-/
set_option autoImplicit false

namespace VGT.Spec
open VGT

/-- `n` is the number of classes into which the relation (an equivalence on `V`) divides `V`. -/
def IsClassCount {α : Type} (V : α → Prop) (R : α → α → Prop) (n : ℕ) : Prop :=
  ∃ label : α → ℕ, (∀ v, V v → 1 ≤ label v ∧ label v ≤ n) ∧ (∀ l, 1 ≤ l → l ≤ n → ∃ v, V v ∧ label v = l) ∧
    ∀ v w, V v → V w → (label v = label w ↔ R v w)

/-- The grid point `v` is one of the eight corners of the voxel `p` (which reaches from `p` to `p + (1,1,1)`). -/
def IsCorner (v p : ZIdx) : Prop :=
  (v.1 = p.1 ∨ v.1 = p.1 + 1) ∧ (v.2.1 = p.2.1 ∨ v.2.1 = p.2.1 + 1) ∧ (v.2.2 = p.2.2 ∨ v.2.2 = p.2.2 + 1)

/-- Two grid points at distance one. -/
def PointAdj (v w : ZIdx) : Prop :=
  (v.2 = w.2 ∧ (w.1 = v.1 + 1 ∨ v.1 = w.1 + 1)) ∨
  (v.1 = w.1 ∧ v.2.2 = w.2.2 ∧ (w.2.1 = v.2.1 + 1 ∨ v.2.1 = w.2.1 + 1)) ∨
  (v.1 = w.1 ∧ v.2.1 = w.2.1 ∧ (w.2.2 = v.2.2 + 1 ∨ v.2.2 = w.2.2 + 1))

/-- The point lies on the surface of the solid: it is a corner of a voxel inside and of a voxel outside. -/
def SurfacePoint (S : ZIdx → Prop) (v : ZIdx) : Prop := ∃ p q, IsCorner v p ∧ IsCorner v q ∧ S p ∧ ¬ S q

/-- The segment between two points lies on the surface: it is an edge of a voxel inside and of a voxel outside. -/
def SurfaceEdge (S : ZIdx → Prop) (v w : ZIdx) : Prop :=
  PointAdj v w ∧ ∃ p q, (IsCorner v p ∧ IsCorner w p) ∧ (IsCorner v q ∧ IsCorner w q) ∧ S p ∧ ¬ S q

/-- Joined on the surface. -/
def SurfaceJoined (S : ZIdx → Prop) : ZIdx → ZIdx → Prop := Relation.ReflTransGen (SurfaceEdge S)

/-- The solid has no two voxels that touch only in an edge. -/
def NoEdgeContact (S : ZIdx → Prop) : Prop :=
  ∀ x y z,
    (¬ (S (x, y, z) ∧ S (x + 1, y + 1, z) ∧ ¬ S (x + 1, y, z) ∧ ¬ S (x, y + 1, z))) ∧
    (¬ (S (x + 1, y, z) ∧ S (x, y + 1, z) ∧ ¬ S (x, y, z) ∧ ¬ S (x + 1, y + 1, z))) ∧
    (¬ (S (x, y, z) ∧ S (x + 1, y, z + 1) ∧ ¬ S (x + 1, y, z) ∧ ¬ S (x, y, z + 1))) ∧
    (¬ (S (x + 1, y, z) ∧ S (x, y, z + 1) ∧ ¬ S (x, y, z) ∧ ¬ S (x + 1, y, z + 1))) ∧
    (¬ (S (x, y, z) ∧ S (x, y + 1, z + 1) ∧ ¬ S (x, y + 1, z) ∧ ¬ S (x, y, z + 1))) ∧
    (¬ (S (x, y + 1, z) ∧ S (x, y, z + 1) ∧ ¬ S (x, y, z) ∧ ¬ S (x, y + 1, z + 1)))

/-- Voxels around a point, numbered by the offset in each direction. -/
def around (v : ZIdx) (a b c : Bool) : ZIdx :=
  (v.1 - (if a then 0 else 1), v.2.1 - (if b then 0 else 1), v.2.2 - (if c then 0 else 1))

/-- Neither the solid nor its complement touches itself in a point only: it does not happen that, of the eight voxels
around a point, exactly two opposite ones belong to the solid, or exactly two opposite ones do not. -/
def NoPointContact (S : ZIdx → Prop) : Prop :=
  ∀ v a b c,
    ¬ (S (around v a b c) ∧ S (around v (!a) (!b) (!c)) ∧
        ∀ a' b' c', S (around v a' b' c') → (a' = a ∧ b' = b ∧ c' = c) ∨ (a' = !a ∧ b' = !b ∧ c' = !c)) ∧
    ¬ (¬ S (around v a b c) ∧ ¬ S (around v (!a) (!b) (!c)) ∧
        ∀ a' b' c', ¬ S (around v a' b' c') → (a' = a ∧ b' = b ∧ c' = c) ∨ (a' = !a ∧ b' = !b ∧ c' = !c))

/-- Euler characteristic of the solid: corners minus edges plus faces minus voxels. -/
noncomputable def eulerChar (S : ZIdx → Prop) : ℤ :=
  (Set.ncard {v | ∃ p, S p ∧ IsCorner v p} : ℤ)
  - (Set.ncard {v : ZIdx | ∃ p, S p ∧ v.1 = p.1 ∧ (v.2.1 = p.2.1 ∨ v.2.1 = p.2.1 + 1) ∧ (v.2.2 = p.2.2 ∨ v.2.2 = p.2.2 + 1)}
    + Set.ncard {v : ZIdx | ∃ p, S p ∧ (v.1 = p.1 ∨ v.1 = p.1 + 1) ∧ v.2.1 = p.2.1 ∧ (v.2.2 = p.2.2 ∨ v.2.2 = p.2.2 + 1)}
    + Set.ncard {v : ZIdx | ∃ p, S p ∧ (v.1 = p.1 ∨ v.1 = p.1 + 1) ∧ (v.2.1 = p.2.1 ∨ v.2.1 = p.2.1 + 1) ∧ v.2.2 = p.2.2})
  + (Set.ncard {v : ZIdx | ∃ p, S p ∧ (v.1 = p.1 ∨ v.1 = p.1 + 1) ∧ v.2 = p.2}
    + Set.ncard {v : ZIdx | ∃ p, S p ∧ v.1 = p.1 ∧ (v.2.1 = p.2.1 ∨ v.2.1 = p.2.1 + 1) ∧ v.2.2 = p.2.2}
    + Set.ncard {v : ZIdx | ∃ p, S p ∧ v.1 = p.1 ∧ v.2.1 = p.2.1 ∧ (v.2.2 = p.2.2 ∨ v.2.2 = p.2.2 + 1)})
  - Set.ncard {p | S p}

/-- The numbers reported for a solid are right: neither is negative, the voids are the connected surfaces besides one, and, if the solid does
not touch itself in edges or points only, holes, voids and Euler characteristic satisfy `χ = 1 - holes + voids` (the
Euler-Poincaré formula for a connected solid). -/
structure TopologyOf (S : ZIdx → Prop) (holes voids : ℤ) : Prop where
  holes_nonneg : 0 ≤ holes
  voids_nonneg : 0 ≤ voids
  voids_eq : ∃ n : ℕ, voids = n - 1 ∧ IsClassCount (SurfacePoint S) (SurfaceJoined S) n
  euler : NoEdgeContact S → NoPointContact S → eulerChar S = 1 - holes + voids

/-- The voxels with label `k`. -/
def componentSolid (d : EDT.Dims) (label : EDT.Idx → ℕ) (k : ℕ) (p : ZIdx) : Prop := ∃ i, d.In i ∧ p = toZ i ∧ label i = k

/-- A solid box of `a × b × c` voxels. -/
def boxSolid (x0 y0 z0 : ℤ) (a b c : ℕ) (p : ZIdx) : Prop :=
  (x0 ≤ p.1 ∧ p.1 < x0 + a) ∧ (y0 ≤ p.2.1 ∧ p.2.1 < y0 + b) ∧ (z0 ≤ p.2.2 ∧ p.2.2 < z0 + c)

end VGT.Spec
