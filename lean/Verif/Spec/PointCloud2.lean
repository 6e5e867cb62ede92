import Verif.Model.PointCloud2

/-!
Specification vocabulary for point cloud messages.
-/
set_option autoImplicit false

namespace VGT.Spec
open VGT.Pc2

/-- `f` is the field that the name stands for: the last one with that name. -/
def NamedField (fields : List Field) (name : String) (f : Field) : Prop :=
  ∃ before after, fields = before ++ f :: after ∧ f.name = name ∧ ∀ g ∈ after, g.name ≠ name

/-- Three consecutive `float` fields x, y, z; `offset` is the offset of x. -/
def HasXYZ (c : Msg) (offset : ℕ) : Prop :=
  ∃ x y z, NamedField c.fields "x" x ∧ NamedField c.fields "y" y ∧ NamedField c.fields "z" z ∧
    x.datatype = 7 ∧ y.datatype = 7 ∧ z.datatype = 7 ∧
    x.offset = offset ∧ y.offset = offset + 4 ∧ z.offset = offset + 8

/-- The values fit the types of the message. -/
def Representable (c : Msg) : Prop :=
  c.width < 2 ^ 32 ∧ c.height < 2 ^ 32 ∧ c.pointStep < 2 ^ 32 ∧ c.rowStep < 2 ^ 32 ∧ ∀ f ∈ c.fields, f.offset < 2 ^ 32

/-- The message holds the points it announces: the number of points fits its type, the fields lie within a point, and the
data are long enough.  Rows follow each other without padding. -/
def WellFormed (c : Msg) (offset : ℕ) : Prop :=
  c.width * c.height < 2 ^ 32 ∧ offset + 12 ≤ c.pointStep ∧ c.rowStep = c.width * c.pointStep ∧
    c.rowStep * c.height ≤ c.data.length

/-- Byte `k` of the coordinates of the point in a row and column, as the message format defines it. -/
def CoordinateByte (c : Msg) (offset row column k : ℕ) : Option ℕ :=
  c.data[row * c.rowStep + column * c.pointStep + offset + k]?

end VGT.Spec
