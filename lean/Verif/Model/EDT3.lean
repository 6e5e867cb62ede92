import Verif.Model.EDT
import Verif.Model.Par

/-!
Three-dimensional distance transform:
`ComputeDistanceFieldTransformInPlace` (signed_distance_field_generation.cpp:258-391).
-/
set_option autoImplicit false

namespace VGT.EDT
open VGT VGT.Par

/-- Grid index (CRU `GridIndex`), non-negative part. -/
abbrev Idx := Nat × Nat × Nat

/-- Numbers of cells per axis. -/
structure Dims where
  nx : Nat
  ny : Nat
  nz : Nat
  deriving DecidableEq, Repr

/-- The index lies in the grid. -/
def Dims.In (d : Dims) (i : Idx) : Prop := i.1 < d.nx ∧ i.2.1 < d.ny ∧ i.2.2 < d.nz

instance (d : Dims) (i : Idx) : Decidable (d.In i) := by unfold Dims.In; infer_instance

/-- `EDTDistanceField`: cell values by index. -/
abbrev Fld := Idx → Fl

/-- `XIndexer`, `YIndexer`, `ZIndexer` (signed_distance_field_generation.cpp:37-83). -/
def xIndexer (y z : Nat) (x : Nat) : Idx := (x, y, z)
@[inherit_doc xIndexer] def yIndexer (x z : Nat) (y : Nat) : Idx := (x, y, z)
@[inherit_doc xIndexer] def zIndexer (x y : Nat) (z : Nat) : Idx := (x, y, z)

/-- Writes `set_f(q, d(q))` for `q = n - r .. n - 1`
(signed_distance_field_generation.cpp:118-121, 221-224). -/
def writeProg (n : Nat) (indexer : Nat → Idx) (d : Nat → Fl) : Nat → Prog Idx Fl
  | 0 => .done
  | r + 1 => .write (indexer (n - (r + 1))) (d (n - (r + 1))) (writeProg n indexer d r)

/-- Reads of the line followed by the computation and the writes.  Simplification: the code reads a
cell each time it needs it, always before the first write; here each cell is read once, in order. -/
def readProg (rnd : ℚ → ℚ) (n : Nat) (indexer : Nat → Idx) : Nat → (Nat → Fl) → Prog Idx Fl
  | 0, f =>
    match transform1 rnd n f with
    | none => .ub
    | some d => writeProg n indexer d n
  | r + 1, f => .read (indexer (n - (r + 1))) fun v => readProg rnd n indexer r (upd f (n - (r + 1)) v)

/-- One call of `ComputeOneDimensionDistanceTransformInPlace` as a thread program. -/
def lineProg (rnd : ℚ → ℚ) (n : Nat) (indexer : Nat → Idx) : Prog Idx Fl :=
  readProg rnd n indexer n fun _ => .nan

/-- `get_indicies_from_iteration` (signed_distance_field_generation.cpp:265-271). -/
def indicesFromIteration (step iteration : Nat) : Nat × Nat := (iteration / step, iteration % step)

/-- The work of one iteration of the X pass (signed_distance_field_generation.cpp:297-304). -/
def xWork (rnd : ℚ → ℚ) (d : Dims) (iteration : Nat) : Prog Idx Fl :=
  let ix := indicesFromIteration d.nz iteration
  lineProg rnd d.nx (xIndexer ix.1 ix.2)

/-- The work of one iteration of the Y pass (signed_distance_field_generation.cpp:336-343). -/
def yWork (rnd : ℚ → ℚ) (d : Dims) (iteration : Nat) : Prog Idx Fl :=
  let ix := indicesFromIteration d.nz iteration
  lineProg rnd d.ny (yIndexer ix.1 ix.2)

/-- The work of one iteration of the Z pass (signed_distance_field_generation.cpp:375-382). -/
def zWork (rnd : ℚ → ℚ) (d : Dims) (iteration : Nat) : Prog Idx Fl :=
  let ix := indicesFromIteration d.ny iteration
  lineProg rnd d.nz (zIndexer ix.1 ix.2)

/-- `per_range_work` (signed_distance_field_generation.cpp:286-306, 325-345, 364-384): a thread does
its iterations one after the other. -/
def threadProg (work : Nat → Prog Idx Fl) : List Nat → Prog Idx Fl
  | [] => .done
  | i :: is => (work i).andThen (threadProg work is)

/-- A distribution of the iterations `0 .. N-1` over threads: every iteration exactly once. -/
def IsSplit (N : Nat) (split : List (List Nat)) : Prop := split.flatten.Perm (List.range N)

/-- One parallel pass: `fld'` is a memory the pass can leave behind, for some schedule that finishes
all threads. -/
def PassRuns (work : Nat → Prog Idx Fl) (N : Nat) (fld fld' : Fld) : Prop :=
  ∃ split : List (List Nat), IsSplit N split ∧ ∃ sched : List Nat,
    let s := runSched { threads := split.map (threadProg work), mem := fld } sched
    finished s ∧ s.mem = fld'

/-- `ComputeDistanceFieldTransformInPlace` (signed_distance_field_generation.cpp:258-391):
`TransformRuns rnd d fld out` — `out` is a possible result, over all thread counts, work splits and
interleavings.  Passes over axes with one cell are skipped (lines 276, 315, 354). -/
def TransformRuns (rnd : ℚ → ℚ) (d : Dims) (fld out : Fld) : Prop :=
  ∃ f1 f2 : Fld,
    (if d.nx > 1 then PassRuns (xWork rnd d) (d.ny * d.nz) fld f1 else f1 = fld) ∧
    (if d.ny > 1 then PassRuns (yWork rnd d) (d.nx * d.nz) f1 f2 else f2 = f1) ∧
    (if d.nz > 1 then PassRuns (zWork rnd d) (d.nx * d.ny) f2 out else out = f2)

/-- The same transform, one thread, in order (`DegreeOfParallelism::None()`); executable. -/
def transformSeq (rnd : ℚ → ℚ) (d : Dims) (fld : Fld) : Option Fld :=
  (if d.nx > 1 then (threadProg (xWork rnd d) (List.range (d.ny * d.nz))).run fld else some fld).bind fun f1 =>
  (if d.ny > 1 then (threadProg (yWork rnd d) (List.range (d.nx * d.nz))).run f1 else some f1).bind fun f2 =>
  if d.nz > 1 then (threadProg (zWork rnd d) (List.range (d.nx * d.ny))).run f2 else some f2

end VGT.EDT
