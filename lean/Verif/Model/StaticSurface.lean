import Verif.Model.Surface

/-!
Surfaces as vectors: `include/voxelized_geometry_tools/topology_computation.hpp:674-715`.

A hash map is a list of entries in order of first insertion; the order in which a range-for visits it is an arbitrary
function `order` (the theorems assume only that it permutes).  Simplification: capacity (`reserve`, `shrink_to_fit`) is left
out.
-/
set_option autoImplicit false

namespace VGT

/-- `map[key] = value` of a hash map. -/
def hashPut {V : Type} (key : ZIdx) (value : V) : List (ZIdx × V) → List (ZIdx × V)
  | [] => [(key, value)]
  | (k, v) :: rest => if k = key then (key, value) :: rest else (k, v) :: hashPut key value rest

/-- `ExtractStaticSurface` (topology_computation.hpp:674-690). -/
def extractStaticSurface (order : List (ZIdx × ℕ) → List (ZIdx × ℕ)) (raw : List (ZIdx × ℕ)) : List ZIdx :=
  (order raw).foldl (fun acc e => if e.2 = 1 then acc ++ [e.1] else acc) []

/-- `ConvertToDynamicSurface` (topology_computation.hpp:692-702). -/
def convertToDynamicSurface (static : List ZIdx) : List (ZIdx × ℕ) :=
  static.foldl (fun acc i => hashPut i 1 acc) []

/-- `BuildSurfaceIndexMap` (topology_computation.hpp:704-714): the loop from position `idx` on. -/
def surfaceIndexLoop : List ZIdx → ℕ → List (ZIdx × ℕ) → List (ZIdx × ℕ)
  | [], _, acc => acc
  | i :: is, idx, acc => surfaceIndexLoop is (idx + 1) (hashPut i idx acc)

@[inherit_doc surfaceIndexLoop]
def buildSurfaceIndexMap (static : List ZIdx) : List (ZIdx × ℕ) := surfaceIndexLoop static 0 []

end VGT
