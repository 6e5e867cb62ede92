import Verif.Model.Fl

/-!
One-dimensional and three-dimensional squared Euclidean distance transform:
`src/voxelized_geometry_tools/signed_distance_field_generation.cpp`.

A line of the field is a function `Nat → Fl` (cell value by position on the line), meaningful below
`n = num_elements`.  Scratch vectors are functions with pointwise update.
`rnd` is the rounding applied to every floating point operation.
-/
set_option autoImplicit false

namespace VGT.EDT
open VGT

/-- Pointwise update of a scratch vector or a line, `a(i) = x`. -/
def upd {α : Type} (a : Nat → α) (i : Nat) (x : α) : Nat → α := fun j => if j = i then x else a j

/-- `square(value)` = `static_cast<double>(value * value)`
(signed_distance_field_generation.cpp:100-101, 140-141). Simplification: no int64 overflow. -/
def square (rnd : ℚ → ℚ) (value : Int) : Fl := .fin (rnd ((value * value : Int) : ℚ))

/-- Inner loop of the brute force transform (signed_distance_field_generation.cpp:108-115):
`scratch_d(q)` after looking at `other = 0 .. m-1`, starting from infinity (line 104). -/
def bruteD (rnd : ℚ → ℚ) (f : Nat → Fl) (q : Nat) : Nat → Fl
  | 0 => .pinf
  | m + 1 =>
    let d := bruteD rnd f q m
    let dist := Fl.add rnd (square rnd ((q : Int) - (m : Int))) (f m)
    if Fl.lt dist d then dist else d

/-- `ComputeOneDimensionDistanceTransformInPlaceBruteForce`
(signed_distance_field_generation.cpp:85-122): new value of the line at position `q`; positions
outside `0..n-1` do not exist. -/
def brute (rnd : ℚ → ℚ) (n : Nat) (f : Nat → Fl) : Nat → Fl := fun q => bruteD rnd f q n

/-- The NaN-free subtraction `sub` (signed_distance_field_generation.cpp:153-172). -/
def subNoNan (rnd : ℚ → ℚ) (a b : Fl) : Fl :=
  if a = .pinf ∧ b = .pinf then .fin 0
  else if a = .pinf then .pinf
  else if b = .pinf then .ninf
  else Fl.sub rnd a b

/-- `compute_s(q, k)` (signed_distance_field_generation.cpp:175-184), `vk = scratch_v(k)`.
`static_cast<double>` of the integer denominator is rounded too. -/
def computeS (rnd : ℚ → ℚ) (f : Nat → Fl) (q vk : Nat) : Fl :=
  let top := subNoNan rnd (Fl.add rnd (f q) (square rnd q)) (Fl.add rnd (f vk) (square rnd vk))
  let bottom := Fl.fin (rnd ((2 * (q : Int) - 2 * (vk : Int) : Int) : ℚ))
  Fl.div rnd top bottom

/-- Scratch state of the sweep: `k`, `scratch_v`, `scratch_z`. -/
structure Sweep where
  k : Nat
  v : Nat → Nat
  z : Nat → Fl

/-- State before phase 1 (signed_distance_field_generation.cpp:144-150, 188):
everything zero, `z(0) = -inf`, `z(1) = inf`, `k = 0`. -/
def sweepInit : Sweep :=
  { k := 0, v := fun _ => 0, z := upd (upd (fun _ => .fin 0) 0 .ninf) 1 .pinf }

/-- The `while (k > 0 && s <= scratch_z(k))` loop (signed_distance_field_generation.cpp:193-197),
started at `k` with the current `s`; returns the final `k` and `s`. -/
def popLoop (rnd : ℚ → ℚ) (f : Nat → Fl) (v : Nat → Nat) (z : Nat → Fl) (q : Nat) :
    Nat → Fl → Nat × Fl
  | 0, s => (0, s)
  | k + 1, s => if Fl.le s (z (k + 1)) then popLoop rnd f v z q k (computeS rnd f q (v k)) else (k + 1, s)

/-- One iteration of the phase 1 loop (signed_distance_field_generation.cpp:190-203). -/
def sweepStep (rnd : ℚ → ℚ) (f : Nat → Fl) (st : Sweep) (q : Nat) : Sweep :=
  let r := popLoop rnd f st.v st.z q st.k (computeS rnd f q (st.v st.k))
  let k' := r.1 + 1
  { k := k', v := upd st.v k' q, z := upd (upd st.z k' r.2) (k' + 1) .pinf }

/-- Phase 1 (signed_distance_field_generation.cpp:187-204) after processing `q = 1 .. m`. -/
def phase1 (rnd : ℚ → ℚ) (f : Nat → Fl) : Nat → Sweep
  | 0 => sweepInit
  | m + 1 => sweepStep rnd f (phase1 rnd f m) (m + 1)

/-- The `while (scratch_z(k + 1) < q) k++` loop (signed_distance_field_generation.cpp:212-215).
`fuel` bounds the number of increments by the size of the scratch vector; `none` means the loop would
run past the end of the scratch vector (undefined behaviour in the code). -/
def advance (z : Nat → Fl) (q : Nat) : Nat → Nat → Option Nat
  | 0, k => if Fl.lt (z (k + 1)) (.fin q) then none else some k
  | fuel + 1, k => if Fl.lt (z (k + 1)) (.fin q) then advance z q fuel (k + 1) else some k

/-- First loop of phase 2 (signed_distance_field_generation.cpp:206-219) for `q = 0 .. m-1`:
returns `k` and `scratch_d`; `none` on running out of the scratch vector.  Simplification: the C++
loop counter is an `int`, here unbounded. -/
def phase2 (rnd : ℚ → ℚ) (n : Nat) (f : Nat → Fl) (st : Sweep) : Nat → Option (Nat × (Nat → Fl))
  | 0 => some (0, fun _ => .fin 0)
  | m + 1 =>
    match phase2 rnd n f st m with
    | none => none
    | some (k, d) =>
      -- `z` has `n + 1` elements: `z(k + 1)` exists iff `k < n`
      match advance st.z m (n - 1 - k) k with
      | none => none
      | some k' =>
        let vk := st.v k'
        some (k', upd d m (Fl.add rnd (square rnd ((m : Int) - (vk : Int))) (f vk)))

/-- `ComputeOneDimensionDistanceTransformInPlaceLinear`
(signed_distance_field_generation.cpp:124-226). -/
def linear (rnd : ℚ → ℚ) (n : Nat) (f : Nat → Fl) : Option (Nat → Fl) :=
  match phase2 rnd n f (phase1 rnd f (n - 1)) n with
  | none => none
  | some (_, d) => some d

/-- `ComputeOneDimensionDistanceTransformInPlace` with `kStrategyThreshold = 8`
(signed_distance_field_generation.cpp:228-248). -/
def transform1 (rnd : ℚ → ℚ) (n : Nat) (f : Nat → Fl) : Option (Nat → Fl) :=
  if n > 8 then linear rnd n f else some (brute rnd n f)

end VGT.EDT
