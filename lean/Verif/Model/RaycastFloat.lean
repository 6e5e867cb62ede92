import Verif.Model.Raycast
import Verif.Model.Fl
import Verif.Model.IEEE
import Mathlib.Data.Rat.Floor

/-!
Raycasting of one point with the arithmetic left open.

The same algorithm exists three times: `CpuPointCloudVoxelizer::DoRaycastSinglePoint` in `double` and `int64_t`
(cpu_pointcloud_voxelization.cpp:208-436), the CUDA kernel `RaycastPoint` in `float` and `int32_t`
(cuda_voxelization_helpers.cu:73-356) and the OpenCL kernel of the same name in `float` and `int`
(opencl_voxelization_helpers.cc:59-327).  Here every floating-point operation, comparison and conversion is a field of a
structure `Arith`, so that one definition stands for all three, whatever the rounding, contraction or compiler flags.
`none` is undefined behaviour: a conversion to an integer that does not fit or a signed overflow.

At the end of the file are three instances: exact arithmetic, IEEE binary64 with 64-bit indices (CPU) and IEEE binary32
with 32-bit indices (devices).
-/
set_option autoImplicit false

namespace VGT
open VGT.EDT

/-- The operations the raycasting code uses. -/
structure Arith (F : Type) where
  add : F → F → F
  sub : F → F → F
  mul : F → F → F
  div : F → F → F
  abs : F → F
  lt : F → F → Bool
  le : F → F → Bool
  zero : F
  one : F
  half : F
  inf : F
  /-- `flat_threshold` and `nudge`, both written `1e-10` -/
  tiny : F
  ofInt : ℤ → F
  /-- `static_cast<int>(std::floor(x))` -/
  toInt : F → Option ℤ
  /-- the index type has this value -/
  fits : ℤ → Bool

/-- Difference of two integers of the index type; `none`: signed overflow. -/
def Arith.intSub {F : Type} (A : Arith F) (i j : ℤ) : Option ℤ := if A.fits (i - j) then some (i - j) else none

/-- The grid as the raycasting code sees it (device_pointcloud_voxelization.cpp:95-108): numbers of cells, edge of a cell,
its inverse, edges of the grid. -/
structure RayGrid (F : Type) where
  dims : Dims
  cell : F
  inv : F
  size : Fin 3 → F

/-- Collects the three axes. -/
def axes3 (f : Fin 3 → Option ℤ) : Option IVec :=
  (f 0).bind fun x => (f 1).bind fun y => (f 2).map fun z => ![x, y, z]

section
variable {F : Type} (A : Arith F) (g : RayGrid F)

/-- CRU `LocationInGridFrameToGridIndex4d`; cuda_voxelization_helpers.cu:139-144, 228-240,
opencl_voxelization_helpers.cc:118-120, 204-210. -/
def flIndex (p : Fin 3 → F) : Option IVec := axes3 fun a => A.toInt (A.mul (p a) g.inv)

/-- One iteration of the slab loop (cpu_pointcloud_voxelization.cpp:245-285, cuda_voxelization_helpers.cu:177-217,
opencl_voxelization_helpers.cc:153-193); `none`: return. -/
def flSlabAxis (o dir size : F) (st : F × F) : Option (F × F) :=
  if A.lt (A.abs dir) A.tiny then
    if A.le A.zero o && A.lt o size then some st else none
  else
    let ood := A.div A.one dir
    let tlow := A.mul (A.sub A.zero o) ood
    let thigh := A.mul (A.sub size o) ood
    let t1 := if A.le tlow thigh then tlow else thigh
    let t2 := if A.le tlow thigh then thigh else tlow
    let tmin := if A.lt st.1 t1 then t1 else st.1
    let tmax := if A.lt st.2 t2 then t2 else st.2
    if A.lt tmax tmin then none else some (tmin, tmax)

/-- The slab loop (cpu_pointcloud_voxelization.cpp:235-285, cuda_voxelization_helpers.cu:166-217,
opencl_voxelization_helpers.cc:142-193): the final `tmin`. -/
def flSlabs (o dir : Fin 3 → F) (range : F) : Option F :=
  (flSlabAxis A (o 0) (dir 0) (g.size 0) (A.zero, range)).bind fun st0 =>
  (flSlabAxis A (o 1) (dir 1) (g.size 1) st0).bind fun st1 =>
  (flSlabAxis A (o 2) (dir 2) (g.size 2) st1).map Prod.fst

/-- `get_axis_t_value` (cpu_pointcloud_voxelization.cpp:336-354, cuda_voxelization_helpers.cu:52-71,
opencl_voxelization_helpers.cc:39-57). -/
def flAxisT (point ray lo hi : F) : F :=
  if A.lt A.zero ray then A.abs (A.div (A.sub hi point) ray)
  else if A.lt ray A.zero then A.abs (A.div (A.sub point lo) ray)
  else A.inf

/-- `delta_t*` (cpu_pointcloud_voxelization.cpp:363-365, cuda_voxelization_helpers.cu:272-274,
opencl_voxelization_helpers.cc:239-241). -/
def flDeltaT (ray : F) : F := A.abs (A.div g.cell ray)

/-- The axis chosen by the three-way branch (cpu_pointcloud_voxelization.cpp:405, 415, 425,
cuda_voxelization_helpers.cu:325, 335, 345, opencl_voxelization_helpers.cc:296, 306, 316). -/
def flChooseAxis (t : Fin 3 → F) : Fin 3 :=
  if A.le (t 0) (t 1) && A.le (t 0) (t 2) then 0 else if A.le (t 1) (t 0) && A.le (t 1) (t 2) then 1 else 2

/-- The `while` loop (cpu_pointcloud_voxelization.cpp:389-435, cuda_voxelization_helpers.cu:304-355,
opencl_voxelization_helpers.cc:273-326), at most `fuel` iterations (`none`: not finished); the cells it marks
seen-free, in order. -/
def flWalk (d : Dims) (final step : IVec) (delta : Fin 3 → F) : ℕ → IVec → (Fin 3 → F) → Option (List IVec)
  | 0, cur, _ => if cur = final then some [] else none
  | fuel + 1, cur, t =>
    if cur = final then some []
    else if inGrid d cur then
      let a := flChooseAxis A t
      if cur a = final a then some [cur]
      else (flWalk d final step delta fuel (fun b => if b = a then cur a + step a else cur b)
        (fun b => if b = a then A.add (t a) (delta a) else t b)).map fun l => cur :: l
    else some []

/-- `clipped` (cpu_pointcloud_voxelization.cpp:219, cuda_voxelization_helpers.cu:126, opencl_voxelization_helpers.cc:105). -/
def flClipped (len range : F) : Bool := A.lt range len

/-- The range-limited end of the ray (cpu_pointcloud_voxelization.cpp:217-226, cuda_voxelization_helpers.cu:128-136,
opencl_voxelization_helpers.cc:107-115). -/
def flFinalPoint (o p : Fin 3 → F) (len range : F) : Fin 3 → F :=
  if flClipped A len range then fun a => A.add (o a) (A.mul (A.sub (p a) (o a)) (A.div range len)) else p

/-- Number of iterations after which the loop has reached the final cell. -/
def walkFuel (f i : IVec) : ℕ := (f 0 - i 0).natAbs + (f 1 - i 1).natAbs + (f 2 - i 2).natAbs

/-- Steps 3 - 6 and the loop (cpu_pointcloud_voxelization.cpp:292-435, cuda_voxelization_helpers.cu:227-355,
opencl_voxelization_helpers.cc:203-326) from a given start point. -/
def flCastFrom (start final ray : Fin 3 → F) (clip : Bool) : Option (List Mark) :=
  (flIndex A g start).bind fun i =>
  (flIndex A g final).bind fun f =>
  (axes3 fun a => A.intSub (f a) (i a)).bind fun diff =>
    let center : Fin 3 → F := fun a => A.mul (A.add (A.ofInt (i a)) A.half) g.cell
    let h := A.mul g.cell A.half
    let t : Fin 3 → F := fun a => flAxisT A (start a) (ray a) (A.sub (center a) h) (A.add (center a) h)
    let finalMark := if inGrid g.dims f then [if clip then Mark.free f else Mark.filled f] else []
    (flWalk A g.dims f (fun a => stepFromDiff (diff a)) (fun a => flDeltaT A g (ray a)) (walkFuel f i) i t).map
      fun l => finalMark ++ l.map Mark.free

/-- The start of the ray (cpu_pointcloud_voxelization.cpp:228-290, cuda_voxelization_helpers.cu:138-225,
opencl_voxelization_helpers.cc:117-201); `some none`: return without a mark. -/
def flStart (o ray : Fin 3 → F) (len range : F) : Option (Option (Fin 3 → F)) :=
  (flIndex A g o).map fun i =>
    if inGrid g.dims i then some o
    else
      (flSlabs A g o (fun a => A.div (ray a) len) range).map fun tmin =>
        fun a => A.add (o a) (A.mul (A.div (ray a) len) (A.add tmin A.tiny))

/-- `ray_length` (cpu_pointcloud_voxelization.cpp:217-218, cuda_voxelization_helpers.cu:122-125,
opencl_voxelization_helpers.cc:101-104); the order of the additions of Eigen's `norm` may differ. -/
def flLength (sqrt : F → F) (o p : Fin 3 → F) : F :=
  let ray : Fin 3 → F := fun a => A.sub (p a) (o a)
  sqrt (A.add (A.add (A.mul (ray 0) (ray 0)) (A.mul (ray 1) (ray 1))) (A.mul (ray 2) (ray 2)))

/-- The whole function (cpu_pointcloud_voxelization.cpp:208-436, cuda_voxelization_helpers.cu:116-355,
opencl_voxelization_helpers.cc:95-326) with sensor origin `o` and point `p` in grid frame; `len` is the computed length of
the ray (`flLength`); the marks in the order they are made, `none` for undefined behaviour. -/
def flRaycast (o p : Fin 3 → F) (len range : F) : Option (List Mark) :=
  let ray : Fin 3 → F := fun a => A.sub (p a) (o a)
  match flStart A g o ray len range with
  | none => none
  | some none => some []
  | some (some start) => flCastFrom A g start (flFinalPoint A o p len range) ray (flClipped A len range)

end

/-! ### Instances -/

namespace Fl

/-- `a + b` with the exact sum of finite numbers passed through `r`. -/
def addR (r : ℚ → Fl) : Fl → Fl → Fl
  | fin a, fin b => r (a + b)
  | a, b => add id a b

/-- `a - b`. -/
def subR (r : ℚ → Fl) : Fl → Fl → Fl
  | fin a, fin b => r (a - b)
  | a, b => sub id a b

/-- Sign of a number that is not NaN. -/
def sgn : Fl → ℤ
  | nan => 0
  | ninf => -1
  | pinf => 1
  | fin q => if 0 < q then 1 else if q < 0 then -1 else 0

/-- IEEE `a * b`; infinity times zero is NaN. -/
def mulR (r : ℚ → Fl) : Fl → Fl → Fl
  | fin a, fin b => r (a * b)
  | nan, _ => nan
  | _, nan => nan
  | a, b => if sgn a * sgn b > 0 then pinf else if sgn a * sgn b < 0 then ninf else nan

/-- IEEE `a / b` (unsigned zero: `x / 0` takes the sign of `x`). -/
def divR (r : ℚ → Fl) : Fl → Fl → Fl
  | fin a, fin b => if b = 0 then div id (fin a) (fin b) else r (a / b)
  | a, b => div id a b

/-- `std::abs`. -/
def absF : Fl → Fl
  | fin q => fin |q|
  | ninf => pinf
  | x => x

/-- `std::floor` and conversion to a signed integer of `bits` bits. -/
def floorInt (bits : ℕ) : Fl → Option ℤ
  | fin q => if -2 ^ (bits - 1) ≤ ⌊q⌋ ∧ ⌊q⌋ < 2 ^ (bits - 1) then some ⌊q⌋ else none
  | _ => none

end Fl

/-- Rounding result `x`, infinite if the magnitude is above `max`. -/
def saturate (max x : ℚ) : Fl := if x > max then .pinf else if x < -max then .ninf else .fin x

/-- IEEE arithmetic with the rounding `r` and indices of `bits` bits. -/
def ieee (r : ℚ → Fl) (bits : ℕ) : Arith Fl where
  add := Fl.addR r
  sub := Fl.subR r
  mul := Fl.mulR r
  div := Fl.divR r
  abs := Fl.absF
  lt := Fl.lt
  le := Fl.le
  zero := .fin 0
  one := .fin 1
  half := .fin (1 / 2)
  inf := .pinf
  tiny := r (1 / 10 ^ 10)
  ofInt := fun i => r i
  toInt := Fl.floorInt bits
  fits := fun i => decide (-2 ^ (bits - 1) ≤ i ∧ i < 2 ^ (bits - 1))

/-- The CPU: `double` and `int64_t`. -/
def double64 : Arith Fl := ieee (fun q => saturate ((2 - 1 / 2 ^ 52) * 2 ^ 1023) (roundDouble q)) 64

/-- The devices: `float` and 32-bit `int`. -/
def float32 : Arith Fl := ieee (fun q => saturate ((2 - 1 / 2 ^ 23) * 2 ^ 127) (roundFloat q)) 32

/-- Exact arithmetic without limits. -/
def exactArith : Arith Fl where
  __ := ieee Fl.fin 0
  toInt := fun
    | .fin q => some ⌊q⌋
    | _ => none
  fits := fun _ => true

end VGT
