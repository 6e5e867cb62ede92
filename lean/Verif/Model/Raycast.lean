import Verif.Model.Cells
import Mathlib.Algebra.Order.Field.Basic
import Mathlib.Algebra.Order.Floor.Ring
import Mathlib.Algebra.Order.Monoid.WithTop
import Mathlib.Data.Fin.VecNotation
import Mathlib.Data.Fintype.Pi

/-!
Raycasting of one point: `CpuPointCloudVoxelizer::DoRaycastSinglePoint`
(cpu_pointcloud_voxelization.cpp:208-436).  The CUDA kernel `RaycastPoint`
(cuda_voxelization_helpers.cu:72-356) and the OpenCL kernel (opencl_voxelization_helpers.cc:59-328) are the same
algorithm in `float`, with the index test written out.

Simplification: exact arithmetic in an ordered field `K` instead of `double`; the norm of the ray is a parameter `L`.
Vectors and indices are functions of the axis.  `none` is undefined behaviour (conversion of NaN to an integer),
which in exact arithmetic can only come from a ray of length zero.
-/
set_option autoImplicit false

namespace VGT
open VGT.EDT

/-- A point or vector in grid frame. -/
abbrev Vec (K : Type) := Fin 3 → K
/-- A grid index. -/
abbrev IVec := Fin 3 → ℤ

/-- The index as CRU `GridIndex`. -/
def IVec.toIdx (i : IVec) : ZIdx := (i 0, i 1, i 2)

/-- CRU `CheckGridIndexInBounds`. -/
def inGrid (d : Dims) (i : IVec) : Bool :=
  decide (0 ≤ i 0 ∧ i 0 < d.nx ∧ 0 ≤ i 1 ∧ i 1 < d.ny ∧ 0 ≤ i 2 ∧ i 2 < d.nz)

/-- Number of cells along an axis. -/
def axisCells (d : Dims) (a : Fin 3) : Nat := ![d.nx, d.ny, d.nz] a

/-- One `fetch_add(1)` on the tracking grid. -/
inductive Mark where
  | free (i : IVec)
  | filled (i : IVec)

instance : DecidableEq Mark
  | .free i, .free j => decidable_of_iff (i = j) (by simp)
  | .filled i, .filled j => decidable_of_iff (i = j) (by simp)
  | .free _, .filled _ => isFalse (by simp)
  | .filled _, .free _ => isFalse (by simp)

/-- The cell a mark is put on. -/
def Mark.cell : Mark → IVec
  | free i => i
  | filled i => i

section
variable {K : Type} [Field K] [LinearOrder K] [IsStrictOrderedRing K] [FloorRing K]

/-- CRU `LocationInGridFrameToGridIndex4d`: floor of coordinate / cell size. -/
def cellOf (s : K) (p : Vec K) : IVec := fun a => ⌊p a / s⌋

/-- `flat_threshold` and `nudge` (cpu_pointcloud_voxelization.cpp:243, 288). -/
def tenth10 : K := 1 / 10 ^ 10

/-- One iteration of the slab loop (cpu_pointcloud_voxelization.cpp:245-285); `none`: return. -/
def slabAxis (o dir size : K) (st : K × WithTop K) : Option (K × WithTop K) :=
  if |dir| < tenth10 then
    if 0 ≤ o ∧ o < size then some st else none
  else
    let ood := 1 / dir
    let tlow := (0 - o) * ood
    let thigh := (size - o) * ood
    let t1 := if tlow ≤ thigh then tlow else thigh
    let t2 := if tlow ≤ thigh then thigh else tlow
    let tmin := if t1 > st.1 then t1 else st.1
    let tmax : WithTop K := if (t2 : WithTop K) > st.2 then (t2 : WithTop K) else st.2
    if (tmin : WithTop K) > tmax then none else some (tmin, tmax)

/-- The slab loop over the three axes (cpu_pointcloud_voxelization.cpp:235-285): the final `tmin`. -/
def slabs (d : Dims) (s : K) (o dir : Vec K) (range : WithTop K) : Option K :=
  (slabAxis (o 0) (dir 0) (d.nx * s) (0, range)).bind fun st0 =>
  (slabAxis (o 1) (dir 1) (d.ny * s) st0).bind fun st1 =>
  (slabAxis (o 2) (dir 2) (d.nz * s) st1).map Prod.fst

/-- `get_axis_t_value` (cpu_pointcloud_voxelization.cpp:336-354). -/
def axisT (point ray lo hi : K) : WithTop K :=
  if ray > 0 then ((|(hi - point) / ray| : K) : WithTop K)
  else if ray < 0 then ((|(point - lo) / ray| : K) : WithTop K)
  else ⊤

/-- `delta_t*` (cpu_pointcloud_voxelization.cpp:363-365); division by zero gives infinity. -/
def deltaT (s ray : K) : WithTop K := if ray = 0 then ⊤ else ((|s / ray| : K) : WithTop K)

/-- `step_from_diff` (cpu_pointcloud_voxelization.cpp:300-314). -/
def stepFromDiff (diff : ℤ) : ℤ := if diff > 0 then 1 else if diff < 0 then -1 else 0

/-- The axis chosen by the three-way branch (cpu_pointcloud_voxelization.cpp:405, 415, 425). -/
def chooseAxis (t : Fin 3 → WithTop K) : Fin 3 :=
  if t 0 ≤ t 1 ∧ t 0 ≤ t 2 then 0 else if t 1 ≤ t 0 ∧ t 1 ≤ t 2 then 1 else 2

/-- The `while` loop (cpu_pointcloud_voxelization.cpp:389-435), at most `fuel` iterations (`none`: not finished);
the cells it marks seen-free, in order. -/
def walk (d : Dims) (final step : IVec) (delta : Fin 3 → WithTop K) :
    Nat → IVec → (Fin 3 → WithTop K) → Option (List IVec)
  | 0, cur, _ => if cur = final then some [] else none
  | fuel + 1, cur, t =>
    if cur = final then some []
    else if inGrid d cur then
      let a := chooseAxis t
      if cur a = final a then some [cur]
      else (walk d final step delta fuel (Function.update cur a (cur a + step a)) (Function.update t a (t a + delta a))).map
        fun l => cur :: l
    else some []

/-- The range-limited end of the ray (cpu_pointcloud_voxelization.cpp:217-226). -/
def finalPoint (o p : Vec K) (L : K) (range : WithTop K) : Vec K :=
  match range with
  | some r => if r < L then fun a => o a + (p a - o a) * (r / L) else p
  | none => p

/-- `clipped` (cpu_pointcloud_voxelization.cpp:219). -/
def clipped (L : K) (range : WithTop K) : Bool := decide (range < (L : WithTop K))

/-- Steps 3 - 6 and the loop (cpu_pointcloud_voxelization.cpp:292-435) from a given start point. -/
def castFrom (d : Dims) (s : K) (start final ray : Vec K) (clip : Bool) : Option (List Mark) :=
  let i := cellOf s start
  let f := cellOf s final
  let lo : Vec K := fun a => ((i a : K) + 1 / 2) * s - s * (1 / 2)
  let hi : Vec K := fun a => ((i a : K) + 1 / 2) * s + s * (1 / 2)
  let t : Fin 3 → WithTop K := fun a => axisT (start a) (ray a) (lo a) (hi a)
  let fuel := (f 0 - i 0).natAbs + (f 1 - i 1).natAbs + (f 2 - i 2).natAbs
  let finalMark := if inGrid d f then [if clip then Mark.free f else Mark.filled f] else []
  (walk d f (fun a => stepFromDiff (f a - i a)) (fun a => deltaT s (ray a)) fuel i t).map
    fun l => finalMark ++ l.map Mark.free

/-- `DoRaycastSinglePoint` (cpu_pointcloud_voxelization.cpp:208-436) with sensor origin `o`, point `p`,
`L` the length of `p - o`; the marks in the order they are made, `none` for undefined behaviour. -/
def raycast (d : Dims) (s : K) (o p : Vec K) (L : K) (range : WithTop K) : Option (List Mark) :=
  let ray : Vec K := fun a => p a - o a
  let clip := clipped L range
  let final := finalPoint o p L range
  if inGrid d (cellOf s o) then
    if L = 0 ∧ clip then none -- 0 * (max_range / 0) is NaN
    else castFrom d s o final ray clip
  else if L = 0 then
    if range < 0 then some [] else none -- direction is NaN
  else
    match slabs d s o (fun a => ray a / L) range with
    | none => some []
    | some tmin => castFrom d s (fun a => o a + ray a / L * (tmin + tenth10)) final ray clip

end

end VGT
