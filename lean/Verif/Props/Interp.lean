import Verif.Lemmas.Interp
import Verif.Lemmas.Raycast
import Verif.Spec.Interp
import Verif.Spec.Ray
import Verif.Props.SDFGen
import Mathlib.Topology.Algebra.Ring.Real
import Mathlib.Topology.Algebra.Order.Field
import Mathlib.Topology.Order.Lattice
import Mathlib.Topology.Constructions
import Mathlib.Topology.Algebra.Monoid

/-!
C15 (interpolated distance: defined exactly in the grid, right at cell centres, between neighbours),
C16 (continuity), C52 (exact distance to a flat wall).
-/
set_option autoImplicit false

namespace VGT
open VGT.EDT VGT.Spec

section
variable {K : Type} [Field K] [LinearOrder K] [IsStrictOrderedRing K] [FloorRing K]

theorem applyInv_frame {P : Pose K} (hP : Orthogonal P.R) {q p : Vec K} (h : InFrame P.R P.t q p) :
    (P.applyInv (point4 p)).v = q := by
  have : point4 p = P.apply (point4 q) := by
    unfold Pose.apply point4
    rw [Vec4.mk.injEq]
    refine ⟨funext fun a => ?_, rfl⟩
    rw [h a]; simp
  rw [this, applyInv_apply P hP]; rfl

theorem inGridBox_iff {d : Dims} {s : K} (hs : 0 < s) (q : Vec K) :
    inGrid d (cellOf s q) = true ↔ InGridBox (axisCells d) s q := by
  rw [inGrid_axis]
  unfold InGridBox cellOf
  refine forall_congr' fun a => ?_
  rw [Int.floor_nonneg, le_div_iff₀ hs, zero_mul, Int.floor_lt, div_lt_iff₀ hs]
  push_cast
  rfl

theorem floor_axis {d : Dims} {s : K} (hs : 0 < s) {q : Vec K} (h : InGridBox (axisCells d) s q) (a : Fin 3) :
    0 ≤ ⌊q a / s⌋ ∧ ⌊q a / s⌋ < axisCells d a := inGrid_axis.1 ((inGridBox_iff hs q).2 h) a

theorem estimate_in {g : SDFGrid K} (hs : 0 < g.s) (hP : Orthogonal g.pose.R) {q p : Vec K}
    (hq : InFrame g.pose.R g.pose.t q p) (h : InGridBox (axisCells g.dims) g.s q) :
    g.estimate (point4 p) = some (some (interp1 g.s (q 2) g.dims.nz fun z =>
      interp1 g.s (q 1) g.dims.ny fun y => interp1 g.s (q 0) g.dims.nx fun x => g.cval x y z)) := by
  have e := applyInv_frame hP hq
  rw [estimate_eq g hs, e]
  unfold SDFGrid.indexOf
  rw [e]
  exact (inGridBox_iff hs q).2 h

/-- C15. The interpolated distance exists exactly for locations in the grid, and computing it never reads outside
the grid (which would throw). -/
theorem C15_defined_in_grid {g : SDFGrid K} (hs : 0 < g.s) (hP : Orthogonal g.pose.R) {q p : Vec K}
    (hq : InFrame g.pose.R g.pose.t q p) :
    (InGridBox (axisCells g.dims) g.s q → ∃ v, g.estimate (point4 p) = some (some v)) ∧
    (¬ InGridBox (axisCells g.dims) g.s q → g.estimate (point4 p) = some none) := by
  constructor
  · exact fun h => ⟨_, estimate_in hs hP hq h⟩
  · intro h
    apply estimate_out
    rw [Bool.eq_false_iff]
    intro h'
    apply h
    unfold SDFGrid.indexOf at h'
    rw [applyInv_frame hP hq] at h'
    exact (inGridBox_iff hs q).1 h'

/-- C15. At a cell centre the estimate is exactly that cell's distance to the boundary. -/
theorem C15_centre_value {g : SDFGrid K} (hs : 0 < g.s) (hP : Orthogonal g.pose.R) {c : IVec} {p : Vec K}
    (hc : CellInGrid (axisCells g.dims) c) (hq : InFrame g.pose.R g.pose.t (cellCentre g.s c) p) :
    g.estimate (point4 p) = some (some (boundaryDist g.s (g.data ((c 0).toNat, (c 1).toNat, (c 2).toNat)))) := by
  have hcc : ∀ a, cellCentre g.s c a = ((c a : K) + 1 / 2) * g.s := fun a => by unfold cellCentre; ring
  have hbox : InGridBox (axisCells g.dims) g.s (cellCentre g.s c) := by
    intro a
    rw [hcc a]
    have h0 : (0 : K) ≤ c a := by exact_mod_cast (hc a).1
    have h1 : (c a : K) + 1 ≤ axisCells g.dims a := by exact_mod_cast (hc a).2
    constructor
    · positivity
    · nlinarith
  rw [estimate_in hs hP hq hbox]
  rw [hcc 0, hcc 1, hcc 2]
  rw [interp1_centre _ hs g.dims.nz _ (hc 2).1 (hc 2).2, interp1_centre _ hs g.dims.ny _ (hc 1).1 (hc 1).2,
    interp1_centre _ hs g.dims.nx _ (hc 0).1 (hc 0).2]
  rfl

/-- The index overload: querying a cell by index gives that cell's distance to the boundary. -/
theorem C15_index_value {g : SDFGrid K} (hs : 0 < g.s) (hP : Orthogonal g.pose.R) {c : IVec}
    (hc : CellInGrid (axisCells g.dims) c) :
    g.estimateIndex c = some (some (boundaryDist g.s (g.data ((c 0).toNat, (c 1).toNat, (c 2).toNat)))) := by
  unfold SDFGrid.estimateIndex SDFGrid.location
  refine C15_centre_value hs hP hc (p := (g.pose.apply (point4 (centre g.s c))).v) ?_
  intro a
  have hcc : ∀ a, cellCentre g.s c a = ((c a : K) + 1 / 2) * g.s := fun a => by unfold cellCentre; ring
  unfold Pose.apply point4 centre
  simp only [hcc, mul_one]

/-- C15, partial: the estimate lies between the values of the cells whose centres are within one cell size on every
axis, for locations between the outermost cell centres (or on an axis with a single cell).
Missing for the full claim: the outer half-cell layer of the grid, where the code extrapolates and the claim is false
(`C15_extrapolates`). -/
theorem C15_between_neighbours_partial {g : SDFGrid K} (hs : 0 < g.s) (hP : Orthogonal g.pose.R) {q p : Vec K}
    (hq : InFrame g.pose.R g.pose.t q p) (hbox : InGridBox (axisCells g.dims) g.s q)
    (hin : ∀ a, axisCells g.dims a = 1 ∨ (g.s / 2 ≤ q a ∧ q a ≤ (axisCells g.dims a : K) * g.s - g.s / 2))
    {lo hi : K}
    (hnear : ∀ c, CellInGrid (axisCells g.dims) c → (∀ a, |cellCentre g.s c a - q a| ≤ g.s) →
      lo ≤ boundaryDist g.s (g.data ((c 0).toNat, (c 1).toNat, (c 2).toNat)) ∧
      boundaryDist g.s (g.data ((c 0).toNat, (c 1).toNat, (c 2).toNat)) ≤ hi) :
    ∃ v, g.estimate (point4 p) = some (some v) ∧ lo ≤ v ∧ v ≤ hi := by
  refine ⟨_, estimate_in hs hP hq hbox, ?_⟩
  have hin' : ∀ a, axisCells g.dims a = 1 ∨ (g.s / 2 ≤ q a ∧ q a ≤ ((axisCells g.dims a : K) - 1 / 2) * g.s) := by
    intro a
    rcases hin a with h | h
    · exact Or.inl h
    · exact Or.inr ⟨h.1, by linarith [h.2]⟩
  have hf := fun a => floor_axis hs hbox a
  apply interp1_between _ _ hs _ (hf 2).1 (hf 2).2 _ _ _ (hin' 2)
  intro z hz0 hz1 hz
  apply interp1_between _ _ hs _ (hf 1).1 (hf 1).2 _ _ _ (hin' 1)
  intro y hy0 hy1 hy
  apply interp1_between _ _ hs _ (hf 0).1 (hf 0).2 _ _ _ (hin' 0)
  intro x hx0 hx1 hx
  have hcc : ∀ (c : IVec) a, cellCentre g.s c a = ((c a : K) + 1 / 2) * g.s := fun c a => by unfold cellCentre; ring
  refine hnear ![x, y, z] ?_ ?_
  · intro a; fin_cases a
    · exact ⟨hx0, hx1⟩
    · exact ⟨hy0, hy1⟩
    · exact ⟨hz0, hz1⟩
  · intro a
    rw [hcc]
    fin_cases a
    · exact hx
    · exact hy
    · exact hz

/-- Affine data are reproduced exactly. -/
theorem estimate_affine {g : SDFGrid K} (hs : 0 < g.s) (hP : Orthogonal g.pose.R) {q p : Vec K}
    (hq : InFrame g.pose.R g.pose.t q p) (hbox : InGridBox (axisCells g.dims) g.s q) {c0 : K} {m : Vec K}
    (hm : ∀ a, axisCells g.dims a = 1 → m a = 0)
    (hdata : ∀ c, CellInGrid (axisCells g.dims) c →
      boundaryDist g.s (g.data ((c 0).toNat, (c 1).toNat, (c 2).toNat)) =
        c0 + m 0 * cellCentre g.s c 0 + m 1 * cellCentre g.s c 1 + m 2 * cellCentre g.s c 2) :
    g.estimate (point4 p) = some (some (c0 + m 0 * q 0 + m 1 * q 1 + m 2 * q 2)) := by
  rw [estimate_in hs hP hq hbox]
  have hf := fun a => floor_axis hs hbox a
  have hcc : ∀ (c : IVec) a, cellCentre g.s c a = ((c a : K) + 1 / 2) * g.s := fun c a => by unfold cellCentre; ring
  have hx : ∀ y z : ℤ, 0 ≤ y → y < g.dims.ny → 0 ≤ z → z < g.dims.nz →
      interp1 g.s (q 0) g.dims.nx (fun x => g.cval x y z) =
        (c0 + m 1 * (((y : K) + 1 / 2) * g.s) + m 2 * (((z : K) + 1 / 2) * g.s)) + m 0 * q 0 := by
    intro y z hy0 hy1 hz0 hz1
    apply interp1_affine _ _ hs _ (hf 0).1 (hf 0).2 _ _ _ (hm 0)
    intro x hx0 hx1
    have := hdata ![x, y, z] (by
      intro a; fin_cases a
      · exact ⟨hx0, hx1⟩
      · exact ⟨hy0, hy1⟩
      · exact ⟨hz0, hz1⟩)
    simp only [hcc, Matrix.cons_val_zero, Matrix.cons_val_one, Matrix.cons_val] at this
    unfold SDFGrid.cval
    unfold boundaryDist at this
    rw [this]; ring
  have hy : ∀ z : ℤ, 0 ≤ z → z < g.dims.nz →
      interp1 g.s (q 1) g.dims.ny (fun y => interp1 g.s (q 0) g.dims.nx fun x => g.cval x y z) =
        (c0 + m 2 * (((z : K) + 1 / 2) * g.s) + m 0 * q 0) + m 1 * q 1 := by
    intro z hz0 hz1
    apply interp1_affine _ _ hs _ (hf 1).1 (hf 1).2 _ _ _ (hm 1)
    intro y hy0 hy1
    rw [hx y z hy0 hy1 hz0 hz1]; ring
  rw [interp1_affine g.s (q 2) hs g.dims.nz (hf 2).1 (hf 2).2 _ (c0 + m 0 * q 0 + m 1 * q 1) (m 2) (hm 2)]
  intro z hz0 hz1
  rw [hy z hz0 hz1]; ring

end

/-! ### Concrete cases -/

/-- A rotated and shifted 3×2×1 field with cells of edge 1/2. -/
def exSDF : SDFGrid ℚ where
  dims := ⟨3, 2, 1⟩
  s := 1 / 2
  pose := ⟨![![0, -1, 0], ![1, 0, 0], ![0, 0, 1]], ![10, 20, 30]⟩
  data := fun i => if i = (0, 0, 0) then -(1 / 2) else if i = (1, 0, 0) then 1 / 2 else 3 / 4

theorem exSDF_orth : Orthogonal exSDF.pose.R := by
  unfold Orthogonal exSDF
  decide +kernel

/-- Cell (1,1,0) is centred at grid-frame (3/4, 3/4, 1/4), world (37/4, 83/4, 121/4). -/
example : exSDF.estimate (point4 ![37 / 4, 83 / 4, 121 / 4]) = some (some (1 / 2)) := by
  have h := C15_centre_value (g := exSDF) (by decide +kernel) exSDF_orth (c := ![1, 1, 0]) (p := ![37 / 4, 83 / 4, 121 / 4])
    (by unfold CellInGrid; decide +kernel) (by unfold InFrame; decide +kernel)
  rw [h]
  decide +kernel

/-- Half way between the centres of a filled and a free cell the estimate is zero; outside the grid it is empty. -/
example : exSDF.estimate (exSDF.pose.apply (point4 ![1 / 2, 1 / 4, 1 / 4])) = some (some 0) ∧
    exSDF.estimate (exSDF.pose.apply (point4 ![3 / 2, 1 / 4, 1 / 4])) = some none := by decide +kernel

/-- The hypotheses of the partial theorem at a point between the centres. -/
example : InGridBox (axisCells exSDF.dims) exSDF.s ![1 / 2, 1 / 2, 1 / 8] ∧
    (∀ a, axisCells exSDF.dims a = 1 ∨ (exSDF.s / 2 ≤ (![1 / 2, 1 / 2, 1 / 8] : Vec ℚ) a ∧
      (![1 / 2, 1 / 2, 1 / 8] : Vec ℚ) a ≤ (axisCells exSDF.dims a : ℚ) * exSDF.s - exSDF.s / 2)) := by
  unfold InGridBox
  decide +kernel

/-- C15, negative part: in the outer half-cell layer the code extrapolates.  In a 2×1×1 grid with stored distances
1 and 2 (corrected 1/2 and 3/2) the estimate at x = 1/10 is 1/10, below every corrected value. -/
theorem C15_extrapolates :
    ∃ (g : SDFGrid ℚ) (p : Vec ℚ) (v : ℚ), 0 < g.s ∧ Orthogonal g.pose.R ∧ InFrame g.pose.R g.pose.t p p ∧
      InGridBox (axisCells g.dims) g.s p ∧ g.estimate (point4 p) = some (some v) ∧
      ∀ c, CellInGrid (axisCells g.dims) c →
        v < boundaryDist g.s (g.data ((c 0).toNat, (c 1).toNat, (c 2).toNat)) := by
  refine ⟨⟨⟨2, 1, 1⟩, 1, ⟨![![1, 0, 0], ![0, 1, 0], ![0, 0, 1]], ![0, 0, 0]⟩, fun i => if i = (0, 0, 0) then 1 else 2⟩,
    ![1 / 10, 1 / 2, 1 / 2], 1 / 10, by decide +kernel, by unfold Orthogonal; decide +kernel,
    by unfold InFrame; decide +kernel, by unfold InGridBox; decide +kernel, by decide +kernel, ?_⟩
  intro c _
  unfold boundaryDist
  dsimp only
  split_ifs with h1 h2
  all_goals norm_num

/-! ### C16 -/

/-- Hinge functions depend linearly on their data, so continuity survives data that vary continuously. -/
theorem hinge_continuous_param {X : Type} [TopologicalSpace X] (F : ℤ → X → ℝ) (hF : ∀ k, Continuous (F k)) {u : X → ℝ}
    (hu : Continuous u) (m : ℕ) : Continuous fun x => hinge (fun k => F k x) m (u x) := by
  induction m with
  | zero =>
    unfold hinge
    exact (hF 0).add (hu.mul ((hF 1).sub (hF 0)))
  | succ m ih =>
    unfold hinge
    refine ih.add (((continuous_const.max (hu.sub continuous_const))).mul ?_)
    exact (((hF _).sub (continuous_const.mul (hF _))).add (hF _))

/-- C16. The interpolated distance is the restriction to the grid of one function that is continuous on all of space;
in particular it has no jump where the interpolating cells change. -/
theorem C16_estimate_continuous (g : SDFGrid ℝ) (hs : 0 < g.s) (hP : Orthogonal g.pose.R) :
    ∃ F : Vec ℝ → ℝ, Continuous F ∧ ∀ q p, InFrame g.pose.R g.pose.t q p → InGridBox (axisCells g.dims) g.s q →
      g.estimate (point4 p) = some (some (F p)) := by
  let Q : Fin 3 → Vec ℝ → ℝ := fun a p => (g.pose.applyInv (point4 p)).v a
  have hQ : ∀ a, Continuous (Q a) := by
    intro a
    simp only [Q, Pose.applyInv, point4]
    fun_prop
  let ax : ℕ → (ℤ → Vec ℝ → ℝ) → Fin 3 → Vec ℝ → ℝ := fun n F a p =>
    if n = 1 then F 0 p else hinge (fun k => F k p) (n - 2) (Q a p / g.s - 1 / 2)
  have hax : ∀ n F a, (∀ k, Continuous (F k)) → Continuous (ax n F a) := by
    intro n F a hF
    simp only [ax]
    split_ifs
    · exact hF 0
    · exact hinge_continuous_param F hF (((hQ a).div_const _).sub continuous_const) _
  refine ⟨ax g.dims.nz (fun z => ax g.dims.ny (fun y => ax g.dims.nx (fun x _ => g.cval x y z) 0) 1) 2, ?_, ?_⟩
  · exact hax _ _ _ fun z => hax _ _ _ fun y => hax _ _ _ fun x => continuous_const
  · intro q p hq hbox
    have hf := fun a => floor_axis hs hbox a
    have hQq : ∀ a, Q a p = q a := fun a => congrFun (applyInv_frame hP hq) a
    rw [estimate_in hs hP hq hbox]
    simp only [ax, hQq]
    rw [interp1_hinge _ _ hs g.dims.nz (hf 2).1 (hf 2).2]
    simp only [interp1_hinge _ _ hs g.dims.ny (hf 1).1 (hf 1).2, interp1_hinge _ _ hs g.dims.nx (hf 0).1 (hf 0).2]

/-- Concrete case: a grid rotated by the angle with cosine 3/5, three cells along x. -/
example : ∃ F : Vec ℝ → ℝ, Continuous F ∧ ∀ q p, InFrame ![![3 / 5, -(4 / 5), 0], ![4 / 5, 3 / 5, 0], ![0, 0, 1]] ![1, 2, 3] q p →
    InGridBox (axisCells ⟨3, 1, 1⟩) (1 / 10 : ℝ) q →
    (SDFGrid.mk ⟨3, 1, 1⟩ (1 / 10) ⟨![![3 / 5, -(4 / 5), 0], ![4 / 5, 3 / 5, 0], ![0, 0, 1]], ![1, 2, 3]⟩
      fun i => (i.1 : ℝ) ^ 2).estimate (point4 p) = some (some (F p)) :=
  C16_estimate_continuous (SDFGrid.mk ⟨3, 1, 1⟩ (1 / 10) ⟨![![3 / 5, -(4 / 5), 0], ![4 / 5, 3 / 5, 0], ![0, 0, 1]], ![1, 2, 3]⟩
      fun i => (i.1 : ℝ) ^ 2) (by norm_num)
    (by constructor <;> intro a b <;> fin_cases a <;> fin_cases b <;> (simp; try norm_num))

/-! ### C52 -/

/-- Coordinate `a` of a cell. -/
def cellCoord (i : Idx) (a : Fin 3) : ℕ := ![i.1, i.2.1, i.2.2] a

theorem sqd_le_sq3 (i p : Idx) (a : Fin 3) : sqd (cellCoord i a) (cellCoord p a) ≤ sq3 i p := by
  unfold sq3 cellCoord
  fin_cases a <;> simp <;> omega

/-- The cell with coordinate `a` replaced. -/
def cellWith (i : Idx) (a : Fin 3) (k : ℕ) : Idx := ![(k, i.2.1, i.2.2), (i.1, k, i.2.2), (i.1, i.2.1, k)] a

theorem cellWith_coord (i : Idx) (a : Fin 3) (k : ℕ) : cellCoord (cellWith i a k) a = k := by
  unfold cellWith cellCoord
  fin_cases a <;> rfl

theorem cellWith_sq3 (i : Idx) (a : Fin 3) (k : ℕ) : sq3 i (cellWith i a k) = sqd (cellCoord i a) k := by
  unfold cellWith cellCoord sq3 sqd
  fin_cases a <;> simp

theorem cellWith_in {d : Dims} {i : Idx} (hi : d.In i) {a : Fin 3} {k : ℕ} (hk : k < axisCells d a) :
    d.In (cellWith i a k) := by
  unfold cellWith Dims.In axisCells at *
  fin_cases a
  · exact ⟨hk, hi.2.1, hi.2.2⟩
  · exact ⟨hi.1, hk, hi.2.2⟩
  · exact ⟨hi.1, hi.2.1, hk⟩

theorem coord_lt {d : Dims} {i : Idx} (hi : d.In i) (a : Fin 3) : cellCoord i a < axisCells d a := by
  unfold cellCoord Dims.In axisCells at *
  fin_cases a
  · exact hi.1
  · exact hi.2.1
  · exact hi.2.2

theorem sqrt_sqd (a b : ℕ) : Real.sqrt (sqd a b : ℕ) = |(a : ℝ) - b| := by
  have : ((sqd a b : ℕ) : ℝ) = ((a : ℝ) - b) ^ 2 := by
    unfold sqd
    rw [Nat.cast_pow, Nat.cast_natAbs, Int.cast_abs, sq_abs]
    push_cast; ring
  rw [this, Real.sqrt_sq_eq_abs]

/-- C52. End to end for a flat wall: if the cells below layer `m` of axis `a` are filled and the others free, the SDF
is generated by the library and queried by interpolation, then the estimate at every location in the grid is exactly
the signed distance to the face of the wall.  (Exact arithmetic after the distance transform.) -/
theorem C52_flat_wall_exact {ro : Rounding} {d : Dims} {g : SDFGrid ℝ} {a : Fin 3} {m : ℕ}
    (hq : IsDoubleRounding ro.rq) (hr : ro.rr = id) (hc : ro.cast = id) (hs : 0 < g.s) (hd : Fits d)
    (hm0 : 0 < m) (hm1 : m < axisCells d a) {isFilled : ZIdx → Option Bool}
    (hf : ∀ i, d.In i → isFilled (toZ i) = some (decide (cellCoord i a < m))) {oob : Rl} {out : Idx → Rl}
    (hrun : GenRuns ro d g.s isFilled oob (some out)) (hdims : g.dims = d) (hdata : ∀ i, d.In i → out i = .fin (g.data i))
    (hP : Orthogonal g.pose.R) {q p : Vec ℝ} (hfr : InFrame g.pose.R g.pose.t q p)
    (hbox : InGridBox (axisCells d) g.s q) :
    g.estimate (point4 p) = some (some (q a - m * g.s)) := by
  subst hdims
  obtain ⟨out', ho, h⟩ := C01_sdf_exact_real hq hr hc hs hd hf hrun
  cases ho
  have hval : ∀ i, g.dims.In i → boundaryDist g.s (g.data i) = ((cellCoord i a : ℝ) + 1 / 2) * g.s - m * g.s := by
    intro i hi
    obtain ⟨hfree, hfill⟩ := h i hi
    rw [hdata i hi] at hfree hfill
    unfold boundaryDist
    rcases Nat.lt_or_ge (cellCoord i a) m with hlt | hge
    · rcases hfill (by simpa using hlt) with ⟨hall, _⟩ | ⟨p', hp1, hp2, hp3, hp4⟩
      · have := hall (cellWith i a m) (cellWith_in hi hm1)
        rw [cellWith_coord] at this
        simp at this
      · have hp2' : m ≤ cellCoord p' a := by simpa using hp2
        have hle := hp3 (cellWith i a m) (cellWith_in hi hm1) (by rw [cellWith_coord]; simp)
        rw [cellWith_sq3] at hle
        have hge' := sqd_le_sq3 i p' a
        have hmono : sqd (cellCoord i a) m ≤ sqd (cellCoord i a) (cellCoord p' a) := by
          unfold sqd
          exact Nat.pow_le_pow_left (by omega) 2
        have he : sq3 i p' = sqd (cellCoord i a) m := by omega
        rw [he, sqrt_sqd] at hp4
        have hd' := Rl.fin.inj hp4
        have hx : (cellCoord i a : ℝ) + 1 ≤ m := by exact_mod_cast hlt
        rw [abs_of_neg (by linarith)] at hd'
        rw [hd', if_neg (by nlinarith)]
        ring
    · rcases hfree (by simpa using hge) with ⟨hall, _⟩ | ⟨p', hp1, hp2, hp3, hp4⟩
      · have := hall (cellWith i a (m - 1)) (cellWith_in hi (by omega))
        rw [cellWith_coord] at this
        simp at this; omega
      · have hp2' : cellCoord p' a < m := by simpa using hp2
        have hle := hp3 (cellWith i a (m - 1)) (cellWith_in hi (by omega)) (by rw [cellWith_coord]; simp; omega)
        rw [cellWith_sq3] at hle
        have hge' := sqd_le_sq3 i p' a
        have hmono : sqd (cellCoord i a) (m - 1) ≤ sqd (cellCoord i a) (cellCoord p' a) := by
          unfold sqd
          exact Nat.pow_le_pow_left (by omega) 2
        have he : sq3 i p' = sqd (cellCoord i a) (m - 1) := by omega
        rw [he, sqrt_sqd] at hp4
        have hd' := Rl.fin.inj hp4
        have hx : (m : ℝ) ≤ cellCoord i a := by exact_mod_cast hge
        have hm1' : ((m - 1 : ℕ) : ℝ) = (m : ℝ) - 1 := by rw [Nat.cast_sub hm0]; simp
        rw [hm1', abs_of_pos (by linarith)] at hd'
        rw [hd', if_pos (by apply mul_nonneg <;> linarith)]
        ring
  have hslope : ∀ b, axisCells g.dims b = 1 → (if b = a then (1 : ℝ) else 0) = 0 := by
    intro b hb
    rw [if_neg]
    rintro rfl
    omega
  rw [estimate_affine hs hP hfr hbox (c0 := -(m * g.s)) (m := fun b => if b = a then 1 else 0) hslope]
  · fin_cases a <;> simp <;> ring
  · intro c hc'
    have hin : g.dims.In ((c 0).toNat, (c 1).toNat, (c 2).toNat) := by
      have h0 := hc' 0
      have h1 := hc' 1
      have h2 := hc' 2
      unfold axisCells at h0 h1 h2
      simp only [Matrix.cons_val_zero, Matrix.cons_val_one, Matrix.cons_val] at h0 h1 h2
      refine ⟨?_, ?_, ?_⟩ <;> dsimp only <;> omega
    rw [hval _ hin]
    have hcast : ∀ b, ((c b).toNat : ℝ) = (c b : ℝ) := by
      intro b
      exact_mod_cast congrArg (Int.cast : ℤ → ℝ) (Int.toNat_of_nonneg (hc' b).1)
    unfold cellCentre cellCoord
    fin_cases a <;> simp [hcast] <;> ring

/-- A 2×3×1 map whose lowest y layer is filled. -/
def exWall (i : ZIdx) : Option Bool := some (decide (i.2.1 < 1))

/-- Concrete case: the SDF of that wall, with cells of edge 1/4 and the grid shifted by 5 along x, gives 1/10 at a
tenth of a unit above the face. -/
example : ∃ (out : Idx → Rl) (g : SDFGrid ℝ), GenRuns exactRounding ⟨2, 3, 1⟩ (1 / 4) exWall (.fin 0) (some out) ∧
    (∀ i, Dims.In ⟨2, 3, 1⟩ i → out i = .fin (g.data i)) ∧
    g.estimate (point4 ![5 + 1 / 3, 7 / 20, 1 / 8]) = some (some (1 / 10)) := by
  have hfits : Fits ⟨2, 3, 1⟩ := ⟨by norm_num, by norm_num, by norm_num, by norm_num⟩
  have hf : ∀ i, Dims.In ⟨2, 3, 1⟩ i → exWall (toZ i) = some (decide (cellCoord i 1 < 1)) := by
    intro i _
    unfold exWall toZ cellCoord
    simp
  obtain ⟨r, hr⟩ := C01_generation_total (ro := exactRounding) (d := ⟨2, 3, 1⟩) (1 / 4) exact_rq hfits exWall (.fin 0)
  obtain ⟨out, rfl, h⟩ := C01_sdf_exact_real exact_rq rfl rfl (by norm_num) hfits hf hr
  have hfin : ∀ i, Dims.In ⟨2, 3, 1⟩ i → ∃ r, out i = .fin r := by
    intro i hi
    cases hb : decide (cellCoord i 1 < 1) with
    | false =>
      rcases (h i hi).1 hb with ⟨hall, _⟩ | ⟨_, _, _, _, he⟩
      · exact absurd (hall (0, 0, 0) (by decide)) (by decide)
      · exact ⟨_, he⟩
    | true =>
      rcases (h i hi).2 hb with ⟨hall, _⟩ | ⟨_, _, _, _, he⟩
      · exact absurd (hall (0, 1, 0) (by decide)) (by decide)
      · exact ⟨_, he⟩
  let g : SDFGrid ℝ := ⟨⟨2, 3, 1⟩, 1 / 4, ⟨![![1, 0, 0], ![0, 1, 0], ![0, 0, 1]], ![5, 0, 0]⟩,
    fun i => match out i with | .fin r => r | _ => 0⟩
  have hdata : ∀ i, Dims.In ⟨2, 3, 1⟩ i → out i = .fin (g.data i) := by
    intro i hi
    obtain ⟨r, hr⟩ := hfin i hi
    simp only [g, hr]
  refine ⟨out, g, hr, hdata, ?_⟩
  have := C52_flat_wall_exact (g := g) (a := 1) (m := 1) exact_rq rfl rfl (by norm_num [g]) hfits (by norm_num)
    (by decide) hf hr rfl hdata (by
      constructor <;> intro a b <;> fin_cases a <;> fin_cases b <;> simp [g])
    (q := ![1 / 3, 7 / 20, 1 / 8]) (p := ![5 + 1 / 3, 7 / 20, 1 / 8])
    (by intro a; fin_cases a <;> simp [g]; ring) (by intro a; fin_cases a <;> simp [g, axisCells] <;> norm_num)
  rw [this]
  norm_num [g]

end VGT
