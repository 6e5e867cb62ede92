import Verif.Lemmas.Clearance
import Verif.Props.Interp
import Verif.Props.SDFGen

/-!
What queries need to know about a generated field.
-/
set_option autoImplicit false

namespace VGT
open VGT.EDT VGT.Spec

/-- `g` is a field made by `ExtractSignedDistanceField` from a grid whose filled cells are `filled`, in exact arithmetic
after the distance transform, placed anywhere; all its values are finite. -/
structure Generated (filled : Idx → Bool) (border : Bool) (g : SDFGrid ℝ) : Prop where
  pose : Orthogonal g.pose.R
  run : ∃ (ro : Rounding) (gi : GridInfo) (isFilled : ZIdx → Option Bool) (oob : Rl) (out : Idx → Rl),
    GenOK ro gi ∧ ro.rr = id ∧ ro.cast = id ∧ gi.dims = g.dims ∧ gi.sx = g.s ∧
    (∀ i, gi.dims.In i → isFilled (toZ i) = some (filled i)) ∧ GridGenRuns ro gi isFilled border oob (some out) ∧
    ∀ i, gi.dims.In i → out i = .fin (g.data i)

section
variable {filled : Idx → Bool} {border : Bool} {g : SDFGrid ℝ} (h : Generated filled border g)
include h

theorem Generated.pos : 0 < g.s := by
  obtain ⟨ro, gi, isFilled, oob, out, hok, _, _, _, hs, _⟩ := h.run
  exact hs ▸ hok.res

theorem Generated.sign {i : Idx} (hi : g.dims.In i) :
    (filled i = false → g.s ≤ g.data i) ∧ (filled i = true → g.data i ≤ -g.s) := by
  obtain ⟨ro, gi, isFilled, oob, out, hok, hr, hc, hd, hs, hf, hrun, hout⟩ := h.run
  rw [← hd] at hi
  obtain ⟨out', e, h3⟩ := C03_sign_and_magnitude hok hf hrun
  cases e
  have := h3 i hi
  rw [hout i hi, hc, hs] at this
  simpa [Rl.le] using ⟨this.1, this.2.1⟩

theorem Generated.opposite {i j : Idx} (hi : g.dims.In i) (hj : g.dims.In j) (fi : filled i = false)
    (fj : filled j = true) : g.data i ≤ Real.sqrt (sq3 i j) * g.s ∧ -g.data j ≤ Real.sqrt (sq3 i j) * g.s ∧
      (sq3 i j = 1 → g.data i = g.s ∧ g.data j = -g.s) := by
  obtain ⟨ro, gi, isFilled, oob, out, hok, hr, hc, hd, hs, hf, hrun, hout⟩ := h.run
  rw [← hd] at hi hj
  obtain ⟨out', e, h3⟩ := C07_lipschitz hok hr hc hf hrun
  cases e
  obtain ⟨a, b, e1, e2, _, _, h4, h5, h6⟩ := (h3 i j hi hj).2 fi fj
  rw [hout i hi] at e1
  rw [hout j hj] at e2
  have e1 := Rl.fin.inj e1
  have e2 := Rl.fin.inj e2
  rw [hs] at h4 h5 h6
  rw [e1, e2]
  refine ⟨h4, by linarith, fun h1 => ⟨(h6 h1).1, by rw [(h6 h1).2]⟩⟩

theorem Generated.same {i j : Idx} (hi : g.dims.In i) (hj : g.dims.In j) (hij : filled i = filled j) :
    |g.data i - g.data j| ≤ Real.sqrt (sq3 i j) * g.s := by
  obtain ⟨ro, gi, isFilled, oob, out, hok, hr, hc, hd, hs, hf, hrun, hout⟩ := h.run
  rw [← hd] at hi hj
  obtain ⟨out', e, h3⟩ := C07_lipschitz hok hr hc hf hrun
  cases e
  rcases (h3 i j hi hj).1 hij with ⟨_, h5⟩ | ⟨a, b, e1, e2, h4⟩
  · rw [hout i hi] at h5
    rcases h5 with h5 | h5 <;> exact absurd h5 (by simp)
  · rw [hout i hi] at e1
    rw [hout j hj] at e2
    rw [Rl.fin.inj e1, Rl.fin.inj e2, ← hs]
    exact h4

/-- Between face neighbours the corrected value changes by at most one cell edge. -/
theorem Generated.step {i j : Idx} (hi : g.dims.In i) (hj : g.dims.In j) (h1 : sq3 i j = 1) :
    |boundaryDist g.s (g.data i) - boundaryDist g.s (g.data j)| ≤ g.s := by
  have hs := h.pos
  have h1' : sq3 j i = 1 := by
    rw [← h1]; unfold sq3 sqd
    congr 1
    · congr 1
      · rw [← Int.natAbs_neg]; congr 2; ring
      · rw [← Int.natAbs_neg]; congr 2; ring
    · rw [← Int.natAbs_neg]; congr 2; ring
  unfold boundaryDist
  cases fi : filled i <;> cases fj : filled j
  · have s1 := (h.sign hi).1 fi
    have s2 := (h.sign hj).1 fj
    rw [if_pos (by linarith), if_pos (by linarith)]
    have := h.same hi hj (by rw [fi, fj])
    rw [h1] at this
    simpa using this
  · obtain ⟨e1, e2⟩ := (h.opposite hi hj fi fj).2.2 h1
    rw [e1, e2, if_pos hs.le, if_neg (by linarith), abs_le]
    constructor <;> linarith
  · obtain ⟨e1, e2⟩ := (h.opposite hj hi fj fi).2.2 h1'
    rw [e1, e2, if_pos hs.le, if_neg (by linarith), abs_le]
    constructor <;> linarith
  · have s1 := (h.sign hi).2 fi
    have s2 := (h.sign hj).2 fj
    rw [if_neg (by linarith), if_neg (by linarith)]
    have := h.same hi hj (by rw [fi, fj])
    rw [h1] at this
    simpa using this

/-- The corrected value is at most the distance to any filled cell, and at least minus the distance to any free cell, less
half a cell edge. -/
theorem Generated.bounds {i j : Idx} (hi : g.dims.In i) (hj : g.dims.In j) :
    (filled j = true → boundaryDist g.s (g.data i) ≤ Real.sqrt (sq3 i j) * g.s - g.s / 2) ∧
    (filled j = false → -boundaryDist g.s (g.data i) ≤ Real.sqrt (sq3 i j) * g.s - g.s / 2) := by
  have hs := h.pos
  have hroot : 0 ≤ Real.sqrt (sq3 i j) * g.s := by positivity
  have hsymm : sq3 j i = sq3 i j := by
    unfold sq3 sqd
    congr 1
    · congr 1
      · rw [← Int.natAbs_neg]; congr 2; ring
      · rw [← Int.natAbs_neg]; congr 2; ring
    · rw [← Int.natAbs_neg]; congr 2; ring
  unfold boundaryDist
  cases fi : filled i
  · have s1 := (h.sign hi).1 fi
    rw [if_pos (by linarith)]
    refine ⟨fun fj => by linarith [(h.opposite hi hj fi fj).1], fun _ => by linarith⟩
  · have s1 := (h.sign hi).2 fi
    rw [if_neg (by linarith)]
    refine ⟨fun _ => by linarith, fun fj => ?_⟩
    have := (h.opposite hj hi fj fi).2.1
    rw [hsymm] at this
    linarith

end

theorem cellIdx_in {d : Dims} {c : Fin 3 → ℤ} (hc : CellInGrid (axisCells d) c) : d.In (cellIdx c) := by
  have h0 := hc 0
  have h1 := hc 1
  have h2 := hc 2
  unfold axisCells at h0 h1 h2
  simp only [Matrix.cons_val_zero, Matrix.cons_val_one, Matrix.cons_val] at h0 h1 h2
  unfold cellIdx
  refine ⟨?_, ?_, ?_⟩ <;> dsimp only <;> omega

/-- Distance of two cell centres. -/
theorem dist3_centres {s : ℝ} (hs : 0 < s) {n : Fin 3 → ℕ} {c o : Fin 3 → ℤ} (hc : CellInGrid n c) (ho : CellInGrid n o) :
    dist3 (cellCentre s c) (cellCentre s o) = Real.sqrt (sq3 (cellIdx c) (cellIdx o)) * s := by
  have hcast : ∀ {c : Fin 3 → ℤ}, CellInGrid n c → ∀ b, ((c b).toNat : ℤ) = c b :=
    fun hc b => Int.toNat_of_nonneg (hc b).1
  have hsq : ∀ b, (sqd (c b).toNat (o b).toNat : ℝ) = ((c b : ℝ) - o b) ^ 2 := by
    intro b
    unfold sqd
    rw [hcast hc, hcast ho, Nat.cast_pow, Nat.cast_natAbs, Int.cast_abs, sq_abs]
    push_cast; ring
  unfold dist3 cellCentre sq3 cellIdx
  push_cast
  rw [hsq, hsq, hsq]
  rw [show ((c 0 : ℝ) * s + s / 2 - ((o 0 : ℝ) * s + s / 2)) ^ 2 + ((c 1 : ℝ) * s + s / 2 - ((o 1 : ℝ) * s + s / 2)) ^ 2 +
    ((c 2 : ℝ) * s + s / 2 - ((o 2 : ℝ) * s + s / 2)) ^ 2 =
    (((c 0 : ℝ) - o 0) ^ 2 + ((c 1 : ℝ) - o 1) ^ 2 + ((c 2 : ℝ) - o 2) ^ 2) * s ^ 2 by ring]
  rw [Real.sqrt_mul (by positivity), Real.sqrt_sq hs.le]

theorem cval_boundaryDist (g : SDFGrid ℝ) (x y z : ℤ) :
    g.cval x y z = boundaryDist g.s (g.data (cellIdx ![x, y, z])) := rfl

/-- Triangle inequality. -/
theorem dist3_triangle (x y z : Fin 3 → ℝ) : dist3 x z ≤ dist3 x y + dist3 y z := by
  have h1 : 0 ≤ dist3 x y := Real.sqrt_nonneg _
  have h2 : 0 ≤ dist3 y z := Real.sqrt_nonneg _
  apply Real.sqrt_le_iff.2 ⟨by positivity, ?_⟩
  have e1 : dist3 x y ^ 2 = (x 0 - y 0) ^ 2 + (x 1 - y 1) ^ 2 + (x 2 - y 2) ^ 2 := Real.sq_sqrt (by positivity)
  have e2 : dist3 y z ^ 2 = (y 0 - z 0) ^ 2 + (y 1 - z 1) ^ 2 + (y 2 - z 2) ^ 2 := Real.sq_sqrt (by positivity)
  have hcs : (x 0 - y 0) * (y 0 - z 0) + (x 1 - y 1) * (y 1 - z 1) + (x 2 - y 2) * (y 2 - z 2) ≤ dist3 x y * dist3 y z := by
    refine (le_abs_self _).trans (abs_le_of_sq_le_sq ?_ (by positivity))
    rw [mul_pow, e1, e2]
    nlinarith [sq_nonneg ((x 0 - y 0) * (y 1 - z 1) - (x 1 - y 1) * (y 0 - z 0)),
      sq_nonneg ((x 0 - y 0) * (y 2 - z 2) - (x 2 - y 2) * (y 0 - z 0)),
      sq_nonneg ((x 1 - y 1) * (y 2 - z 2) - (x 2 - y 2) * (y 1 - z 1))]
  nlinarith

theorem dist3_nonneg (x y : Vec ℝ) : 0 ≤ dist3 x y := Real.sqrt_nonneg _

theorem dist3_comm (x y : Fin 3 → ℝ) : dist3 x y = dist3 y x := by
  unfold dist3
  congr 1; ring

/-- The pose keeps distances. -/
theorem dist3_frame {R : Fin 3 → Fin 3 → ℝ} {t x y X Y : Fin 3 → ℝ} (hR : Orthogonal R) (hx : InFrame R t x X)
    (hy : InFrame R t y Y) : dist3 X Y = dist3 x y := by
  unfold dist3
  congr 1
  rw [hx 0, hx 1, hx 2, hy 0, hy 1, hy 2]
  obtain ⟨h, _⟩ := hR
  have h00 := h 0 0
  have h01 := h 0 1
  have h02 := h 0 2
  have h11 := h 1 1
  have h12 := h 1 2
  have h22 := h 2 2
  simp at h00 h01 h02 h11 h12 h22
  set u := x 0 - y 0 with hu
  set v := x 1 - y 1 with hv
  set w := x 2 - y 2 with hw
  have k : ∀ a, R a 0 * x 0 + R a 1 * x 1 + R a 2 * x 2 + t a - (R a 0 * y 0 + R a 1 * y 1 + R a 2 * y 2 + t a) =
      R a 0 * u + R a 1 * v + R a 2 * w := by intro a; rw [hu, hv, hw]; ring
  rw [k, k, k]
  linear_combination u ^ 2 * h00 + v ^ 2 * h11 + w ^ 2 * h22 + 2 * u * v * h01 + 2 * u * w * h02 + 2 * v * w * h12

/-- A point of a cell is at most half a diagonal away from its centre. -/
theorem dist3_in_cell {s : ℝ} (hs : 0 < s) {c : Fin 3 → ℤ} {x : Fin 3 → ℝ} (hx : InClosedCell s c x) :
    dist3 x (cellCentre s c) ≤ Real.sqrt 3 / 2 * s := by
  apply Real.sqrt_le_iff.2 ⟨by positivity, ?_⟩
  have e3 : Real.sqrt 3 ^ 2 = 3 := Real.sq_sqrt (by norm_num)
  have hb : ∀ a, (x a - cellCentre s c a) ^ 2 ≤ s ^ 2 / 4 := by
    intro a
    obtain ⟨h1, h2⟩ := hx a
    unfold cellCentre
    nlinarith
  nlinarith [hb 0, hb 1, hb 2]

theorem sqrt_add_le_root {D s : ℝ} (hD : 0 ≤ D) (hs : 0 ≤ s) :
    Real.sqrt (D ^ 2 + 3 / 4 * s ^ 2) ≤ D + Real.sqrt 3 / 2 * s := by
  have e3 : Real.sqrt 3 ^ 2 = 3 := Real.sq_sqrt (by norm_num)
  have h3 : 0 ≤ Real.sqrt 3 := Real.sqrt_nonneg 3
  apply Real.sqrt_le_iff.2 ⟨by positivity, ?_⟩
  nlinarith [mul_nonneg (mul_nonneg hD h3) hs]

/-- What the bounds on clearance need of a field: cells are split into filled and free ones, the value at the boundary of a cell is at most
the distance to filled cells and at least minus the distance to free ones, and neighbours differ by at most one cell edge. -/
structure Sound (filled : Idx → Bool) (g : SDFGrid ℝ) : Prop where
  pos : 0 < g.s
  pose : Orthogonal g.pose.R
  bounds : ∀ {i j : Idx}, g.dims.In i → g.dims.In j →
    (filled j = true → boundaryDist g.s (g.data i) ≤ Real.sqrt (sq3 i j) * g.s - g.s / 2) ∧
    (filled j = false → -boundaryDist g.s (g.data i) ≤ Real.sqrt (sq3 i j) * g.s - g.s / 2)
  step : ∀ {i j : Idx}, g.dims.In i → g.dims.In j → sq3 i j = 1 →
    |boundaryDist g.s (g.data i) - boundaryDist g.s (g.data j)| ≤ g.s

theorem Generated.sound {filled : Idx → Bool} {border : Bool} {g : SDFGrid ℝ} (h : Generated filled border g) : Sound filled g :=
  ⟨h.pos, h.pose, h.bounds, h.step⟩

/-- Between face neighbours the values that are interpolated change by at most one cell edge. -/
theorem Sound.cval_step {filled : Idx → Bool} {g : SDFGrid ℝ} (h : Sound filled g) :
    (∀ x y z : ℤ, CellInGrid (axisCells g.dims) ![x, y, z] → CellInGrid (axisCells g.dims) ![x + 1, y, z] →
      |g.cval (x + 1) y z - g.cval x y z| ≤ g.s) ∧
    (∀ x y z : ℤ, CellInGrid (axisCells g.dims) ![x, y, z] → CellInGrid (axisCells g.dims) ![x, y + 1, z] →
      |g.cval x (y + 1) z - g.cval x y z| ≤ g.s) ∧
    (∀ x y z : ℤ, CellInGrid (axisCells g.dims) ![x, y, z] → CellInGrid (axisCells g.dims) ![x, y, z + 1] →
      |g.cval x y (z + 1) - g.cval x y z| ≤ g.s) := by
  have step : ∀ {c c' : Fin 3 → ℤ}, CellInGrid (axisCells g.dims) c → CellInGrid (axisCells g.dims) c' →
      sq3 (cellIdx c') (cellIdx c) = 1 →
      |boundaryDist g.s (g.data (cellIdx c')) - boundaryDist g.s (g.data (cellIdx c))| ≤ g.s :=
    fun hc hc' h1 => h.step (cellIdx_in hc') (cellIdx_in hc) h1
  have next : ∀ k : ℤ, 0 ≤ k → sqd (k + 1).toNat k.toNat = 1 := by
    intro k hk
    unfold sqd
    rw [Int.toNat_of_nonneg hk, Int.toNat_of_nonneg (by omega), show k + 1 - k = 1 by ring]
    rfl
  have same : ∀ k : ℕ, sqd k k = 0 := by
    intro k; unfold sqd; simp
  have nx : ∀ x y z : ℤ, CellInGrid (axisCells g.dims) ![x, y, z] →
      sq3 (cellIdx ![x + 1, y, z]) (cellIdx ![x, y, z]) = 1 := by
    intro x y z hc
    show sqd (x + 1).toNat x.toNat + sqd y.toNat y.toNat + sqd z.toNat z.toNat = 1
    rw [next x (hc 0).1, same, same]
  have ny : ∀ x y z : ℤ, CellInGrid (axisCells g.dims) ![x, y, z] →
      sq3 (cellIdx ![x, y + 1, z]) (cellIdx ![x, y, z]) = 1 := by
    intro x y z hc
    show sqd x.toNat x.toNat + sqd (y + 1).toNat y.toNat + sqd z.toNat z.toNat = 1
    rw [next y (hc 1).1, same, same]
  have nz : ∀ x y z : ℤ, CellInGrid (axisCells g.dims) ![x, y, z] →
      sq3 (cellIdx ![x, y, z + 1]) (cellIdx ![x, y, z]) = 1 := by
    intro x y z hc
    show sqd x.toNat x.toNat + sqd y.toNat y.toNat + sqd (z + 1).toNat z.toNat = 1
    rw [next z (hc 2).1, same, same]
  exact ⟨fun x y z hc hc' => step hc hc' (nx x y z hc), fun x y z hc hc' => step hc hc' (ny x y z hc),
    fun x y z hc hc' => step hc hc' (nz x y z hc)⟩

theorem Generated.cval_step {filled : Idx → Bool} {border : Bool} {g : SDFGrid ℝ} (h : Generated filled border g) :
    (∀ x y z : ℤ, CellInGrid (axisCells g.dims) ![x, y, z] → CellInGrid (axisCells g.dims) ![x + 1, y, z] →
      |g.cval (x + 1) y z - g.cval x y z| ≤ g.s) ∧
    (∀ x y z : ℤ, CellInGrid (axisCells g.dims) ![x, y, z] → CellInGrid (axisCells g.dims) ![x, y + 1, z] →
      |g.cval x (y + 1) z - g.cval x y z| ≤ g.s) ∧
    (∀ x y z : ℤ, CellInGrid (axisCells g.dims) ![x, y, z] → CellInGrid (axisCells g.dims) ![x, y, z + 1] →
      |g.cval x y (z + 1) - g.cval x y z| ≤ g.s) :=
  h.sound.cval_step

end VGT
