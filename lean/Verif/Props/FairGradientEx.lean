import Verif.Props.FairGradient

/-!
C90: coarse gradients in `double` with fused products and sums; a concrete case.
-/
set_option autoImplicit false

namespace VGT
open VGT.EDT VGT.Spec

section
variable {r rs : ℝ → ℝ} {u η us ηs : ℝ} {left : Bool} {norm : (Fin 3 → FusedReal) → FusedReal}
  {interp : (Fin 3 → FusedReal) → (Fin 3 → FusedReal) → (Bool → Bool → Bool → FusedReal) → (Fin 3 → FusedReal) → FusedReal}

theorem fusedStored_fair (h : FairQuery (fusedQuery r left norm interp) Prod.fst (FusedReal.kept r) u η) :
    FairQuery (fusedStored r rs left norm interp) Prod.fst (FusedReal.kept r) u η :=
  ⟨h.store, h.le, h.toInt, h.zero, h.one, h.half, h.ofInt, h.add, h.sub, h.mul, h.div⟩

/-- Differences of stored values are right up to three times the rounding error of the type of the field. -/
theorem fusedStored_step (hr : RoundErr r u η) (hrs : RoundErr rs us ηs) (h0 : r 0 = 0) (hle : u ≤ us) (hηle : η ≤ ηs) (hus : us ≤ 1) :
    FairStep (fusedStored r rs left norm interp) Prod.fst (FusedReal.kept r) (3 * us) (5 * ηs) where
  lt := fun _ _ => rfl
  two := rfl
  nothing := fun y => by
    show (if true then r ((if false then r (r ((0 : ℤ) : ℝ)) else r ((0 : ℤ) : ℝ)) * FusedReal.kept r y) else _) = 0
    simp [h0]
  stored := fun x y => by
    show |rs (FusedReal.kept r x - FusedReal.kept r y) - (x.1 - y.1)| ≤ _
    have store : ∀ x : FusedReal, |FusedReal.kept r x - x.1| ≤ us * |x.1| + ηs := by
      intro x
      have h1 : u * |x.1| ≤ us * |x.1| := mul_le_mul_of_nonneg_right hle (abs_nonneg _)
      unfold FusedReal.kept
      split_ifs
      · have := hr.err x.1
        linarith
      · rw [sub_self, abs_zero]
        have := mul_nonneg hrs.u0 (abs_nonneg x.1)
        linarith [hrs.eta0]
    have h1 := store x
    have h2 := store y
    have h3 : |FusedReal.kept r x - FusedReal.kept r y - (x.1 - y.1)| ≤ us * (|x.1| + |y.1|) + 2 * ηs := by
      rw [show FusedReal.kept r x - FusedReal.kept r y - (x.1 - y.1) = (FusedReal.kept r x - x.1) - (FusedReal.kept r y - y.1) by ring]
      have := abs_sub (FusedReal.kept r x - x.1) (FusedReal.kept r y - y.1)
      linarith
    have h4 := hrs.near h3
    have h5 := abs_sub x.1 y.1
    have hp : 0 ≤ |x.1| + |y.1| := by positivity
    have h6 : us * (|x.1 - y.1| + (us * (|x.1| + |y.1|) + 2 * ηs)) ≤ us * (|x.1| + |y.1|) + (us * (|x.1| + |y.1|) + 2 * ηs) := by
      have a1 := mul_le_mul_of_nonneg_left h5 hrs.u0
      have a2 : 0 ≤ us * (|x.1| + |y.1|) + 2 * ηs := by
        have := hrs.u0
        have := hrs.eta0
        positivity
      have a3 := mul_le_mul_of_nonneg_right hus a2
      linarith
    linarith

end

theorem fair_half_inverse {s : ℝ} (hs : 0 < s) (hs' : s ≤ 2 ^ (100 : ℤ)) : 3 * (2 : ℝ) ^ (-1075 : ℤ) ≤ 3 * 2 ^ (-53 : ℤ) / (2 * s) := by
  rw [le_div_iff₀ (by positivity)]
  have : (2 : ℝ) ^ (-1075 : ℤ) * (2 * s) ≤ 2 ^ (-53 : ℤ) := by
    calc (2 : ℝ) ^ (-1075 : ℤ) * (2 * s) ≤ 2 ^ (-1075 : ℤ) * (2 ^ (1 : ℤ) * 2 ^ (100 : ℤ)) := by
          refine mul_le_mul_of_nonneg_left ?_ (by positivity)
          rw [zpow_one]
          linarith
      _ = 2 ^ (-1075 + (1 + 100) : ℤ) := by rw [← zpow_add₀ (by norm_num), ← zpow_add₀ (by norm_num)]
      _ ≤ 2 ^ (-53 : ℤ) := zpow_le_zpow_right₀ (by norm_num) (by norm_num)
  linarith

section
variable {filled : Idx → Bool} {border left : Bool} {g : SDFGrid ℝ} {N : ℝ} {norm : (Fin 3 → FusedReal) → FusedReal}
  {interp : (Fin 3 → FusedReal) → (Fin 3 → FusedReal) → (Bool → Bool → Bool → FusedReal) → (Fin 3 → FusedReal) → FusedReal}
  {toGrid : Vec4 FusedReal → Fin 3 → FusedReal} {toWorld rotate : (Fin 3 → FusedReal) → Fin 3 → FusedReal}

/-- C90, `SignedDistanceField<float>` queried in `double` with fused products and sums: within `N/2¹⁹` of exact slopes. -/
theorem C90_coarse_fused_float (hg : GeneratedBy floatSDF filled border g) (hs : (2 : ℝ) ^ (-100 : ℤ) ≤ g.s) (hs' : g.s ≤ 2 ^ (100 : ℤ))
    (h1 : 1 ≤ N) (hN' : N ≤ 2 ^ 34) (hN : ∀ a, (axisCells g.dims a : ℝ) ≤ N) {i : IVec} {edge : Bool} {v' : Fin 3 → FusedReal}
    (hv' : flCoarseGrid (fusedStored roundDouble roundFloat left norm interp) (g.inMemory roundDouble toGrid toWorld rotate) i edge = .value v') :
    CoarseNear (N / 2 ^ 19) filled g i (fun a => FusedReal.kept roundDouble (v' a)) := by
  have hpos : 0 < g.s := lt_of_lt_of_le (by positivity) hs
  refine C90_coarse hg rfl (k := 24) (emin := -149) rfl rfl (by norm_num) (by norm_num) hs hN (fusedStored_fair fused_double_fair)
    (fusedStored_step double_err float_err (rne_zero 53 (-1074)) (by norm_num) (zpow_le_zpow_right₀ (by norm_num) (by norm_num)) (by norm_num))
    (fair_room_double hs hs' h1 hN') (inMemory_double hs hs') (fair_half_inverse hpos hs') (by norm_num) (by norm_num) ?_ ?_ ?_ hv'
  · have : (2 : ℝ) ^ (-150 : ℤ) ≤ 2 ^ (-50 : ℤ) * g.s := by
      calc (2 : ℝ) ^ (-150 : ℤ) = 2 ^ (-50 : ℤ) * 2 ^ (-100 : ℤ) := by rw [← zpow_add₀ (by norm_num)]; norm_num
        _ ≤ 2 ^ (-50 : ℤ) * g.s := by gcongr
    have h2 : 5 * (2 : ℝ) ^ (-50 : ℤ) * g.s ≤ 3 * 2 ^ (-24 : ℤ) * g.s := mul_le_mul_of_nonneg_right (by norm_num) hpos.le
    generalize (2 : ℝ) ^ (-150 : ℤ) = z at *
    linarith
  · have : (2 : ℝ) ^ (-1075 : ℤ) ≤ 2 ^ (-150 : ℤ) := zpow_le_zpow_right₀ (by norm_num) (by norm_num)
    have h0 : (0 : ℝ) ≤ 2 ^ (-150 : ℤ) := by positivity
    generalize (2 : ℝ) ^ (-1075 : ℤ) = y at *
    generalize (2 : ℝ) ^ (-150 : ℤ) = z at *
    linarith
  · norm_num
    linarith

/-- C90, `SignedDistanceField<double>`: within `N/2⁴³`. -/
theorem C90_coarse_fused_double (hg : GeneratedBy doubleSDF filled border g) (hs : (2 : ℝ) ^ (-100 : ℤ) ≤ g.s) (hs' : g.s ≤ 2 ^ (100 : ℤ))
    (h1 : 1 ≤ N) (hN' : N ≤ 2 ^ 34) (hN : ∀ a, (axisCells g.dims a : ℝ) ≤ N) {i : IVec} {edge : Bool} {v' : Fin 3 → FusedReal}
    (hv' : flCoarseGrid (fusedStored roundDouble roundDouble left norm interp) (g.inMemory roundDouble toGrid toWorld rotate) i edge = .value v') :
    CoarseNear (N / 2 ^ 43) filled g i (fun a => FusedReal.kept roundDouble (v' a)) := by
  have hpos : 0 < g.s := lt_of_lt_of_le (by positivity) hs
  refine C90_coarse hg rfl (k := 53) (emin := -1074) rfl rfl (by norm_num) (by norm_num) hs hN (fusedStored_fair fused_double_fair)
    (fusedStored_step double_err double_err (rne_zero 53 (-1074)) le_rfl le_rfl (by norm_num))
    (fair_room_double hs hs' h1 hN') (inMemory_double hs hs') (fair_half_inverse hpos hs') (by norm_num) le_rfl ?_ ?_ ?_ hv'
  · have : (2 : ℝ) ^ (-1075 : ℤ) ≤ 2 ^ (-80 : ℤ) * g.s := by
      calc (2 : ℝ) ^ (-1075 : ℤ) ≤ 2 ^ (-80 + -100 : ℤ) := zpow_le_zpow_right₀ (by norm_num) (by norm_num)
        _ = 2 ^ (-80 : ℤ) * 2 ^ (-100 : ℤ) := zpow_add₀ (by norm_num) _ _
        _ ≤ 2 ^ (-80 : ℤ) * g.s := by gcongr
    have h2 : 5 * (2 : ℝ) ^ (-80 : ℤ) * g.s ≤ 3 * 2 ^ (-53 : ℤ) * g.s := mul_le_mul_of_nonneg_right (by norm_num) hpos.le
    generalize (2 : ℝ) ^ (-1075 : ℤ) = z at *
    linarith
  · have h0 : (0 : ℝ) ≤ 2 ^ (-1075 : ℤ) := by positivity
    generalize (2 : ℝ) ^ (-1075 : ℤ) = y at *
    linarith
  · norm_num
    linarith

end

/-! ### A concrete case -/

/-- The identity, stored exactly. -/
def unitMatrix (a b : Fin 3) : FusedReal := (if a = b then 1 else 0, false)

/-- The hypotheses of `C90_coarse`, `C90_coarse_fused_float`, `fair_rotate` and `C90_coarse_world` are met: 8 × 4 × 4 cells of edge 1, the first layer
filled, in single precision.  The coarse gradient at the second layer is between 1 and 3/2 along the first axis, and so it is in the frame of the world. -/
example (left : Bool) : ∃ (g : SDFGrid ℝ) (w' : Fin 3 → FusedReal), GeneratedBy floatSDF (fun i => decide (i.1 = 0)) false g ∧
    flCoarse (fusedStored roundDouble roundFloat left (fun _ => (0, false)) (flTrilinear (fusedReal roundDouble left)))
      (g.inMemory roundDouble (fun l => l.v) id (flRotate (fusedReal roundDouble left) unitMatrix)) ![1, 1, 1] true = .value w' ∧
    1 - 1 / 2 ^ 14 ≤ FusedReal.kept roundDouble (w' 0) ∧ FusedReal.kept roundDouble (w' 0) ≤ 3 / 2 + 1 / 2 ^ 14 := by
  obtain ⟨g, hg, hd, hs, hP⟩ := C68_generated_exists exSlab_ok (P := ⟨fun i j => if i = j then 1 else 0, fun _ => 0⟩)
    (by constructor <;> intro a b <;> fin_cases a <;> fin_cases b <;> simp) (filled := fun i => decide (i.1 = 0)) false
    (i := (1, 0, 0)) (by decide) (by decide) (j := (0, 0, 0)) (by decide) (by decide)
  dsimp only at hd hs
  have hN : ∀ a, (axisCells g.dims a : ℝ) ≤ 8 := by
    rw [hd]; intro a; fin_cases a <;> simp [axisCells] <;> norm_num
  have s1 : (2 : ℝ) ^ (-100 : ℤ) ≤ g.s := by rw [hs]; norm_num
  have s2 : g.s ≤ (2 : ℝ) ^ (100 : ℤ) := by rw [hs]; norm_num
  have hi : CellInGrid (axisCells g.dims) ![1, 1, 1] := by rw [hd]; unfold CellInGrid; decide
  obtain ⟨w', hw'⟩ := (C65_coarse (fusedStored roundDouble roundFloat left (fun _ => (0, false)) (flTrilinear (fusedReal roundDouble left)))
    (g.inMemory roundDouble (fun l => l.v) id (flRotate (fusedReal roundDouble left) unitMatrix)) ![1, 1, 1] true).1 ⟨hi, .inl rfl⟩
  have hR : ∀ a b, |g.pose.R a b| ≤ 1 := by
    rw [hP]
    intro a b
    dsimp only
    split_ifs <;> norm_num
  have e53 : (2 : ℝ) ^ (-53 : ℤ) = 1 / 2 ^ 53 := by rw [zpow_neg, one_div]; norm_cast
  have hη : (3 : ℝ) * 2 ^ (-1075 : ℤ) ≤ 3 * 2 ^ (-53 : ℤ) :=
    mul_le_mul_of_nonneg_left (zpow_le_zpow_right₀ (by norm_num) (by norm_num)) (by norm_num)
  have rot := fair_rotate (fused_double_fair (left := left) (norm := fun _ => (0, false)) (interp := flTrilinear (fusedReal roundDouble left))) (by positivity)
    (by rw [e53]; norm_num) hη (R := g.pose.R) (Rs := unitMatrix) (κ := 0) (by norm_num) hR (by
      rw [hP]
      intro a b
      show |(if false then _ else (if a = b then (1 : ℝ) else 0)) - (if a = b then 1 else 0)| ≤ 0
      simp)
  obtain ⟨v, w, hv, hrot, hw⟩ := C90_coarse_world (A := fusedStored roundDouble roundFloat left (fun _ => (0, false)) (flTrilinear (fusedReal roundDouble left)))
    (kept := FusedReal.kept roundDouble) (τ := 8 / 2 ^ 19) (filled := fun i => decide (i.1 = 0)) (g := g) hR rot (by rw [e53]; norm_num)
    (fun v' hv' => C90_coarse_fused_float hg s1 s2 (by norm_num) (by norm_num) hN hv') hw'
  refine ⟨g, w', hg, hw', ?_⟩
  have hs0 := (hv 0).2.2 (by rw [hd]; decide)
  rw [hd] at hs0
  have hs1 := (hs0.2.1 (by decide) (by decide)).1 (by decide)
  have e0 : w 0 = v 0 := by
    rw [hrot 0, hP]
    simp
  have hw0 := abs_le.1 (hw 0)
  rw [e0, e53] at hw0
  norm_num at hw0 hs1 ⊢
  constructor <;> linarith

/-- The hypotheses of `C90_coarse_fused_double` are met by the same map in double precision. -/
example (left : Bool) : ∃ (g : SDFGrid ℝ) (v' : Fin 3 → FusedReal), GeneratedBy doubleSDF (fun i => decide (i.1 = 0)) false g ∧
    flCoarseGrid (fusedStored roundDouble roundDouble left (fun _ => (0, false)) (flTrilinear (fusedReal roundDouble left)))
      (g.inMemory roundDouble (fun l => l.v) id id) ![1, 1, 1] true = .value v' ∧
    1 - 1 / 2 ^ 40 ≤ FusedReal.kept roundDouble (v' 0) ∧ FusedReal.kept roundDouble (v' 0) ≤ 3 / 2 + 1 / 2 ^ 40 := by
  have ok : GenOK doubleSDF ⟨⟨8, 4, 4⟩, 1, 1, 1⟩ :=
    { rq := roundDouble_isDoubleRounding
      rr := roundDouble_isRounding
      rc := roundDouble_isRounding
      uniform := ⟨rfl, rfl⟩
      res := one_pos
      repr := roundDouble_isRounding.one
      castPos := by
        have : doubleSDF.cast 1 = 1 := roundDouble_isRounding.one
        rw [this]; exact one_pos
      fits := by constructor <;> decide }
  obtain ⟨g, hg, hd, hs, hP⟩ := C68_generated_exists ok (P := ⟨fun i j => if i = j then 1 else 0, fun _ => 0⟩)
    (by constructor <;> intro a b <;> fin_cases a <;> fin_cases b <;> simp) (filled := fun i => decide (i.1 = 0)) false
    (i := (1, 0, 0)) (by decide) (by decide) (j := (0, 0, 0)) (by decide) (by decide)
  dsimp only at hd hs
  have hN : ∀ a, (axisCells g.dims a : ℝ) ≤ 8 := by
    rw [hd]; intro a; fin_cases a <;> simp [axisCells] <;> norm_num
  have s1 : (2 : ℝ) ^ (-100 : ℤ) ≤ g.s := by rw [hs]; norm_num
  have s2 : g.s ≤ (2 : ℝ) ^ (100 : ℤ) := by rw [hs]; norm_num
  have hi : CellInGrid (axisCells g.dims) ![1, 1, 1] := by rw [hd]; unfold CellInGrid; decide
  obtain ⟨w', hw'⟩ := (C65_coarse (fusedStored roundDouble roundDouble left (fun _ => (0, false)) (flTrilinear (fusedReal roundDouble left)))
    (g.inMemory roundDouble (fun l => l.v) id id) ![1, 1, 1] true).1 ⟨hi, .inl rfl⟩
  unfold flCoarse at hw'
  rcases hc : flCoarseGrid (fusedStored roundDouble roundDouble left (fun _ => (0, false)) (flTrilinear (fusedReal roundDouble left)))
    (g.inMemory roundDouble (fun l => l.v) id id) ![1, 1, 1] true with _ | _ | _ | v'
  · rw [hc] at hw'; cases hw'
  · rw [hc] at hw'; cases hw'
  · rw [hc] at hw'; cases hw'
  refine ⟨g, v', hg, hc, ?_⟩
  have := (C79_slopes (C90_coarse_fused_double hg s1 s2 (N := 8) (by norm_num) (by norm_num) hN hc) 0).2 (by rw [hd]; decide)
  rw [hd] at this
  have := (this.2.1 (by decide) (by decide)).1 (by decide)
  norm_num at this ⊢
  constructor <;> linarith

end VGT
