import Verif.Props.SDFGen
import Verif.Lemmas.IEEE
import Mathlib.Data.Real.Archimedean
import Mathlib.Data.Rat.Floor

/-!
C01 for the machine arithmetic itself: binary64 round-to-nearest-even in the transform, binary64 or binary32
as SDF scalar type, with an error bound for the stored values.
-/
set_option autoImplicit false

namespace VGT
open VGT.EDT VGT.Par VGT.Spec

/-- The rounding assumed of the distance transform is satisfied by actual binary64 arithmetic. -/
theorem roundDouble_isDoubleRounding : IsDoubleRounding (roundDouble : ℚ → ℚ) where
  mono := fun _ _ h => rne_mono (by norm_num) h
  exactInt := fun m hm => by
    have := rne_exact (K := ℚ) (p := 53) (emin := -1074) m 0 (by norm_num) hm (by norm_num)
    simpa [roundDouble] using this
  exactDyadic := fun m hm => by
    have := rne_exact (K := ℚ) (p := 53) (emin := -1074) m (-27) (by norm_num) hm (by norm_num)
    rw [show (m : ℚ) * 2 ^ (-27 : ℤ) = (m : ℚ) / 2 ^ 27 by rw [zpow_neg, div_eq_mul_inv]; norm_num] at this
    exact this

theorem rne_isRounding {p : ℕ} {emin : ℤ} (hp : 1 ≤ p) (he : emin ≤ 0) : IsRounding (rne p emin : ℝ → ℝ) where
  mono := fun _ _ h => rne_mono hp h
  zero := rne_zero p emin
  one := by
    have := rne_exact (K := ℝ) (p := p) (emin := emin) 1 0 hp (by simpa using one_le_pow₀ (by norm_num : (1 : ℤ) ≤ 2)) he
    simpa using this
  neg := rne_neg p emin
  idem := rne_idem hp

/-- The rounding assumed after the transform is satisfied by actual binary64 and binary32 arithmetic. -/
theorem roundDouble_isRounding : IsRounding (roundDouble : ℝ → ℝ) := rne_isRounding (by norm_num) (by norm_num)
@[inherit_doc roundDouble_isRounding]
theorem roundFloat_isRounding : IsRounding (roundFloat : ℝ → ℝ) := rne_isRounding (by norm_num) (by norm_num)

/-- Machine arithmetic for `SignedDistanceField<double>`. -/
noncomputable def doubleSDF : Rounding := { rq := roundDouble, rr := roundDouble, cast := roundDouble }
/-- Machine arithmetic for `SignedDistanceField<float>`. -/
noncomputable def floatSDF : Rounding := { rq := roundDouble, rr := roundDouble, cast := roundFloat }

theorem round_step {p : ℕ} {emin : ℤ} {x y u ε : ℝ} (hy : 0 < y) (hx : |x - y| ≤ ε * y) (he : ε ≤ 1 / 2)
    (hp : (2 : ℝ) ^ (-(p : ℤ)) = u) (hlow : (2 : ℝ) ^ (emin + p - 1) ≤ y / 2) :
    |rne p emin x - y| ≤ (ε + u * (1 + ε)) * y := by
  have hx' := abs_le.1 hx
  have hxpos : y / 2 ≤ x := by nlinarith
  have hxa : |x| = x := abs_of_nonneg (by linarith)
  have h := rne_error (K := ℝ) (p := p) (emin := emin) (x := x) (by rw [hxa]; linarith)
  rw [hp, hxa] at h
  have hu : 0 < u := by rw [← hp]; positivity
  have hx2 : x ≤ (1 + ε) * y := by linarith
  calc |rne p emin x - y| = |(rne p emin x - x) + (x - y)| := by ring_nf
    _ ≤ |rne p emin x - x| + |x - y| := abs_add_le _ _
    _ ≤ u * x + ε * y := add_le_add h hx
    _ ≤ u * ((1 + ε) * y) + ε * y := by gcongr
    _ = _ := by ring

theorem low_ok {a b : ℤ} {y : ℝ} (hy : (2 : ℝ) ^ b ≤ y) (h : a + 1 ≤ b) : (2 : ℝ) ^ a ≤ y / 2 := by
  have h1 : (2 : ℝ) ^ (a + 1) ≤ 2 ^ b := zpow_le_zpow_right₀ (by norm_num) h
  rw [zpow_add₀ (by norm_num)] at h1
  linarith

/-- Error of one stored value: sqrt, product and cast, each rounded. -/
theorem scaled_error {p : ℕ} {emin : ℤ} {v : ℝ} (hv : (2 : ℝ) ^ (-(p : ℤ)) = v) (hv2 : v ≤ 2 ^ (-24 : ℤ))
    (hemin : emin + p ≤ -100) {res : ℝ} (hres : (2 : ℝ) ^ (-100 : ℤ) ≤ res) {n : ℕ} (hn : 1 ≤ n) :
    |rne p emin (roundDouble (roundDouble (Real.sqrt n) * res)) - Real.sqrt n * res| ≤
      (v + 2 ^ (-51 : ℤ)) * (Real.sqrt n * res) := by
  have hs1 : 1 ≤ Real.sqrt n := by
    rw [Real.one_le_sqrt]; exact_mod_cast hn
  have hres0 : 0 < res := lt_of_lt_of_le (by positivity) hres
  have hy0 : 0 < Real.sqrt n * res := by positivity
  have hy1 : (2 : ℝ) ^ (-100 : ℤ) ≤ Real.sqrt n * res := by nlinarith
  set y := Real.sqrt n * res
  have hu : (2 : ℝ) ^ (-((53 : ℕ) : ℤ)) = 2 ^ (-53 : ℤ) := rfl
  have e1 : |roundDouble (Real.sqrt n) - Real.sqrt n| ≤ 2 ^ (-53 : ℤ) * Real.sqrt n := by
    have h := rne_error (K := ℝ) (p := 53) (emin := -1074) (x := Real.sqrt n) (by
      rw [abs_of_pos (by linarith)]
      refine le_trans (zpow_le_one_of_nonpos₀ (by norm_num) (by norm_num)) hs1)
    rwa [abs_of_pos (a := Real.sqrt n) (by linarith)] at h
  have e2 : |roundDouble (Real.sqrt n) * res - y| ≤ 2 ^ (-53 : ℤ) * y := by
    have : roundDouble (Real.sqrt n) * res - y = (roundDouble (Real.sqrt n) - Real.sqrt n) * res := by
      simp only [y]; ring
    rw [this, abs_mul, abs_of_pos hres0]
    calc _ ≤ 2 ^ (-53 : ℤ) * Real.sqrt n * res := by gcongr
      _ = _ := by simp only [y]; ring
  have e3 := round_step (p := 53) (emin := -1074) hy0 e2 (by norm_num) hu (low_ok hy1 (by norm_num))
  have e4 := round_step (p := p) (emin := emin) hy0 e3 (by norm_num) hv (low_ok hy1 (by omega))
  refine le_trans e4 ?_
  have hvpos : 0 < v := by rw [← hv]; positivity
  apply mul_le_mul_of_nonneg_right _ hy0.le
  norm_num at hv2 ⊢
  nlinarith

/-- `out` is, up to relative error `ε`, the signed distance field of `filled`: at a free cell the distance to
the nearest filled cell, at a filled cell minus the distance to the nearest free cell, infinite if there is none. -/
def IsApproxSDF (d : Dims) (res ε : ℝ) (filled : Idx → Bool) (out : Idx → Rl) : Prop := ∀ i, d.In i →
  (filled i = false →
    ((∀ p, d.In p → filled p = false) ∧ out i = .pinf) ∨
    ∃ p x, d.In p ∧ filled p = true ∧ (∀ p', d.In p' → filled p' = true → sq3 i p ≤ sq3 i p') ∧
      out i = .fin x ∧ |x - Real.sqrt (sq3 i p) * res| ≤ ε * (Real.sqrt (sq3 i p) * res)) ∧
  (filled i = true →
    ((∀ p, d.In p → filled p = true) ∧ out i = .ninf) ∨
    ∃ p x, d.In p ∧ filled p = false ∧ (∀ p', d.In p' → filled p' = false → sq3 i p ≤ sq3 i p') ∧
      out i = .fin (-x) ∧ |x - Real.sqrt (sq3 i p) * res| ≤ ε * (Real.sqrt (sq3 i p) * res))

theorem approxSDF_of {ro : Rounding} (hq : IsDoubleRounding ro.rq) (hr : ro.rr = roundDouble) {p : ℕ} {emin : ℤ}
    (hc : ro.cast = rne p emin) (hp : 1 ≤ p) {v : ℝ} (hv : (2 : ℝ) ^ (-(p : ℤ)) = v) (hv2 : v ≤ 2 ^ (-24 : ℤ))
    (hemin : emin + p ≤ -100) {d : Dims} {res : ℝ} (hres : (2 : ℝ) ^ (-100 : ℤ) ≤ res)
    (hd : Fits d) {isFilled : ZIdx → Option Bool} {filled : Idx → Bool}
    (hf : ∀ i, d.In i → isFilled (toZ i) = some (filled i)) {oob : Rl} {r : Option (Idx → Rl)}
    (hrun : GenRuns ro d res isFilled oob r) :
    ∃ out, r = some out ∧ IsApproxSDF d res (v + 2 ^ (-51 : ℤ)) filled out := by
  have hres0 : 0 < res := lt_of_lt_of_le (by positivity) hres
  obtain ⟨out, h1, _, h3⟩ := C01_sdf_is_exact_distance hq (hr ▸ roundDouble_isRounding)
    (hc ▸ rne_isRounding hp (by omega)) hres0 hd hf hrun
  refine ⟨out, h1, fun i hi => ⟨fun h => ?_, fun h => ?_⟩⟩
  · have e := (h3 i hi).1 h
    rw [hr, hc] at e
    cases hD : sqDist {p | d.In p ∧ filled p = true} i using ENat.recTopCoe with
    | top =>
      left
      rw [hD, scaled_top] at e
      refine ⟨fun p hp => ?_, e⟩
      have := Set.eq_empty_iff_forall_notMem.1 (sqDist_top.1 hD) p
      simpa [hp] using this
    | coe n =>
      right
      rw [hD, scaled_coe] at e
      obtain ⟨⟨p, hp, hn⟩, hle⟩ := sqDist_coe.1 hD
      refine ⟨p, _, hp.1, hp.2, fun p' h' h'' => hn ▸ hle p' ⟨h', h''⟩, e, ?_⟩
      have hpos : 1 ≤ n := by
        rw [← hn]; apply sq3_pos; rintro rfl; have h9 := hp.2; rw [h] at h9; exact absurd h9 (by decide)
      rw [hn]
      exact scaled_error hv hv2 hemin hres hpos
  · have e := (h3 i hi).2 h
    rw [hr, hc] at e
    cases hD : sqDist {p | d.In p ∧ filled p = false} i using ENat.recTopCoe with
    | top =>
      left
      rw [hD, scaled_top] at e
      refine ⟨fun p hp => ?_, e⟩
      have := Set.eq_empty_iff_forall_notMem.1 (sqDist_top.1 hD) p
      simpa [hp] using this
    | coe n =>
      right
      rw [hD, scaled_coe] at e
      obtain ⟨⟨p, hp, hn⟩, hle⟩ := sqDist_coe.1 hD
      refine ⟨p, _, hp.1, hp.2, fun p' h' h'' => hn ▸ hle p' ⟨h', h''⟩, e, ?_⟩
      have hpos : 1 ≤ n := by
        rw [← hn]; apply sq3_pos; rintro rfl; have h9 := hp.2; rw [h] at h9; exact absurd h9 (by decide)
      rw [hn]
      exact scaled_error hv hv2 hemin hres hpos

/-- C01 in machine arithmetic, `SignedDistanceField<double>`: the stored values are the exact distances up to
a relative error of 2^-50. -/
theorem C01_binary64 {d : Dims} {res : ℝ} (hres : (2 : ℝ) ^ (-100 : ℤ) ≤ res) (hd : Fits d)
    {isFilled : ZIdx → Option Bool} {filled : Idx → Bool}
    (hf : ∀ i, d.In i → isFilled (toZ i) = some (filled i)) {oob : Rl} {r : Option (Idx → Rl)}
    (hrun : GenRuns doubleSDF d res isFilled oob r) :
    ∃ out, r = some out ∧ IsApproxSDF d res (2 ^ (-50 : ℤ)) filled out := by
  obtain ⟨out, h1, h2⟩ := approxSDF_of (ro := doubleSDF) (p := 53) (emin := -1074) roundDouble_isDoubleRounding rfl rfl
    (by norm_num) (v := 2 ^ (-53 : ℤ)) rfl (by norm_num) (by norm_num) hres hd hf hrun
  refine ⟨out, h1, fun i hi => ⟨fun h => ?_, fun h => ?_⟩⟩
  · rcases (h2 i hi).1 h with h | ⟨p, x, a, b, c, e, g⟩
    · exact Or.inl h
    · refine Or.inr ⟨p, x, a, b, c, e, g.trans ?_⟩
      have : 0 ≤ Real.sqrt (sq3 i p) * res := mul_nonneg (Real.sqrt_nonneg _) (le_trans (by positivity) hres)
      gcongr; norm_num
  · rcases (h2 i hi).2 h with h | ⟨p, x, a, b, c, e, g⟩
    · exact Or.inl h
    · refine Or.inr ⟨p, x, a, b, c, e, g.trans ?_⟩
      have : 0 ≤ Real.sqrt (sq3 i p) * res := mul_nonneg (Real.sqrt_nonneg _) (le_trans (by positivity) hres)
      gcongr; norm_num

/-- C01 in machine arithmetic, `SignedDistanceField<float>`: relative error below 2^-23. -/
theorem C01_binary32 {d : Dims} {res : ℝ} (hres : (2 : ℝ) ^ (-100 : ℤ) ≤ res) (hd : Fits d)
    {isFilled : ZIdx → Option Bool} {filled : Idx → Bool}
    (hf : ∀ i, d.In i → isFilled (toZ i) = some (filled i)) {oob : Rl} {r : Option (Idx → Rl)}
    (hrun : GenRuns floatSDF d res isFilled oob r) :
    ∃ out, r = some out ∧ IsApproxSDF d res (2 ^ (-23 : ℤ)) filled out := by
  obtain ⟨out, h1, h2⟩ := approxSDF_of (ro := floatSDF) (p := 24) (emin := -149) roundDouble_isDoubleRounding rfl rfl
    (by norm_num) (v := 2 ^ (-24 : ℤ)) rfl (by norm_num) (by norm_num) hres hd hf hrun
  refine ⟨out, h1, fun i hi => ⟨fun h => ?_, fun h => ?_⟩⟩
  · rcases (h2 i hi).1 h with h | ⟨p, x, a, b, c, e, g⟩
    · exact Or.inl h
    · refine Or.inr ⟨p, x, a, b, c, e, g.trans ?_⟩
      have : 0 ≤ Real.sqrt (sq3 i p) * res := mul_nonneg (Real.sqrt_nonneg _) (le_trans (by positivity) hres)
      gcongr; norm_num
  · rcases (h2 i hi).2 h with h | ⟨p, x, a, b, c, e, g⟩
    · exact Or.inl h
    · refine Or.inr ⟨p, x, a, b, c, e, g.trans ?_⟩
      have : 0 ≤ Real.sqrt (sq3 i p) * res := mul_nonneg (Real.sqrt_nonneg _) (le_trans (by positivity) hres)
      gcongr; norm_num

/-- Concrete case: the 12×3×1 example grid with cell size 1/4 meets the hypotheses, and generation has an outcome. -/
example : (2 : ℝ) ^ (-100 : ℤ) ≤ exGrid.sx ∧ Fits exGrid.dims ∧
    ∃ r, GenRuns doubleSDF exGrid.dims exGrid.sx exFilled (.fin 0) r :=
  ⟨by norm_num [exGrid], exGrid_ok.fits.of_enlarge,
    C01_generation_total (ro := doubleSDF) _ roundDouble_isDoubleRounding exGrid_ok.fits.of_enlarge _ _⟩

/-- Concrete case of the rounding function: 1/3 in binary32 and 2^24 + 1 in binary32. -/
example : roundFloat (1 / 3 : ℚ) = 11184811 / 2 ^ 25 ∧ roundFloat (2 ^ 24 + 1 : ℚ) = 2 ^ 24 ∧
    roundFloat (2 ^ 24 + 3 : ℚ) = 2 ^ 24 + 4 := by decide +kernel

end VGT
