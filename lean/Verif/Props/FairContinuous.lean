import Verif.Props.FairFineWorld
import Verif.Spec.FairContinuous

/-!
C94: how fast estimated distances can change, with rounding.
-/
set_option autoImplicit false

namespace VGT
open VGT.EDT VGT.Spec

section
variable {F : Type} {A : QueryArith F} {val kept : F → ℝ} {u η N : ℝ} {ro : Rounding} {filled : Idx → Bool} {border : Bool} {g : SDFGrid ℝ}
  {fg : FlSDF F}

/-- C94 in any accurate arithmetic, at two locations with answers; `p₁` and `p₂` are the places of the computed coordinates. -/
theorem C94_continuous (hg : GeneratedBy ro filled border g) (hrr : ro.rr = roundDouble) {k : ℕ} {emin : ℤ} (hc : ro.cast = rne k emin) {v : ℝ}
    (hv : (2 : ℝ) ^ (-(k : ℤ)) = v) (hv2 : v ≤ 2 ^ (-24 : ℤ)) (hemin : emin + k ≤ -100) (hs : (2 : ℝ) ^ (-100 : ℤ) ≤ g.s)
    (h : FairQuery A val kept u η) (hr : FairRoom u η g.s N) (hf : FairField val kept u g fg) (hint : FormulaInterp A)
    (hN : ∀ a, (axisCells g.dims a : ℝ) ≤ N) {loc₁ loc₂ : Vec4 F} {e₁ e₂ : F} (he₁ : flEstimate A fg loc₁ = .value e₁)
    (he₂ : flEstimate A fg loc₂ = .value e₂) {p₁ p₂ : Fin 3 → ℝ} (hp₁ : InFrame g.pose.R g.pose.t (fun a => val (fg.toGrid loc₁ a)) p₁)
    (hp₂ : InFrame g.pose.R g.pose.t (fun a => val (fg.toGrid loc₂ a)) p₂) :
    |kept e₁ - kept e₂| ≤ 4 * Real.sqrt 3 * dist3 p₁ p₂ + 2 * ((174000 * (u * N) + 54 * (v + 2 ^ (-51 : ℤ))) * (N * g.s)) + 1680 * (u * N) * g.s ∧
    (BetweenCentresBy (60 * (u * N) * g.s) (axisCells g.dims) g.s (fun a => val (fg.toGrid loc₁ a)) →
      BetweenCentresBy (60 * (u * N) * g.s) (axisCells g.dims) g.s (fun a => val (fg.toGrid loc₂ a)) →
      |kept e₁ - kept e₂| ≤ Real.sqrt 3 * dist3 p₁ p₂ + 2 * ((174000 * (u * N) + 54 * (v + 2 ^ (-51 : ℤ))) * (N * g.s)) + 480 * (u * N) * g.s) := by
  obtain ⟨g₀, hg0, hd, hs0, hP, hnear⟩ := hg.exact_twin hrr hc hv hv2 hemin hs hN
  have hv0 : 0 ≤ v := by rw [← hv]; positivity
  have hε1 : v + 2 ^ (-51 : ℤ) ≤ 1 / 4 := by norm_num at hv2 ⊢; linarith
  obtain ⟨hbd, hb0⟩ := twin_boundary hg0 hd hs0 hr.s0 hr.one_le (by positivity) hε1 hnear
  obtain ⟨q₁, x₁, f₁, -, hq₁, hx₁, hf₁, hb₁⟩ := fair_near hg0.pose hd hs0 hε1 hbd hb0 h hr hf hint hN he₁
  obtain ⟨q₂, x₂, f₂, -, hq₂, hx₂, hf₂, hb₂⟩ := fair_near hg0.pose hd hs0 hε1 hbd hb0 h hr hf hint hN he₂
  have d₁ : dist3 x₁ p₁ ≤ 2 * (60 * (u * N) * g.s) := by
    rw [dist3_frame hg0.pose hx₁ (by rw [hP]; exact hp₁)]
    exact dist3_le_of_coords hq₁
  have d₂ : dist3 x₂ p₂ ≤ 2 * (60 * (u * N) * g.s) := by
    rw [dist3_frame hg0.pose hx₂ (by rw [hP]; exact hp₂)]
    exact dist3_le_of_coords hq₂
  have d : dist3 x₁ x₂ ≤ dist3 p₁ p₂ + 240 * (u * N) * g.s := by
    have t1 := dist3_triangle x₁ p₁ x₂
    have t2 := dist3_triangle p₁ p₂ x₂
    rw [dist3_comm p₂ x₂] at t2
    linarith
  have split : |kept e₁ - kept e₂| ≤ |f₁ - f₂| + 2 * ((174000 * (u * N) + 54 * (v + 2 ^ (-51 : ℤ))) * (N * g.s)) := by
    have t1 := abs_sub_le (kept e₁) f₁ (kept e₂)
    have t2 := abs_sub_le f₁ f₂ (kept e₂)
    rw [abs_sub_comm f₂ (kept e₂)] at t2
    linarith
  have hκ : 0 ≤ u * N * g.s := by
    have := hr.u0
    have := hr.one_le
    have := hr.s0
    positivity
  constructor
  · have l := C59_lipschitz_everywhere hg0 hf₁ hf₂
    have l1 := mul_le_mul_of_nonneg_left d (by positivity : 0 ≤ 4 * Real.sqrt 3)
    have l2 : 4 * Real.sqrt 3 * (240 * (u * N) * g.s) ≤ 7 * (240 * (u * N) * g.s) := mul_le_mul_of_nonneg_right four_sqrt3 (by linarith)
    rw [mul_add] at l1
    linarith
  · intro b₁ b₂
    have inside : ∀ {q : Fin 3 → ℝ} {loc : Vec4 F}, (∀ a, |q a - val (fg.toGrid loc a)| ≤ 60 * (u * N) * g.s) →
        BetweenCentresBy (60 * (u * N) * g.s) (axisCells g.dims) g.s (fun a => val (fg.toGrid loc a)) → BetweenCentres (axisCells g.dims) g.s q := by
      intro q loc hq hb a
      refine (hb a).imp_right fun hba => ?_
      have := abs_le.1 (hq a)
      constructor <;> linarith [hba.1, hba.2]
    have l := C59_lipschitz hg0 hx₁ hx₂ (by rw [hd, hs0]; exact inside hq₁ b₁) (by rw [hd, hs0]; exact inside hq₂ b₂) hf₁ hf₂
    have l1 := mul_le_mul_of_nonneg_left d (Real.sqrt_nonneg 3)
    have h3 : Real.sqrt 3 ≤ 2 := by rw [Real.sqrt_le_left (by norm_num)]; norm_num
    have l2 : Real.sqrt 3 * (240 * (u * N) * g.s) ≤ 2 * (240 * (u * N) * g.s) := mul_le_mul_of_nonneg_right h3 (by linarith)
    rw [mul_add] at l1
    linarith

end

section
variable {filled : Idx → Bool} {border left : Bool} {g : SDFGrid ℝ} {N X δ : ℝ} {P : Pose ℝ} {norm : (Fin 3 → FusedReal) → FusedReal}
  {interp : (Fin 3 → FusedReal) → (Fin 3 → FusedReal) → (Bool → Bool → Bool → FusedReal) → (Fin 3 → FusedReal) → FusedReal}
  {toWorld rotate : (Fin 3 → FusedReal) → Fin 3 → FusedReal}

/-- C94, `SignedDistanceField<float>` queried in `double` with fused products and sums, at two locations in the world with last coordinate 1. -/
theorem C94_continuous_float {toGrid : Vec4 ℝ → Fin 3 → ℝ} (hg : GeneratedBy floatSDF filled border g) (hP : StoredPose P g.pose δ)
    (hrun : ToGridRuns roundDouble P toGrid) (hs : (2 : ℝ) ^ (-100 : ℤ) ≤ g.s) (hs' : g.s ≤ 2 ^ (100 : ℤ)) (h1 : 1 ≤ N) (hN' : N ≤ 2 ^ 34)
    (hN : ∀ a, (axisCells g.dims a : ℝ) ≤ N)
    (hint : interp = flTrilinear (fusedReal roundDouble left) ∨ interp = flBilinear (fusedReal roundDouble left))
    {loc₁ loc₂ : Vec4 FusedReal} {e₁ e₂ : FusedReal} (hw₁ : FusedReal.kept roundDouble loc₁.w = 1) (hw₂ : FusedReal.kept roundDouble loc₂.w = 1)
    (he₁ : flEstimate (fusedQuery roundDouble left norm interp) (g.inMemory roundDouble (storedToGrid roundDouble toGrid) toWorld rotate) loc₁ = .value e₁)
    (he₂ : flEstimate (fusedQuery roundDouble left norm interp) (g.inMemory roundDouble (storedToGrid roundDouble toGrid) toWorld rotate) loc₂ = .value e₂)
    (hX₁ : WithinWorld X g.pose.t (fun a => FusedReal.kept roundDouble (loc₁.v a)))
    (hX₂ : WithinWorld X g.pose.t (fun a => FusedReal.kept roundDouble (loc₂.v a))) :
    |FusedReal.kept roundDouble e₁ - FusedReal.kept roundDouble e₂| ≤
      4 * Real.sqrt 3 * dist3 (fun a => FusedReal.kept roundDouble (loc₁.v a)) (fun a => FusedReal.kept roundDouble (loc₂.v a)) +
      (N / 2 ^ 17 + N ^ 2 / 2 ^ 33) * g.s + 14 * ((2 ^ (-46 : ℤ) + 12 * δ) * X) := by
  have hpos : 0 < g.s := lt_of_lt_of_le (by positivity) hs
  obtain ⟨q₁, hq₁⟩ := frame_place (Q := g.pose) (toGrid (point4 fun a => FusedReal.kept roundDouble (loc₁.v a)))
  obtain ⟨q₂, hq₂⟩ := frame_place (Q := g.pose) (toGrid (point4 fun a => FusedReal.kept roundDouble (loc₂.v a)))
  have d₁ := C83_location_error hP hg.pose hrun hX₁ hq₁
  have d₂ := C83_location_error hP hg.pose hrun hX₂ hq₂
  have key := (C94_continuous (p₁ := q₁) (p₂ := q₂) hg rfl (k := 24) (emin := -149) rfl rfl (by norm_num) (by norm_num) hs fused_double_fair
    (fair_room_double hs hs' h1 hN') (inMemory_double hs hs') hint hN he₁ he₂
    (by
      show InFrame g.pose.R g.pose.t (fun a => toGrid ⟨_, FusedReal.kept roundDouble loc₁.w⟩ a) q₁
      rw [hw₁]
      exact hq₁)
    (by
      show InFrame g.pose.R g.pose.t (fun a => toGrid ⟨_, FusedReal.kept roundDouble loc₂.w⟩ a) q₂
      rw [hw₂]
      exact hq₂)).1
  have tol : 2 * ((174000 * (3 * 2 ^ (-53 : ℤ) * N) + 54 * ((2 : ℝ) ^ (-(24 : ℕ) : ℤ) + 2 ^ (-51 : ℤ))) * (N * g.s)) +
      1680 * (3 * 2 ^ (-53 : ℤ) * N) * g.s ≤ (N / 2 ^ 17 + N ^ 2 / 2 ^ 33) * g.s := by
    have e1 : 0 ≤ N * g.s := by positivity
    have e2 : 0 ≤ N ^ 2 * g.s := by positivity
    norm_num
    nlinarith
  generalize (2 ^ (-46 : ℤ) + 12 * δ) * X = E at *
  have d : dist3 q₁ q₂ ≤ dist3 (fun a => FusedReal.kept roundDouble (loc₁.v a)) (fun a => FusedReal.kept roundDouble (loc₂.v a)) + 2 * E := by
    have t1 := dist3_triangle q₁ (fun a => FusedReal.kept roundDouble (loc₁.v a)) q₂
    have t2 := dist3_triangle (fun a => FusedReal.kept roundDouble (loc₁.v a)) (fun a => FusedReal.kept roundDouble (loc₂.v a)) q₂
    rw [dist3_comm (fun a => FusedReal.kept roundDouble (loc₂.v a)) q₂] at t2
    linarith
  have hE : 0 ≤ E := (Real.sqrt_nonneg _).trans d₁
  have l1 := mul_le_mul_of_nonneg_left d (by positivity : 0 ≤ 4 * Real.sqrt 3)
  have l2 : 4 * Real.sqrt 3 * (2 * E) ≤ 7 * (2 * E) := mul_le_mul_of_nonneg_right four_sqrt3 (by linarith)
  rw [mul_add] at l1
  rw [add_assoc] at key
  have := key.trans (add_le_add le_rfl tol)
  linarith

/-- C94, `SignedDistanceField<double>` queried in `double` with fused products and sums, at two locations in the world with last coordinate 1. -/
theorem C94_continuous_double {toGrid : Vec4 ℝ → Fin 3 → ℝ} (hg : GeneratedBy doubleSDF filled border g) (hP : StoredPose P g.pose δ)
    (hrun : ToGridRuns roundDouble P toGrid) (hs : (2 : ℝ) ^ (-100 : ℤ) ≤ g.s) (hs' : g.s ≤ 2 ^ (100 : ℤ)) (h1 : 1 ≤ N) (hN' : N ≤ 2 ^ 34)
    (hN : ∀ a, (axisCells g.dims a : ℝ) ≤ N)
    (hint : interp = flTrilinear (fusedReal roundDouble left) ∨ interp = flBilinear (fusedReal roundDouble left))
    {loc₁ loc₂ : Vec4 FusedReal} {e₁ e₂ : FusedReal} (hw₁ : FusedReal.kept roundDouble loc₁.w = 1) (hw₂ : FusedReal.kept roundDouble loc₂.w = 1)
    (he₁ : flEstimate (fusedQuery roundDouble left norm interp) (g.inMemory roundDouble (storedToGrid roundDouble toGrid) toWorld rotate) loc₁ = .value e₁)
    (he₂ : flEstimate (fusedQuery roundDouble left norm interp) (g.inMemory roundDouble (storedToGrid roundDouble toGrid) toWorld rotate) loc₂ = .value e₂)
    (hX₁ : WithinWorld X g.pose.t (fun a => FusedReal.kept roundDouble (loc₁.v a)))
    (hX₂ : WithinWorld X g.pose.t (fun a => FusedReal.kept roundDouble (loc₂.v a))) :
    |FusedReal.kept roundDouble e₁ - FusedReal.kept roundDouble e₂| ≤
      4 * Real.sqrt 3 * dist3 (fun a => FusedReal.kept roundDouble (loc₁.v a)) (fun a => FusedReal.kept roundDouble (loc₂.v a)) +
      (N / 2 ^ 40 + N ^ 2 / 2 ^ 33) * g.s + 14 * ((2 ^ (-46 : ℤ) + 12 * δ) * X) := by
  have hpos : 0 < g.s := lt_of_lt_of_le (by positivity) hs
  obtain ⟨q₁, hq₁⟩ := frame_place (Q := g.pose) (toGrid (point4 fun a => FusedReal.kept roundDouble (loc₁.v a)))
  obtain ⟨q₂, hq₂⟩ := frame_place (Q := g.pose) (toGrid (point4 fun a => FusedReal.kept roundDouble (loc₂.v a)))
  have d₁ := C83_location_error hP hg.pose hrun hX₁ hq₁
  have d₂ := C83_location_error hP hg.pose hrun hX₂ hq₂
  have key := (C94_continuous (p₁ := q₁) (p₂ := q₂) hg rfl (k := 53) (emin := -1074) rfl rfl (by norm_num) (by norm_num) hs fused_double_fair
    (fair_room_double hs hs' h1 hN') (inMemory_double hs hs') hint hN he₁ he₂
    (by
      show InFrame g.pose.R g.pose.t (fun a => toGrid ⟨_, FusedReal.kept roundDouble loc₁.w⟩ a) q₁
      rw [hw₁]
      exact hq₁)
    (by
      show InFrame g.pose.R g.pose.t (fun a => toGrid ⟨_, FusedReal.kept roundDouble loc₂.w⟩ a) q₂
      rw [hw₂]
      exact hq₂)).1
  have tol : 2 * ((174000 * (3 * 2 ^ (-53 : ℤ) * N) + 54 * ((2 : ℝ) ^ (-(53 : ℕ) : ℤ) + 2 ^ (-51 : ℤ))) * (N * g.s)) +
      1680 * (3 * 2 ^ (-53 : ℤ) * N) * g.s ≤ (N / 2 ^ 40 + N ^ 2 / 2 ^ 33) * g.s := by
    have e1 : 0 ≤ N * g.s := by positivity
    have e2 : 0 ≤ N ^ 2 * g.s := by positivity
    norm_num
    nlinarith
  generalize (2 ^ (-46 : ℤ) + 12 * δ) * X = E at *
  have d : dist3 q₁ q₂ ≤ dist3 (fun a => FusedReal.kept roundDouble (loc₁.v a)) (fun a => FusedReal.kept roundDouble (loc₂.v a)) + 2 * E := by
    have t1 := dist3_triangle q₁ (fun a => FusedReal.kept roundDouble (loc₁.v a)) q₂
    have t2 := dist3_triangle (fun a => FusedReal.kept roundDouble (loc₁.v a)) (fun a => FusedReal.kept roundDouble (loc₂.v a)) q₂
    rw [dist3_comm (fun a => FusedReal.kept roundDouble (loc₂.v a)) q₂] at t2
    linarith
  have hE : 0 ≤ E := (Real.sqrt_nonneg _).trans d₁
  have l1 := mul_le_mul_of_nonneg_left d (by positivity : 0 ≤ 4 * Real.sqrt 3)
  have l2 : 4 * Real.sqrt 3 * (2 * E) ≤ 7 * (2 * E) := mul_le_mul_of_nonneg_right four_sqrt3 (by linarith)
  rw [mul_add] at l1
  rw [add_assoc] at key
  have := key.trans (add_le_add le_rfl tol)
  linarith

end

/-- The place of `slantStart`, 1/4 further along the first axis. -/
noncomputable def asidePlace : Fin 3 → ℝ := fun a => slantPlace a + (![1 / 4, 0, 0] : Fin 3 → ℝ) a

/-- The same in memory. -/
noncomputable def slantAside : Fin 3 → FusedReal := fun a => (asidePlace a, false)

/-- The hypotheses of `C94_continuous` and `C94_continuous_float` are met: a row of 64 cells of edge 1 in a turned and moved grid whose rotation is stored
with rounding, at a location and 1/4 further along the first axis of the world. -/
example (left : Bool) : ∃ (g : SDFGrid ℝ) (toGrid : Vec4 ℝ → Fin 3 → ℝ) (e₁ e₂ : FusedReal),
    GeneratedBy floatSDF (fun i => decide (i.1 = 0)) false g ∧ g.pose = slantPose ∧ ToGridRuns roundDouble slantStored toGrid ∧
    flEstimate (fusedQuery roundDouble left (fun _ => (0, false)) (flTrilinear (fusedReal roundDouble left)))
      (g.inMemory roundDouble (storedToGrid roundDouble toGrid) id id) ⟨slantStart, (1, false)⟩ = .value e₁ ∧
    flEstimate (fusedQuery roundDouble left (fun _ => (0, false)) (flTrilinear (fusedReal roundDouble left)))
      (g.inMemory roundDouble (storedToGrid roundDouble toGrid) id id) ⟨slantAside, (1, false)⟩ = .value e₂ ∧
    |FusedReal.kept roundDouble e₁ - FusedReal.kept roundDouble e₂| ≤ Real.sqrt 3 + 1 / 2 ^ 9 := by
  obtain ⟨g, hg, hd, hs, hP⟩ := C68_generated_exists exRow_ok slantPose_orthogonal (filled := fun i => decide (i.1 = 0)) false
    (i := (1, 0, 0)) (by decide) (by decide) (j := (0, 0, 0)) (by decide) (by decide)
  obtain ⟨toGrid, hrun⟩ := toGridRuns_exists roundDouble slantStored
  dsimp only at hd hs
  have hst : StoredPose slantStored g.pose (2 ^ (-52 : ℤ)) := by rw [hP]; exact slantStored_near
  have normal : (2 : ℝ) ^ (-1022 : ℤ) ≤ 4096 := le_trans (zpow_le_zpow_right₀ (by norm_num) (by norm_num : (-1022 : ℤ) ≤ 0)) (by norm_num)
  have origin : ∀ a, |g.pose.t a| ≤ 4096 := by
    rw [hP]; intro a; fin_cases a <;> simp [slantPose] <;> norm_num [abs_le]
  have hN : ∀ a, (axisCells g.dims a : ℝ) ≤ 64 := by
    rw [hd]; intro a; fin_cases a <;> simp [axisCells]
  have s1 : (2 : ℝ) ^ (-100 : ℤ) ≤ g.s := by rw [hs]; norm_num
  have s2 : g.s ≤ (2 : ℝ) ^ (100 : ℤ) := by rw [hs]; norm_num
  have one : FusedReal.kept roundDouble (1, false) = 1 := if_neg (by decide : ¬ (false = true))
  have k1 : (fun b => FusedReal.kept roundDouble (slantStart b)) = slantPlace := funext fun b => if_neg (by decide : ¬ (false = true))
  have k2 : (fun b => FusedReal.kept roundDouble (slantAside b)) = asidePlace := funext fun b => if_neg (by decide : ¬ (false = true))
  have near : ∀ b, |asidePlace b - slantPlace b| ≤ 3 / 10 := by
    intro b; fin_cases b <;> simp [asidePlace] <;> norm_num [abs_le]
  have w1 : WithinWorld 4096 g.pose.t (fun b => FusedReal.kept roundDouble (slantStart b)) := by
    rw [k1]
    exact ⟨origin, fun a => by linarith [slantPlace_size a], normal⟩
  have w2 : WithinWorld 4096 g.pose.t (fun b => FusedReal.kept roundDouble (slantAside b)) := by
    rw [k2]
    refine ⟨origin, fun a => ?_, normal⟩
    have t := abs_add_le (asidePlace a - slantPlace a) (slantPlace a)
    rw [sub_add_cancel] at t
    linarith [slantPlace_size a, near a]
  obtain ⟨⟨e₁, h₁⟩, -⟩ := slant_exists hg.pose hd hs hP hrun left
  obtain ⟨e₂, h₂⟩ := C86_answer_exists_world (toWorld := id) (rotate := id) (norm := fun _ => (0, false)) (left := left)
    (loc := ⟨slantAside, (1, false)⟩) hst hg.pose hrun s1 s2 (N := 64) (by norm_num) (by norm_num) hN (.inl rfl) one w2 (fun a => by
      dsimp only
      rw [k2]
      have h := abs_le.1 (slant_near near a)
      rw [hP, hd, hs]
      generalize inFrameOf slantPose asidePlace a = z at *
      fin_cases a <;> simp [axisCells] at h ⊢ <;> norm_num at h ⊢ <;> constructor <;> linarith)
  refine ⟨g, toGrid, e₁, e₂, hg, hP, hrun, h₁, h₂, ?_⟩
  have key := C94_continuous_float (loc₁ := ⟨slantStart, (1, false)⟩) (loc₂ := ⟨slantAside, (1, false)⟩) hg hst hrun s1 s2 (N := 64) (by norm_num)
    (by norm_num) hN (.inl rfl) one one h₁ h₂ w1 w2
  dsimp only at key
  rw [k1, k2, hs] at key
  have hdist : dist3 slantPlace asidePlace = 1 / 4 := by
    unfold dist3
    rw [show (1 / 4 : ℝ) = Real.sqrt ((1 / 4) ^ 2) by rw [Real.sqrt_sq (by norm_num)]]
    congr 1
    simp [asidePlace]
  rw [hdist] at key
  refine key.trans ?_
  norm_num
  linarith

/-- The hypotheses of `C94_continuous` and `C94_continuous_double` are met: a row of 64 cells of edge 1 in a turned and moved grid whose rotation is stored
with rounding, at a location and 1/4 further along the first axis of the world. -/
example (left : Bool) : ∃ (g : SDFGrid ℝ) (toGrid : Vec4 ℝ → Fin 3 → ℝ) (e₁ e₂ : FusedReal),
    GeneratedBy doubleSDF (fun i => decide (i.1 = 0)) false g ∧ g.pose = slantPose ∧ ToGridRuns roundDouble slantStored toGrid ∧
    flEstimate (fusedQuery roundDouble left (fun _ => (0, false)) (flTrilinear (fusedReal roundDouble left)))
      (g.inMemory roundDouble (storedToGrid roundDouble toGrid) id id) ⟨slantStart, (1, false)⟩ = .value e₁ ∧
    flEstimate (fusedQuery roundDouble left (fun _ => (0, false)) (flTrilinear (fusedReal roundDouble left)))
      (g.inMemory roundDouble (storedToGrid roundDouble toGrid) id id) ⟨slantAside, (1, false)⟩ = .value e₂ ∧
    |FusedReal.kept roundDouble e₁ - FusedReal.kept roundDouble e₂| ≤ Real.sqrt 3 + 1 / 2 ^ 20 := by
  have ok : GenOK doubleSDF ⟨⟨64, 1, 1⟩, 1, 1, 1⟩ :=
    { rq := roundDouble_isDoubleRounding
      rr := roundDouble_isRounding
      rc := roundDouble_isRounding
      uniform := ⟨rfl, rfl⟩
      res := one_pos
      repr := roundDouble_isRounding.one
      castPos := by
        have : doubleSDF.cast 1 = 1 := roundDouble_isRounding.one
        rw [this]; exact one_pos
      fits := by constructor <;> decide }
  obtain ⟨g, hg, hd, hs, hP⟩ := C68_generated_exists ok slantPose_orthogonal (filled := fun i => decide (i.1 = 0)) false
    (i := (1, 0, 0)) (by decide) (by decide) (j := (0, 0, 0)) (by decide) (by decide)
  obtain ⟨toGrid, hrun⟩ := toGridRuns_exists roundDouble slantStored
  dsimp only at hd hs
  have hst : StoredPose slantStored g.pose (2 ^ (-52 : ℤ)) := by rw [hP]; exact slantStored_near
  have normal : (2 : ℝ) ^ (-1022 : ℤ) ≤ 4096 := le_trans (zpow_le_zpow_right₀ (by norm_num) (by norm_num : (-1022 : ℤ) ≤ 0)) (by norm_num)
  have origin : ∀ a, |g.pose.t a| ≤ 4096 := by
    rw [hP]; intro a; fin_cases a <;> simp [slantPose] <;> norm_num [abs_le]
  have hN : ∀ a, (axisCells g.dims a : ℝ) ≤ 64 := by
    rw [hd]; intro a; fin_cases a <;> simp [axisCells]
  have s1 : (2 : ℝ) ^ (-100 : ℤ) ≤ g.s := by rw [hs]; norm_num
  have s2 : g.s ≤ (2 : ℝ) ^ (100 : ℤ) := by rw [hs]; norm_num
  have one : FusedReal.kept roundDouble (1, false) = 1 := if_neg (by decide : ¬ (false = true))
  have k1 : (fun b => FusedReal.kept roundDouble (slantStart b)) = slantPlace := funext fun b => if_neg (by decide : ¬ (false = true))
  have k2 : (fun b => FusedReal.kept roundDouble (slantAside b)) = asidePlace := funext fun b => if_neg (by decide : ¬ (false = true))
  have near : ∀ b, |asidePlace b - slantPlace b| ≤ 3 / 10 := by
    intro b; fin_cases b <;> simp [asidePlace] <;> norm_num [abs_le]
  have w1 : WithinWorld 4096 g.pose.t (fun b => FusedReal.kept roundDouble (slantStart b)) := by
    rw [k1]
    exact ⟨origin, fun a => by linarith [slantPlace_size a], normal⟩
  have w2 : WithinWorld 4096 g.pose.t (fun b => FusedReal.kept roundDouble (slantAside b)) := by
    rw [k2]
    refine ⟨origin, fun a => ?_, normal⟩
    have t := abs_add_le (asidePlace a - slantPlace a) (slantPlace a)
    rw [sub_add_cancel] at t
    linarith [slantPlace_size a, near a]
  obtain ⟨⟨e₁, h₁⟩, -⟩ := slant_exists hg.pose hd hs hP hrun left
  obtain ⟨e₂, h₂⟩ := C86_answer_exists_world (toWorld := id) (rotate := id) (norm := fun _ => (0, false)) (left := left)
    (loc := ⟨slantAside, (1, false)⟩) hst hg.pose hrun s1 s2 (N := 64) (by norm_num) (by norm_num) hN (.inl rfl) one w2 (fun a => by
      dsimp only
      rw [k2]
      have h := abs_le.1 (slant_near near a)
      rw [hP, hd, hs]
      generalize inFrameOf slantPose asidePlace a = z at *
      fin_cases a <;> simp [axisCells] at h ⊢ <;> norm_num at h ⊢ <;> constructor <;> linarith)
  refine ⟨g, toGrid, e₁, e₂, hg, hP, hrun, h₁, h₂, ?_⟩
  have key := C94_continuous_double (loc₁ := ⟨slantStart, (1, false)⟩) (loc₂ := ⟨slantAside, (1, false)⟩) hg hst hrun s1 s2 (N := 64) (by norm_num)
    (by norm_num) hN (.inl rfl) one one h₁ h₂ w1 w2
  dsimp only at key
  rw [k1, k2, hs] at key
  have hdist : dist3 slantPlace asidePlace = 1 / 4 := by
    unfold dist3
    rw [show (1 / 4 : ℝ) = Real.sqrt ((1 / 4) ^ 2) by rw [Real.sqrt_sq (by norm_num)]]
    congr 1
    simp [asidePlace]
  rw [hdist] at key
  refine key.trans ?_
  norm_num
  linarith

/-- That location is between the centres, with room. -/
example : BetweenCentresBy (1 / 4) ![64, 1, 1] 1 ![81 / 2, 1 / 2, 1 / 2] := by
  intro a
  fin_cases a
  · right; simp; norm_num
  · left; rfl
  · left; rfl

end VGT
