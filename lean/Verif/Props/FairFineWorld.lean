import Verif.Model.FusedLocation
import Verif.Props.FairFineEx
import Verif.Props.PoseRound

/-!
C86 and C91 for locations in the frame of the world: the inverse of the pose is computed, stored and applied with rounding.
-/
set_option autoImplicit false

namespace VGT
open VGT.EDT VGT.Spec

section
variable {filled : Idx → Bool} {border left : Bool} {g : SDFGrid ℝ} {N X δ : ℝ} {P : Pose ℝ} {norm : (Fin 3 → FusedReal) → FusedReal}
  {interp : (Fin 3 → FusedReal) → (Fin 3 → FusedReal) → (Bool → Bool → Bool → FusedReal) → (Fin 3 → FusedReal) → FusedReal}
  {toGrid : Vec4 ℝ → Fin 3 → ℝ} {toWorld rotate : (Fin 3 → FusedReal) → Fin 3 → FusedReal}

/-- A number of magnitude up to `X/2` as it is kept in memory. -/
theorem kept_double {x : FusedReal} (hX : (2 : ℝ) ^ (-1000 : ℤ) ≤ X) (hx : |x.1| ≤ X / 2) :
    |FusedReal.kept roundDouble x - x.1| ≤ 2 ^ (-52 : ℤ) * X ∧ |FusedReal.kept roundDouble x| ≤ X := by
  have hX0 : 0 < X := lt_of_lt_of_le (by positivity) hX
  have key : |FusedReal.kept roundDouble x - x.1| ≤ 2 ^ (-52 : ℤ) * X := by
    unfold FusedReal.kept
    split_ifs
    · have h := double_err.1 x.1
      have e : (2 : ℝ) ^ (-1075 : ℤ) ≤ 2 ^ (-53 : ℤ) * X := by
        calc (2 : ℝ) ^ (-1075 : ℤ) ≤ 2 ^ (-53 + -1000 : ℤ) := zpow_le_zpow_right₀ (by norm_num) (by norm_num)
          _ = 2 ^ (-53 : ℤ) * 2 ^ (-1000 : ℤ) := zpow_add₀ (by norm_num) _ _
          _ ≤ 2 ^ (-53 : ℤ) * X := by gcongr
      have e2 : (2 : ℝ) ^ (-52 : ℤ) = 2 * 2 ^ (-53 : ℤ) := by rw [← zpow_one_add₀ (by norm_num)]; norm_num
      have e3 : (2 : ℝ) ^ (-53 : ℤ) * |x.1| ≤ 2 ^ (-53 : ℤ) * (X / 2) := mul_le_mul_of_nonneg_left hx (by positivity)
      have e4 : (0 : ℝ) ≤ 2 ^ (-53 : ℤ) * X := by positivity
      rw [e2]
      generalize (2 : ℝ) ^ (-1075 : ℤ) = y at *
      generalize (2 : ℝ) ^ (-53 : ℤ) = z at *
      linarith
    · rw [sub_self, abs_zero]
      positivity
  refine ⟨key, ?_⟩
  have t := abs_add_le (FusedReal.kept roundDouble x - x.1) x.1
  rw [sub_add_cancel] at t
  norm_num at key
  linarith

/-- What C91 assumes of the transform of locations. -/
theorem C91_located (hP : StoredPose P g.pose δ) (hg : Orthogonal g.pose.R) (hrun : ToGridRuns roundDouble P toGrid) {p : Fin 3 → FusedReal} {w : ℝ}
    (hX : (2 : ℝ) ^ (-1000 : ℤ) ≤ X) (ht : ∀ a, |g.pose.t a| ≤ X) (hp : ∀ a, |(p a).1| + 2 * w ≤ X / 2) :
    FairLocated (fusedQuery roundDouble left norm interp) Prod.fst ((2 ^ (-46 : ℤ) + 6 * δ) * X) w g
      (g.inMemory roundDouble (storedToGrid roundDouble toGrid) toWorld rotate) p := by
  intro L y hy hw b
  have hX0 : 0 < X := lt_of_lt_of_le (by positivity) hX
  have hL : ∀ a, |(L a).1| ≤ X / 2 := by
    intro a
    have t := abs_add_le ((L a).1 - (p a).1) (p a).1
    rw [sub_add_cancel] at t
    linarith [hw a, hp a]
  have hk := fun a => kept_double hX (hL a)
  have h83 := C83_coordinate_error (X := X) hP hg hrun (x := fun a => FusedReal.kept roundDouble (L a))
    ⟨ht, fun a => (hk a).2, le_trans (zpow_le_zpow_right₀ (by norm_num) (by norm_num)) hX⟩ b
  have one : FusedReal.kept roundDouble (fusedQuery roundDouble left norm interp).one = 1 := if_neg (by decide : ¬ (false = true))
  have ev : ((g.inMemory roundDouble (storedToGrid roundDouble toGrid) toWorld rotate).toGrid ⟨L, (fusedQuery roundDouble left norm interp).one⟩ b).1 =
      toGrid (point4 fun a => FusedReal.kept roundDouble (L a)) b := by
    show toGrid ⟨_, FusedReal.kept roundDouble (fusedQuery roundDouble left norm interp).one⟩ b = _
    rw [one]
    rfl
  rw [ev]
  have hyb := inFrameOf_unique hg hy b
  have diff : |inFrameOf g.pose (fun a => FusedReal.kept roundDouble (L a)) b - y b| ≤ 3 * (2 ^ (-52 : ℤ) * X) := by
    rw [← hyb]
    unfold inFrameOf
    have m : ∀ a, |g.pose.R a b * (FusedReal.kept roundDouble (L a) - (L a).1)| ≤ 2 ^ (-52 : ℤ) * X := by
      intro a
      rw [abs_mul]
      calc _ ≤ 1 * (2 ^ (-52 : ℤ) * X) := mul_le_mul (orthogonal_entry hg a b) (hk a).1 (abs_nonneg _) zero_le_one
        _ = _ := one_mul _
    have m0 := abs_le.1 (m 0)
    have m1 := abs_le.1 (m 1)
    have m2 := abs_le.1 (m 2)
    generalize (2 : ℝ) ^ (-52 : ℤ) * X = z at *
    rw [abs_le]
    constructor <;> nlinarith
  have t := abs_sub_le (toGrid (point4 fun a => FusedReal.kept roundDouble (L a)) b) (inFrameOf g.pose (fun a => FusedReal.kept roundDouble (L a)) b) (y b)
  norm_num at h83 diff ⊢
  nlinarith

/-- C86, `double` with fused products and sums, for locations in the world: the location is in memory with last coordinate 1. -/
theorem C86_clear_ball_world (hg : GeneratedBy floatSDF filled border g) (hP : StoredPose P g.pose δ) (hrun : ToGridRuns roundDouble P toGrid)
    (hs : (2 : ℝ) ^ (-100 : ℤ) ≤ g.s) (hs' : g.s ≤ 2 ^ (100 : ℤ)) (h1 : 1 ≤ N) (hN34 : N ≤ 2 ^ 34) (hN : ∀ a, (axisCells g.dims a : ℝ) ≤ N)
    (hint : interp = flTrilinear (fusedReal roundDouble left) ∨ interp = flBilinear (fusedReal roundDouble left))
    {loc : Vec4 FusedReal} {e' : FusedReal} (hw : FusedReal.kept roundDouble loc.w = 1)
    (he' : flEstimate (fusedQuery roundDouble left norm interp) (g.inMemory roundDouble (storedToGrid roundDouble toGrid) toWorld rotate) loc = .value e')
    (hX : WithinWorld X g.pose.t (fun a => FusedReal.kept roundDouble (loc.v a)))
    {o : Fin 3 → ℤ} (ho : CellInGrid (axisCells g.dims) o) {x y : Vec ℝ} (hxy : InFrame g.pose.R g.pose.t x y) (hx : InClosedCell g.s o x) :
    (filled (cellIdx o) = true → FusedReal.kept roundDouble e' - (Real.sqrt 3 + 3 + N / 2 ^ 18 + N ^ 2 / 2 ^ 34) * g.s - (2 ^ (-46 : ℤ) + 12 * δ) * X ≤
      dist3 (fun a => FusedReal.kept roundDouble (loc.v a)) y) ∧
    (filled (cellIdx o) = false → -FusedReal.kept roundDouble e' - (Real.sqrt 3 + 3 + N / 2 ^ 18 + N ^ 2 / 2 ^ 34) * g.s - (2 ^ (-46 : ℤ) + 12 * δ) * X ≤
      dist3 (fun a => FusedReal.kept roundDouble (loc.v a)) y) := by
  obtain ⟨q, hq⟩ := frame_place (Q := g.pose) (toGrid (point4 fun a => FusedReal.kept roundDouble (loc.v a)))
  have e := C83_location_error hP hg.pose hrun hX hq
  have key := C86_clear_ball_fused (p := q) (p' := fun a => FusedReal.kept roundDouble (loc.v a)) hg hs hs' h1 hN34 hN hint he' (by
    show InFrame g.pose.R g.pose.t (fun a => toGrid ⟨_, FusedReal.kept roundDouble loc.w⟩ a) q
    rw [hw]
    exact hq) ho hxy hx
  generalize (2 ^ (-46 : ℤ) + 12 * δ) * X = E at *
  exact ⟨fun h => by have := key.1 h; linarith, fun h => by have := key.2 h; linarith⟩

/-- C86. There is an answer at locations whose true coordinates are in the grid by `90 N/2⁵³` cell edges and the error of the transform. -/
theorem C86_answer_exists_world (hP : StoredPose P g.pose δ) (hg : Orthogonal g.pose.R) (hrun : ToGridRuns roundDouble P toGrid)
    (hs : (2 : ℝ) ^ (-100 : ℤ) ≤ g.s) (hs' : g.s ≤ 2 ^ (100 : ℤ)) (h1 : 1 ≤ N) (hN34 : N ≤ 2 ^ 34) (hN : ∀ a, (axisCells g.dims a : ℝ) ≤ N)
    (hint : interp = flTrilinear (fusedReal roundDouble left) ∨ interp = flBilinear (fusedReal roundDouble left))
    {loc : Vec4 FusedReal} (hw : FusedReal.kept roundDouble loc.w = 1) (hX : WithinWorld X g.pose.t (fun a => FusedReal.kept roundDouble (loc.v a)))
    (hin : ∀ a, 90 * N / 2 ^ 53 * g.s + (2 ^ (-47 : ℤ) + 6 * δ) * X ≤ inFrameOf g.pose (fun a => FusedReal.kept roundDouble (loc.v a)) a ∧
      inFrameOf g.pose (fun a => FusedReal.kept roundDouble (loc.v a)) a + (2 ^ (-47 : ℤ) + 6 * δ) * X < (axisCells g.dims a - 90 * N / 2 ^ 53) * g.s) :
    ∃ e', flEstimate (fusedQuery roundDouble left norm interp) (g.inMemory roundDouble (storedToGrid roundDouble toGrid) toWorld rotate) loc = .value e' := by
  refine (C86_estimate_defined fused_double_fair (fair_room_double hs hs' h1 hN34) (inMemory_double hs hs') hint hN (fun _ => rfl)).1 fun a => ?_
  have e := abs_le.1 (C83_coordinate_error hP hg hrun hX a)
  have ev : ((g.inMemory roundDouble (storedToGrid roundDouble toGrid) toWorld rotate).toGrid loc a).1 =
      toGrid (point4 fun a => FusedReal.kept roundDouble (loc.v a)) a := by
    show toGrid ⟨_, FusedReal.kept roundDouble loc.w⟩ a = _
    rw [hw]
    rfl
  have e53 : 30 * (3 * (2 : ℝ) ^ (-53 : ℤ) * N) = 90 * N / 2 ^ 53 := by
    rw [show (2 : ℝ) ^ (-53 : ℤ) = 1 / 2 ^ 53 by rw [zpow_neg, one_div]; norm_cast]
    ring
  rw [ev, e53]
  have h := hin a
  generalize (2 ^ (-47 : ℤ) + 6 * δ) * X = E at *
  constructor <;> linarith

/-- C91, `SignedDistanceField<float>`, for locations in the world. -/
theorem C91_fine_world_float (hg : GeneratedBy floatSDF filled border g) (hP : StoredPose P g.pose δ) (hrun : ToGridRuns roundDouble P toGrid)
    (hs : (2 : ℝ) ^ (-100 : ℤ) ≤ g.s) (hs' : g.s ≤ 2 ^ (100 : ℤ)) (h1 : 1 ≤ N) (hN' : N ≤ 2 ^ 34) (hN : ∀ a, (axisCells g.dims a : ℝ) ≤ N)
    (hint : interp = flTrilinear (fusedReal roundDouble left) ∨ interp = flBilinear (fusedReal roundDouble left))
    {p : Fin 3 → FusedReal} {window : FusedReal} {w : ℝ} (hw : |FusedReal.kept roundDouble window| = w) (hw0 : (2 : ℝ) ^ (-1000 : ℤ) ≤ w)
    (ht : ∀ a, |g.pose.t a| ≤ X) (hp : ∀ a, |(p a).1| + 2 * w ≤ X / 2) (hXw : X ≤ 2 ^ 40 * w) {v' : Fin 3 → FusedReal}
    (hv' : flFine (fusedQuery roundDouble left norm interp) (g.inMemory roundDouble (storedToGrid roundDouble toGrid) toWorld rotate) p window = .value v')
    (a : Fin 3) :
    |FusedReal.kept roundDouble (v' a)| ≤ 8 + 3 * ((N / 2 ^ 18 + N ^ 2 / 2 ^ 34) * g.s + 10 * ((2 ^ (-46 : ℤ) + 6 * δ) * X)) / w := by
  have hwp : 0 < w := lt_of_lt_of_le (by positivity) hw0
  have hwX : w ≤ X := by
    have := hp 0
    have := abs_nonneg (p 0).1
    linarith
  exact C91_fine_fused_float hg hs hs' h1 hN' hN hint hw hw0 (B := X) (fun a => by have := hp a; linarith) hXw
    (C91_located hP hg.pose hrun (hw0.trans hwX) ht hp) hv' a

/-- C91, `SignedDistanceField<double>`, for locations in the world. -/
theorem C91_fine_world_double (hg : GeneratedBy doubleSDF filled border g) (hP : StoredPose P g.pose δ) (hrun : ToGridRuns roundDouble P toGrid)
    (hs : (2 : ℝ) ^ (-100 : ℤ) ≤ g.s) (hs' : g.s ≤ 2 ^ (100 : ℤ)) (h1 : 1 ≤ N) (hN' : N ≤ 2 ^ 34) (hN : ∀ a, (axisCells g.dims a : ℝ) ≤ N)
    (hint : interp = flTrilinear (fusedReal roundDouble left) ∨ interp = flBilinear (fusedReal roundDouble left))
    {p : Fin 3 → FusedReal} {window : FusedReal} {w : ℝ} (hw : |FusedReal.kept roundDouble window| = w) (hw0 : (2 : ℝ) ^ (-1000 : ℤ) ≤ w)
    (ht : ∀ a, |g.pose.t a| ≤ X) (hp : ∀ a, |(p a).1| + 2 * w ≤ X / 2) (hXw : X ≤ 2 ^ 40 * w) {v' : Fin 3 → FusedReal}
    (hv' : flFine (fusedQuery roundDouble left norm interp) (g.inMemory roundDouble (storedToGrid roundDouble toGrid) toWorld rotate) p window = .value v')
    (a : Fin 3) :
    |FusedReal.kept roundDouble (v' a)| ≤ 8 + 3 * ((N / 2 ^ 40 + N ^ 2 / 2 ^ 34) * g.s + 10 * ((2 ^ (-46 : ℤ) + 6 * δ) * X)) / w := by
  have hwp : 0 < w := lt_of_lt_of_le (by positivity) hw0
  have hwX : w ≤ X := by
    have := hp 0
    have := abs_nonneg (p 0).1
    linarith
  exact C91_fine_fused_double hg hs hs' h1 hN' hN hint hw hw0 (B := X) (fun a => by have := hp a; linarith) hXw
    (C91_located hP hg.pose hrun (hw0.trans hwX) ht hp) hv' a

end

/-! ### A concrete case -/

/-- The place of `(81/2, 1/2, 1/2)` of the turned grid, in memory. -/
noncomputable def slantStart : Fin 3 → FusedReal := fun a => (slantPlace a, false)

theorem slantPlace_size (a : Fin 3) : |slantPlace a| ≤ 2033 := by
  fin_cases a <;> simp [slantPlace] <;> norm_num [abs_le]

theorem slant_near {x : Fin 3 → ℝ} (hx : ∀ b, |x b - slantPlace b| ≤ 3 / 10) (a : Fin 3) :
    |inFrameOf slantPose x a - (![81 / 2, 1 / 2, 1 / 2] : Fin 3 → ℝ) a| ≤ 45 / 100 := by
  have h0 := abs_le.1 (hx 0)
  have h1 := abs_le.1 (hx 1)
  have h2 := abs_le.1 (hx 2)
  simp [slantPlace] at h0 h1 h2
  rw [abs_le]
  fin_cases a <;> simp [inFrameOf, slantPose] <;> constructor <;> linarith

/-- There are an answer and a fine gradient in a row of 64 cells of edge 1. -/
theorem slant_exists {g : SDFGrid ℝ} {toGrid : Vec4 ℝ → Fin 3 → ℝ} (hgo : Orthogonal g.pose.R) (hd : g.dims = ⟨64, 1, 1⟩) (hs : g.s = 1)
    (hP : g.pose = slantPose) (hrun : ToGridRuns roundDouble slantStored toGrid) (left : Bool) :
    (∃ e', flEstimate (fusedQuery roundDouble left (fun _ => (0, false)) (flTrilinear (fusedReal roundDouble left)))
      (g.inMemory roundDouble (storedToGrid roundDouble toGrid) id id) ⟨slantStart, (1, false)⟩ = .value e') ∧
    ∃ v', flFine (fusedQuery roundDouble left (fun _ => (0, false)) (flTrilinear (fusedReal roundDouble left)))
      (g.inMemory roundDouble (storedToGrid roundDouble toGrid) id id) slantStart (1 / 4, false) = .value v' := by
  have hst : StoredPose slantStored g.pose (2 ^ (-52 : ℤ)) := by rw [hP]; exact slantStored_near
  have hN : ∀ a, (axisCells g.dims a : ℝ) ≤ 64 := by
    rw [hd]; intro a; fin_cases a <;> simp [axisCells]
  have s1 : (2 : ℝ) ^ (-100 : ℤ) ≤ g.s := by rw [hs]; norm_num
  have s2 : g.s ≤ (2 : ℝ) ^ (100 : ℤ) := by rw [hs]; norm_num
  have normal : (2 : ℝ) ^ (-1022 : ℤ) ≤ 4096 := le_trans (zpow_le_zpow_right₀ (by norm_num) (by norm_num : (-1022 : ℤ) ≤ 0)) (by norm_num)
  have origin : ∀ a, |g.pose.t a| ≤ 4096 := by
    rw [hP]; intro a; fin_cases a <;> simp [slantPose] <;> norm_num [abs_le]
  have fair := fused_double_fair (left := left) (norm := fun _ => (0, false)) (interp := flTrilinear (fusedReal roundDouble left))
  have answer : ∀ L : Fin 3 → FusedReal, (∀ b, |FusedReal.kept roundDouble (L b) - slantPlace b| ≤ 3 / 10) →
      ∃ e, flEstimate (fusedQuery roundDouble left (fun _ => (0, false)) (flTrilinear (fusedReal roundDouble left)))
        (g.inMemory roundDouble (storedToGrid roundDouble toGrid) id id) ⟨L, (1, false)⟩ = .value e := by
    intro L hL
    refine C86_answer_exists_world (X := 4096) hst hgo hrun s1 s2 (N := 64) (by norm_num) (by norm_num) hN (.inl rfl)
      (if_neg (by decide : ¬ (false = true))) ⟨origin, fun a => ?_, normal⟩ fun a => ?_
    · have t := abs_add_le (FusedReal.kept roundDouble (L a) - slantPlace a) (slantPlace a)
      rw [sub_add_cancel] at t
      have := slantPlace_size a
      have := hL a
      dsimp only
      linarith
    · have h := abs_le.1 (slant_near hL a)
      dsimp only
      rw [hP, hd, hs]
      generalize inFrameOf slantPose (fun b => FusedReal.kept roundDouble (L b)) a = z at *
      fin_cases a <;> simp [axisCells] at h ⊢ <;> norm_num at h ⊢ <;> constructor <;> linarith
  have kp : ∀ b, FusedReal.kept roundDouble (slantStart b) = slantPlace b := fun b => if_neg (by decide : ¬ (false = true))
  have h0 := answer slantStart (fun b => by rw [kp, sub_self, abs_zero]; norm_num)
  obtain ⟨e', he'⟩ := h0
  refine ⟨⟨e', he'⟩, ?_⟩
  · refine fair_fine_defined (fun _ _ => rfl) ⟨e', he'⟩ fun b => .inr (answer _ fun c => ?_)
    have ew : (fusedQuery roundDouble left (fun _ => (0, false)) (flTrilinear (fusedReal roundDouble left))).abs (1 / 4, false) = ((1 / 4, false) : FusedReal) :=
      Prod.ext fineWindow rfl
    rw [ew]
    by_cases hc : c = b
    · subst hc
      rw [if_pos rfl]
      have hadd := fair.add (slantStart c) ((1 / 4, false) : FusedReal)
      have hk : FusedReal.kept roundDouble ((fusedQuery roundDouble left (fun _ => (0, false)) (flTrilinear (fusedReal roundDouble left))).add (slantStart c)
          (1 / 4, false)) = ((fusedQuery roundDouble left (fun _ => (0, false)) (flTrilinear (fusedReal roundDouble left))).add (slantStart c) (1 / 4, false)).1 :=
        if_neg (by decide : ¬ (false = true))
      rw [hk]
      have hB : |(slantStart c).1| ≤ 2033 := slantPlace_size c
      have e1 : (slantStart c).1 = slantPlace c := rfl
      have eη : (2 : ℝ) ^ (-1075 : ℤ) ≤ 2 ^ (-53 : ℤ) := zpow_le_zpow_right₀ (by norm_num) (by norm_num)
      have e53 : (2 : ℝ) ^ (-53 : ℤ) = 1 / 2 ^ 53 := by rw [zpow_neg, one_div]; norm_cast
      dsimp only at hadd
      rw [abs_of_pos (show (0 : ℝ) < 1 / 4 by norm_num)] at hadd
      rw [e53] at hadd eη
      generalize (2 : ℝ) ^ (-1075 : ℤ) = z at *
      rw [← e1]
      have h := abs_le.1 hadd
      rw [abs_le]
      norm_num at h eη ⊢
      constructor <;> linarith
    · rw [if_neg hc, kp, sub_self, abs_zero]; norm_num

/-- The hypotheses of the theorems above are met: a row of 64 cells of edge 1 in a turned and moved grid whose rotation is stored with rounding.  The first
cell is at least the answer less 5 away, and no component of the fine gradient with a window of 1/4 is larger than `8 + 2⁻⁵`. -/
example (left : Bool) : ∃ (g : SDFGrid ℝ) (toGrid : Vec4 ℝ → Fin 3 → ℝ) (e' : FusedReal) (v' : Fin 3 → FusedReal),
    GeneratedBy floatSDF (fun i => decide (i.1 = 0)) false g ∧ g.pose = slantPose ∧ ToGridRuns roundDouble slantStored toGrid ∧
    flEstimate (fusedQuery roundDouble left (fun _ => (0, false)) (flTrilinear (fusedReal roundDouble left)))
      (g.inMemory roundDouble (storedToGrid roundDouble toGrid) id id) ⟨slantStart, (1, false)⟩ = .value e' ∧
    (∀ x y, InFrame g.pose.R g.pose.t x y → InClosedCell 1 ![0, 0, 0] x → FusedReal.kept roundDouble e' - 5 ≤ dist3 slantPlace y) ∧
    flFine (fusedQuery roundDouble left (fun _ => (0, false)) (flTrilinear (fusedReal roundDouble left)))
      (g.inMemory roundDouble (storedToGrid roundDouble toGrid) id id) slantStart (1 / 4, false) = .value v' ∧
    ∀ a, |FusedReal.kept roundDouble (v' a)| ≤ 8 + 1 / 2 ^ 5 := by
  obtain ⟨g, hg, hd, hs, hP⟩ := C68_generated_exists exRow_ok slantPose_orthogonal (filled := fun i => decide (i.1 = 0)) false
    (i := (1, 0, 0)) (by decide) (by decide) (j := (0, 0, 0)) (by decide) (by decide)
  obtain ⟨toGrid, hrun⟩ := toGridRuns_exists roundDouble slantStored
  dsimp only at hd hs
  have hst : StoredPose slantStored g.pose (2 ^ (-52 : ℤ)) := by rw [hP]; exact slantStored_near
  have hN : ∀ a, (axisCells g.dims a : ℝ) ≤ 64 := by
    rw [hd]; intro a; fin_cases a <;> simp [axisCells]
  have s1 : (2 : ℝ) ^ (-100 : ℤ) ≤ g.s := by rw [hs]; norm_num
  have s2 : g.s ≤ (2 : ℝ) ^ (100 : ℤ) := by rw [hs]; norm_num
  have normal : (2 : ℝ) ^ (-1022 : ℤ) ≤ 4096 := le_trans (zpow_le_zpow_right₀ (by norm_num) (by norm_num : (-1022 : ℤ) ≤ 0)) (by norm_num)
  have origin : ∀ a, |g.pose.t a| ≤ 4096 := by
    rw [hP]; intro a; fin_cases a <;> simp [slantPose] <;> norm_num [abs_le]
  have kp : ∀ b, FusedReal.kept roundDouble (slantStart b) = slantPlace b := fun b => if_neg (by decide : ¬ (false = true))
  obtain ⟨⟨e', he'⟩, v', hv'⟩ := slant_exists hg.pose hd hs hP hrun left
  refine ⟨g, toGrid, e', v', hg, hP, hrun, he', fun x y hxy hx => ?_, hv', fun a => ?_⟩
  · have := (C86_clear_ball_world (X := 4096) (loc := ⟨slantStart, (1, false)⟩) hg hst hrun s1 s2 (N := 64) (by norm_num) (by norm_num) hN (.inl rfl)
      (if_neg (by decide : ¬ (false = true))) he' ⟨origin, fun a => by
        dsimp only
        rw [kp]
        linarith [slantPlace_size a], normal⟩ (o := ![0, 0, 0])
      (by rw [hd]; intro a; fin_cases a <;> simp [axisCells]) hxy (by rw [hs]; exact hx)).1 (by decide)
    have h3 : Real.sqrt 3 ≤ 19 / 10 := by rw [Real.sqrt_le_left (by norm_num)]; norm_num
    rw [hs, show (fun a => FusedReal.kept roundDouble (slantStart a)) = slantPlace from funext kp] at this
    norm_num at this
    linarith
  · refine (C91_fine_world_float (X := 4096 * 4) hg hst hrun s1 s2 (N := 64) (by norm_num) (by norm_num) hN (.inl rfl) fineWindow fine_tiny
      (fun a => (origin a).trans (by norm_num)) (fun a => ?_) (by norm_num) hv' a).trans ?_
    · have : |(slantStart a).1| ≤ 2033 := slantPlace_size a
      linarith
    · rw [hs]; norm_num

/-- The same for fields of `double`, for `C91_fine_world_double`. -/
example (left : Bool) : ∃ (g : SDFGrid ℝ) (toGrid : Vec4 ℝ → Fin 3 → ℝ) (v' : Fin 3 → FusedReal),
    GeneratedBy doubleSDF (fun i => decide (i.1 = 0)) false g ∧ g.pose = slantPose ∧ ToGridRuns roundDouble slantStored toGrid ∧
    flFine (fusedQuery roundDouble left (fun _ => (0, false)) (flTrilinear (fusedReal roundDouble left)))
      (g.inMemory roundDouble (storedToGrid roundDouble toGrid) id id) slantStart (1 / 4, false) = .value v' ∧
    ∀ a, |FusedReal.kept roundDouble (v' a)| ≤ 8 + 1 / 2 ^ 15 := by
  have ok : GenOK doubleSDF ⟨⟨64, 1, 1⟩, 1, 1, 1⟩ :=
    { rq := roundDouble_isDoubleRounding
      rr := roundDouble_isRounding
      rc := roundDouble_isRounding
      uniform := ⟨rfl, rfl⟩
      res := one_pos
      repr := roundDouble_isRounding.one
      castPos := by
        have : doubleSDF.cast 1 = 1 := roundDouble_isRounding.one
        rw [this]; exact one_pos
      fits := by constructor <;> decide }
  obtain ⟨g, hg, hd, hs, hP⟩ := C68_generated_exists ok slantPose_orthogonal (filled := fun i => decide (i.1 = 0)) false
    (i := (1, 0, 0)) (by decide) (by decide) (j := (0, 0, 0)) (by decide) (by decide)
  obtain ⟨toGrid, hrun⟩ := toGridRuns_exists roundDouble slantStored
  dsimp only at hd hs
  have hst : StoredPose slantStored g.pose (2 ^ (-52 : ℤ)) := by rw [hP]; exact slantStored_near
  have hN : ∀ a, (axisCells g.dims a : ℝ) ≤ 64 := by
    rw [hd]; intro a; fin_cases a <;> simp [axisCells]
  have s1 : (2 : ℝ) ^ (-100 : ℤ) ≤ g.s := by rw [hs]; norm_num
  have s2 : g.s ≤ (2 : ℝ) ^ (100 : ℤ) := by rw [hs]; norm_num
  have origin : ∀ a, |g.pose.t a| ≤ 4096 := by
    rw [hP]; intro a; fin_cases a <;> simp [slantPose] <;> norm_num [abs_le]
  obtain ⟨-, v', hv'⟩ := slant_exists hg.pose hd hs hP hrun left
  refine ⟨g, toGrid, v', hg, hP, hrun, hv', fun a => ?_⟩
  refine (C91_fine_world_double (X := 4096 * 4) hg hst hrun s1 s2 (N := 64) (by norm_num) (by norm_num) hN (.inl rfl) fineWindow fine_tiny
    (fun a => (origin a).trans (by norm_num)) (fun a => ?_) (by norm_num) hv' a).trans ?_
  · have : |(slantStart a).1| ≤ 2033 := slantPlace_size a
    linarith
  · rw [hs]; norm_num

end VGT
