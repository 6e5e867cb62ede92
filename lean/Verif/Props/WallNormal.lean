import Verif.Props.FairFineNear
import Verif.Props.WallProject

/-!
C92: the fine gradient of a flat wall is the normal of the wall, with rounding.
-/
set_option autoImplicit false

namespace VGT
open VGT.EDT VGT.Spec

section
variable {filled : Idx → Bool} {g : SDFGrid ℝ} {a : Fin 3} {m : ℕ}

/-- In exact arithmetic the fine gradient of a wall is the direction in which layers are counted. -/
theorem wall_fine (h : Generated filled false g) (hw : IsWall g.dims a m filled) {q p : Vec ℝ} (hq : InFrame g.pose.R g.pose.t q p) {W : ℝ}
    (hW : 0 < |W|) (hroom : ∀ b, |W| ≤ q b ∧ q b + |W| < axisCells g.dims b * g.s) : g.fine p W = .value fun b => g.pose.R b a := by
  have sample : ∀ (b : Fin 3) (σ : ℝ), |σ| ≤ |W| →
      g.estimate (point4 (moved p b σ)) = some (some (q a + g.pose.R b a * σ - m * g.s)) := by
    intro b σ hσ
    obtain ⟨y, hy⟩ := exists_frame h.pose (moved p b σ)
    have e : ∀ c, y c = q c + g.pose.R b c * σ := by
      intro c
      rw [← inFrameOf_unique h.pose hy c, ← inFrameOf_unique h.pose hq c]
      unfold inFrameOf moved
      fin_cases b <;> simp <;> ring
    have hin : InGridBox (axisCells g.dims) g.s y := by
      intro c
      have h1 : |g.pose.R b c * σ| ≤ |W| := by
        rw [abs_mul]
        calc _ ≤ 1 * |W| := mul_le_mul (orthogonal_entry h.pose b c) hσ (abs_nonneg _) zero_le_one
          _ = _ := one_mul _
      have h2 := abs_le.1 h1
      have h3 := hroom c
      rw [e c]
      constructor <;> linarith
    rw [wall_estimate h hw hy hin, e a]
  have key := fine_central h.pos h.pose (p := p) hW ⟨q, hq, fun b => ⟨by linarith [(hroom b).1], by linarith [(hroom b).2]⟩⟩
    (fun b => sample b (-|W|) (by rw [abs_neg, abs_abs])) (fun b => sample b |W| (by rw [abs_abs]))
  rw [key]
  congr 1
  funext b
  have : |W| ≠ 0 := hW.ne'
  field_simp
  ring

end

section
variable {filled : Idx → Bool} {left : Bool} {g : SDFGrid ℝ} {a : Fin 3} {m : ℕ} {N X δ : ℝ} {P : Pose ℝ} {norm : (Fin 3 → FusedReal) → FusedReal}
  {interp : (Fin 3 → FusedReal) → (Fin 3 → FusedReal) → (Bool → Bool → Bool → FusedReal) → (Fin 3 → FusedReal) → FusedReal}
  {toWorld rotate : (Fin 3 → FusedReal) → Fin 3 → FusedReal}

/-- C92, `SignedDistanceField<float>` queried in `double` with fused products and sums: the fine gradient of a wall. -/
theorem C92_wall_normal_float {toGrid : Vec4 FusedReal → Fin 3 → FusedReal} (hg : GeneratedBy floatSDF filled false g)
    (hwall : IsWall g.dims a m filled) (hs : (2 : ℝ) ^ (-100 : ℤ) ≤ g.s)
    (hs' : g.s ≤ 2 ^ (100 : ℤ)) (h1 : 1 ≤ N) (hN' : N ≤ 2 ^ 34) (hN : ∀ a, (axisCells g.dims a : ℝ) ≤ N)
    (hint : interp = flTrilinear (fusedReal roundDouble left) ∨ interp = flBilinear (fusedReal roundDouble left))
    {p : Fin 3 → FusedReal} {q : Fin 3 → ℝ} (hq : InFrame g.pose.R g.pose.t q (fun a => (p a).1)) {window : FusedReal} {w B : ℝ}
    (hw : |FusedReal.kept roundDouble window| = w) (hw0 : (2 : ℝ) ^ (-1000 : ℤ) ≤ w) (hB : ∀ a, |(p a).1| ≤ B) (hBw : B ≤ 2 ^ 40 * w)
    (hloc : FairLocated (fusedQuery roundDouble left norm interp) Prod.fst δ w g (g.inMemory roundDouble toGrid toWorld rotate) p)
    (hroom : ∀ a, 2 * w + δ + 90 * N / 2 ^ 53 * g.s ≤ q a ∧ q a + (2 * w + δ + 90 * N / 2 ^ 53 * g.s) < axisCells g.dims a * g.s) :
    ∃ v', flFine (fusedQuery roundDouble left norm interp) (g.inMemory roundDouble toGrid toWorld rotate) p window = .value v' ∧
      ∀ b, |FusedReal.kept roundDouble (v' b) - g.pose.R b a| ≤ ((1 / 2 ^ 17 * N + N ^ 2 / 2 ^ 33) * g.s + 15 * δ + B / 2 ^ 45) / w + 1 / 2 ^ 44 := by
  have hpos : 0 < g.s := lt_of_lt_of_le (by positivity) hs
  have hwp : 0 < w := lt_of_lt_of_le (by positivity) hw0
  have hE : 0 ≤ 90 * N / 2 ^ 53 * g.s := by positivity
  have hδ : 0 ≤ δ := (abs_nonneg _).trans (hloc p q hq (by intro a; rw [sub_self, abs_zero]; positivity) 0)
  obtain ⟨v', g₀, v₀, r1, r2, r3, r4, r5, r6, r7⟩ := C91_fine_near_float hg hs hs' h1 hN' hN hint hq hw hw0 hB hBw hloc hroom
  have key := wall_fine r2 (by rw [r3]; exact hwall) (by rw [r5]; exact hq) (W := FusedReal.kept roundDouble window) (by rw [hw]; exact hwp)
    (fun b => by
      rw [r3, r4, hw]
      have := hroom b
      constructor <;> linarith)
  rw [key, r5] at r6
  cases r6
  exact ⟨v', r1, r7⟩

/-- C92. The same for locations in the world. -/
theorem C92_wall_normal_world_float {toGrid : Vec4 ℝ → Fin 3 → ℝ} (hg : GeneratedBy floatSDF filled false g)
    (hwall : IsWall g.dims a m filled) (hP : StoredPose P g.pose δ)
    (hrun : ToGridRuns roundDouble P toGrid) (hs : (2 : ℝ) ^ (-100 : ℤ) ≤ g.s) (hs' : g.s ≤ 2 ^ (100 : ℤ)) (h1 : 1 ≤ N) (hN' : N ≤ 2 ^ 34)
    (hN : ∀ a, (axisCells g.dims a : ℝ) ≤ N)
    (hint : interp = flTrilinear (fusedReal roundDouble left) ∨ interp = flBilinear (fusedReal roundDouble left))
    {p : Fin 3 → FusedReal} {q : Fin 3 → ℝ} (hq : InFrame g.pose.R g.pose.t q (fun a => (p a).1)) {window : FusedReal} {w : ℝ}
    (hw : |FusedReal.kept roundDouble window| = w) (hw0 : (2 : ℝ) ^ (-1000 : ℤ) ≤ w)
    (ht : ∀ a, |g.pose.t a| ≤ X) (hp : ∀ a, |(p a).1| + 2 * w ≤ X / 2) (hXw : X ≤ 2 ^ 40 * w)
    (hroom : ∀ a, 2 * w + (2 ^ (-46 : ℤ) + 6 * δ) * X + 90 * N / 2 ^ 53 * g.s ≤ q a ∧
      q a + (2 * w + (2 ^ (-46 : ℤ) + 6 * δ) * X + 90 * N / 2 ^ 53 * g.s) < axisCells g.dims a * g.s) :
    ∃ v', flFine (fusedQuery roundDouble left norm interp) (g.inMemory roundDouble (storedToGrid roundDouble toGrid) toWorld rotate) p window =
        .value v' ∧
      ∀ b, |FusedReal.kept roundDouble (v' b) - g.pose.R b a| ≤
        ((1 / 2 ^ 17 * N + N ^ 2 / 2 ^ 33) * g.s + 15 * ((2 ^ (-46 : ℤ) + 6 * δ) * X) + X / 2 ^ 45) / w + 1 / 2 ^ 44 := by
  have hwp : 0 < w := lt_of_lt_of_le (by positivity) hw0
  have hwX : w ≤ X := by
    have := hp 0
    have := abs_nonneg (p 0).1
    linarith
  exact C92_wall_normal_float hg hwall hs hs' h1 hN' hN hint hq hw hw0 (B := X) (fun a => by have := hp a; linarith) hXw
    (C91_located hP hg.pose hrun (hw0.trans hwX) ht hp) hroom

/-- C92, `SignedDistanceField<double>` queried in `double` with fused products and sums: the fine gradient of a wall. -/
theorem C92_wall_normal_double {toGrid : Vec4 FusedReal → Fin 3 → FusedReal} (hg : GeneratedBy doubleSDF filled false g)
    (hwall : IsWall g.dims a m filled) (hs : (2 : ℝ) ^ (-100 : ℤ) ≤ g.s)
    (hs' : g.s ≤ 2 ^ (100 : ℤ)) (h1 : 1 ≤ N) (hN' : N ≤ 2 ^ 34) (hN : ∀ a, (axisCells g.dims a : ℝ) ≤ N)
    (hint : interp = flTrilinear (fusedReal roundDouble left) ∨ interp = flBilinear (fusedReal roundDouble left))
    {p : Fin 3 → FusedReal} {q : Fin 3 → ℝ} (hq : InFrame g.pose.R g.pose.t q (fun a => (p a).1)) {window : FusedReal} {w B : ℝ}
    (hw : |FusedReal.kept roundDouble window| = w) (hw0 : (2 : ℝ) ^ (-1000 : ℤ) ≤ w) (hB : ∀ a, |(p a).1| ≤ B) (hBw : B ≤ 2 ^ 40 * w)
    (hloc : FairLocated (fusedQuery roundDouble left norm interp) Prod.fst δ w g (g.inMemory roundDouble toGrid toWorld rotate) p)
    (hroom : ∀ a, 2 * w + δ + 90 * N / 2 ^ 53 * g.s ≤ q a ∧ q a + (2 * w + δ + 90 * N / 2 ^ 53 * g.s) < axisCells g.dims a * g.s) :
    ∃ v', flFine (fusedQuery roundDouble left norm interp) (g.inMemory roundDouble toGrid toWorld rotate) p window = .value v' ∧
      ∀ b, |FusedReal.kept roundDouble (v' b) - g.pose.R b a| ≤ ((1 / 2 ^ 40 * N + N ^ 2 / 2 ^ 33) * g.s + 15 * δ + B / 2 ^ 45) / w + 1 / 2 ^ 44 := by
  have hpos : 0 < g.s := lt_of_lt_of_le (by positivity) hs
  have hwp : 0 < w := lt_of_lt_of_le (by positivity) hw0
  have hE : 0 ≤ 90 * N / 2 ^ 53 * g.s := by positivity
  have hδ : 0 ≤ δ := (abs_nonneg _).trans (hloc p q hq (by intro a; rw [sub_self, abs_zero]; positivity) 0)
  obtain ⟨v', g₀, v₀, r1, r2, r3, r4, r5, r6, r7⟩ := C91_fine_near_double hg hs hs' h1 hN' hN hint hq hw hw0 hB hBw hloc hroom
  have key := wall_fine r2 (by rw [r3]; exact hwall) (by rw [r5]; exact hq) (W := FusedReal.kept roundDouble window) (by rw [hw]; exact hwp)
    (fun b => by
      rw [r3, r4, hw]
      have := hroom b
      constructor <;> linarith)
  rw [key, r5] at r6
  cases r6
  exact ⟨v', r1, r7⟩

/-- C92. The same for locations in the world. -/
theorem C92_wall_normal_world_double {toGrid : Vec4 ℝ → Fin 3 → ℝ} (hg : GeneratedBy doubleSDF filled false g)
    (hwall : IsWall g.dims a m filled) (hP : StoredPose P g.pose δ)
    (hrun : ToGridRuns roundDouble P toGrid) (hs : (2 : ℝ) ^ (-100 : ℤ) ≤ g.s) (hs' : g.s ≤ 2 ^ (100 : ℤ)) (h1 : 1 ≤ N) (hN' : N ≤ 2 ^ 34)
    (hN : ∀ a, (axisCells g.dims a : ℝ) ≤ N)
    (hint : interp = flTrilinear (fusedReal roundDouble left) ∨ interp = flBilinear (fusedReal roundDouble left))
    {p : Fin 3 → FusedReal} {q : Fin 3 → ℝ} (hq : InFrame g.pose.R g.pose.t q (fun a => (p a).1)) {window : FusedReal} {w : ℝ}
    (hw : |FusedReal.kept roundDouble window| = w) (hw0 : (2 : ℝ) ^ (-1000 : ℤ) ≤ w)
    (ht : ∀ a, |g.pose.t a| ≤ X) (hp : ∀ a, |(p a).1| + 2 * w ≤ X / 2) (hXw : X ≤ 2 ^ 40 * w)
    (hroom : ∀ a, 2 * w + (2 ^ (-46 : ℤ) + 6 * δ) * X + 90 * N / 2 ^ 53 * g.s ≤ q a ∧
      q a + (2 * w + (2 ^ (-46 : ℤ) + 6 * δ) * X + 90 * N / 2 ^ 53 * g.s) < axisCells g.dims a * g.s) :
    ∃ v', flFine (fusedQuery roundDouble left norm interp) (g.inMemory roundDouble (storedToGrid roundDouble toGrid) toWorld rotate) p window =
        .value v' ∧
      ∀ b, |FusedReal.kept roundDouble (v' b) - g.pose.R b a| ≤
        ((1 / 2 ^ 40 * N + N ^ 2 / 2 ^ 33) * g.s + 15 * ((2 ^ (-46 : ℤ) + 6 * δ) * X) + X / 2 ^ 45) / w + 1 / 2 ^ 44 := by
  have hwp : 0 < w := lt_of_lt_of_le (by positivity) hw0
  have hwX : w ≤ X := by
    have := hp 0
    have := abs_nonneg (p 0).1
    linarith
  exact C92_wall_normal_double hg hwall hs hs' h1 hN' hN hint hq hw hw0 (B := X) (fun a => by have := hp a; linarith) hXw
    (C91_located hP hg.pose hrun (hw0.trans hwX) ht hp) hroom

end

/-! ### IEEE arithmetic -/

section
variable {filled : Idx → Bool} {g : SDFGrid ℝ} {a : Fin 3} {m : ℕ} {N : ℝ} {norm : (Fin 3 → ℝ) → ℝ}
  {interp : (Fin 3 → ℝ) → (Fin 3 → ℝ) → (Bool → Bool → Bool → ℝ) → (Fin 3 → ℝ) → ℝ} {toGrid : Vec4 ℝ → Fin 3 → ℝ}
  {toWorld rotate : (Fin 3 → ℝ) → Fin 3 → ℝ}

/-- C92, `SignedDistanceField<float>` queried in IEEE `double`. -/
theorem C92_wall_normal_ieee_float (hg : GeneratedBy floatSDF filled false g) (hwall : IsWall g.dims a m filled) (hs : (2 : ℝ) ^ (-100 : ℤ) ≤ g.s)
    (hs' : g.s ≤ 2 ^ (100 : ℤ)) (h1 : 1 ≤ N) (hN43 : N ≤ 2 ^ 43) (hN : ∀ a, (axisCells g.dims a : ℝ) ≤ N) (hint : DoubleInterpolation interp)
    {p q : Fin 3 → ℝ} (hq : InFrame g.pose.R g.pose.t q p) {window δ B : ℝ} (hw : (2 : ℝ) ^ (-1022 : ℤ) ≤ |window|)
    (hB : ∀ a, |p a| ≤ B) (hBw : B ≤ 2 ^ 48 * |window|) (hδ : 0 ≤ δ) (hloc : LocatedWithin δ |window| g toGrid p)
    (hroom : ∀ a, 2 * |window| + δ + N * g.s / 2 ^ 50 ≤ q a ∧ q a + (2 * |window| + δ + N * g.s / 2 ^ 50) < axisCells g.dims a * g.s) :
    ∃ v', flFine (roundedQuery roundDouble norm interp) (g.computed (roundDouble (1 / g.s)) toGrid toWorld rotate) p window = .value v' ∧
      ∀ b, |v' b - g.pose.R b a| ≤ ((N / 2 ^ 18 + N ^ 2 / 2 ^ 37) * g.s + 16 * δ + B / 2 ^ 48) / |window| + 1 / 2 ^ 46 := by
  have hpos : 0 < g.s := lt_of_lt_of_le (by positivity) hs
  have hwp : 0 < |window| := lt_of_lt_of_le (by positivity) hw
  have hE : 0 ≤ N * g.s / 2 ^ 50 := by positivity
  obtain ⟨v', g₀, v₀, r1, r2, r3, r4, r5, r6, r7⟩ := C79_fine_float (norm := norm) (toWorld := toWorld) (rotate := rotate) hg hs hs' h1 hN43 hN hint hq
    hw hB hBw hloc hroom
  have key := wall_fine r2 (by rw [r3]; exact hwall) (by rw [r5]; exact hq) hwp
    (fun b => by
      rw [r3, r4]
      have := hroom b
      constructor <;> linarith)
  rw [key, r5] at r6
  cases r6
  exact ⟨v', r1, r7⟩

/-- C92, `SignedDistanceField<double>` queried in IEEE `double`. -/
theorem C92_wall_normal_ieee_double (hg : GeneratedBy doubleSDF filled false g) (hwall : IsWall g.dims a m filled) (hs : (2 : ℝ) ^ (-100 : ℤ) ≤ g.s)
    (hs' : g.s ≤ 2 ^ (100 : ℤ)) (h1 : 1 ≤ N) (hN43 : N ≤ 2 ^ 43) (hN : ∀ a, (axisCells g.dims a : ℝ) ≤ N) (hint : DoubleInterpolation interp)
    {p q : Fin 3 → ℝ} (hq : InFrame g.pose.R g.pose.t q p) {window δ B : ℝ} (hw : (2 : ℝ) ^ (-1022 : ℤ) ≤ |window|)
    (hB : ∀ a, |p a| ≤ B) (hBw : B ≤ 2 ^ 48 * |window|) (hδ : 0 ≤ δ) (hloc : LocatedWithin δ |window| g toGrid p)
    (hroom : ∀ a, 2 * |window| + δ + N * g.s / 2 ^ 50 ≤ q a ∧ q a + (2 * |window| + δ + N * g.s / 2 ^ 50) < axisCells g.dims a * g.s) :
    ∃ v', flFine (roundedQuery roundDouble norm interp) (g.computed (roundDouble (1 / g.s)) toGrid toWorld rotate) p window = .value v' ∧
      ∀ b, |v' b - g.pose.R b a| ≤ ((N / 2 ^ 42 + N ^ 2 / 2 ^ 37) * g.s + 16 * δ + B / 2 ^ 48) / |window| + 1 / 2 ^ 46 := by
  have hpos : 0 < g.s := lt_of_lt_of_le (by positivity) hs
  have hwp : 0 < |window| := lt_of_lt_of_le (by positivity) hw
  have hE : 0 ≤ N * g.s / 2 ^ 50 := by positivity
  obtain ⟨v', g₀, v₀, r1, r2, r3, r4, r5, r6, r7⟩ := C79_fine_double (norm := norm) (toWorld := toWorld) (rotate := rotate) hg hs hs' h1 hN43 hN hint hq
    hw hB hBw hloc hroom
  have key := wall_fine r2 (by rw [r3]; exact hwall) (by rw [r5]; exact hq) hwp
    (fun b => by
      rw [r3, r4]
      have := hroom b
      constructor <;> linarith)
  rw [key, r5] at r6
  cases r6
  exact ⟨v', r1, r7⟩

end

/-! ### Concrete cases -/

theorem slab_wall : IsWall ⟨8, 4, 4⟩ 0 1 (fun i => decide (i.1 = 0)) := by
  refine ⟨by decide, by decide, ?_⟩
  rintro ⟨x, y, z⟩ -
  simp only [decide_eq_true_eq, Matrix.cons_val_zero]
  omega

theorem row_wall : IsWall ⟨64, 1, 1⟩ 0 1 (fun i => decide (i.1 = 0)) := by
  refine ⟨by decide, by decide, ?_⟩
  rintro ⟨x, y, z⟩ -
  simp only [decide_eq_true_eq, Matrix.cons_val_zero]
  omega

theorem doubleGen_ok {d : Dims} (h : Fits (enlarge d)) : GenOK doubleSDF ⟨d, 1, 1, 1⟩ where
  rq := roundDouble_isDoubleRounding
  rr := roundDouble_isRounding
  rc := roundDouble_isRounding
  uniform := ⟨rfl, rfl⟩
  res := one_pos
  repr := roundDouble_isRounding.one
  castPos := by
    have : doubleSDF.cast 1 = 1 := roundDouble_isRounding.one
    rw [this]; exact one_pos
  fits := h

/-- The hypotheses of `wall_fine`, `C92_wall_normal_float` and `C92_wall_normal_ieee_float` are met: 8 × 4 × 4 cells of edge 1, the first layer filled.  At
`(9/2, 2, 2)` the fine gradient with a window of 1/4 is `(1, 0, 0)` up to the given error. -/
example (left : Bool) : ∃ g : SDFGrid ℝ, GeneratedBy floatSDF (fun i => decide (i.1 = 0)) false g ∧
    (∃ v', flFine (fusedQuery roundDouble left (fun _ => (0, false)) (flTrilinear (fusedReal roundDouble left)))
      (g.inMemory roundDouble (fun l => l.v) id id) finePlace (1 / 4, false) = .value v' ∧
      ∀ b, |FusedReal.kept roundDouble (v' b) - (![1, 0, 0] : Fin 3 → ℝ) b| ≤ 1 / 2 ^ 11) ∧
    ∃ v', flFine (roundedQuery roundDouble (fun _ => 0) (flTrilinear (roundedArith roundDouble)))
      (g.computed (roundDouble (1 / g.s)) (fun l => l.v) id id) ![9 / 2, 2, 2] (1 / 4) = .value v' ∧
      ∀ b, |v' b - (![1, 0, 0] : Fin 3 → ℝ) b| ≤ 1 / 2 ^ 11 := by
  obtain ⟨g, hg, hd, hs, hP⟩ := C68_generated_exists exSlab_ok (P := ⟨fun i j => if i = j then 1 else 0, fun _ => 0⟩)
    (by constructor <;> intro a b <;> fin_cases a <;> fin_cases b <;> simp) (filled := fun i => decide (i.1 = 0)) false
    (i := (1, 0, 0)) (by decide) (by decide) (j := (0, 0, 0)) (by decide) (by decide)
  dsimp only at hd hs
  have hframe : ∀ x : Fin 3 → ℝ, InFrame g.pose.R g.pose.t x x := by
    rw [hP]; intro x a; fin_cases a <;> simp
  have hframe' : ∀ x y : Fin 3 → ℝ, InFrame g.pose.R g.pose.t y x → x = y := by
    rw [hP]; intro x y h; funext a; rw [h a]; fin_cases a <;> simp
  have hN : ∀ a, (axisCells g.dims a : ℝ) ≤ 8 := by
    rw [hd]; intro a; fin_cases a <;> simp [axisCells] <;> norm_num
  have s1 : (2 : ℝ) ^ (-100 : ℤ) ≤ g.s := by rw [hs]; norm_num
  have s2 : g.s ≤ (2 : ℝ) ^ (100 : ℤ) := by rw [hs]; norm_num
  have hR : ∀ b, g.pose.R b 0 = (![1, 0, 0] : Fin 3 → ℝ) b := by
    rw [hP]; intro b; fin_cases b <;> simp
  have hw : (2 : ℝ) ^ (-1022 : ℤ) ≤ |1 / 4| := by
    rw [abs_of_pos (by norm_num)]
    calc (2 : ℝ) ^ (-1022 : ℤ) ≤ 2 ^ (-2 : ℤ) := zpow_le_zpow_right₀ (by norm_num) (by norm_num)
      _ = 1 / 4 := by norm_num
  refine ⟨g, hg, ?_, ?_⟩
  · obtain ⟨v', r1, r2⟩ := C92_wall_normal_float (left := left) (norm := fun _ => (0, false)) (toWorld := id) (rotate := id) hg
      (by rw [hd]; exact slab_wall) s1 s2 (N := 8) (by norm_num) (by norm_num) hN (.inl rfl) (p := finePlace) (q := fun a => (finePlace a).1)
      (hframe _) fineWindow fine_tiny finePlace_size (by norm_num) (fine_located hP _ _)
      (by rw [hd, hs]; intro a; fin_cases a <;> simp [finePlace, axisCells] <;> norm_num)
    refine ⟨v', r1, fun b => ?_⟩
    rw [← hR b]
    refine (r2 b).trans ?_
    rw [hs]; norm_num
  · obtain ⟨v', r1, r2⟩ := C92_wall_normal_ieee_float (norm := fun _ => 0) (toWorld := id) (rotate := id) (toGrid := fun l => l.v) hg
      (by rw [hd]; exact slab_wall) s1 s2 (N := 8) (by norm_num) (by norm_num) hN (.inl rfl) (hframe ![9 / 2, 2, 2]) (window := 1 / 4) (δ := 0) (B := 8) hw
      (by intro a; fin_cases a <;> simp <;> norm_num [abs_le]) (by rw [abs_of_pos (by norm_num)]; norm_num) le_rfl
      (by intro x y hxy _ a; rw [hframe' x y hxy, sub_self, abs_zero])
      (by
        rw [hs, hd, abs_of_pos (by norm_num)]
        intro a; fin_cases a <;> simp [axisCells] <;> norm_num)
    refine ⟨v', r1, fun b => ?_⟩
    rw [← hR b]
    refine (r2 b).trans ?_
    rw [hs, abs_of_pos (by norm_num)]; norm_num

/-- The hypotheses of `C92_wall_normal_world_float` are met: a row of 64 cells in a turned and moved grid whose rotation is stored with rounding.  The
gradient is the direction of the row in the world. -/
example (left : Bool) : ∃ (g : SDFGrid ℝ) (toGrid : Vec4 ℝ → Fin 3 → ℝ) (v' : Fin 3 → FusedReal),
    GeneratedBy floatSDF (fun i => decide (i.1 = 0)) false g ∧ g.pose = slantPose ∧
    flFine (fusedQuery roundDouble left (fun _ => (0, false)) (flTrilinear (fusedReal roundDouble left)))
      (g.inMemory roundDouble (storedToGrid roundDouble toGrid) id id) slantStart (1 / 8, false) = .value v' ∧
    ∀ b, |FusedReal.kept roundDouble (v' b) - (![3 / 5, 4 / 5, 0] : Fin 3 → ℝ) b| ≤ 1 / 2 ^ 7 := by
  obtain ⟨g, hg, hd, hs, hP⟩ := C68_generated_exists exRow_ok slantPose_orthogonal (filled := fun i => decide (i.1 = 0)) false
    (i := (1, 0, 0)) (by decide) (by decide) (j := (0, 0, 0)) (by decide) (by decide)
  obtain ⟨toGrid, hrun⟩ := toGridRuns_exists roundDouble slantStored
  dsimp only at hd hs
  have hst : StoredPose slantStored g.pose (2 ^ (-52 : ℤ)) := by rw [hP]; exact slantStored_near
  have hR : ∀ b, g.pose.R b 0 = (![3 / 5, 4 / 5, 0] : Fin 3 → ℝ) b := by
    rw [hP]; intro b; fin_cases b <;> simp [slantPose]
  obtain ⟨v', r1, r2⟩ := C92_wall_normal_world_float (left := left) (norm := fun _ => (0, false)) (toWorld := id) (rotate := id)
    (X := 4096 * 4) hg (by rw [hd]; exact row_wall) hst hrun (by rw [hs]; norm_num) (by rw [hs]; norm_num) (N := 64) (by norm_num) (by norm_num)
    (by rw [hd]; intro a; fin_cases a <;> simp [axisCells]) (.inl rfl) (p := slantStart) (q := ![81 / 2, 1 / 2, 1 / 2])
    (by rw [hP]; intro a; fin_cases a <;> simp [slantPose, slantStart, slantPlace] <;> norm_num) eighthWindow eighth_tiny
    (by rw [hP]; intro a; fin_cases a <;> simp [slantPose] <;> norm_num [abs_le])
    (fun a => by
      have : |(slantStart a).1| ≤ 2033 := slantPlace_size a
      linarith) (by norm_num)
    (by rw [hd, hs]; intro a; fin_cases a <;> simp [axisCells] <;> norm_num)
  refine ⟨g, toGrid, v', hg, hP, r1, fun b => ?_⟩
  rw [← hR b]
  refine (r2 b).trans ?_
  rw [hs]; norm_num

/-- The hypotheses of `wall_fine`, `C92_wall_normal_double` and `C92_wall_normal_ieee_double` are met: 8 × 4 × 4 cells of edge 1, the first layer filled.  At
`(9/2, 2, 2)` the fine gradient with a window of 1/4 is `(1, 0, 0)` up to the given error. -/
example (left : Bool) : ∃ g : SDFGrid ℝ, GeneratedBy doubleSDF (fun i => decide (i.1 = 0)) false g ∧
    (∃ v', flFine (fusedQuery roundDouble left (fun _ => (0, false)) (flTrilinear (fusedReal roundDouble left)))
      (g.inMemory roundDouble (fun l => l.v) id id) finePlace (1 / 4, false) = .value v' ∧
      ∀ b, |FusedReal.kept roundDouble (v' b) - (![1, 0, 0] : Fin 3 → ℝ) b| ≤ 1 / 2 ^ 20) ∧
    ∃ v', flFine (roundedQuery roundDouble (fun _ => 0) (flTrilinear (roundedArith roundDouble)))
      (g.computed (roundDouble (1 / g.s)) (fun l => l.v) id id) ![9 / 2, 2, 2] (1 / 4) = .value v' ∧
      ∀ b, |v' b - (![1, 0, 0] : Fin 3 → ℝ) b| ≤ 1 / 2 ^ 20 := by
  obtain ⟨g, hg, hd, hs, hP⟩ := C68_generated_exists (doubleGen_ok (d := ⟨8, 4, 4⟩) (by constructor <;> decide)) (P := ⟨fun i j => if i = j then 1 else 0, fun _ => 0⟩)
    (by constructor <;> intro a b <;> fin_cases a <;> fin_cases b <;> simp) (filled := fun i => decide (i.1 = 0)) false
    (i := (1, 0, 0)) (by decide) (by decide) (j := (0, 0, 0)) (by decide) (by decide)
  dsimp only at hd hs
  have hframe : ∀ x : Fin 3 → ℝ, InFrame g.pose.R g.pose.t x x := by
    rw [hP]; intro x a; fin_cases a <;> simp
  have hframe' : ∀ x y : Fin 3 → ℝ, InFrame g.pose.R g.pose.t y x → x = y := by
    rw [hP]; intro x y h; funext a; rw [h a]; fin_cases a <;> simp
  have hN : ∀ a, (axisCells g.dims a : ℝ) ≤ 8 := by
    rw [hd]; intro a; fin_cases a <;> simp [axisCells] <;> norm_num
  have s1 : (2 : ℝ) ^ (-100 : ℤ) ≤ g.s := by rw [hs]; norm_num
  have s2 : g.s ≤ (2 : ℝ) ^ (100 : ℤ) := by rw [hs]; norm_num
  have hR : ∀ b, g.pose.R b 0 = (![1, 0, 0] : Fin 3 → ℝ) b := by
    rw [hP]; intro b; fin_cases b <;> simp
  have hw : (2 : ℝ) ^ (-1022 : ℤ) ≤ |1 / 4| := by
    rw [abs_of_pos (by norm_num)]
    calc (2 : ℝ) ^ (-1022 : ℤ) ≤ 2 ^ (-2 : ℤ) := zpow_le_zpow_right₀ (by norm_num) (by norm_num)
      _ = 1 / 4 := by norm_num
  refine ⟨g, hg, ?_, ?_⟩
  · obtain ⟨v', r1, r2⟩ := C92_wall_normal_double (left := left) (norm := fun _ => (0, false)) (toWorld := id) (rotate := id) hg
      (by rw [hd]; exact slab_wall) s1 s2 (N := 8) (by norm_num) (by norm_num) hN (.inl rfl) (p := finePlace) (q := fun a => (finePlace a).1)
      (hframe _) fineWindow fine_tiny finePlace_size (by norm_num) (fine_located hP _ _)
      (by rw [hd, hs]; intro a; fin_cases a <;> simp [finePlace, axisCells] <;> norm_num)
    refine ⟨v', r1, fun b => ?_⟩
    rw [← hR b]
    refine (r2 b).trans ?_
    rw [hs]; norm_num
  · obtain ⟨v', r1, r2⟩ := C92_wall_normal_ieee_double (norm := fun _ => 0) (toWorld := id) (rotate := id) (toGrid := fun l => l.v) hg
      (by rw [hd]; exact slab_wall) s1 s2 (N := 8) (by norm_num) (by norm_num) hN (.inl rfl) (hframe ![9 / 2, 2, 2]) (window := 1 / 4) (δ := 0) (B := 8) hw
      (by intro a; fin_cases a <;> simp <;> norm_num [abs_le]) (by rw [abs_of_pos (by norm_num)]; norm_num) le_rfl
      (by intro x y hxy _ a; rw [hframe' x y hxy, sub_self, abs_zero])
      (by
        rw [hs, hd, abs_of_pos (by norm_num)]
        intro a; fin_cases a <;> simp [axisCells] <;> norm_num)
    refine ⟨v', r1, fun b => ?_⟩
    rw [← hR b]
    refine (r2 b).trans ?_
    rw [hs, abs_of_pos (by norm_num)]; norm_num

/-- The hypotheses of `C92_wall_normal_world_double` are met: a row of 64 cells in a turned and moved grid whose rotation is stored with rounding.  The
gradient is the direction of the row in the world. -/
example (left : Bool) : ∃ (g : SDFGrid ℝ) (toGrid : Vec4 ℝ → Fin 3 → ℝ) (v' : Fin 3 → FusedReal),
    GeneratedBy doubleSDF (fun i => decide (i.1 = 0)) false g ∧ g.pose = slantPose ∧
    flFine (fusedQuery roundDouble left (fun _ => (0, false)) (flTrilinear (fusedReal roundDouble left)))
      (g.inMemory roundDouble (storedToGrid roundDouble toGrid) id id) slantStart (1 / 8, false) = .value v' ∧
    ∀ b, |FusedReal.kept roundDouble (v' b) - (![3 / 5, 4 / 5, 0] : Fin 3 → ℝ) b| ≤ 1 / 2 ^ 16 := by
  obtain ⟨g, hg, hd, hs, hP⟩ := C68_generated_exists (doubleGen_ok (d := ⟨64, 1, 1⟩) (by constructor <;> decide)) slantPose_orthogonal (filled := fun i => decide (i.1 = 0)) false
    (i := (1, 0, 0)) (by decide) (by decide) (j := (0, 0, 0)) (by decide) (by decide)
  obtain ⟨toGrid, hrun⟩ := toGridRuns_exists roundDouble slantStored
  dsimp only at hd hs
  have hst : StoredPose slantStored g.pose (2 ^ (-52 : ℤ)) := by rw [hP]; exact slantStored_near
  have hR : ∀ b, g.pose.R b 0 = (![3 / 5, 4 / 5, 0] : Fin 3 → ℝ) b := by
    rw [hP]; intro b; fin_cases b <;> simp [slantPose]
  obtain ⟨v', r1, r2⟩ := C92_wall_normal_world_double (left := left) (norm := fun _ => (0, false)) (toWorld := id) (rotate := id)
    (X := 4096 * 4) hg (by rw [hd]; exact row_wall) hst hrun (by rw [hs]; norm_num) (by rw [hs]; norm_num) (N := 64) (by norm_num) (by norm_num)
    (by rw [hd]; intro a; fin_cases a <;> simp [axisCells]) (.inl rfl) (p := slantStart) (q := ![81 / 2, 1 / 2, 1 / 2])
    (by rw [hP]; intro a; fin_cases a <;> simp [slantPose, slantStart, slantPlace] <;> norm_num) eighthWindow eighth_tiny
    (by rw [hP]; intro a; fin_cases a <;> simp [slantPose] <;> norm_num [abs_le])
    (fun a => by
      have : |(slantStart a).1| ≤ 2033 := slantPlace_size a
      linarith) (by norm_num)
    (by rw [hd, hs]; intro a; fin_cases a <;> simp [axisCells] <;> norm_num)
  refine ⟨g, toGrid, v', hg, hP, r1, fun b => ?_⟩
  rw [← hR b]
  refine (r2 b).trans ?_
  rw [hs]; norm_num

end VGT
