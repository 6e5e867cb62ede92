import Verif.Props.CameraRound

/-!
C74 in `double`.
-/
set_option autoImplicit false

namespace VGT
open VGT.EDT VGT.Spec VGT.Par

/-- `std::sqrt` on finite numbers that are not negative: the exact root, rounded (IEEE 754). -/
def IeeeSqrt (sqrt : Fl → Fl) : Prop :=
  ∀ q : ℚ, 0 ≤ q → ∃ y : ℚ, sqrt (.fin q) = .fin y ∧ (y : ℝ) = rne 53 (-1074) (Real.sqrt q)

/-- There is such a function. -/
theorem ieeeSqrt_exists : ∃ sqrt, IeeeSqrt sqrt := by
  have key : ∀ q : ℚ, ∃ y : ℚ, (y : ℝ) = rne 53 (-1074) (Real.sqrt q) := by
    intro q
    obtain ⟨m, k, -, -, e⟩ := rne_repr (K := ℝ) (p := 53) (emin := -1074) (Real.sqrt q)
    exact ⟨m * 2 ^ k, by rw [e]; push_cast; rfl⟩
  choose f hf using key
  exact ⟨fun | .fin q => .fin (f q) | x => x, fun q _ => ⟨f q, rfl, hf q⟩⟩

/-- Error of a square of a rounded root. -/
theorem square_error {u η z y : ℝ} (hu : 0 ≤ u) (hu1 : u ≤ 1 / 9000) (hη : 0 ≤ η) (hηu : η ≤ u / 100) (hz : 0 ≤ z)
    (h : |y - z| ≤ u * z + η) : |y ^ 2 - z ^ 2| ≤ 3 * (u * z ^ 2) + η := by
  have e : y ^ 2 - z ^ 2 = (y - z) * ((y - z) + 2 * z) := by ring
  have huz := mul_nonneg hu hz
  have h1 : |(y - z) + 2 * z| ≤ u * z + η + 2 * z := by
    refine (abs_add_le _ _).trans ?_
    rw [abs_of_nonneg (show 0 ≤ 2 * z by linarith)]
    linarith
  rw [e, abs_mul]
  refine (mul_le_mul h h1 (abs_nonneg _) (by linarith)).trans ?_
  have hη1 : η ≤ 1 / 900000 := by linarith
  have k1 : u * u * z ^ 2 ≤ 1 / 9000 * (u * z ^ 2) := by nlinarith [mul_nonneg hu (sq_nonneg z)]
  have k2 : u * z * η ≤ 1 / 9000 * (z * η) := by nlinarith [mul_nonneg hz hη]
  have k3 : η * η ≤ 1 / 900000 * η := by nlinarith
  have k4 : z * η ≤ 1 / 4 * η + 4 / 100 * (u * z ^ 2) := by
    rcases le_total z (1 / 4) with hz4 | hz4
    · have := mul_le_mul_of_nonneg_right hz4 hη
      have := mul_nonneg hu (sq_nonneg z)
      linarith
    · have a1 := mul_le_mul_of_nonneg_left hηu hz
      have a2 := mul_le_mul_of_nonneg_left hz4 huz
      nlinarith
  have := mul_nonneg hu (sq_nonneg z)
  nlinarith

theorem sqrtRounds_ieee {sqrt : Fl → Fl} (h : IeeeSqrt sqrt) : SqrtRounds sqrt (1 / 2 ^ 53) (1 / 2 ^ 1075) := by
  intro q hq
  obtain ⟨y, h1, h2⟩ := h q hq
  have hz := Real.sqrt_nonneg (q : ℝ)
  have hzz : Real.sqrt (q : ℝ) ^ 2 = q := Real.sq_sqrt (by exact_mod_cast hq)
  have herr := rne_error_any (K := ℝ) 53 (-1074) (Real.sqrt (q : ℝ))
  have hy0 : (0 : ℝ) ≤ y := by rw [h2]; exact rne_nonneg hz
  rw [← h2] at herr
  have e1 : (2 : ℝ) ^ (-((53 : ℕ) : ℤ)) = 1 / 2 ^ 53 := by rw [zpow_neg, one_div]; norm_cast
  have e2 : (2 : ℝ) ^ ((-1074 : ℤ) - 1) = 1 / 2 ^ 1075 := by
    rw [show (-1074 : ℤ) - 1 = -(1075 : ℤ) by norm_num, zpow_neg, one_div]; norm_cast
  rw [e1, e2, abs_of_nonneg hz] at herr
  have hη : (1 : ℝ) / 2 ^ 1075 ≤ 1 / 2 ^ 53 / 100 := by
    calc (1 : ℝ) / 2 ^ 1075 ≤ 1 / 2 ^ 100 := one_div_le_one_div_of_le (by positivity) (pow_le_pow_right₀ (by norm_num) (by norm_num))
      _ ≤ _ := by norm_num
  have hsq := square_error (u := 1 / 2 ^ 53) (η := 1 / 2 ^ 1075) (by positivity) (by norm_num) (by positivity) hη hz herr
  rw [hzz] at hsq
  refine ⟨y, h1, by exact_mod_cast hy0, ?_⟩
  have : ((|y ^ 2 - q| : ℚ) : ℝ) ≤ ((3 * (1 / 2 ^ 53 * q) + 1 / 2 ^ 1075 : ℚ) : ℝ) := by push_cast; exact hsq
  exact_mod_cast this

theorem keepsSign_saturate (p : ℕ) (emin : ℤ) (max : ℚ) : KeepsSign fun q => saturate max (rne p emin q) := by
  intro q y hq h
  have h2 := rne_nonneg (p := p) (emin := emin) hq
  unfold saturate at h
  dsimp only at h
  split_ifs at h
  cases h
  exact h2

/-- Coordinates between `2^-60` and `2^60` are small enough for `double`. -/
theorem camScale_double {s B : ℚ} (hs : 1 / 2 ^ 60 ≤ s) (hB : 1 / 2 ^ 60 ≤ B) (hB' : B ≤ 2 ^ 60) :
    CamScale (1 / 2 ^ 53) (1 / 2 ^ 1075) ((2 - 1 / 2 ^ 52) * 2 ^ 1023) s B := by
  have hreach := double_reach (L := 7 * 2 ^ 57) hs (by norm_num)
  have hη := one_div_pow_le (m := 255) (k := 1075) (by norm_num)
  have hη0 : (0 : ℚ) ≤ 1 / 2 ^ 1075 := by positivity
  have hM := double_max_ge
  generalize (1 : ℚ) / 2 ^ 1075 = η at *
  generalize ((2 : ℚ) - 1 / 2 ^ 52) * 2 ^ 1023 = M at *
  have hB0 : 0 < B := lt_of_lt_of_le (by norm_num) hB
  have hBB : B ^ 2 ≤ (2 ^ 60) ^ 2 := pow_le_pow_left₀ hB0.le hB' 2
  have hBB' : (1 / 2 ^ 60) ^ 2 ≤ B ^ 2 := pow_le_pow_left₀ (by norm_num) hB 2
  refine ⟨by norm_num, by norm_num, hη0, hB0, ?_, ?_, ?_, ?_, ?_⟩
  · refine hη.trans ?_
    calc (1 : ℚ) / 2 ^ 255 ≤ 1 / 2 ^ 53 * (1 / 2 ^ 60) := by norm_num
      _ ≤ _ := by gcongr
  · refine hη.trans ?_
    rw [mul_pow]
    calc (1 : ℚ) / 2 ^ 255 ≤ (1 / 2 ^ 53) ^ 2 * (1 / 2 ^ 60) ^ 2 := by norm_num
      _ ≤ _ := by gcongr
  · exact le_trans (by linarith) hM
  · exact le_trans (by linarith) hM
  · have := mul_le_mul_of_nonneg_left hB' hη0
    have : η * 2 ^ 60 = 8 * (η * 2 ^ 57) := by ring
    calc 21 * (η * B) ≤ 21 * (η * 2 ^ 60) := by gcongr
      _ ≤ 21 * (1 / 2 ^ 255 * 2 ^ 60) := by gcongr
      _ ≤ 1 / 2 ^ 53 * (1 / 2 ^ 60) := by norm_num
      _ ≤ _ := by gcongr

/-- The grids and coordinates of the theorems below. -/
structure DoubleGrid (s n B : ℚ) (g : RayGrid Fl) : Prop where
  s_ge : 1 / 2 ^ 60 ≤ s
  s_le : s ≤ 2 ^ 60
  cell : g.cell = .fin s
  inv : g.inv = double64.div double64.one g.cell
  dims : ∀ a, (axisCells g.dims a : ℚ) + 2 ≤ n
  n_ge : 3 ≤ n
  n_le : n ≤ 2 ^ 21
  B_ge : 1 / 2 ^ 60 ≤ B
  B_le : B ≤ 2 ^ 60

theorem DoubleGrid.precise {s n B : ℚ} {g : RayGrid Fl} (G : DoubleGrid s n B g) {sqrt : Fl → Fl} (h : IeeeSqrt sqrt) :
    CamPrecise (fun q => saturate ((2 - 1 / 2 ^ 52) * 2 ^ 1023) (roundDouble q)) sqrt (1 / 2 ^ 53) (1 / 2 ^ 1075)
      ((2 - 1 / 2 ^ 52) * 2 ^ 1023) s n n (1 / 2 ^ 53 * n ^ 2 * s) B g where
  ray := rayScale_double G.s_ge G.s_le G.n_ge G.n_le
  cam := camScale_double G.s_ge G.B_ge G.B_le
  rounds := rounds_double
  sign := keepsSign_saturate 53 (-1074) _
  one := keepsOne_saturate 53 (-1074) (by norm_num) (by norm_num) _
  root := sqrtRounds_ieee h
  grid := gridWith_double G.s_ge G.s_le G.cell G.inv G.dims

/-- The tolerance in `double`. -/
def doubleTol (s n B : ℚ) : ℚ := (33 * n ^ 2 * s + 300 * B) / 2 ^ 53

theorem camTol_double (s n B : ℚ) : camTol (1 / 2 ^ 53) (1 / 2 ^ 53 * n ^ 2 * s) B = doubleTol s n B := by unfold camTol doubleTol; ring

/-- A range of at least `2^-60`, infinite or no number. -/
def DoubleRange (range : Fl) : Prop := range ≠ .ninf ∧ ∀ r, range = .fin r → 1 / 2 ^ 60 ≤ r

theorem DoubleRange.ok {range : Fl} (h : DoubleRange range) {B : ℚ} (hB' : B ≤ 2 ^ 60) : RangeOk (1 / 2 ^ 1075) B range := by
  refine ⟨h.1, fun r hr => ?_⟩
  have h1 := h.2 r hr
  have hη := one_div_pow_le (m := 200) (k := 1075) (by norm_num)
  have hη0 : (0 : ℚ) ≤ 1 / 2 ^ 1075 := by positivity
  generalize (1 : ℚ) / 2 ^ 1075 = η at *
  refine ⟨lt_of_lt_of_le (by norm_num) h1, ?_⟩
  calc 28 * (η * B) ≤ 28 * (η * 2 ^ 60) := by gcongr
    _ ≤ 28 * (1 / 2 ^ 200 * 2 ^ 60) := by gcongr
    _ ≤ 1 / 2 ^ 60 := by norm_num
    _ ≤ r := h1

section
variable {sqrt : Fl → Fl} {s n B : ℚ} {g : RayGrid Fl} {K : Type}

/-- C74: on the CPU, filled cells are where something is, up to `(33 n² s + 300 B) / 2^53` (for a thousand cells of 1 cm along an axis and
coordinates of up to 100 m: 0.4 nanometres). -/
theorem C74_double_filled_is_real (hs : IeeeSqrt sqrt) (G : DoubleGrid s n B g) {pct : ℚ} {t k : ℤ} {op : FilterOptions}
    (hop : FilterOptions.make (.fin pct) t k = some op) {cams : List Camera3} (hlen : ∀ c ∈ cams, c.points.length < 2 ^ 31)
    (hc : ∀ c ∈ cams, c.Within B) {output output' : VoxMap K} (hd : output.dims = g.dims)
    (h : FlVoxelizeRuns double64 sqrt g op (cams.map Camera3.cloud) output output') {i : IVec} (hi : CellInGrid (axisCells g.dims) i)
    (hocc : (output.data (dataIndex g.dims i)).le (.fin (1 / 2)) = true) (hone : output'.data (dataIndex g.dims i) = .fin 1) :
    ∃ c ∈ cams, t ≤ c.howMany fun x =>
      NearBox (doubleTol s n B) s i (c.place x) ∧ NotBeyond (doubleTol s n B) c.range c.sensor (c.place x) := by
  rw [← camTol_double]
  exact C74_filled_is_real (G.precise hs) hop hlen hc hd h hi hocc hone

open Classical in
/-- C74: on the CPU, free cells were looked through.
Missing for a full statement: sensors outside the grid. -/
theorem C74_double_free_is_seen_partial (hs : IeeeSqrt sqrt) (G : DoubleGrid s n B g) {pct : ℚ} {t k : ℤ} {op : FilterOptions}
    (hop : FilterOptions.make (.fin pct) t k = some op) {cams : List Camera3} (hlen : ∀ c ∈ cams, c.points.length < 2 ^ 31)
    (hc : ∀ c ∈ cams, c.Within B) (hr : ∀ c ∈ cams, DoubleRange c.range)
    (hsensor : ∀ c ∈ cams, DeepInGrid (doubleTol s n B) s (axisCells g.dims) c.sensor) {output output' : VoxMap K}
    (hd : output.dims = g.dims) (h : FlVoxelizeRuns double64 sqrt g op (cams.map Camera3.cloud) output output') {i : IVec}
    (hi : CellInGrid (axisCells g.dims) i) (hocc : (output.data (dataIndex g.dims i)).le (.fin (1 / 2)) = true)
    (hzero : output'.data (dataIndex g.dims i) = .fin 0) :
    k ≤ cams.countP fun c => decide (∃ x, some x ∈ c.points ∧ SeenNear (doubleTol s n B) s c.range c.sensor (c.place x) i) := by
  rw [← camTol_double] at hsensor ⊢
  exact C74_free_is_seen_partial (G.precise hs) hop hlen hc (fun c hcm => (hr c hcm).ok G.B_le) hsensor hd h hi hocc hzero

/-- C74: on the CPU, obstacles are kept.
Missing for a full statement: sensors outside the grid. -/
theorem C74_double_obstacle_is_filled_partial (hs : IeeeSqrt sqrt) (G : DoubleGrid s n B g) {t k : ℤ} {op : FilterOptions}
    (hop : FilterOptions.make (.fin 1) t k = some op) {cams : List Camera3} (hlen : ∀ c ∈ cams, c.points.length < 2 ^ 31)
    {output output' : VoxMap K} (hd : output.dims = g.dims)
    (h : FlVoxelizeRuns double64 sqrt g op (cams.map Camera3.cloud) output output') {i : IVec} (hi : CellInGrid (axisCells g.dims) i)
    (hocc : (output.data (dataIndex g.dims i)).le (.fin (1 / 2)) = true) {c : Camera3} (hcm : c ∈ cams) (hc : c.Within B)
    (hr : DoubleRange c.range) (hsensor : DeepInGrid (doubleTol s n B) s (axisCells g.dims) c.sensor)
    (hpts : t ≤ c.howMany fun x =>
      DeepBox (doubleTol s n B) s i (c.place x) ∧ WellWithin (doubleTol s n B) c.range c.sensor (c.place x)) :
    output'.data (dataIndex g.dims i) = .fin 1 := by
  rw [← camTol_double] at hsensor hpts
  exact C74_obstacle_is_filled_partial (G.precise hs) hop hlen hd h hi hocc hcm hc (hr.ok G.B_le) hsensor hpts

open Classical in
/-- C74: on the CPU, what is looked through becomes free.
Missing for a full statement: sensors outside the grid, for which it does not hold (`C73_grazing_ray_lost`). -/
theorem C74_double_seen_is_free_partial (hs : IeeeSqrt sqrt) (G : DoubleGrid s n B g) {pct : ℚ} {t k : ℤ} {op : FilterOptions}
    (hop : FilterOptions.make (.fin pct) t k = some op) {cams : List Camera3} (hlen : ∀ c ∈ cams, c.points.length < 2 ^ 31)
    (hc : ∀ c ∈ cams, c.Within B) {output output' : VoxMap K}
    (hd : output.dims = g.dims) (h : FlVoxelizeRuns double64 sqrt g op (cams.map Camera3.cloud) output output') {i : IVec}
    (hi : CellInGrid (axisCells g.dims) i) (hocc : (output.data (dataIndex g.dims i)).le (.fin (1 / 2)) = true)
    (hno : ∀ c ∈ cams, ∀ x, some x ∈ c.points →
      ¬ (NearBox (doubleTol s n B) s i (c.place x) ∧ NotBeyond (doubleTol s n B) c.range c.sensor (c.place x)))
    (hsee : k ≤ cams.countP fun c => decide (DoubleRange c.range ∧ DeepInGrid (doubleTol s n B) s (axisCells g.dims) c.sensor ∧
      ∃ x, some x ∈ c.points ∧ SeenDeep (doubleTol s n B) s c.range c.sensor (c.place x) i)) :
    output'.data (dataIndex g.dims i) = .fin 0 := by
  rw [← camTol_double] at hno hsee
  refine C74_seen_is_free_partial (G.precise hs) hop hlen hc hd h hi hocc hno (hsee.trans (Nat.cast_le.2 ?_))
  refine List.countP_mono_left fun c _ hp => ?_
  rw [decide_eq_true_iff] at hp ⊢
  exact ⟨hp.1.ok G.B_le, hp.2⟩

end

end VGT
