import Verif.Props.CameraDevice
import Verif.Props.CameraReach

/-!
C76 in `float`.
-/
set_option autoImplicit false

namespace VGT
open VGT.EDT VGT.Spec VGT.Par

/-- Rounding to `float`. -/
def floatR : ℚ → Fl := fun q => saturate ((2 - 1 / 2 ^ 23) * 2 ^ 127) (roundFloat q)

/-- `sqrt` of the devices on finite numbers that are not negative: the exact root, rounded (IEEE 754). -/
def FloatSqrt (sqrt : Fl → Fl) : Prop :=
  ∀ q : ℚ, 0 ≤ q → ∃ y : ℚ, sqrt (.fin q) = .fin y ∧ (y : ℝ) = rne 24 (-149) (Real.sqrt q)

/-- There is such a function. -/
theorem floatSqrt_exists : ∃ sqrt, FloatSqrt sqrt := by
  have key : ∀ q : ℚ, ∃ y : ℚ, (y : ℝ) = rne 24 (-149) (Real.sqrt q) := by
    intro q
    obtain ⟨m, k, -, -, e⟩ := rne_repr (K := ℝ) (p := 24) (emin := -149) (Real.sqrt q)
    exact ⟨m * 2 ^ k, by rw [e]; push_cast; rfl⟩
  choose f hf using key
  exact ⟨fun | .fin q => .fin (f q) | x => x, fun q _ => ⟨f q, rfl, hf q⟩⟩

theorem sqrtRounds_float {sqrt : Fl → Fl} (h : FloatSqrt sqrt) : SqrtRounds sqrt (1 / 2 ^ 24) (1 / 2 ^ 150) := by
  intro q hq
  obtain ⟨y, h1, h2⟩ := h q hq
  have hz := Real.sqrt_nonneg (q : ℝ)
  have hzz : Real.sqrt (q : ℝ) ^ 2 = q := Real.sq_sqrt (by exact_mod_cast hq)
  have herr := rne_error_any (K := ℝ) 24 (-149) (Real.sqrt (q : ℝ))
  have hy0 : (0 : ℝ) ≤ y := by rw [h2]; exact rne_nonneg hz
  rw [← h2] at herr
  have e1 : (2 : ℝ) ^ (-((24 : ℕ) : ℤ)) = 1 / 2 ^ 24 := by rw [zpow_neg, one_div]; norm_cast
  have e2 : (2 : ℝ) ^ ((-149 : ℤ) - 1) = 1 / 2 ^ 150 := by
    rw [show (-149 : ℤ) - 1 = -(150 : ℤ) by norm_num, zpow_neg, one_div]; norm_cast
  rw [e1, e2, abs_of_nonneg hz] at herr
  have hsq := square_error (u := 1 / 2 ^ 24) (η := 1 / 2 ^ 150) (by positivity) (by norm_num) (by positivity) (by norm_num) hz herr
  rw [hzz] at hsq
  refine ⟨y, h1, by exact_mod_cast hy0, ?_⟩
  have : ((|y ^ 2 - q| : ℚ) : ℝ) ≤ ((3 * (1 / 2 ^ 24 * q) + 1 / 2 ^ 150 : ℚ) : ℝ) := by push_cast; exact hsq
  exact_mod_cast this

/-- Coordinates between `2^-20` and `2^30` are small enough for `float`. -/
theorem camScale_float {s B : ℚ} (hs : 1 / 2 ^ 30 ≤ s) (hB : 1 / 2 ^ 20 ≤ B) (hB' : B ≤ 2 ^ 30) :
    CamScale (1 / 2 ^ 24) (1 / 2 ^ 150) ((2 - 1 / 2 ^ 23) * 2 ^ 127) s B := by
  have hB0 : 0 < B := lt_of_lt_of_le (by norm_num) hB
  have hBB : B ^ 2 ≤ (2 ^ 30) ^ 2 := pow_le_pow_left₀ hB0.le hB' 2
  have hBB' : (1 / 2 ^ 20) ^ 2 ≤ B ^ 2 := pow_le_pow_left₀ (by norm_num) hB 2
  refine ⟨by norm_num, by norm_num, by norm_num, hB0, ?_, ?_, ?_, ?_, ?_⟩
  · calc (1 : ℚ) / 2 ^ 150 ≤ 1 / 2 ^ 24 * (1 / 2 ^ 20) := by norm_num
      _ ≤ _ := by gcongr
  · rw [mul_pow]
    calc (1 : ℚ) / 2 ^ 150 ≤ (1 / 2 ^ 24) ^ 2 * (1 / 2 ^ 20) ^ 2 := by norm_num
      _ ≤ _ := by gcongr
  · exact le_trans (show 200 * B ≤ 200 * 2 ^ 30 by linarith) (by norm_num)
  · exact le_trans (show 200 * B ^ 2 ≤ 200 * (2 ^ 30) ^ 2 by linarith) (by norm_num)
  · calc 21 * (1 / 2 ^ 150 * B) ≤ 21 * (1 / 2 ^ 150 * 2 ^ 30) := by gcongr
      _ ≤ 1 / 2 ^ 24 * (1 / 2 ^ 30) := by norm_num
      _ ≤ _ := by gcongr

/-- The grids and coordinates of the theorems below: `e` is the edge of a cell and `v` its inverse in `double`
(device_pointcloud_voxelization.cpp:94-101). -/
structure FloatGrid (e v n B : ℚ) (g : RayGrid Fl) : Prop where
  e_ge : 1 / 2 ^ 20 ≤ e
  e_le : e ≤ 2 ^ 20
  inverse : |v * e - 1| ≤ 1 / 2 ^ 50
  cell : g.cell = floatR e
  inv : g.inv = floatR v
  dims : ∀ a, (axisCells g.dims a : ℚ) + 2 ≤ n
  n_ge : 3 ≤ n
  n_le : n ≤ 528
  B_ge : e ≤ B
  B_le : B ≤ 2 ^ 30

theorem FloatGrid.edge {e v n B : ℚ} {g : RayGrid Fl} (G : FloatGrid e v n B g) :
    ∃ s, floatR e = .fin s ∧ e ≤ 2 * s ∧ 1 / 2 ^ 30 ≤ s ∧ s ≤ 2 ^ 30 ∧ 0 < e ∧ |s - e| ≤ 1 / 2 ^ 24 * e + 1 / 2 ^ 150 ∧
      s ≤ 1001 / 1000 * e ∧ GridWith (1 / 2 ^ 24) s n g := by
  have h0 := G.e_ge; have h1 := G.e_le; have h2 := G.B_ge
  have he : 0 < e := lt_of_lt_of_le (by norm_num) h0
  obtain ⟨s, e1, e2⟩ := rounds_fin rounds_float (x := e) (by rw [abs_of_pos he]; exact h1.trans (by norm_num))
  rw [abs_of_pos he] at e2
  have e3 := abs_le.1 e2
  have hη : (1 : ℚ) / 2 ^ 150 ≤ 1 / 2 ^ 80 * e := by
    calc (1 : ℚ) / 2 ^ 150 ≤ 1 / 2 ^ 80 * (1 / 2 ^ 20) := by norm_num
      _ ≤ _ := by gcongr
  generalize hgη : (1 : ℚ) / 2 ^ 150 = η at *
  have hη0 : 0 ≤ η := by rw [← hgη]; positivity
  have hs1 : s ≤ (1 + 1 / 2 ^ 24 + 1 / 2 ^ 80) * e := by linarith
  have hs2 : (1 - 1 / 2 ^ 24 - 1 / 2 ^ 80) * e ≤ s := by linarith
  have hs0 : 0 < s := lt_of_lt_of_le (by positivity) hs2
  have hsge : 1 / 2 ^ 30 ≤ s := by
    refine le_trans ?_ hs2
    calc (1 : ℚ) / 2 ^ 30 ≤ (1 - 1 / 2 ^ 24 - 1 / 2 ^ 80) * (1 / 2 ^ 20) := by norm_num
      _ ≤ _ := by gcongr
  have hsle : s ≤ 2 ^ 30 := by
    refine hs1.trans ?_
    calc (1 + 1 / 2 ^ 24 + 1 / 2 ^ 80) * e ≤ (1 + 1 / 2 ^ 24 + 1 / 2 ^ 80) * 2 ^ 20 := by gcongr
      _ ≤ _ := by norm_num
  refine ⟨s, e1, by linarith, hsge, hsle, he, e2, by linarith, ?_⟩
  -- the inverse
  obtain ⟨i1, i2⟩ := abs_le.1 G.inverse
  have hv0 : 0 < v := by
    by_contra hneg
    have : v * e ≤ 0 := mul_nonpos_of_nonpos_of_nonneg (not_lt.1 hneg) he.le
    linarith
  have hv1 : v ≤ 2 ^ 21 := by
    by_contra hgt
    have := mul_le_mul (not_le.1 hgt).le h0 (by norm_num) hv0.le
    norm_num at this
    norm_num at i2
    linarith
  refine ⟨G.cell.trans e1, ?_, G.dims⟩
  obtain ⟨w, w1, w2⟩ := rounds_fin rounds_float (x := v) (by rw [abs_of_pos hv0]; exact hv1.trans (by norm_num))
  rw [abs_of_pos hv0, hgη] at w2
  refine ⟨w, G.inv.trans w1, ?_⟩
  have hw : |w - v| ≤ (1 / 2 ^ 24 + 1 / 2 ^ 60) * v := by
    have hve : 1 ≤ 2 * (v * e) := by linarith
    have : η * 1 ≤ η * (2 ^ 22 * v) := by
      refine mul_le_mul_of_nonneg_left ?_ hη0
      have := mul_le_mul_of_nonneg_left h1 hv0.le
      linarith
    have hη2 : η * 2 ^ 22 ≤ 1 / 2 ^ 60 := by rw [← hgη]; norm_num
    have := mul_le_mul_of_nonneg_right hη2 hv0.le
    linarith
  have hse : |s - e| ≤ (1 / 2 ^ 24 + 1 / 2 ^ 60) * e := by linarith
  have k1 : |w * s - v * e| ≤ 49 / 20 * (1 / 2 ^ 24) * (v * e) := by
    rw [show w * s - v * e = (w - v) * (s - e) + (w - v) * e + v * (s - e) by ring]
    have a1 := abs_add_le ((w - v) * (s - e) + (w - v) * e) (v * (s - e))
    have a2 := abs_add_le ((w - v) * (s - e)) ((w - v) * e)
    rw [abs_mul, abs_mul] at a2
    rw [abs_mul v] at a1
    rw [abs_of_pos he] at a2
    rw [abs_of_pos hv0] at a1
    have b1 := mul_le_mul hw hse (abs_nonneg _) (by positivity)
    have b2 := mul_le_mul_of_nonneg_right hw he.le
    have b3 := mul_le_mul_of_nonneg_left hse hv0.le
    have hve := mul_pos hv0 he
    nlinarith
  have k2 := abs_add_le (w * s - v * e) (v * e - 1)
  rw [show w * s - v * e + (v * e - 1) = w * s - 1 by ring] at k2
  have k3 := G.inverse
  nlinarith

theorem FloatGrid.precise {e v n B : ℚ} {g : RayGrid Fl} (G : FloatGrid e v n B g) {sqrt : Fl → Fl} (h : FloatSqrt sqrt) :
    ∃ s, floatR e = .fin s ∧ e ≤ 2 * s ∧
      DevPrecise floatR sqrt (1 / 2 ^ 24) (1 / 2 ^ 150) ((2 - 1 / 2 ^ 23) * 2 ^ 127) e s n n (1 / 2 ^ 24 * n ^ 2 * s)
        (1 / 2 ^ 24 * n ^ 2 * e) B g := by
  obtain ⟨s, e1, e2, hsge, hsle, he, hedge, hse, hgrid⟩ := G.edge
  refine ⟨s, e1, e2, ⟨⟨rayScale_float hsge hsle G.n_ge G.n_le, camScale_float hsge (G.e_ge.trans G.B_ge) G.B_le, rounds_float,
    keepsSign_saturate 24 (-149) _, keepsOne_saturate 24 (-149) (by norm_num) (by norm_num) _, sqrtRounds_float h, hgrid⟩, hedge, he, G.B_ge, ?_⟩⟩
  have hn := G.n_ge
  have k1 := mul_le_mul_of_nonneg_left hse (show 0 ≤ n ^ 2 by positivity)
  have k2 := mul_le_mul_of_nonneg_right hn (show 0 ≤ n * e by positivity)
  nlinarith

/-- The tolerance in `float`. -/
def floatTol (e n B : ℚ) : ℚ := (34 * n ^ 2 * e + 310 * B) / 2 ^ 24

theorem devTol_float (e n B : ℚ) : devTol (1 / 2 ^ 24) (1 / 2 ^ 24 * n ^ 2 * e) B = floatTol e n B := by unfold devTol floatTol; ring

/-- A range of at least `2^-60`, infinite or no number. -/
def FloatRange (range : Fl) : Prop := range ≠ .ninf ∧ ∀ r, range = .fin r → 1 / 2 ^ 60 ≤ r

theorem FloatRange.ok {range : Fl} (h : FloatRange range) {B : ℚ} (hB' : B ≤ 2 ^ 30) : DevRange (1 / 2 ^ 150) B range := by
  refine ⟨h.1, fun r hr => ?_⟩
  have h1 := h.2 r hr
  refine ⟨lt_of_lt_of_le (by norm_num) h1, ?_⟩
  calc 57 * (1 / 2 ^ 150 * B) + 2 * (1 / 2 ^ 150) ≤ 57 * (1 / 2 ^ 150 * 2 ^ 30) + 2 * (1 / 2 ^ 150) := by gcongr
    _ ≤ 1 / 2 ^ 60 := by norm_num
    _ ≤ r := h1

section
variable {sqrt : Fl → Fl} {e v n N B : ℚ} {g : RayGrid Fl} {K : Type} {api : DeviceApi} {pct : ℚ} {t k : ℤ} {op : FilterOptions}
  {cams : List Camera3} {c : Camera3} {static output output' : VoxMap K} {i : IVec}

/-- C76: on a device (`float`, 32-bit indices), filled cells are where something is, up to `(34 n² e + 310 B) / 2^24` (for a hundred cells of
1 cm along an axis and coordinates of up to 10 m: 0.4 millimetres). -/
theorem C76_float_filled_is_real (hs : FloatSqrt sqrt) (G : FloatGrid e v n B g) (hh : Helper api (cams.map (Camera3.dev floatR)))
    (hN : g.dims.total * 2 * numTrackingGrids (cams.map (Camera3.dev floatR)) < 2 ^ 31)
    (hop : FilterOptions.make (.fin pct) t k = some op) (hlen : ∀ c ∈ cams, c.points.length ≤ 2 ^ 24)
    (hc : ∀ c ∈ cams, c.Within B) (ht : ∀ c ∈ cams, c.Turns) (hr : ∀ c ∈ cams, ∀ r, c.range = .fin r → 0 ≤ r)
    (hd : static.dims = g.dims) (h : DeviceVoxelizeRuns api float32 sqrt g op (cams.map (Camera3.dev floatR)) static output output')
    (hi : CellInGrid (axisCells g.dims) i)
    (hocc : (static.data (dataIndex g.dims i)).le (.fin (1 / 2)) = true) (hone : output'.data (dataIndex g.dims i) = .fin 1) :
    ∃ c ∈ cams, t ≤ c.howMany fun x =>
      NearBox (floatTol e n B) e i (c.place x) ∧ NotBeyond (floatTol e n B) c.range c.sensor (c.place x) := by
  rw [← devTol_float]
  obtain ⟨s, -, -, P⟩ := G.precise hs
  exact C76_filled_is_real (bits := 32) P hh hN hop hlen hc ht hr hd h hi hocc hone

open Classical in
/-- C76: on a device, free cells were looked through.
Missing for a full statement: sensors outside the grid. -/
theorem C76_float_free_is_seen_partial (hs : FloatSqrt sqrt) (G : FloatGrid e v n B g) (hh : Helper api (cams.map (Camera3.dev floatR)))
    (hN : g.dims.total * 2 * numTrackingGrids (cams.map (Camera3.dev floatR)) < 2 ^ 31)
    (hop : FilterOptions.make (.fin pct) t k = some op) (hlen : ∀ c ∈ cams, c.points.length ≤ 2 ^ 24)
    (hc : ∀ c ∈ cams, c.Within B) (ht : ∀ c ∈ cams, c.Turns) (hr : ∀ c ∈ cams, FloatRange c.range)
    (hsensor : ∀ c ∈ cams, DeepInGrid (floatTol e n B) e (axisCells g.dims) c.sensor)
    (hd : static.dims = g.dims) (h : DeviceVoxelizeRuns api float32 sqrt g op (cams.map (Camera3.dev floatR)) static output output')
    (hi : CellInGrid (axisCells g.dims) i)
    (hocc : (static.data (dataIndex g.dims i)).le (.fin (1 / 2)) = true) (hzero : output'.data (dataIndex g.dims i) = .fin 0) :
    k ≤ cams.countP fun c => decide (∃ x, some x ∈ c.points ∧ SeenNear (floatTol e n B) e c.range c.sensor (c.place x) i) := by
  rw [← devTol_float] at hsensor ⊢
  obtain ⟨s, -, -, P⟩ := G.precise hs
  exact C76_free_is_seen_partial (bits := 32) P hh hN hop hlen hc ht (fun c hcm => (hr c hcm).ok G.B_le) hsensor hd h hi hocc hzero

/-- C76: on a device, obstacles are kept.
Missing for a full statement: sensors outside the grid. -/
theorem C76_float_obstacle_is_filled_partial (hs : FloatSqrt sqrt) (G : FloatGrid e v n B g) (hh : Helper api (cams.map (Camera3.dev floatR)))
    (hN : g.dims.total * 2 * numTrackingGrids (cams.map (Camera3.dev floatR)) < 2 ^ 31)
    (hop : FilterOptions.make (.fin 1) t k = some op) (hlen : ∀ c ∈ cams, c.points.length ≤ 2 ^ 24)
    (hd : static.dims = g.dims) (h : DeviceVoxelizeRuns api float32 sqrt g op (cams.map (Camera3.dev floatR)) static output output')
    (hi : CellInGrid (axisCells g.dims) i) (hocc : (static.data (dataIndex g.dims i)).le (.fin (1 / 2)) = true)
    (hcm : c ∈ cams) (hc : c.Within B) (ht : c.Turns) (hr : FloatRange c.range)
    (hsensor : DeepInGrid (floatTol e n B) e (axisCells g.dims) c.sensor)
    (hpts : t ≤ c.howMany fun x =>
      DeepBox (floatTol e n B) e i (c.place x) ∧ WellWithin (floatTol e n B) c.range c.sensor (c.place x)) :
    output'.data (dataIndex g.dims i) = .fin 1 := by
  rw [← devTol_float] at hsensor hpts
  obtain ⟨s, -, -, P⟩ := G.precise hs
  exact C76_obstacle_is_filled_partial (bits := 32) P hh hN hop hlen hd h hi hocc hcm hc ht (hr.ok G.B_le) hsensor hpts

open Classical in
/-- C76: on a device, what is looked through becomes free.
Missing for a full statement: sensors outside the grid, for which it does not hold (`C57_device_misses_free_cell`). -/
theorem C76_float_seen_is_free_partial (hs : FloatSqrt sqrt) (G : FloatGrid e v n B g) (hh : Helper api (cams.map (Camera3.dev floatR)))
    (hN : g.dims.total * 2 * numTrackingGrids (cams.map (Camera3.dev floatR)) < 2 ^ 31)
    (hop : FilterOptions.make (.fin pct) t k = some op) (hlen : ∀ c ∈ cams, c.points.length ≤ 2 ^ 24)
    (hc : ∀ c ∈ cams, c.Within B) (ht : ∀ c ∈ cams, c.Turns) (hr : ∀ c ∈ cams, ∀ r, c.range = .fin r → 0 ≤ r)
    (hd : static.dims = g.dims) (h : DeviceVoxelizeRuns api float32 sqrt g op (cams.map (Camera3.dev floatR)) static output output')
    (hi : CellInGrid (axisCells g.dims) i) (hocc : (static.data (dataIndex g.dims i)).le (.fin (1 / 2)) = true)
    (hno : ∀ c ∈ cams, ∀ x, some x ∈ c.points →
      ¬ (NearBox (floatTol e n B) e i (c.place x) ∧ NotBeyond (floatTol e n B) c.range c.sensor (c.place x)))
    (hsee : k ≤ cams.countP fun c => decide (FloatRange c.range ∧ DeepInGrid (floatTol e n B) e (axisCells g.dims) c.sensor ∧
      ∃ x, some x ∈ c.points ∧ SeenDeep (floatTol e n B) e c.range c.sensor (c.place x) i)) :
    output'.data (dataIndex g.dims i) = .fin 0 := by
  rw [← devTol_float] at hno hsee
  obtain ⟨s, -, -, P⟩ := G.precise hs
  refine C76_seen_is_free_partial (bits := 32) P hh hN hop hlen hc ht hr hd h hi hocc hno (hsee.trans (Nat.cast_le.2 ?_))
  refine List.countP_mono_left fun c _ hp => ?_
  rw [decide_eq_true_iff] at hp ⊢
  exact ⟨hp.1.ok G.B_le, hp.2⟩

/-- C76: on a device, every voxelization from sensors in the grid has a result, if coordinates are at most `2^23` cells. -/
theorem C76_float_has_result (hs : FloatSqrt sqrt) (G : FloatGrid e v n B g) (hBe : B ≤ 2 ^ 23 * e) (hh : Helper api (cams.map (Camera3.dev floatR)))
    (hN : g.dims.total * 2 * numTrackingGrids (cams.map (Camera3.dev floatR)) < 2 ^ 31)
    (hop : FilterOptions.make (.fin pct) t k = some op) (hlen : ∀ c ∈ cams, c.points.length ≤ 2 ^ 24)
    (hc : ∀ c ∈ cams, c.Within B) (ht : ∀ c ∈ cams, c.Turns) (hr : ∀ c ∈ cams, FloatRange c.range)
    (hsensor : ∀ c ∈ cams, DeepInGrid (floatTol e n B) e (axisCells g.dims) c.sensor) (hd : static.dims = g.dims) :
    ∃ output', DeviceVoxelizeRuns api float32 sqrt g op (cams.map (Camera3.dev floatR)) static output output' := by
  rw [← devTol_float] at hsensor
  obtain ⟨s, -, hes, P⟩ := G.precise hs
  have hs0 := P.cam.ray.s_pos
  have hq : B / s ≤ 2 ^ 24 := by
    rw [div_le_iff₀ hs0]
    linarith
  exact C76_has_result (bits := 32) P (by norm_num; linarith) (le_trans (show _ ≤ 64 * 2 ^ 24 by linarith) (by norm_num)) hh hN hop hlen hc ht
    (fun c hcm => (hr c hcm).ok G.B_le) hsensor hd

/-- The tolerance in `float` with sensors up to about `n / 9` cells from the origin of the grid. -/
def floatReachTol (e N n B : ℚ) : ℚ := (34 * (N ^ 2 / 2 + 3 * n) * e + 310 * B) / 2 ^ 24

theorem devTol_float_wide (e N n B : ℚ) :
    devTol (1 / 2 ^ 24) (1 / 2 ^ 24 * N ^ 2 * e / 2 + 3 * (1 / 2 ^ 24 * n * e)) B = floatReachTol e N n B := by
  unfold devTol floatReachTol; ring

/-- The same with the share of the absolute constants `1e-10` of the code. -/
def floatWideTol (e N n B : ℚ) : ℚ := (34 * (N ^ 2 / 2 + 3 * n) * e + 910 * B) / 2 ^ 24 + (1 + B) / 10 ^ 8

theorem devWideTol_float (e N n B : ℚ) :
    devWideTol (1 / 2 ^ 24) (1 / 2 ^ 24 * N ^ 2 * e / 2 + 3 * (1 / 2 ^ 24 * n * e)) B = floatWideTol e N n B := by
  unfold devWideTol devTol floatWideTol; ring

theorem entryScale_float {s n N : ℚ} (hs : 1 / 2 ^ 30 ≤ s) (hs' : s ≤ 2 ^ 30) (hN : 3 ≤ N) (hN' : N ≤ 528) (hn : 8 * N ≤ n)
    (hn' : n ≤ 5592) :
    EntryScale (1 / 2 ^ 24) (1 / 2 ^ 150) ((2 - 1 / 2 ^ 23) * 2 ^ 127) s n N
      (1 / 2 ^ 24 * N ^ 2 * s / 2 + 3 * (1 / 2 ^ 24 * n * s)) := by
  refine ⟨rayScale_float_wide hs hs' hN (by linarith) (by linarith) hn', by linarith, by norm_num, ?_⟩
  have hs0 : 0 < s := lt_of_lt_of_le (by norm_num) hs
  have hns : n * s ≤ 5592 * 2 ^ 30 := mul_le_mul hn' hs' hs0.le (by norm_num)
  calc (10 : ℚ) ^ 12 * (1 + n * s) ≤ 10 ^ 12 * (1 + 5592 * 2 ^ 30) := by gcongr
    _ ≤ _ := by norm_num

/-- The grid is small enough for sensors outside it. -/
theorem FloatGrid.wide (hs : FloatSqrt sqrt) (G : FloatGrid e v N B g) (hn : 8 * N ≤ n) (hn' : n ≤ 5592)
    (hsize : ∀ a, ∃ z, g.size a = .fin z ∧ |z - axisCells g.dims a * e| ≤ n * e / 2 ^ 26) :
    ∃ s, DevPrecise floatR sqrt (1 / 2 ^ 24) (1 / 2 ^ 150) ((2 - 1 / 2 ^ 23) * 2 ^ 127) e s n N
        (1 / 2 ^ 24 * N ^ 2 * s / 2 + 3 * (1 / 2 ^ 24 * n * s)) (1 / 2 ^ 24 * N ^ 2 * e / 2 + 3 * (1 / 2 ^ 24 * n * e)) B g ∧
      Wide (1 / 2 ^ 24) (1 / 2 ^ 150) ((2 - 1 / 2 ^ 23) * 2 ^ 127) s n N (1 / 2 ^ 24 * N ^ 2 * s / 2 + 3 * (1 / 2 ^ 24 * n * s)) g ∧
      1 ≤ 10 ^ 7 * B ∧ ∀ y : ℚ, 9 * |y| + 297 * B / 2 ^ 24 ≤ n * e → 8 * |y| + 264 * (1 / 2 ^ 24 * B) ≤ n * s := by
  obtain ⟨s, hfs, hes, hsge, hsle, he, hedge, hse1, hgrid⟩ := G.edge
  have hN := G.n_ge; have hN' := G.n_le
  have hn0 : 0 ≤ n := by linarith
  have P : DevPrecise floatR sqrt (1 / 2 ^ 24) (1 / 2 ^ 150) ((2 - 1 / 2 ^ 23) * 2 ^ 127) e s n N
      (1 / 2 ^ 24 * N ^ 2 * s / 2 + 3 * (1 / 2 ^ 24 * n * s)) (1 / 2 ^ 24 * N ^ 2 * e / 2 + 3 * (1 / 2 ^ 24 * n * e)) B g := by
    refine ⟨⟨rayScale_float_wide hsge hsle hN (by linarith) (by linarith) hn', camScale_float hsge (G.e_ge.trans G.B_ge) G.B_le, rounds_float,
      keepsSign_saturate 24 (-149) _, keepsOne_saturate 24 (-149) (by norm_num) (by norm_num) _, sqrtRounds_float hs, hgrid⟩,
      hedge, he, G.B_ge, ?_⟩
    have k1 := mul_le_mul_of_nonneg_left hse1 (show 0 ≤ N ^ 2 by positivity)
    have k2 := mul_le_mul_of_nonneg_left hse1 hn0
    have k3 := mul_le_mul_of_nonneg_right hn he.le
    have k4 : 0 ≤ N ^ 2 * e := by positivity
    have k5 : 0 ≤ N * e := by positivity
    nlinarith
  have hd8 : ∀ a, 8 * ((axisCells g.dims a : ℚ) + 2) ≤ n := fun a => by linarith [G.dims a]
  have hB := P.cam.cam.B_pos
  have hη : (1 : ℚ) / 2 ^ 150 ≤ 1 / 2 ^ 80 * e := by
    have := G.e_ge
    calc (1 : ℚ) / 2 ^ 150 ≤ 1 / 2 ^ 80 * (1 / 2 ^ 20) := by norm_num
      _ ≤ _ := by gcongr
  have hse : |s - e| ≤ 101 / 100 * (e / 2 ^ 24) := by linarith
  have hse' := abs_le.1 hse
  refine ⟨s, P, ⟨entryScale_float hsge hsle hN hN' hn hn', hd8, ?_⟩, ?_, ?_⟩
  · intro a
    obtain ⟨z, z1, z2⟩ := hsize a
    refine ⟨z, z1, ?_⟩
    have hm : (0 : ℚ) ≤ axisCells g.dims a := by positivity
    have hm8 := hd8 a
    rw [show z - axisCells g.dims a * s = (z - axisCells g.dims a * e) - axisCells g.dims a * (s - e) by ring]
    refine (abs_sub _ _).trans ?_
    rw [abs_mul, abs_of_nonneg hm]
    have k1 := mul_le_mul_of_nonneg_left hse hm
    have k2 := mul_le_mul_of_nonneg_right (show (axisCells g.dims a : ℚ) ≤ n / 8 by linarith) (show 0 ≤ 101 / 100 * (e / 2 ^ 24) by positivity)
    have k3 := mul_le_mul_of_nonneg_left (show 99 / 100 * e ≤ s by linarith) hn0
    have k4 : 0 ≤ n * e := mul_nonneg hn0 he.le
    nlinarith
  · have := G.e_ge; have := G.B_ge
    linarith
  · intro y hy
    have k3 := mul_le_mul_of_nonneg_left (show 99 / 100 * e ≤ s by linarith) hn0
    have := abs_nonneg y
    nlinarith

/-- C76: on a device, obstacles are kept wherever the sensor is, up to `(34 (N² / 2 + 3 n) e + 910 B) / 2^24 + (1 + B) / 10^8` (`N` the
number of cells along an axis plus two, `n` at least eight times that and at most 5592, and the sensor within about `n / 9` cells of the
origin). -/
theorem C76_float_obstacle_is_filled (hs : FloatSqrt sqrt) (G : FloatGrid e v N B g) (hn : 8 * N ≤ n) (hn' : n ≤ 5592)
    (hsize : ∀ a, ∃ z, g.size a = .fin z ∧ |z - axisCells g.dims a * e| ≤ n * e / 2 ^ 26)
    (hh : Helper api (cams.map (Camera3.dev floatR))) (hN : g.dims.total * 2 * numTrackingGrids (cams.map (Camera3.dev floatR)) < 2 ^ 31)
    (hop : FilterOptions.make (.fin 1) t k = some op) (hlen : ∀ c ∈ cams, c.points.length ≤ 2 ^ 24)
    (hd : static.dims = g.dims) (h : DeviceVoxelizeRuns api float32 sqrt g op (cams.map (Camera3.dev floatR)) static output output')
    (hi : CellInGrid (axisCells g.dims) i) (hocc : (static.data (dataIndex g.dims i)).le (.fin (1 / 2)) = true)
    (hcm : c ∈ cams) (hc : c.Within B) (ht : c.Turns) (hr : FloatRange c.range)
    (hreach : ∀ a, 9 * |c.sensor a| + 297 * B / 2 ^ 24 ≤ n * e)
    (hpts : t ≤ c.howMany fun x =>
      DeepBox (floatWideTol e N n B) e i (c.place x) ∧ WellWithin (floatWideTol e N n B) c.range c.sensor (c.place x)) :
    output'.data (dataIndex g.dims i) = .fin 1 := by
  rw [← devWideTol_float] at hpts
  obtain ⟨s, P, hW, hB7, hrch⟩ := G.wide hs hn hn' hsize
  exact C76_obstacle_is_filled (bits := 32) P hW hB7 hh hN hop hlen hd h hi hocc hcm hc ht (hr.ok G.B_le) (fun a => hrch _ (hreach a)) hpts

end

/-! ### Concrete cases -/

theorem lookFrom_turns (v : Fin 3 → ℚ) (range : Fl) (points : List (Option (Fin 3 → ℚ))) : (lookFrom v range points).Turns := by
  intro a
  fin_cases a <;> norm_num [lookFrom]

/-- Cells of a tenth, which `float` cannot represent. -/
def gridTenth : RayGrid Fl := ⟨⟨4, 4, 4⟩, floatR (1 / 10), floatR 10, fun _ => floatR (4 / 10)⟩

theorem gridTenth_float : FloatGrid (1 / 10) 10 6 1 gridTenth where
  e_ge := by norm_num
  e_le := by norm_num
  inverse := by norm_num
  cell := rfl
  inv := rfl
  dims := by intro a; fin_cases a <;> norm_num [gridTenth, axisCells]
  n_ge := by norm_num
  n_le := by norm_num
  B_ge := by norm_num
  B_le := by norm_num

/-- A camera in the grid that measures one point askew, and another that fails. -/
def askewTenth : Camera3 := lookFrom (fun _ => 1 / 20) (.fin (3 / 10)) [some ![2 / 10, 1 / 10, 0], none]

open Classical in
/-- The hypotheses of the theorems for sensors in the grid are met on a CUDA device: there is a run (`C76_float_has_result`), the cell with
the point becomes filled (`C76_float_obstacle_is_filled_partial`) and a cell on the way free (`C76_float_seen_is_free_partial`). -/
example {sqrt : Fl → Fl} (hs : FloatSqrt sqrt) :
    ∃ output', DeviceVoxelizeRuns (cudaApi 256) float32 sqrt gridTenth ⟨.fin 1, 1, 1⟩ ([askewTenth].map (Camera3.dev floatR)) dark4 dark4 output' ∧
    output'.data (dataIndex gridTenth.dims ![2, 1, 0]) = .fin 1 ∧ output'.data (dataIndex gridTenth.dims ![1, 0, 0]) = .fin 0 := by
  have G := gridTenth_float
  have hop : FilterOptions.make (.fin 1) 1 1 = some ⟨.fin 1, 1, 1⟩ := by decide +kernel
  have hh : Helper (F := Fl) (cudaApi 256) ([askewTenth].map (Camera3.dev floatR)) :=
    .inr ⟨256, by norm_num, rfl, by simp [askewTenth, lookFrom, Camera3.dev]⟩
  have hN : gridTenth.dims.total * 2 * numTrackingGrids ([askewTenth].map (Camera3.dev floatR)) < 2 ^ 31 := by decide
  have hlen : ∀ c ∈ [askewTenth], c.points.length ≤ 2 ^ 24 := by decide
  have hmem : askewTenth ∈ [askewTenth] := List.mem_singleton_self _
  have hw : askewTenth.Within 1 := lookFrom_within (by intro a; norm_num) (by
    intro x hx
    simp only [List.mem_cons, Option.some.injEq, reduceCtorEq, List.not_mem_nil, or_false] at hx
    subst hx
    intro a
    fin_cases a <;> norm_num)
  have ht : askewTenth.Turns := lookFrom_turns _ _ _
  have hr : FloatRange askewTenth.range := by
    refine ⟨by decide, fun r hr => ?_⟩
    have : r = 3 / 10 := by simpa [askewTenth, lookFrom] using hr.symm
    rw [this]
    norm_num
  have hr0 : ∀ r, askewTenth.range = .fin r → 0 ≤ r := fun r h => le_trans (by norm_num) (hr.2 r h)
  have hsensor : DeepInGrid (floatTol (1 / 10) 6 1) (1 / 10) (axisCells gridTenth.dims) askewTenth.sensor := by
    unfold askewTenth
    rw [lookFrom_sensor]
    intro a
    fin_cases a <;> norm_num [floatTol, gridTenth, axisCells]
  have all : ∀ {Q : Camera3 → Prop}, Q askewTenth → ∀ c ∈ [askewTenth], Q c := fun h c hcm => by
    obtain rfl := List.mem_singleton.1 hcm
    exact h
  have hx : some ![2 / 10, 1 / 10, 0] ∈ askewTenth.points := List.mem_cons_self
  have hplace : askewTenth.place ![2 / 10, 1 / 10, 0] = ![1 / 4, 3 / 20, 1 / 20] := by
    unfold askewTenth
    rw [lookFrom_place]
    funext a
    fin_cases a <;> norm_num
  have hsens : askewTenth.sensor = fun _ => 1 / 20 := by
    unfold askewTenth
    rw [lookFrom_sensor]
  have hrange : askewTenth.range = .fin (3 / 10) := rfl
  obtain ⟨out, hout⟩ := C76_float_has_result (static := dark4) (output := dark4) hs G (by norm_num) hh hN hop hlen (all hw) (all ht) (all hr)
    (all hsensor) rfl
  refine ⟨out, hout, ?_, ?_⟩
  · refine C76_float_obstacle_is_filled_partial hs G hh hN hop hlen rfl hout (by unfold CellInGrid; decide) (by decide +kernel)
      hmem hw ht hr hsensor ?_
    unfold Camera3.howMany
    have : 0 < askewTenth.points.countP fun y => decide (∃ x, y = some x ∧ DeepBox (floatTol (1 / 10) 6 1) (1 / 10) ![2, 1, 0]
        (askewTenth.place x) ∧ WellWithin (floatTol (1 / 10) 6 1) askewTenth.range askewTenth.sensor (askewTenth.place x)) := by
      refine List.countP_pos_iff.2 ⟨_, hx, decide_eq_true ⟨_, rfl, ?_, ?_⟩⟩
      · rw [hplace]
        intro a
        fin_cases a <;> norm_num [floatTol]
      · rw [hplace, hsens, hrange]
        intro r hr
        cases hr
        rw [show distSq (fun _ => 1 / 20) ![1 / 4, 3 / 20, 1 / 20] = 1 / 20 by unfold distSq; decide +kernel]
        norm_num [floatTol]
    exact_mod_cast this
  · refine C76_float_seen_is_free_partial hs G hh hN hop hlen (all hw) (all ht) (all hr0) rfl hout (by unfold CellInGrid; decide)
      (by decide +kernel) ?_ ?_
    · intro c hcm x hxm
      obtain rfl := List.mem_singleton.1 hcm
      have : x = ![2 / 10, 1 / 10, 0] := by simpa [askewTenth, lookFrom] using hxm
      subst this
      rw [hplace]
      rintro ⟨h1, -⟩
      have := (h1 0).2
      norm_num [floatTol] at this
    · have : 0 < [askewTenth].countP fun c => decide (FloatRange c.range ∧
          DeepInGrid (floatTol (1 / 10) 6 1) (1 / 10) (axisCells gridTenth.dims) c.sensor ∧
          ∃ x, some x ∈ c.points ∧ SeenDeep (floatTol (1 / 10) 6 1) (1 / 10) c.range c.sensor (c.place x) ![1, 0, 0]) := by
        refine List.countP_pos_iff.2 ⟨_, hmem, decide_eq_true ⟨hr, hsensor, _, hx, 3 / 8, by norm_num, by norm_num, ?_, ?_⟩⟩
        · rw [hplace, hsens]
          intro a
          fin_cases a <;> norm_num [floatTol, onSeg]
        · rw [hplace, hsens, hrange]
          intro r hr
          cases hr
          rw [distSq_onSeg, show distSq (fun _ => 1 / 20) ![1 / 4, 3 / 20, 1 / 20] = 1 / 20 by unfold distSq; decide +kernel]
          norm_num [floatTol]
      exact_mod_cast this

/-- The root of a square is exact. -/
theorem floatSqrt_sq {sqrt : Fl → Fl} (h : FloatSqrt sqrt) {m : ℕ} (hm : m ≤ 2 ^ 24) : sqrt (.fin ((m : ℚ) ^ 2)) = .fin m := by
  obtain ⟨y, h1, h2⟩ := h ((m : ℚ) ^ 2) (by positivity)
  rw [h1]
  have e1 : Real.sqrt (((m : ℚ) ^ 2 : ℚ) : ℝ) = (m : ℝ) := by
    push_cast
    exact Real.sqrt_sq (Nat.cast_nonneg m)
  have e2 := rne_exact (K := ℝ) (p := 24) (emin := -149) (m : ℤ) 0 (by norm_num) (by
    rw [abs_of_nonneg (by positivity)]
    exact_mod_cast hm) (by norm_num)
  have e3 : ((m : ℤ) : ℝ) * 2 ^ (0 : ℤ) = (m : ℝ) := by simp
  rw [e3] at e2
  rw [e1, e2] at h2
  congr 1
  exact_mod_cast h2

theorem grid4_float : FloatGrid 1 1 6 8 grid4 where
  e_ge := by norm_num
  e_le := by norm_num
  inverse := by norm_num
  cell := by decide +kernel
  inv := by decide +kernel
  dims := by intro a; fin_cases a <;> norm_num [grid4, axisCells]
  n_ge := by norm_num
  n_le := by norm_num
  B_ge := by norm_num
  B_le := by norm_num

theorem before4_dev {sqrt : Fl → Fl} (hs : FloatSqrt sqrt) : kernelPoint float32 sqrt grid4 (before4.dev floatR)
    (some fun a => floatR (![4, 0, 0] a)) = some [.filled ![2, 0, 0], .free ![0, 0, 0], .free ![1, 0, 0]] := by
  have e : flLength float32 sqrt (kernelOrigin (before4.dev floatR).tf)
      (kernelTransform float32 (before4.dev floatR).tf fun a => floatR (![4, 0, 0] a)) = .fin 4 := by
    unfold flLength
    refine Eq.trans (congrArg sqrt ?_) (floatSqrt_sq hs (m := 4) (by norm_num))
    decide +kernel
  unfold kernelPoint
  dsimp only
  rw [e]
  decide +kernel

open Classical in
/-- The hypotheses for sensors outside the grid are met on an OpenCL device (`C76_float_obstacle_is_filled`). -/
theorem before4_float_run {sqrt : Fl → Fl} (hs : FloatSqrt sqrt) :
    ∃ output', DeviceVoxelizeRuns openclApi float32 sqrt grid4 ⟨.fin 1, 1, 1⟩ ([before4].map (Camera3.dev floatR)) dark4 dark4 output' ∧
    output'.data (dataIndex grid4.dims ![2, 0, 0]) = .fin 1 := by
  have hop : FilterOptions.make (.fin 1) 1 1 = some ⟨.fin 1, 1, 1⟩ := by decide +kernel
  have hh : Helper (F := Fl) openclApi ([before4].map (Camera3.dev floatR)) := .inl ⟨rfl, by simp [before4, lookFrom, Camera3.dev]⟩
  have hN : grid4.dims.total * 2 * numTrackingGrids ([before4].map (Camera3.dev floatR)) < 2 ^ 31 := by decide
  have hlen : ∀ c ∈ [before4], c.points.length ≤ 2 ^ 24 := by decide
  obtain ⟨out, hout⟩ := (C57_device_defined (A := float32) (sqrt := sqrt) (g := grid4) hh hN hop (devs_length hlen) (static := dark4)
      (output := dark4) rfl).2 (by
    intro c hc x hx
    obtain rfl := List.mem_singleton.1 hc
    obtain rfl : x = some fun a => floatR (![4, 0, 0] a) := by simpa [Camera3.dev, before4, lookFrom] using hx
    rw [before4_dev hs]
    rfl)
  refine ⟨out, hout, ?_⟩
  have hrange : before4.range = .fin 5 := rfl
  refine C76_float_obstacle_is_filled (c := before4) hs grid4_float (n := 48) (by norm_num) (by norm_num)
    (by intro a; exact ⟨4, rfl, by fin_cases a <;> norm_num [grid4, axisCells]⟩) hh hN hop hlen rfl hout (by unfold CellInGrid; decide)
    (by decide +kernel) (List.mem_singleton_self _) (lookFrom_within ?_ ?_) (lookFrom_turns _ _ _) ⟨by decide, ?_⟩ ?_ ?_
  · intro a
    fin_cases a <;> norm_num [abs_le]
  · intro x hx a
    have : x = ![4, 0, 0] := by simpa using hx
    subst this
    fin_cases a <;> norm_num
  · intro r hr
    rw [hrange] at hr
    cases hr
    norm_num
  · unfold before4
    rw [lookFrom_sensor]
    intro a
    fin_cases a <;> norm_num [abs_of_neg, abs_of_pos]
  · unfold Camera3.howMany
    have hplace : before4.place ![4, 0, 0] = ![5 / 2, 1 / 2, 1 / 2] := by
      unfold before4
      rw [lookFrom_place]
      funext a
      fin_cases a <;> norm_num
    have : 0 < before4.points.countP fun y => decide (∃ x, y = some x ∧ DeepBox (floatWideTol 1 6 48 8) 1 ![2, 0, 0] (before4.place x) ∧
        WellWithin (floatWideTol 1 6 48 8) before4.range before4.sensor (before4.place x)) := by
      refine List.countP_pos_iff.2 ⟨some ![4, 0, 0], List.mem_singleton_self _, decide_eq_true ⟨_, rfl, ?_, ?_⟩⟩
      · rw [hplace]
        intro a
        fin_cases a <;> norm_num [floatWideTol]
      · intro r hr
        rw [hrange] at hr
        cases hr
        rw [hplace]
        unfold before4
        rw [lookFrom_sensor]
        rw [show distSq ![-3 / 2, 1 / 2, 1 / 2] ![5 / 2, 1 / 2, 1 / 2] = 16 by unfold distSq; decide +kernel]
        norm_num [floatWideTol]
    exact_mod_cast this

end VGT
