import Verif.Props.Pipeline

/-!
C77: measured points and the answers of queries, CPU and devices.
-/
set_option autoImplicit false

namespace VGT
open VGT.EDT VGT.Spec VGT.Par

section
variable {norm : (Fin 3 → ℝ) → ℝ} {interp : (Fin 3 → ℝ) → (Fin 3 → ℝ) → (Bool → Bool → Bool → ℝ) → (Fin 3 → ℝ) → ℝ}
  {toGrid : Vec4 ℝ → Fin 3 → ℝ} {toWorld rotate : (Fin 3 → ℝ) → Fin 3 → ℝ} {K : Type} {gp : GenParams} {F : SDFGrid ℝ}
  {loc : Vec4 ℝ} {e' : ℝ} {p p' Y : Fin 3 → ℝ} {sqrt : Fl → Fl} {g : RayGrid Fl} {op : FilterOptions} {t k : ℤ} {pct : ℚ}
  {cams : List Camera3} {static output output' : VoxMap K} {c : Camera3} {x : Fin 3 → ℚ}

/-! ### CPU -/

section
variable {s n N B : ℚ}

theorem DoubleGrid.tol_nonneg (G : DoubleGrid s n B g) : 0 ≤ doubleTol s n B := by
  have h1 := G.s_ge; have h2 := G.B_ge
  have hs : 0 ≤ s := le_trans (by norm_num) h1
  have hB : 0 ≤ B := le_trans (by norm_num) h2
  unfold doubleTol
  positivity

theorem DoubleGrid.reach_nonneg (G : DoubleGrid s N B g) (hn : 8 * N ≤ n) : 0 ≤ doubleReachTol s N n B := by
  have h1 := G.s_ge; have h2 := G.B_ge
  have hs : 0 ≤ s := le_trans (by norm_num) h1
  have hB : 0 ≤ B := le_trans (by norm_num) h2
  have hn0 : 0 ≤ n := by linarith [G.n_ge]
  unfold doubleReachTol
  positivity

/-- C77, on the CPU nothing measured is overlooked: voxelize with percentage 1 and threshold 1 from sensors in the grid, extract the
signed distance field and query it.  Let `e'` be the computed estimate at a location `p'`, and `p` the place of its computed grid-frame
coordinates.  Every measured point that is truly in the grid and nearer than the range, by more than `(33 n² s + 300 B) / 2^53`, is
at least `e'` away from `p'`, less `√3 + 3 + n/2¹⁸ + n²/2³⁷` cell edges, less `dist3 p p'`, less twice that tolerance.
Missing for a full statement: sensors outside the grid. -/
theorem C77_double_clearance_partial (hs : IeeeSqrt sqrt) (G : DoubleGrid s n B g) (hop : FilterOptions.make (.fin 1) 1 k = some op)
    (hlen : ∀ c ∈ cams, c.points.length < 2 ^ 31) (hd : output.dims = g.dims) (hnan : NoNaN output)
    (h : FlVoxelizeRuns double64 sqrt g op (cams.map Camera3.cloud) output output') (hcm : c ∈ cams) (hc : c.Within B)
    (hr : DoubleRange c.range) (hsensor : DeepInGrid (doubleTol s n B) s (axisCells g.dims) c.sensor) (hx : some x ∈ c.points)
    (h1 : DeepInGrid (doubleTol s n B) s (axisCells g.dims) (c.place x))
    (h2 : WellWithin (doubleTol s n B) c.range c.sensor (c.place x))
    (hq : Answers norm interp toGrid toWorld rotate gp output' s n F loc e' p)
    (hY : InFrame F.pose.R F.pose.t (fun a => (c.place x a : ℝ)) Y) :
    e' - (Real.sqrt 3 + 3 + n / 2 ^ 18 + n ^ 2 / 2 ^ 37) * s - dist3 p p' - 2 * doubleTol s n B ≤ dist3 p' Y := by
  refine hq.clear G.tol_nonneg ?_ hY
  rw [← camTol_double] at hsensor h1 h2 ⊢
  exact C77_point_kept_partial (G.precise hs) hop hlen hd hnan h hcm hc (hr.ok G.B_le) hsensor hx h1 h2

/-- C77, on the CPU nothing measured is overlooked, wherever the sensor is: up to `n / 8` cells from the origin of the grid. -/
theorem C77_double_clearance (hs : IeeeSqrt sqrt) (G : DoubleGrid s N B g) (hn : 8 * N ≤ n) (hn' : n ≤ 2 ^ 40)
    (hsize : ∀ a, ∃ z, g.size a = .fin z ∧ |z - axisCells g.dims a * s| ≤ n * s / 2 ^ 53) (hop : FilterOptions.make (.fin 1) 1 k = some op)
    (hlen : ∀ c ∈ cams, c.points.length < 2 ^ 31) (hd : output.dims = g.dims) (hnan : NoNaN output)
    (h : FlVoxelizeRuns double64 sqrt g op (cams.map Camera3.cloud) output output') (hcm : c ∈ cams) (hc : c.Within B)
    (hr : DoubleRange c.range) (hreach : ∀ a, 8 * |c.sensor a| + 264 * B / 2 ^ 53 ≤ n * s) (hx : some x ∈ c.points)
    (h1 : DeepInGrid (doubleWideTol s N n B) s (axisCells g.dims) (c.place x))
    (h2 : WellWithin (doubleWideTol s N n B) c.range c.sensor (c.place x))
    (hq : Answers norm interp toGrid toWorld rotate gp output' s N F loc e' p)
    (hY : InFrame F.pose.R F.pose.t (fun a => (c.place x a : ℝ)) Y) :
    e' - (Real.sqrt 3 + 3 + N / 2 ^ 18 + N ^ 2 / 2 ^ 37) * s - dist3 p p' - 2 * doubleReachTol s N n B ≤ dist3 p' Y := by
  refine hq.clear (G.reach_nonneg hn) ?_ hY
  rw [← wideTol_double] at h1 h2
  rw [← camTol_double_wide]
  exact C77_point_kept (G.preciseWide hs hn hn') (G.toWide hn hn' hsize) hop hlen hd hnan h hcm hc (hr.ok G.B_le)
    (fun a => by have := hreach a; linarith) hx h1 h2

theorem howMany_pos {Q : (Fin 3 → ℚ) → Prop} (ht : 1 ≤ t) (h0 : t ≤ c.howMany Q) : ∃ x, some x ∈ c.points ∧ Q x := by
  classical
  have h : 0 < c.howMany Q := by omega
  unfold Camera3.howMany at h
  rw [List.countP_pos_iff] at h
  obtain ⟨y, hy, hp⟩ := h
  rw [decide_eq_true_iff] at hp
  obtain ⟨x, rfl, hx⟩ := hp
  exact ⟨x, hy, hx⟩

/-- C77, on the CPU nothing is invented: whatever the filter, if a query at a location in the open answers `e'`, a measured point, or the
centre of a cell that was filled before, is truly within `e'`, plus `1/2 + √3 + n/2¹⁸ + n²/2³⁷` cell edges, plus `dist3 p p'`, plus twice
the tolerance, of the location.  Sensors may be anywhere. -/
theorem C77_double_measured (hs : IeeeSqrt sqrt) (G : DoubleGrid s n B g) (hop : FilterOptions.make (.fin pct) t k = some op)
    (hlen : ∀ c ∈ cams, c.points.length < 2 ^ 31) (hd : output.dims = g.dims) (hc : ∀ c ∈ cams, c.Within B)
    (h : FlVoxelizeRuns double64 sqrt g op (cams.map Camera3.cloud) output output')
    (hq : Answers norm interp toGrid toWorld rotate gp output' s n F loc e' p) (hu : gp.unknownIsFilled = false) (hb : gp.addBorder = false)
    (ho : OpenAround output' s n (toGrid loc)) :
    ∃ y : Fin 3 → ℚ, ((∃ c ∈ cams, ∃ x, some x ∈ c.points ∧ y = c.place x ∧ NotBeyond (doubleTol s n B) c.range c.sensor y) ∨
        ∃ i, CellInGrid (axisCells g.dims) i ∧ AboveHalf (output.data (dataIndex g.dims i)) ∧ y = cellCentre s i) ∧
      ∀ Y, InFrame F.pose.R F.pose.t (fun a => (y a : ℝ)) Y → dist3 p' Y ≤
        e' + (1 / 2 + Real.sqrt 3 + n / 2 ^ 18 + n ^ 2 / 2 ^ 37) * s + dist3 p p' + 2 * doubleTol s n B := by
  have hs0 : 0 < s := lt_of_lt_of_le (by norm_num) G.s_ge
  obtain ⟨i, hi, habove, hdist⟩ := hq.found hu hb ho
  obtain ⟨-, hd', -, hkeep⟩ := C74_keeps_filled h
  rw [hd'.trans hd] at hi habove
  have hlt : dataIndex g.dims i < output.dims.total := by
    rw [hd]
    exact dataIndex_lt hi
  have key : ∀ y, NearBox (doubleTol s n B) s i y → ∀ Y, InFrame F.pose.R F.pose.t (fun a => (y a : ℝ)) Y → dist3 p' Y ≤
        e' + (1 / 2 + Real.sqrt 3 + n / 2 ^ 18 + n ^ 2 / 2 ^ 37) * s + dist3 p p' + 2 * doubleTol s n B := by
    intro y hy Y hY
    have := near_cell_dist (p' := p') hq.field.pose hq.place G.tol_nonneg hs0 hy hdist hY
    linarith
  cases hocc : (output.data (dataIndex g.dims i)).le (.fin (1 / 2)) with
  | false =>
    rw [(hkeep _ hlt).1 hocc] at habove
    refine ⟨cellCentre s i, .inr ⟨i, hi, habove, rfl⟩, key _ fun a => ?_⟩
    have := G.tol_nonneg
    unfold cellCentre
    constructor <;> linarith
  | true =>
    have hone : output'.data (dataIndex g.dims i) = .fin 1 := by
      rcases (hkeep _ hlt).2 hocc with h0 | h0 | h0
      · rw [h0] at habove
        rcases habove with h3 | ⟨q, h3, h4⟩ <;> cases h3
        norm_num at h4
      · rw [h0] at habove
        rcases habove with h3 | ⟨q, h3, h4⟩ <;> cases h3
        norm_num at h4
      · exact h0
    obtain ⟨c, hcm, hcnt⟩ := C74_filled_is_real (bits := 64) (G.precise hs) hop hlen hc hd h hi hocc hone
    have ht : 1 ≤ t := (make_ok hop).2.1
    obtain ⟨x, hx, hnear, hbey⟩ := howMany_pos ht hcnt
    rw [camTol_double] at hnear hbey
    exact ⟨c.place x, .inl ⟨c, hcm, x, hx, rfl, hbey⟩, key _ hnear⟩

end

/-! ### Devices -/

section
variable {e v n N B : ℚ} {api : DeviceApi}

theorem FloatGrid.tol_nonneg (G : FloatGrid e v n B g) : 0 ≤ floatTol e n B := by
  have h1 := G.e_ge; have h2 := G.B_ge
  have hs : 0 ≤ e := le_trans (by norm_num) h1
  have hB : 0 ≤ B := hs.trans h2
  unfold floatTol
  positivity

theorem FloatGrid.reach_nonneg (G : FloatGrid e v N B g) (hn : 8 * N ≤ n) : 0 ≤ floatReachTol e N n B := by
  have h1 := G.e_ge; have h2 := G.B_ge
  have hs : 0 ≤ e := le_trans (by norm_num) h1
  have hB : 0 ≤ B := hs.trans h2
  have hn0 : 0 ≤ n := by linarith [G.n_ge]
  unfold floatReachTol
  positivity

/-- C77, on a device nothing measured is overlooked: as `C77_double_clearance_partial`, the voxelization in `float` on a device.
Missing for a full statement: sensors outside the grid. -/
theorem C77_float_clearance_partial (hs : FloatSqrt sqrt) (G : FloatGrid e v n B g) (hh : Helper api (cams.map (Camera3.dev floatR)))
    (hN : g.dims.total * 2 * numTrackingGrids (cams.map (Camera3.dev floatR)) < 2 ^ 31) (hop : FilterOptions.make (.fin 1) 1 k = some op)
    (hlen : ∀ c ∈ cams, c.points.length ≤ 2 ^ 24) (hd : static.dims = g.dims) (hdo : output.dims = g.dims) (hnan : NoNaN static)
    (h : DeviceVoxelizeRuns api float32 sqrt g op (cams.map (Camera3.dev floatR)) static output output') (hcm : c ∈ cams)
    (hc : c.Within B) (ht : c.Turns) (hr : FloatRange c.range)
    (hsensor : DeepInGrid (floatTol e n B) e (axisCells g.dims) c.sensor) (hx : some x ∈ c.points)
    (h1 : DeepInGrid (floatTol e n B) e (axisCells g.dims) (c.place x))
    (h2 : WellWithin (floatTol e n B) c.range c.sensor (c.place x))
    (hq : Answers norm interp toGrid toWorld rotate gp output' e n F loc e' p)
    (hY : InFrame F.pose.R F.pose.t (fun a => (c.place x a : ℝ)) Y) :
    e' - (Real.sqrt 3 + 3 + n / 2 ^ 18 + n ^ 2 / 2 ^ 37) * e - dist3 p p' - 2 * floatTol e n B ≤ dist3 p' Y := by
  refine hq.clear G.tol_nonneg ?_ hY
  rw [← devTol_float] at hsensor h1 h2 ⊢
  obtain ⟨s, -, -, P⟩ := G.precise hs
  exact C77_device_point_kept_partial (bits := 32) P hh hN hop hlen hd hdo hnan h hcm hc ht (hr.ok G.B_le) hsensor hx h1 h2

/-- C77, on a device nothing measured is overlooked, wherever the sensor is: up to `n / 9` cells from the origin of the grid, for grids of
up to 526 cells. -/
theorem C77_float_clearance (hs : FloatSqrt sqrt) (G : FloatGrid e v N B g) (hn : 8 * N ≤ n) (hn' : n ≤ 5592)
    (hsize : ∀ a, ∃ z, g.size a = .fin z ∧ |z - axisCells g.dims a * e| ≤ n * e / 2 ^ 26)
    (hh : Helper api (cams.map (Camera3.dev floatR)))
    (hN : g.dims.total * 2 * numTrackingGrids (cams.map (Camera3.dev floatR)) < 2 ^ 31) (hop : FilterOptions.make (.fin 1) 1 k = some op)
    (hlen : ∀ c ∈ cams, c.points.length ≤ 2 ^ 24) (hd : static.dims = g.dims) (hdo : output.dims = g.dims) (hnan : NoNaN static)
    (h : DeviceVoxelizeRuns api float32 sqrt g op (cams.map (Camera3.dev floatR)) static output output') (hcm : c ∈ cams)
    (hc : c.Within B) (ht : c.Turns) (hr : FloatRange c.range)
    (hreach : ∀ a, 9 * |c.sensor a| + 297 * B / 2 ^ 24 ≤ n * e) (hx : some x ∈ c.points)
    (h1 : DeepInGrid (floatWideTol e N n B) e (axisCells g.dims) (c.place x))
    (h2 : WellWithin (floatWideTol e N n B) c.range c.sensor (c.place x))
    (hq : Answers norm interp toGrid toWorld rotate gp output' e N F loc e' p)
    (hY : InFrame F.pose.R F.pose.t (fun a => (c.place x a : ℝ)) Y) :
    e' - (Real.sqrt 3 + 3 + N / 2 ^ 18 + N ^ 2 / 2 ^ 37) * e - dist3 p p' - 2 * floatReachTol e N n B ≤ dist3 p' Y := by
  refine hq.clear (G.reach_nonneg hn) ?_ hY
  rw [← devWideTol_float] at h1 h2
  rw [← devTol_float_wide]
  obtain ⟨s, P, hW, hB7, hrch⟩ := G.wide hs hn hn' hsize
  exact C77_device_point_kept (bits := 32) P hW hB7 hh hN hop hlen hd hdo hnan h hcm hc ht (hr.ok G.B_le) (fun a => hrch _ (hreach a)) hx h1 h2

/-- C77, on a device nothing is invented: as `C77_double_measured`; "before" is the static environment. -/
theorem C77_float_measured (hs : FloatSqrt sqrt) (G : FloatGrid e v n B g) (hh : Helper api (cams.map (Camera3.dev floatR)))
    (hN : g.dims.total * 2 * numTrackingGrids (cams.map (Camera3.dev floatR)) < 2 ^ 31) (hop : FilterOptions.make (.fin pct) t k = some op)
    (hlen : ∀ c ∈ cams, c.points.length ≤ 2 ^ 24) (hd : static.dims = g.dims) (hdo : output.dims = g.dims)
    (hc : ∀ c ∈ cams, c.Within B) (ht : ∀ c ∈ cams, c.Turns) (hr : ∀ c ∈ cams, ∀ r, c.range = .fin r → 0 ≤ r)
    (h : DeviceVoxelizeRuns api float32 sqrt g op (cams.map (Camera3.dev floatR)) static output output')
    (hq : Answers norm interp toGrid toWorld rotate gp output' e n F loc e' p) (hu : gp.unknownIsFilled = false) (hb : gp.addBorder = false)
    (ho : OpenAround output' e n (toGrid loc)) :
    ∃ y : Fin 3 → ℚ, ((∃ c ∈ cams, ∃ x, some x ∈ c.points ∧ y = c.place x ∧ NotBeyond (floatTol e n B) c.range c.sensor y) ∨
        ∃ i, CellInGrid (axisCells g.dims) i ∧ AboveHalf (static.data (dataIndex g.dims i)) ∧ y = cellCentre e i) ∧
      ∀ Y, InFrame F.pose.R F.pose.t (fun a => (y a : ℝ)) Y → dist3 p' Y ≤
        e' + (1 / 2 + Real.sqrt 3 + n / 2 ^ 18 + n ^ 2 / 2 ^ 37) * e + dist3 p p' + 2 * floatTol e n B := by
  have hs0 : 0 < e := lt_of_lt_of_le (by norm_num) G.e_ge
  obtain ⟨i, hi, habove, hdist⟩ := hq.found hu hb ho
  rw [(device_dims h).trans hdo] at hi habove
  have hlt := dataIndex_lt hi
  have key : ∀ y, NearBox (floatTol e n B) e i y → ∀ Y, InFrame F.pose.R F.pose.t (fun a => (y a : ℝ)) Y → dist3 p' Y ≤
        e' + (1 / 2 + Real.sqrt 3 + n / 2 ^ 18 + n ^ 2 / 2 ^ 37) * e + dist3 p p' + 2 * floatTol e n B := by
    intro y hy Y hY
    have := near_cell_dist (p' := p') hq.field.pose hq.place G.tol_nonneg hs0 hy hdist hY
    linarith
  cases hocc : (static.data (dataIndex g.dims i)).le (.fin (1 / 2)) with
  | false =>
    rw [C57_device_keeps_filled hh hN hd h hlt hocc] at habove
    refine ⟨cellCentre e i, .inr ⟨i, hi, habove, rfl⟩, key _ fun a => ?_⟩
    have := G.tol_nonneg
    unfold cellCentre
    constructor <;> linarith
  | true =>
    have hone : output'.data (dataIndex g.dims i) = .fin 1 := by
      have hdec := C57_device_decision hh hN hop (devs_length hlen) hd h hi hocc
      unfold decision at hdec
      split_ifs at hdec with h3 h4
      · exact hdec
      · rw [hdec] at habove
        rcases habove with h3 | ⟨q, h3, h4⟩ <;> cases h3
        norm_num at h4
      · rw [hdec] at habove
        rcases habove with h3 | ⟨q, h3, h4⟩ <;> cases h3
        norm_num at h4
    obtain ⟨s, -, -, P⟩ := G.precise hs
    obtain ⟨c, hcm, hcnt⟩ := C76_filled_is_real (bits := 32) P hh hN hop hlen hc ht hr hd h hi hocc hone
    have ht : 1 ≤ t := (make_ok hop).2.1
    obtain ⟨x, hx, hnear, hbey⟩ := howMany_pos ht hcnt
    rw [devTol_float] at hnear hbey
    exact ⟨c.place x, .inl ⟨c, hcm, x, hx, rfl, hbey⟩, key _ hnear⟩

end
end

end VGT
