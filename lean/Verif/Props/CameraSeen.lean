import Verif.Props.CameraWide
import Verif.Props.CameraFloat

/-!
C74, C76: free cells were looked through, for sensors inside and outside the grid, unless the ray ends before the grid.
-/
set_option autoImplicit false

namespace VGT
open VGT.EDT VGT.Spec VGT.Par

/-! ### The CPU -/

section
variable {R : ℚ → Fl} {sqrt : Fl → Fl} {u η M s n N E B : ℚ} {g : RayGrid Fl} {bits : ℕ} {K : Type} {pct : ℚ} {t k : ℤ} {op : FilterOptions}
  {cams : List Camera3} {output output' : VoxMap K} {i : IVec}

open Classical in
/-- C74, free cells were looked through or lie beyond something measured before the grid, wherever the sensors are: a cell that was not filled
becomes 0 only if at least the required number of cameras measured a point such that the true segment from the sensor to the point passes
the cell not beyond the range, up to the tolerance, or ends (at the point or at the range) before the grid.  Sensors may be up to `n / 8`
cells from the origin of the grid. -/
theorem C74_free_is_seen_or_short (P : CamPrecise R sqrt u η M s n N E B g) (W : Wide u η M s n N E g)
    (hop : FilterOptions.make (.fin pct) t k = some op) (hlen : ∀ c ∈ cams, c.points.length < 2 ^ 31)
    (hc : ∀ c ∈ cams, c.Within B) (hr : ∀ c ∈ cams, RangeOk η B c.range)
    (hreach : ∀ c ∈ cams, ∀ a, 8 * |c.sensor a| + 264 * (u * B) ≤ n * s)
    (hd : output.dims = g.dims) (h : FlVoxelizeRuns (ieee R bits) sqrt g op (cams.map Camera3.cloud) output output')
    (hi : CellInGrid (axisCells g.dims) i) (hocc : (output.data (dataIndex g.dims i)).le (.fin (1 / 2)) = true)
    (hzero : output'.data (dataIndex g.dims i) = .fin 0) :
    k ≤ cams.countP fun c => decide (∃ x, some x ∈ c.points ∧ (SeenNear (camTol u E B) s c.range c.sensor (c.place x) i ∨
      ¬ Reaches (wideTol u E B) s (axisCells g.dims) c.range c.sensor (c.place x))) := by
  rw [C74_decision hop (clouds_length hlen) hd h hi hocc, decision_eq_zero] at hzero
  obtain ⟨-, hcnt⟩ := hzero
  rw [List.map_map, List.countP_map] at hcnt
  refine hcnt.trans ?_
  norm_cast
  refine List.countP_mono_left fun c hcm hp => ?_
  rw [Function.comp_apply, Function.comp_apply, decide_eq_true_iff] at hp
  rw [decide_eq_true_iff]
  have hpos : 0 < cpuCount (ieee R bits) sqrt g c.cloud (.free i) := by
    have h1 := hp.1
    dsimp only at h1
    exact_mod_cast h1
  obtain ⟨x, hx, hput⟩ := cpuCount_pos.1 hpos
  obtain ⟨o, p, len, F, e⟩ := cpuRay P bits (hc c hcm) hx
  obtain ⟨ms, h1, h2⟩ := hput
  rw [e] at h1
  refine ⟨x, hx, ?_⟩
  by_cases hre : Reaches (wideTol u E B) s (axisCells g.dims) c.range c.sensor (c.place x)
  · exact .inl (ray_seen_near_wide P W F (hr c hcm) (hreach c hcm) hre h1 h2)
  · exact .inr hre

open Classical in
/-- C74, free cells were looked through, wherever the sensors are.
Missing for a full statement: rays that end before the grid, for which it does not hold (`C74_free_behind_the_obstacle`). -/
theorem C74_free_is_seen_outside_partial (P : CamPrecise R sqrt u η M s n N E B g) (W : Wide u η M s n N E g)
    (hop : FilterOptions.make (.fin pct) t k = some op) (hlen : ∀ c ∈ cams, c.points.length < 2 ^ 31)
    (hc : ∀ c ∈ cams, c.Within B) (hr : ∀ c ∈ cams, RangeOk η B c.range)
    (hreach : ∀ c ∈ cams, ∀ a, 8 * |c.sensor a| + 264 * (u * B) ≤ n * s)
    (hrays : ∀ c ∈ cams, ∀ x, some x ∈ c.points → Reaches (wideTol u E B) s (axisCells g.dims) c.range c.sensor (c.place x))
    (hd : output.dims = g.dims) (h : FlVoxelizeRuns (ieee R bits) sqrt g op (cams.map Camera3.cloud) output output')
    (hi : CellInGrid (axisCells g.dims) i) (hocc : (output.data (dataIndex g.dims i)).le (.fin (1 / 2)) = true)
    (hzero : output'.data (dataIndex g.dims i) = .fin 0) :
    k ≤ cams.countP fun c => decide (∃ x, some x ∈ c.points ∧ SeenNear (camTol u E B) s c.range c.sensor (c.place x) i) := by
  refine (C74_free_is_seen_or_short P W hop hlen hc hr hreach hd h hi hocc hzero).trans (Nat.cast_le.2 ?_)
  refine List.countP_mono_left fun c hcm hp => ?_
  rw [decide_eq_true_iff] at hp ⊢
  obtain ⟨x, hx, h1⟩ := hp
  exact ⟨x, hx, h1.resolve_right fun h2 => h2 (hrays c hcm x hx)⟩

open Classical in
/-- C74, what is looked through becomes free, also from sensors outside the grid: a cell that was not filled becomes 0 if, for at least the
required number of cameras, the true segment from the sensor to some measured point passes the cell deeper than the tolerance and
nearer than the range by more than the tolerance and is steep, and no camera measured a point within the tolerance of the cell.  Steep means: along
every axis the sensor lies between the sides of the grid or the segment rises by at least `4e11 u n s + 2e10 u` per length.
Missing for a full statement: flatter segments, for which it does not hold (`C73_grazing_ray_lost`). -/
theorem C74_seen_is_free_outside_partial (P : CamPrecise R sqrt u η M s n N E B g) (W : Wide u η M s n N E g) (hu11 : 10 ^ 11 * u ≤ 1)
    (hB11 : 14 * 10 ^ 11 * (u * B) ≤ 4) (hop : FilterOptions.make (.fin pct) t k = some op) (hlen : ∀ c ∈ cams, c.points.length < 2 ^ 31)
    (hc : ∀ c ∈ cams, c.Within B)
    (hd : output.dims = g.dims) (h : FlVoxelizeRuns (ieee R bits) sqrt g op (cams.map Camera3.cloud) output output')
    (hi : CellInGrid (axisCells g.dims) i) (hocc : (output.data (dataIndex g.dims i)).le (.fin (1 / 2)) = true)
    (hno : ∀ c ∈ cams, ∀ x, some x ∈ c.points →
      ¬ (NearBox (camTol u E B) s i (c.place x) ∧ NotBeyond (camTol u E B) c.range c.sensor (c.place x)))
    (hsee : k ≤ cams.countP fun c => decide (RangeOk η B c.range ∧ (∀ a, 8 * |c.sensor a| + 264 * (u * B) ≤ n * s) ∧
      ∃ x, some x ∈ c.points ∧ SeenDeep (wideTol u E B) s c.range c.sensor (c.place x) i ∧
        Steep (wideTol u E B) (steepSlope u s n) s (axisCells g.dims) c.sensor (c.place x))) :
    output'.data (dataIndex g.dims i) = .fin 0 := by
  refine cpu_free_of_rays P hop hlen hc hd h hi hocc hno (Q := fun c x => RangeOk η B c.range ∧
    (∀ a, 8 * |c.sensor a| + 264 * (u * B) ≤ n * s) ∧ SeenDeep (wideTol u E B) s c.range c.sensor (c.place x) i ∧
        Steep (wideTol u E B) (steepSlope u s n) s (axisCells g.dims) c.sensor (c.place x))
    (fun c _ x _ hq o p len ms F hms => ray_seen_deep_wide P W F hq.1 hq.2.1 hu11 hB11 hq.2.2.2 hms hi hq.2.2.1) (hsee.trans (Nat.cast_le.2 ?_))
  refine List.countP_mono_left fun c _ hp => ?_
  rw [decide_eq_true_iff] at hp ⊢
  obtain ⟨h1, h2, x, hx, h3⟩ := hp
  exact ⟨x, hx, h1, h2, h3⟩

end

section
variable {sqrt : Fl → Fl} {s n N B : ℚ} {g : RayGrid Fl} {K : Type} {pct : ℚ} {t k : ℤ} {op : FilterOptions} {cams : List Camera3}
  {output output' : VoxMap K} {i : IVec}

open Classical in
/-- C74: on the CPU, free cells were looked through or lie beyond something measured before the grid, wherever the sensors are. -/
theorem C74_double_free_is_seen_or_short (hs : IeeeSqrt sqrt) (G : DoubleGrid s N B g) (hn : 8 * N ≤ n) (hn' : n ≤ 2 ^ 40)
    (hsize : ∀ a, ∃ z, g.size a = .fin z ∧ |z - axisCells g.dims a * s| ≤ n * s / 2 ^ 53)
    (hop : FilterOptions.make (.fin pct) t k = some op) (hlen : ∀ c ∈ cams, c.points.length < 2 ^ 31)
    (hc : ∀ c ∈ cams, c.Within B) (hr : ∀ c ∈ cams, DoubleRange c.range)
    (hreach : ∀ c ∈ cams, ∀ a, 8 * |c.sensor a| + 264 * B / 2 ^ 53 ≤ n * s)
    (hd : output.dims = g.dims) (h : FlVoxelizeRuns double64 sqrt g op (cams.map Camera3.cloud) output output')
    (hi : CellInGrid (axisCells g.dims) i) (hocc : (output.data (dataIndex g.dims i)).le (.fin (1 / 2)) = true)
    (hzero : output'.data (dataIndex g.dims i) = .fin 0) :
    k ≤ cams.countP fun c => decide (∃ x, some x ∈ c.points ∧ (SeenNear (doubleReachTol s N n B) s c.range c.sensor (c.place x) i ∨
      ¬ Reaches (doubleWideTol s N n B) s (axisCells g.dims) c.range c.sensor (c.place x))) := by
  rw [← camTol_double_wide, ← wideTol_double]
  exact C74_free_is_seen_or_short (G.preciseWide hs hn hn') (G.toWide hn hn' hsize) hop hlen hc (fun c hcm => (hr c hcm).ok G.B_le)
    (fun c hcm a => by have := hreach c hcm a; linarith) hd h hi hocc hzero

open Classical in
/-- C74: on the CPU, free cells were looked through, wherever the sensors are.
Missing for a full statement: rays that end before the grid, for which it does not hold (`C74_free_behind_the_obstacle`). -/
theorem C74_double_free_is_seen_outside_partial (hs : IeeeSqrt sqrt) (G : DoubleGrid s N B g) (hn : 8 * N ≤ n) (hn' : n ≤ 2 ^ 40)
    (hsize : ∀ a, ∃ z, g.size a = .fin z ∧ |z - axisCells g.dims a * s| ≤ n * s / 2 ^ 53)
    (hop : FilterOptions.make (.fin pct) t k = some op) (hlen : ∀ c ∈ cams, c.points.length < 2 ^ 31)
    (hc : ∀ c ∈ cams, c.Within B) (hr : ∀ c ∈ cams, DoubleRange c.range)
    (hreach : ∀ c ∈ cams, ∀ a, 8 * |c.sensor a| + 264 * B / 2 ^ 53 ≤ n * s)
    (hrays : ∀ c ∈ cams, ∀ x, some x ∈ c.points → Reaches (doubleWideTol s N n B) s (axisCells g.dims) c.range c.sensor (c.place x))
    (hd : output.dims = g.dims) (h : FlVoxelizeRuns double64 sqrt g op (cams.map Camera3.cloud) output output')
    (hi : CellInGrid (axisCells g.dims) i) (hocc : (output.data (dataIndex g.dims i)).le (.fin (1 / 2)) = true)
    (hzero : output'.data (dataIndex g.dims i) = .fin 0) :
    k ≤ cams.countP fun c => decide (∃ x, some x ∈ c.points ∧ SeenNear (doubleReachTol s N n B) s c.range c.sensor (c.place x) i) := by
  rw [← camTol_double_wide]
  rw [← wideTol_double] at hrays
  exact C74_free_is_seen_outside_partial (G.preciseWide hs hn hn') (G.toWide hn hn' hsize) hop hlen hc (fun c hcm => (hr c hcm).ok G.B_le)
    (fun c hcm a => by have := hreach c hcm a; linarith) hrays hd h hi hocc hzero

/-- The slope in `double` from which on rays from outside the grid are not lost. -/
def doubleSlope (s n : ℚ) : ℚ := (4 * 10 ^ 11 * (n * s) + 2 * 10 ^ 10) / 2 ^ 53

theorem steepSlope_double (s n : ℚ) : steepSlope (1 / 2 ^ 53) s n = doubleSlope s n := by unfold steepSlope doubleSlope; ring

open Classical in
/-- C74: on the CPU, what is looked through becomes free, also from sensors outside the grid, if along every axis the sensor lies between the
sides of the grid or the segment rises by at least `(4e11 n s + 2e10) / 2^53` per length (`n s` here at least eight times the size of the
grid: 0.4 percent for a grid of 10 m).
Missing for a full statement: flatter segments, for which it does not hold (`C73_grazing_ray_lost`). -/
theorem C74_double_seen_is_free_outside_partial (hs : IeeeSqrt sqrt) (G : DoubleGrid s N B g) (hn : 8 * N ≤ n) (hn' : n ≤ 2 ^ 40)
    (hsize : ∀ a, ∃ z, g.size a = .fin z ∧ |z - axisCells g.dims a * s| ≤ n * s / 2 ^ 53) (hB : B ≤ 25000)
    (hop : FilterOptions.make (.fin pct) t k = some op) (hlen : ∀ c ∈ cams, c.points.length < 2 ^ 31) (hc : ∀ c ∈ cams, c.Within B)
    (hd : output.dims = g.dims) (h : FlVoxelizeRuns double64 sqrt g op (cams.map Camera3.cloud) output output')
    (hi : CellInGrid (axisCells g.dims) i) (hocc : (output.data (dataIndex g.dims i)).le (.fin (1 / 2)) = true)
    (hno : ∀ c ∈ cams, ∀ x, some x ∈ c.points →
      ¬ (NearBox (doubleReachTol s N n B) s i (c.place x) ∧ NotBeyond (doubleReachTol s N n B) c.range c.sensor (c.place x)))
    (hsee : k ≤ cams.countP fun c => decide (DoubleRange c.range ∧ (∀ a, 8 * |c.sensor a| + 264 * B / 2 ^ 53 ≤ n * s) ∧
      ∃ x, some x ∈ c.points ∧ SeenDeep (doubleWideTol s N n B) s c.range c.sensor (c.place x) i ∧
        Steep (doubleWideTol s N n B) (doubleSlope s n) s (axisCells g.dims) c.sensor (c.place x))) :
    output'.data (dataIndex g.dims i) = .fin 0 := by
  rw [← camTol_double_wide] at hno
  rw [← wideTol_double, ← steepSlope_double] at hsee
  refine C74_seen_is_free_outside_partial (G.preciseWide hs hn hn') (G.toWide hn hn' hsize) (by norm_num) (by linarith) hop hlen hc hd h hi hocc hno
    (hsee.trans (Nat.cast_le.2 ?_))
  refine List.countP_mono_left fun c _ hp => ?_
  rw [decide_eq_true_iff] at hp ⊢
  exact ⟨hp.1.ok G.B_le, fun a => by have := hp.2.1 a; linarith, hp.2.2⟩

end

/-! ### Devices -/

section
variable {R : ℚ → Fl} {sqrt : Fl → Fl} {u η M e s n N E E' B : ℚ} {g : RayGrid Fl} {bits : ℕ} {c : Camera3} {x o p : Fin 3 → ℚ} {len : ℚ}

theorem notShort_edge {tol tol' e s d n : ℚ} {N : Fin 3 → ℕ} {o q : Fin 3 → ℚ} (hd : |s - e| ≤ d) (hn : ∀ a, (N a : ℚ) ≤ n)
    (ht : tol' + n * d ≤ tol) (h : NotShort tol e N o q) : NotShort tol' s N o q := by
  have hd0 := (abs_nonneg _).trans hd
  have hse := abs_le.1 hd
  intro a
  have hN : (0 : ℚ) ≤ N a := Nat.cast_nonneg _
  have hnd : 0 ≤ n * d := mul_nonneg (hN.trans (hn a)) hd0
  have k1 := mul_le_mul_of_nonneg_left hse.1 hN
  have k2 := mul_le_mul_of_nonneg_right (hn a) hd0
  obtain ⟨h1, h2⟩ := h a
  constructor
  · rcases h1 with h1 | h1 | h1
    · exact .inl (by linarith)
    · exact .inr (.inl (by linarith))
    · exact .inr (.inr (by linarith))
  · rcases h2 with h2 | h2 | h2
    · exact .inl (by linarith)
    · exact .inr (.inl (by linarith))
    · exact .inr (.inr (by linarith))

theorem dev_seen_near_wide (P : DevPrecise R sqrt u η M e s n N E E' B g) (W : Wide u η M s n N E g) (hB7 : 1 ≤ 10 ^ 7 * B) (hc : c.Within B) (ht : c.Turns)
    (hr : DevRange η B c.range) (hx : some x ∈ c.points) (F : RayFacts R sqrt u B bits (Camera3.conv R c) x o p len)
    (hreach : ∀ a, 8 * |c.sensor a| + 264 * (u * B) ≤ n * s)
    (hre : Reaches (devWideTol u E' B) e (axisCells g.dims) c.range c.sensor (c.place x)) {ms : List Mark} {m : Mark}
    (hi : CellInGrid (axisCells g.dims) m.cell) (h : castRay R bits g (Camera3.conv R c) o p len = some ms) (hm : m ∈ ms) :
    SeenNear (devTol u E' B) e c.range c.sensor (c.place x) m.cell := by
  obtain ⟨d, d1, d2, d3, d4⟩ := edge_cost P
  obtain ⟨hu, hs, hB, huB, -, -⟩ := P.cam.pos
  have hn := P.cam.ray.n_ge
  have hnd : 0 ≤ N * d := mul_nonneg (by linarith [P.cam.ray.N_ge]) ((abs_nonneg _).trans d1)
  have k7 : 9000 * (u * B) ≤ B := by
    have := mul_le_mul_of_nonneg_right P.cam.cam.u_le hB.le
    linarith
  have hw : wideTol u E B = camTol u E B + 600 * (u * B) + (1 + B) / 10 ^ 8 := rfl
  have hw0 : 0 ≤ (1 + B) / 10 ^ 8 := by positivity
  have hw1 : (1 + B) / 10 ^ 8 ≤ 11 / 100 * B := by
    rw [div_le_iff₀ (by norm_num)]
    linarith
  have hdw : devWideTol u E' B = devTol u E' B + 600 * (u * B) + (1 + B) / 10 ^ 8 := rfl
  have hr0 : ∀ r, c.range = .fin r → 0 ≤ r := fun r h => (hr.2 r h).1.le
  obtain ⟨σ, s0, s1, s2, s3⟩ := hre
  have hre' : Reaches (wideTol u E B) s (axisCells g.dims) (Camera3.conv R c).range (Camera3.conv R c).sensor ((Camera3.conv R c).place x) :=
    ⟨σ, s0, s1, wellWithin_convert P.cam.cam P.cam.rounds (by linarith) (by linarith) (onSeg_within (place_near hc ht (hc.points x hx)) s0 s1)
      (wellWithin_mono (by linarith) s2), notShort_edge (n := N) d1 (fun a => by linarith [P.cam.grid.dims a]) (by linarith) s3⟩
  obtain ⟨τ, t0, t1, h1, h2⟩ := ray_seen_near_wide P.cam W F (hr.ok P.cam.cam P.cam.rounds) hreach hre' h hm
  refine ⟨τ, t0, t1, nearBox_mono (by linarith) (nearBox_edge d1 (edge_cells P hi) h1), ?_⟩
  exact notBeyond_mono (by linarith) (by linarith) hr0
    (notBeyond_convert P.cam.cam P.cam.rounds P.cam.sign hr0 d2 (onSeg_within (place_near hc ht (hc.points x hx)) t0 t1) h2)

variable {api : DeviceApi} {cams : List Camera3} {K : Type} {pct : ℚ} {t k : ℤ} {op : FilterOptions} {static output output' : VoxMap K} {i : IVec}

open Classical in
/-- C76, free cells were looked through or lie beyond something measured before the grid, on a device and wherever the sensors are. -/
theorem C76_free_is_seen_or_short (P : DevPrecise R sqrt u η M e s n N E E' B g) (W : Wide u η M s n N E g) (hB7 : 1 ≤ 10 ^ 7 * B)
    (hh : Helper api (cams.map (Camera3.dev R)))
    (hN : g.dims.total * 2 * numTrackingGrids (cams.map (Camera3.dev R)) < 2 ^ 31)
    (hop : FilterOptions.make (.fin pct) t k = some op) (hlen : ∀ c ∈ cams, c.points.length ≤ 2 ^ 24)
    (hc : ∀ c ∈ cams, c.Within B) (ht : ∀ c ∈ cams, c.Turns) (hr : ∀ c ∈ cams, DevRange η B c.range)
    (hreach : ∀ c ∈ cams, ∀ a, 8 * |c.sensor a| + 264 * (u * B) ≤ n * s)
    (hd : static.dims = g.dims) (h : DeviceVoxelizeRuns api (ieee R bits) sqrt g op (cams.map (Camera3.dev R)) static output output')
    (hi : CellInGrid (axisCells g.dims) i)
    (hocc : (static.data (dataIndex g.dims i)).le (.fin (1 / 2)) = true) (hzero : output'.data (dataIndex g.dims i) = .fin 0) :
    k ≤ cams.countP fun c => decide (∃ x, some x ∈ c.points ∧ (SeenNear (devTol u E' B) e c.range c.sensor (c.place x) i ∨
      ¬ Reaches (devWideTol u E' B) e (axisCells g.dims) c.range c.sensor (c.place x))) := by
  rw [C57_device_decision hh hN hop (devs_length hlen) hd h hi hocc, decision_eq_zero] at hzero
  obtain ⟨-, hcnt⟩ := hzero
  unfold devCounts at hcnt
  rw [List.map_map, List.countP_map] at hcnt
  refine hcnt.trans ?_
  norm_cast
  refine List.countP_mono_left fun c hcm hp => ?_
  rw [Function.comp_apply, Function.comp_apply, decide_eq_true_iff] at hp
  rw [decide_eq_true_iff]
  have hpos : 0 < devHits (ieee R bits) sqrt g (c.dev R) (.free i) := by
    have h1 := hp.1
    dsimp only at h1
    exact_mod_cast h1
  obtain ⟨x, hx, hput⟩ := devHits_pos.1 hpos
  obtain ⟨o, p, len, F, e'⟩ := devRay P.cam bits (hc c hcm) (ht c hcm) hx
  obtain ⟨ms, h1, h2⟩ := hput
  rw [e'] at h1
  refine ⟨x, hx, ?_⟩
  by_cases hre : Reaches (devWideTol u E' B) e (axisCells g.dims) c.range c.sensor (c.place x)
  · exact .inl (dev_seen_near_wide P W hB7 (hc c hcm) (ht c hcm) (hr c hcm) hx F (hreach c hcm) hre (m := .free i) hi h1 h2)
  · exact .inr hre

end

section
variable {sqrt : Fl → Fl} {e v n N B : ℚ} {g : RayGrid Fl} {api : DeviceApi} {cams : List Camera3} {K : Type} {pct : ℚ} {t k : ℤ}
  {op : FilterOptions} {static output output' : VoxMap K} {i : IVec}

open Classical in
/-- C76: on a device, free cells were looked through or lie beyond something measured before the grid, wherever the sensors are. -/
theorem C76_float_free_is_seen_or_short (hs : FloatSqrt sqrt) (G : FloatGrid e v N B g) (hn : 8 * N ≤ n) (hn' : n ≤ 5592)
    (hsize : ∀ a, ∃ z, g.size a = .fin z ∧ |z - axisCells g.dims a * e| ≤ n * e / 2 ^ 26)
    (hh : Helper api (cams.map (Camera3.dev floatR))) (hN : g.dims.total * 2 * numTrackingGrids (cams.map (Camera3.dev floatR)) < 2 ^ 31)
    (hop : FilterOptions.make (.fin pct) t k = some op) (hlen : ∀ c ∈ cams, c.points.length ≤ 2 ^ 24)
    (hc : ∀ c ∈ cams, c.Within B) (ht : ∀ c ∈ cams, c.Turns) (hr : ∀ c ∈ cams, FloatRange c.range)
    (hreach : ∀ c ∈ cams, ∀ a, 9 * |c.sensor a| + 297 * B / 2 ^ 24 ≤ n * e)
    (hd : static.dims = g.dims) (h : DeviceVoxelizeRuns api float32 sqrt g op (cams.map (Camera3.dev floatR)) static output output')
    (hi : CellInGrid (axisCells g.dims) i)
    (hocc : (static.data (dataIndex g.dims i)).le (.fin (1 / 2)) = true) (hzero : output'.data (dataIndex g.dims i) = .fin 0) :
    k ≤ cams.countP fun c => decide (∃ x, some x ∈ c.points ∧ (SeenNear (floatReachTol e N n B) e c.range c.sensor (c.place x) i ∨
      ¬ Reaches (floatWideTol e N n B) e (axisCells g.dims) c.range c.sensor (c.place x))) := by
  rw [← devTol_float_wide, ← devWideTol_float]
  obtain ⟨s, P, hW, hB7, hrch⟩ := G.wide hs hn hn' hsize
  exact C76_free_is_seen_or_short (bits := 32) P hW hB7 hh hN hop hlen hc ht (fun c hcm => (hr c hcm).ok G.B_le)
    (fun c hcm a => hrch _ (hreach c hcm a)) hd h hi hocc hzero

open Classical in
/-- C76: on a device, free cells were looked through, wherever the sensors are.
Missing for a full statement: rays that end before the grid, for which it does not hold (`C76_free_behind_the_obstacle`). -/
theorem C76_float_free_is_seen_outside_partial (hs : FloatSqrt sqrt) (G : FloatGrid e v N B g) (hn : 8 * N ≤ n) (hn' : n ≤ 5592)
    (hsize : ∀ a, ∃ z, g.size a = .fin z ∧ |z - axisCells g.dims a * e| ≤ n * e / 2 ^ 26)
    (hh : Helper api (cams.map (Camera3.dev floatR))) (hN : g.dims.total * 2 * numTrackingGrids (cams.map (Camera3.dev floatR)) < 2 ^ 31)
    (hop : FilterOptions.make (.fin pct) t k = some op) (hlen : ∀ c ∈ cams, c.points.length ≤ 2 ^ 24)
    (hc : ∀ c ∈ cams, c.Within B) (ht : ∀ c ∈ cams, c.Turns) (hr : ∀ c ∈ cams, FloatRange c.range)
    (hreach : ∀ c ∈ cams, ∀ a, 9 * |c.sensor a| + 297 * B / 2 ^ 24 ≤ n * e)
    (hrays : ∀ c ∈ cams, ∀ x, some x ∈ c.points → Reaches (floatWideTol e N n B) e (axisCells g.dims) c.range c.sensor (c.place x))
    (hd : static.dims = g.dims) (h : DeviceVoxelizeRuns api float32 sqrt g op (cams.map (Camera3.dev floatR)) static output output')
    (hi : CellInGrid (axisCells g.dims) i)
    (hocc : (static.data (dataIndex g.dims i)).le (.fin (1 / 2)) = true) (hzero : output'.data (dataIndex g.dims i) = .fin 0) :
    k ≤ cams.countP fun c => decide (∃ x, some x ∈ c.points ∧ SeenNear (floatReachTol e N n B) e c.range c.sensor (c.place x) i) := by
  refine (C76_float_free_is_seen_or_short hs G hn hn' hsize hh hN hop hlen hc ht hr hreach hd h hi hocc hzero).trans (Nat.cast_le.2 ?_)
  refine List.countP_mono_left fun c hcm hp => ?_
  rw [decide_eq_true_iff] at hp ⊢
  obtain ⟨x, hx, h1⟩ := hp
  exact ⟨x, hx, h1.resolve_right fun h2 => h2 (hrays c hcm x hx)⟩

end

end VGT
