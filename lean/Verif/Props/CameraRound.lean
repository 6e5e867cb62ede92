import Verif.Props.CameraRay
import Verif.Props.VoxelizeFloat

/-!
C74: which cells become filled and free, in words of the true positions of sensors and points.
-/
set_option autoImplicit false

namespace VGT
open VGT.EDT VGT.Spec VGT.Par

section
variable {R : ℚ → Fl} {sqrt : Fl → Fl} {u η M s n N E B : ℚ} {g : RayGrid Fl} {bits : ℕ} {c : Camera3}

/-- The ray of a point on the CPU. -/
theorem cpuRay (P : CamPrecise R sqrt u η M s n N E B g) (bits : ℕ) (hc : c.Within B) {x : Fin 3 → ℚ} (hx : some x ∈ c.points) :
    ∃ o p len, RayFacts R sqrt u B bits c x o p len ∧
      cpuPoint (ieee R bits) sqrt g c.cloud (some fun a => .fin (x a)) = castRay R bits g c o p len := by
  obtain ⟨o, ho1, ho2⟩ := sensor_near P.cam P.rounds bits hc
  obtain ⟨p, hp1, hp2⟩ := transform_near P.cam P.rounds bits hc (hc.points x hx)
  obtain ⟨len, F⟩ := rayFacts P bits hc hx ho2 hp2
  refine ⟨o, p, len, F, ?_⟩
  unfold cpuPoint
  dsimp only
  rw [ho1, hp1, F.length]
  rfl

/-! ### Counting -/

open Classical in
theorem howMany_ge {c : Camera3} {m : Mark} {P : (Fin 3 → ℚ) → Prop}
    (h : ∀ x, some x ∈ c.points → CpuPuts (ieee R bits) sqrt g c.cloud m (some fun a => .fin (x a)) → P x) :
    cpuCount (ieee R bits) sqrt g c.cloud m ≤ c.howMany P := by
  unfold cpuCount Camera3.howMany Camera3.cloud
  rw [List.countP_map]
  refine List.countP_mono_left fun y hy hp => ?_
  rw [Function.comp_apply, decide_eq_true_iff] at hp
  rw [decide_eq_true_iff]
  cases y with
  | none =>
    obtain ⟨ms, h1, h2⟩ := hp
    cases h1
    cases h2
  | some x => exact ⟨x, rfl, h x hy hp⟩

open Classical in
theorem howMany_le {c : Camera3} {m : Mark} {P : (Fin 3 → ℚ) → Prop}
    (h : ∀ x, some x ∈ c.points → P x → CpuPuts (ieee R bits) sqrt g c.cloud m (some fun a => .fin (x a))) :
    c.howMany P ≤ cpuCount (ieee R bits) sqrt g c.cloud m := by
  unfold cpuCount Camera3.howMany Camera3.cloud
  rw [List.countP_map]
  refine List.countP_mono_left fun y hy hp => ?_
  rw [decide_eq_true_iff] at hp
  rw [Function.comp_apply, decide_eq_true_iff]
  obtain ⟨x, rfl, hx⟩ := hp
  exact h x hy hx

open Classical in
theorem cpuCount_pos {c : Camera3} {m : Mark} :
    0 < cpuCount (ieee R bits) sqrt g c.cloud m ↔
      ∃ x, some x ∈ c.points ∧ CpuPuts (ieee R bits) sqrt g c.cloud m (some fun a => .fin (x a)) := by
  unfold cpuCount Camera3.cloud
  rw [List.countP_map, List.countP_pos_iff]
  constructor
  · rintro ⟨y, hy, hp⟩
    rw [Function.comp_apply, decide_eq_true_iff] at hp
    cases y with
    | none =>
      obtain ⟨ms, h1, h2⟩ := hp
      cases h1
      cases h2
    | some x => exact ⟨x, hy, hp⟩
  · rintro ⟨x, hx, hp⟩
    refine ⟨_, hx, ?_⟩
    rw [Function.comp_apply, decide_eq_true_iff]
    exact hp

theorem cloud_length (c : Camera3) : c.cloud.points.length = c.points.length := List.length_map _

theorem clouds_length {cams : List Camera3} (hlen : ∀ c ∈ cams, c.points.length < 2 ^ 31) :
    ∀ c ∈ cams.map Camera3.cloud, c.points.length < 2 ^ 31 := by
  intro c hc
  obtain ⟨c', h1, rfl⟩ := List.mem_map.1 hc
  rw [cloud_length]
  exact hlen c' h1

/-! ### The properties -/

/-- C74, filled cells are where something is: whatever the rounding, a cell that was not filled becomes 1 only if some camera
measured at least `threshold` points whose true positions are in the cell and not beyond the range, up to the tolerance
`33 u n² s + 300 u B` (`u` the precision, `s` the edge of a cell, `n` the number of cells along an axis plus two, `B` a bound on
coordinates).  Sensors may be anywhere. -/
theorem C74_filled_is_real (P : CamPrecise R sqrt u η M s n N E B g) {K : Type} {pct : ℚ} {t k : ℤ} {op : FilterOptions}
    (hop : FilterOptions.make (.fin pct) t k = some op) {cams : List Camera3} (hlen : ∀ c ∈ cams, c.points.length < 2 ^ 31)
    (hc : ∀ c ∈ cams, c.Within B) {output output' : VoxMap K} (hd : output.dims = g.dims)
    (h : FlVoxelizeRuns (ieee R bits) sqrt g op (cams.map Camera3.cloud) output output') {i : IVec} (hi : CellInGrid (axisCells g.dims) i)
    (hocc : (output.data (dataIndex g.dims i)).le (.fin (1 / 2)) = true) (hone : output'.data (dataIndex g.dims i) = .fin 1) :
    ∃ c ∈ cams, t ≤ c.howMany fun x =>
      NearBox (camTol u E B) s i (c.place x) ∧ NotBeyond (camTol u E B) c.range c.sensor (c.place x) := by
  rw [C74_decision hop (clouds_length hlen) hd h hi hocc, decision_eq_one] at hone
  obtain ⟨y, hy, hs1, _⟩ := hone
  rw [List.map_map] at hy
  obtain ⟨c, hcm, rfl⟩ := List.mem_map.1 hy
  refine ⟨c, hcm, hs1.trans ?_⟩
  simp only [Function.comp_apply]
  exact_mod_cast howMany_ge fun x hx hp => by
    obtain ⟨o, p, len, F, e⟩ := cpuRay P bits (hc c hcm) hx
    obtain ⟨ms, h1, h2⟩ := hp
    rw [e] at h1
    exact ray_filled_near P F h1 h2

open Classical in
/-- C74, free cells were looked through: a cell that was not filled becomes 0 only if, for at least the required number of cameras, the
true segment from the sensor to some measured point passes the cell not beyond the range, up to the tolerance.
Missing for a full statement: sensors outside the grid. -/
theorem C74_free_is_seen_partial (P : CamPrecise R sqrt u η M s n N E B g) {K : Type} {pct : ℚ} {t k : ℤ} {op : FilterOptions}
    (hop : FilterOptions.make (.fin pct) t k = some op) {cams : List Camera3} (hlen : ∀ c ∈ cams, c.points.length < 2 ^ 31)
    (hc : ∀ c ∈ cams, c.Within B) (hr : ∀ c ∈ cams, RangeOk η B c.range)
    (hsensor : ∀ c ∈ cams, DeepInGrid (camTol u E B) s (axisCells g.dims) c.sensor) {output output' : VoxMap K}
    (hd : output.dims = g.dims) (h : FlVoxelizeRuns (ieee R bits) sqrt g op (cams.map Camera3.cloud) output output') {i : IVec}
    (hi : CellInGrid (axisCells g.dims) i) (hocc : (output.data (dataIndex g.dims i)).le (.fin (1 / 2)) = true)
    (hzero : output'.data (dataIndex g.dims i) = .fin 0) :
    k ≤ cams.countP fun c => decide (∃ x, some x ∈ c.points ∧ SeenNear (camTol u E B) s c.range c.sensor (c.place x) i) := by
  rw [C74_decision hop (clouds_length hlen) hd h hi hocc, decision_eq_zero] at hzero
  obtain ⟨-, hcnt⟩ := hzero
  rw [List.map_map, List.countP_map] at hcnt
  refine hcnt.trans ?_
  norm_cast
  refine List.countP_mono_left fun c hcm hp => ?_
  rw [Function.comp_apply, Function.comp_apply, decide_eq_true_iff] at hp
  rw [decide_eq_true_iff]
  have hpos : 0 < cpuCount (ieee R bits) sqrt g c.cloud (.free i) := by
    have h1 := hp.1
    dsimp only at h1
    exact_mod_cast h1
  obtain ⟨x, hx, hput⟩ := cpuCount_pos.1 hpos
  obtain ⟨o, p, len, F, e⟩ := cpuRay P bits (hc c hcm) hx
  obtain ⟨ms, h1, h2⟩ := hput
  rw [e] at h1
  exact ⟨x, hx, ray_seen_near P F (hr c hcm) (hsensor c hcm) h1 h2⟩

/-- The ray of a point of a defined run is defined. -/
theorem point_defined {K : Type} {op : FilterOptions} {cams : List Camera3} {output output' : VoxMap K}
    (h : FlVoxelizeRuns (ieee R bits) sqrt g op (cams.map Camera3.cloud) output output') {c : Camera3} (hc : c ∈ cams) {x : Fin 3 → ℚ}
    (hx : some x ∈ c.points) : (cpuPoint (ieee R bits) sqrt g c.cloud (some fun a => .fin (x a))).isSome :=
  ((flVoxelizeRuns_iff.1 h).1 c.cloud (List.mem_map_of_mem hc)).2 _ (List.mem_map.2 ⟨some x, hx, rfl⟩)

/-- C74, obstacles are kept: with percentage 1 (the default), a cell in which one camera in the grid measured at least
`threshold` points, truly deeper in the cell than the tolerance and nearer than the range by more than the tolerance, ends
up filled.
Missing for a full statement: sensors outside the grid. -/
theorem C74_obstacle_is_filled_partial (P : CamPrecise R sqrt u η M s n N E B g) {K : Type} {t k : ℤ} {op : FilterOptions}
    (hop : FilterOptions.make (.fin 1) t k = some op) {cams : List Camera3} (hlen : ∀ c ∈ cams, c.points.length < 2 ^ 31)
    {output output' : VoxMap K} (hd : output.dims = g.dims)
    (h : FlVoxelizeRuns (ieee R bits) sqrt g op (cams.map Camera3.cloud) output output') {i : IVec} (hi : CellInGrid (axisCells g.dims) i)
    (hocc : (output.data (dataIndex g.dims i)).le (.fin (1 / 2)) = true) {c : Camera3} (hcm : c ∈ cams) (hc : c.Within B)
    (hr : RangeOk η B c.range) (hsensor : DeepInGrid (camTol u E B) s (axisCells g.dims) c.sensor)
    (hpts : t ≤ c.howMany fun x =>
      DeepBox (camTol u E B) s i (c.place x) ∧ WellWithin (camTol u E B) c.range c.sensor (c.place x)) :
    output'.data (dataIndex g.dims i) = .fin 1 := by
  refine cpu_filled_of_count hop (clouds_length hlen) hd h hi hocc (List.mem_map_of_mem hcm) (hpts.trans ?_)
  norm_cast
  refine howMany_le fun x hx hxp => ?_
  obtain ⟨ms, hms⟩ := Option.isSome_iff_exists.1 (point_defined h hcm hx)
  refine ⟨ms, hms, ?_⟩
  obtain ⟨o, p, len, F, e⟩ := cpuRay P bits hc hx
  rw [e] at hms
  exact ray_filled_in P F hr hsensor hi hxp.1 hxp.2 hms

open Classical in
/-- Cells marked by rays of enough cameras, in which nothing was measured, become free. -/
theorem cpu_free_of_rays (P : CamPrecise R sqrt u η M s n N E B g) {K : Type} {pct : ℚ} {t k : ℤ} {op : FilterOptions}
    (hop : FilterOptions.make (.fin pct) t k = some op) {cams : List Camera3} (hlen : ∀ c ∈ cams, c.points.length < 2 ^ 31)
    (hc : ∀ c ∈ cams, c.Within B) {output output' : VoxMap K}
    (hd : output.dims = g.dims) (h : FlVoxelizeRuns (ieee R bits) sqrt g op (cams.map Camera3.cloud) output output') {i : IVec}
    (hi : CellInGrid (axisCells g.dims) i) (hocc : (output.data (dataIndex g.dims i)).le (.fin (1 / 2)) = true)
    (hno : ∀ c ∈ cams, ∀ x, some x ∈ c.points →
      ¬ (NearBox (camTol u E B) s i (c.place x) ∧ NotBeyond (camTol u E B) c.range c.sensor (c.place x)))
    {Q : Camera3 → (Fin 3 → ℚ) → Prop} (hQ : ∀ c ∈ cams, ∀ x, some x ∈ c.points → Q c x → ∀ o p len ms, RayFacts R sqrt u B bits c x o p len →
      castRay R bits g c o p len = some ms → Mark.free i ∈ ms ∨ Mark.filled i ∈ ms)
    (hsee : k ≤ cams.countP fun c => decide (∃ x, some x ∈ c.points ∧ Q c x)) :
    output'.data (dataIndex g.dims i) = .fin 0 := by
  have ht : 1 ≤ t := (make_ok hop).2.1
  have hfilled : ∀ c ∈ cams, cpuCount (ieee R bits) sqrt g c.cloud (.filled i) = 0 := by
    intro c hcm
    by_contra hne
    obtain ⟨x, hx, hput⟩ := cpuCount_pos.1 (Nat.pos_of_ne_zero hne)
    obtain ⟨o, p, len, F, e⟩ := cpuRay P bits (hc c hcm) hx
    obtain ⟨ms, h1, h2⟩ := hput
    rw [e] at h1
    exact hno c hcm x hx (ray_filled_near P F h1 h2)
  rw [C74_decision hop (clouds_length hlen) hd h hi hocc, decision_eq_zero]
  constructor
  · rintro ⟨y, hy, hs1, _⟩
    rw [List.map_map] at hy
    obtain ⟨c, hcm, rfl⟩ := List.mem_map.1 hy
    simp only [Function.comp_apply, hfilled c hcm] at hs1
    norm_num at hs1
    omega
  · rw [List.map_map, List.countP_map]
    refine hsee.trans ?_
    norm_cast
    refine List.countP_mono_left fun c hcm hp => ?_
    rw [decide_eq_true_iff] at hp
    obtain ⟨x, hx, hq⟩ := hp
    rw [Function.comp_apply, Function.comp_apply, decide_eq_true_iff]
    have hpos : 0 < cpuCount (ieee R bits) sqrt g c.cloud (.free i) := by
      obtain ⟨o, p, len, F, e⟩ := cpuRay P bits (hc c hcm) hx
      obtain ⟨ms, hms⟩ := Option.isSome_iff_exists.1 (point_defined h hcm hx)
      rcases hQ c hcm x hx hq o p len ms F (e ▸ hms) with h1 | h1
      · exact cpuCount_pos.2 ⟨x, hx, ms, hms, h1⟩
      · exact absurd (cpuCount_pos.2 ⟨x, hx, ms, hms, h1⟩) (by rw [hfilled c hcm]; exact lt_irrefl 0)
    refine ⟨by simp only; exact_mod_cast hpos, .inl ?_⟩
    simp only [hfilled c hcm]
    norm_num
    omega

open Classical in
/-- C74, what is looked through becomes free: a cell that was not filled becomes 0 if, for at least the required number of cameras in
the grid, the true segment from the sensor to some measured point passes the cell deeper than the tolerance and nearer than the
range by more than the tolerance, and no camera measured a point within the tolerance of the cell.
Missing for a full statement: sensors outside the grid, for which it does not hold (`C73_grazing_ray_lost`). -/
theorem C74_seen_is_free_partial (P : CamPrecise R sqrt u η M s n N E B g) {K : Type} {pct : ℚ} {t k : ℤ} {op : FilterOptions}
    (hop : FilterOptions.make (.fin pct) t k = some op) {cams : List Camera3} (hlen : ∀ c ∈ cams, c.points.length < 2 ^ 31)
    (hc : ∀ c ∈ cams, c.Within B) {output output' : VoxMap K}
    (hd : output.dims = g.dims) (h : FlVoxelizeRuns (ieee R bits) sqrt g op (cams.map Camera3.cloud) output output') {i : IVec}
    (hi : CellInGrid (axisCells g.dims) i) (hocc : (output.data (dataIndex g.dims i)).le (.fin (1 / 2)) = true)
    (hno : ∀ c ∈ cams, ∀ x, some x ∈ c.points →
      ¬ (NearBox (camTol u E B) s i (c.place x) ∧ NotBeyond (camTol u E B) c.range c.sensor (c.place x)))
    (hsee : k ≤ cams.countP fun c => decide (RangeOk η B c.range ∧ DeepInGrid (camTol u E B) s (axisCells g.dims) c.sensor ∧
      ∃ x, some x ∈ c.points ∧ SeenDeep (camTol u E B) s c.range c.sensor (c.place x) i)) :
    output'.data (dataIndex g.dims i) = .fin 0 := by
  refine cpu_free_of_rays P hop hlen hc hd h hi hocc hno (Q := fun c x => RangeOk η B c.range ∧
    DeepInGrid (camTol u E B) s (axisCells g.dims) c.sensor ∧ SeenDeep (camTol u E B) s c.range c.sensor (c.place x) i)
    (fun c _ x _ hq o p len ms F hms => ray_seen_deep P F hq.1 hq.2.1 hms hi hq.2.2) (hsee.trans (Nat.cast_le.2 ?_))
  refine List.countP_mono_left fun c _ hp => ?_
  rw [decide_eq_true_iff] at hp ⊢
  obtain ⟨h1, h2, x, hx, h3⟩ := hp
  exact ⟨x, hx, h1, h2, h3⟩

/-- C74, obstacles are kept, wherever the sensor is: with percentage 1 (the default), a cell in which one camera measured at least
`threshold` points, truly deeper in the cell than the tolerance and nearer than the range by more than the tolerance, ends
up filled.  The sensor may be up to `n / 8` cells from the origin of the grid. -/
theorem C74_obstacle_is_filled (P : CamPrecise R sqrt u η M s n N E B g) (W : Wide u η M s n N E g) {K : Type} {t k : ℤ} {op : FilterOptions}
    (hop : FilterOptions.make (.fin 1) t k = some op) {cams : List Camera3} (hlen : ∀ c ∈ cams, c.points.length < 2 ^ 31)
    {output output' : VoxMap K} (hd : output.dims = g.dims)
    (h : FlVoxelizeRuns (ieee R bits) sqrt g op (cams.map Camera3.cloud) output output') {i : IVec} (hi : CellInGrid (axisCells g.dims) i)
    (hocc : (output.data (dataIndex g.dims i)).le (.fin (1 / 2)) = true) {c : Camera3} (hcm : c ∈ cams) (hc : c.Within B)
    (hr : RangeOk η B c.range) (hreach : ∀ a, 8 * |c.sensor a| + 264 * (u * B) ≤ n * s)
    (hpts : t ≤ c.howMany fun x =>
      DeepBox (wideTol u E B) s i (c.place x) ∧ WellWithin (wideTol u E B) c.range c.sensor (c.place x)) :
    output'.data (dataIndex g.dims i) = .fin 1 := by
  refine cpu_filled_of_count hop (clouds_length hlen) hd h hi hocc (List.mem_map_of_mem hcm) (hpts.trans ?_)
  norm_cast
  refine howMany_le fun x hx hxp => ?_
  obtain ⟨ms, hms⟩ := Option.isSome_iff_exists.1 (point_defined h hcm hx)
  refine ⟨ms, hms, ?_⟩
  obtain ⟨o, p, len, F, e⟩ := cpuRay P bits hc hx
  rw [e] at hms
  exact ray_filled_wide P W F hr hreach hi hxp.1 hxp.2 hms

/-- C74, there is a result: if sensors are in the grid and coordinates are small enough for the integers, no conversion overflows and
every voxelization has a result. -/
theorem C74_has_result (P : CamPrecise R sqrt u η M s n N E B g) (hI : 64 * (B / s) + 8 ≤ 2 ^ (bits - 1)) (hM : 64 * (B / s) ≤ M) {K : Type}
    {pct : ℚ} {t k : ℤ} {op : FilterOptions} (hop : FilterOptions.make (.fin pct) t k = some op) {cams : List Camera3}
    (hlen : ∀ c ∈ cams, c.points.length < 2 ^ 31) (hc : ∀ c ∈ cams, c.Within B) (hr : ∀ c ∈ cams, RangeOk η B c.range)
    (hsensor : ∀ c ∈ cams, DeepInGrid (camTol u E B) s (axisCells g.dims) c.sensor) {output : VoxMap K} (hd : output.dims = g.dims) :
    ∃ output', FlVoxelizeRuns (ieee R bits) sqrt g op (cams.map Camera3.cloud) output output' := by
  refine (C74_defined hop (clouds_length hlen) hd).2 ?_
  intro cl hcl
  obtain ⟨c, hcm, rfl⟩ := List.mem_map.1 hcl
  constructor
  · obtain ⟨o, ho1, ho2⟩ := sensor_near P.cam P.rounds bits (hc c hcm)
    rw [ho1]
    obtain ⟨hu, hs, hB, huB, -⟩ := P.pos
    have huB1 : 9000 * (u * B) ≤ B := by have := mul_le_mul_of_nonneg_right P.cam.u_le hB.le; linarith
    obtain ⟨i, hi, -⟩ := index_defined (bits := bits) P hI hM (x := o) (fun a => by
      have d1 : |c.sensor a| ≤ B := (hc c hcm).shift a
      have d3 := abs_sub_abs_le_abs_sub (o a) (c.sensor a)
      have := ho2 a
      linarith)
    rw [hi]
    rfl
  · intro x hx
    obtain ⟨y, hy, rfl⟩ := List.mem_map.1 hx
    cases y with
    | none => rfl
    | some y =>
      obtain ⟨o, p, len, F, e⟩ := cpuRay P bits (hc c hcm) hy
      rw [Option.map_some, e]
      exact ray_defined P hI hM (hc c hcm) (hr c hcm) (hsensor c hcm) F

end

end VGT
