import Verif.Lemmas.VoxelizeFloat

/-!
C74: the CPU voxelizer from end to end, for any arithmetic.
-/
set_option autoImplicit false

namespace VGT
open VGT.EDT VGT.Spec VGT.Par

section
variable {F : Type} (A : Arith F) (sqrt : F → F) (g : RayGrid F)

/-- The ray of the point puts the mark. -/
def CpuPuts (c : CpuCloud F) (m : Mark) (x : Option (Fin 3 → F)) : Prop :=
  ∃ ms, cpuPoint A sqrt g c x = some ms ∧ m ∈ ms

open Classical in
/-- How many points of the cloud put the mark. -/
noncomputable def cpuCount (c : CpuCloud F) (m : Mark) : ℕ := c.points.countP fun x => decide (CpuPuts A sqrt g c m x)

/-- The computed position of the point is in cell `i`, and its computed distance is not above the range. -/
def MeasuredIn (c : CpuCloud F) (i : IVec) (x : Option (Fin 3 → F)) : Prop :=
  ∃ y, x = some y ∧ flIndex A g (cpuTransform A c.tf y) = some i ∧
    A.lt c.range (flLength A sqrt (cpuOrigin A c.tf) (cpuTransform A c.tf y)) = false

end

section
variable {F : Type} {A : Arith F} {sqrt : F → F} {g : RayGrid F}

theorem cpuMarks_count {c : CpuCloud F} {i : IVec} (hi : CellInGrid (axisCells g.dims) i) :
    (cpuMarks A sqrt g c).countP (isFreeAt g.dims (dataIndex g.dims i)) = cpuCount A sqrt g c (.free i) ∧
    (cpuMarks A sqrt g c).countP (isFilledAt g.dims (dataIndex g.dims i)) = cpuCount A sqrt g c (.filled i) ∧
    cpuCount A sqrt g c (.free i) + cpuCount A sqrt g c (.filled i) ≤ c.points.length := by
  classical
  unfold cpuMarks cpuCount
  generalize c.points = l
  induction l with
  | nil => simp
  | cons x l ih =>
    obtain ⟨ih1, ih2, ih3⟩ := ih
    rw [List.flatMap_cons, List.countP_append, List.countP_append, ih1, ih2, List.countP_cons, List.countP_cons]
    cases hp : cpuPoint A sqrt g c x with
    | none =>
      have n1 : ∀ m, ¬ CpuPuts A sqrt g c m x := by
        rintro m ⟨ms, h, _⟩
        rw [hp] at h
        cases h
      simp [n1]
      omega
    | some ms =>
      obtain ⟨hg, hnd⟩ := cpuPoint_marks hp
      obtain ⟨e1, e2⟩ := countP_nodup_cell hg hnd hi
      have n1 : ∀ m, CpuPuts A sqrt g c m x ↔ m ∈ ms := by
        intro m
        constructor
        · rintro ⟨ms', h, hm⟩
          rw [hp] at h
          cases h
          exact hm
        · exact fun h => ⟨ms, hp, h⟩
      have hex : ¬ (Mark.free i ∈ ms ∧ Mark.filled i ∈ ms) := by
        rintro ⟨h1, h2⟩
        have := List.inj_on_of_nodup_map hnd h1 h2 rfl
        cases this
      simp only [Option.getD_some, n1, decide_eq_true_eq, e1, e2, List.length_cons]
      refine ⟨by omega, by omega, ?_⟩
      by_cases h1 : Mark.free i ∈ ms
      · have h2 : Mark.filled i ∉ ms := fun h2 => hex ⟨h1, h2⟩
        rw [if_pos h1, if_neg h2]
        omega
      · rw [if_neg h1]
        split_ifs <;> omega

theorem cpuTrack_cell {c : CpuCloud F} (hlen : c.points.length < 2 ^ 31) {i : IVec} (hi : CellInGrid (axisCells g.dims) i) :
    trackOf g.dims (cpuMarks A sqrt g c) (dataIndex g.dims i) =
      ((cpuCount A sqrt g c (.free i) : ℤ), (cpuCount A sqrt g c (.filled i) : ℤ)) := by
  obtain ⟨e1, e2, e3⟩ := cpuMarks_count (A := A) (sqrt := sqrt) (c := c) hi
  unfold trackOf
  rw [e1, e2, wrap32_small (by positivity) (by omega), wrap32_small (by positivity) (by omega)]

theorem cpuHits_ok {clouds : List (CpuCloud F)} (hlen : ∀ c ∈ clouds, c.points.length < 2 ^ 31) {v : ℕ}
    (hv : v < g.dims.total) : ∀ c ∈ cpuHits A sqrt g clouds v, CountsOk c := by
  obtain ⟨i, hi, rfl⟩ := exists_cell hv
  intro x hx
  obtain ⟨c, hc, rfl⟩ := List.mem_map.1 hx
  rw [cpuTrack_cell (hlen c hc) hi]
  have := (cpuMarks_count (A := A) (sqrt := sqrt) (c := c) hi).2.2
  have := hlen c hc
  unfold CountsOk
  simp only
  omega

/-- C74, counters: whatever the arithmetic, the number of threads and the interleaving, after a cloud of fewer than 2^31
points the counters of a cell hold the numbers of points whose rays mark it free and filled. -/
theorem C74_counters_exact {c : CpuCloud F} {tr : Track} (h : CpuCloudRuns A sqrt g c tr) (hlen : c.points.length < 2 ^ 31)
    {i : IVec} (hi : CellInGrid (axisCells g.dims) i) :
    tr (dataIndex g.dims i) = ((cpuCount A sqrt g c (.free i) : ℤ), (cpuCount A sqrt g c (.filled i) : ℤ)) ∧
    cpuCount A sqrt g c (.free i) + cpuCount A sqrt g c (.filled i) ≤ c.points.length := by
  obtain ⟨_, rfl⟩ := cpuCloudRuns_imp h
  exact ⟨cpuTrack_cell hlen hi, (cpuMarks_count hi).2.2⟩

/-- C74, decision: the occupancy of every cell that was not filled is the documented decision on the numbers of rays of
each camera through and into that cell, as computed by the machine. -/
theorem C74_decision {K : Type} {pct : ℚ} {t n : ℤ} {o : FilterOptions} (ho : FilterOptions.make (.fin pct) t n = some o)
    {clouds : List (CpuCloud F)} (hlen : ∀ c ∈ clouds, c.points.length < 2 ^ 31) {output output' : VoxMap K}
    (hd : output.dims = g.dims) (h : FlVoxelizeRuns A sqrt g o clouds output output') {i : IVec}
    (hi : CellInGrid (axisCells g.dims) i) (hocc : (output.data (dataIndex g.dims i)).le (.fin (1 / 2)) = true) :
    output'.data (dataIndex g.dims i) =
      decision (SawFilled roundDouble pct t) (SawFree roundDouble pct t) n (clouds.map fun c =>
        ((cpuCount A sqrt g c (.free i) : ℤ), (cpuCount A sqrt g c (.filled i) : ℤ))) := by
  obtain ⟨_, _, rfl⟩ := flVoxelizeRuns_iff.1 h
  have hv := dataIndex_lt hi
  unfold filterData newVal
  simp only
  rw [hd, if_pos hv, C32_filter_decision ho (cpuHits_ok hlen hv) hocc]
  have e : cpuHits A sqrt g clouds (dataIndex g.dims i) = clouds.map fun c =>
        ((cpuCount A sqrt g c (.free i) : ℤ), (cpuCount A sqrt g c (.filled i) : ℤ)) := by
    unfold cpuHits
    exact List.map_congr_left fun c hc => cpuTrack_cell (hlen c hc) hi
  rw [e]
  rfl

/-- C74, filled cells of the map stay as they are, other cells become 0, 1/2 or 1; the sizes stay. -/
theorem C74_keeps_filled {K : Type} {o : FilterOptions} {clouds : List (CpuCloud F)} {output output' : VoxMap K}
    (h : FlVoxelizeRuns A sqrt g o clouds output output') :
    output'.initialized = output.initialized ∧ output'.dims = output.dims ∧ output'.cellSize = output.cellSize ∧
    ∀ v < output.dims.total,
      ((output.data v).le (.fin (1 / 2)) = false → output'.data v = output.data v) ∧
      ((output.data v).le (.fin (1 / 2)) = true →
        output'.data v = .fin 0 ∨ output'.data v = .fin (1 / 2) ∨ output'.data v = .fin 1) := by
  obtain ⟨_, hs, rfl⟩ := flVoxelizeRuns_iff.1 h
  refine ⟨rfl, rfl, rfl, fun v hv => ?_⟩
  unfold filterData newVal
  simp only [if_pos hv]
  constructor
  · intro hk
    rw [filterCell_keep hk]
    rfl
  · intro hk
    obtain ⟨x, hx, hv'⟩ := filterCell_values hk (hs v hv)
    rw [hx]
    exact hv'

/-- C74, one result: two runs never differ, whatever the threads and interleavings. -/
theorem C74_one_result {K : Type} {o : FilterOptions} {clouds : List (CpuCloud F)} {output out out' : VoxMap K}
    (h : FlVoxelizeRuns A sqrt g o clouds output out) (h' : FlVoxelizeRuns A sqrt g o clouds output out') : out = out' := by
  rw [(flVoxelizeRuns_iff.1 h).2.2, (flVoxelizeRuns_iff.1 h').2.2]

/-- C74, defined: a voxelization has a result exactly if the cell of every sensor and the ray of every point is
defined. -/
theorem C74_defined {K : Type} {pct : ℚ} {t n : ℤ} {o : FilterOptions} (ho : FilterOptions.make (.fin pct) t n = some o)
    {clouds : List (CpuCloud F)} (hlen : ∀ c ∈ clouds, c.points.length < 2 ^ 31) {output : VoxMap K}
    (hd : output.dims = g.dims) :
    (∃ output', FlVoxelizeRuns A sqrt g o clouds output output') ↔
      ∀ c ∈ clouds, (flIndex A g (cpuOrigin A c.tf)).isSome ∧ ∀ x ∈ c.points, (cpuPoint A sqrt g c x).isSome := by
  constructor
  · rintro ⟨_, h⟩
    exact (flVoxelizeRuns_iff.1 h).1
  · intro h
    refine ⟨_, flVoxelizeRuns_iff.2 ⟨h, ?_, rfl⟩⟩
    intro v hv
    rw [hd] at hv
    by_cases hocc : (output.data v).le (.fin (1 / 2)) = true
    · rw [C32_filter_decision ho (cpuHits_ok hlen hv) hocc]
      rfl
    · rw [filterCell_keep (by simpa using hocc)]
      rfl

/-- A filled mark is on the computed cell of a point within range. -/
theorem cpuPuts_filled {c : CpuCloud F} {i : IVec} {x : Option (Fin 3 → F)} (h : CpuPuts A sqrt g c (.filled i) x) :
    MeasuredIn A sqrt g c i x := by
  obtain ⟨ms, h1, h2⟩ := h
  cases x with
  | none => cases h1; cases h2
  | some y =>
    refine ⟨y, rfl, ?_⟩
    rcases C56_any_arithmetic A g h1 with rfl | ⟨_, _, f, _, hf, hm, _⟩
    · cases h2
    · obtain ⟨k1, rfl, _⟩ := (hm.filled i).1 h2
      refine ⟨?_, k1⟩
      unfold flFinalPoint flClipped at hf
      rw [if_neg (by simp [k1])] at hf
      exact hf

open Classical in
/-- C74, filled: for any arithmetic, a cell that was not filled becomes 1 only if some camera measured at least `threshold`
points, within its range, whose computed positions are in that cell. -/
theorem C74_filled_only_if_measured {K : Type} {pct : ℚ} {t n : ℤ} {o : FilterOptions}
    (ho : FilterOptions.make (.fin pct) t n = some o) {clouds : List (CpuCloud F)}
    (hlen : ∀ c ∈ clouds, c.points.length < 2 ^ 31) {output output' : VoxMap K} (hd : output.dims = g.dims)
    (h : FlVoxelizeRuns A sqrt g o clouds output output') {i : IVec} (hi : CellInGrid (axisCells g.dims) i)
    (hocc : (output.data (dataIndex g.dims i)).le (.fin (1 / 2)) = true)
    (hone : output'.data (dataIndex g.dims i) = .fin 1) :
    ∃ c ∈ clouds, t ≤ c.points.countP fun x => decide (MeasuredIn A sqrt g c i x) := by
  rw [C74_decision ho hlen hd h hi hocc, decision_eq_one] at hone
  obtain ⟨x, hx, hs1, _⟩ := hone
  obtain ⟨c, hc, rfl⟩ := List.mem_map.1 hx
  refine ⟨c, hc, hs1.trans ?_⟩
  simp only
  unfold cpuCount
  exact_mod_cast List.countP_mono_left fun y _ hy => by
    rw [decide_eq_true_iff] at hy ⊢
    exact cpuPuts_filled hy

/-- A camera of which at least `t` points mark the cell filled makes it filled if the percentage is 1. -/
theorem cpu_filled_of_count {K : Type} {t n : ℤ} {o : FilterOptions} (ho : FilterOptions.make (.fin 1) t n = some o)
    {clouds : List (CpuCloud F)} (hlen : ∀ c ∈ clouds, c.points.length < 2 ^ 31) {output output' : VoxMap K}
    (hd : output.dims = g.dims) (h : FlVoxelizeRuns A sqrt g o clouds output output') {i : IVec}
    (hi : CellInGrid (axisCells g.dims) i) (hocc : (output.data (dataIndex g.dims i)).le (.fin (1 / 2)) = true)
    {c : CpuCloud F} (hc : c ∈ clouds) (hcnt : t ≤ cpuCount A sqrt g c (.filled i)) :
    output'.data (dataIndex g.dims i) = .fin 1 := by
  rw [C74_decision ho hlen hd h hi hocc, decision_eq_one]
  refine ⟨_, List.mem_map.2 ⟨c, hc, rfl⟩, hcnt, ?_⟩
  have ht : 1 ≤ t := (make_ok ho).2.1
  have hsum := (cpuMarks_count (A := A) (sqrt := sqrt) (c := c) hi).2.2
  have hl := hlen c hc
  simp only
  by_cases hz : cpuCount A sqrt g c (.free i) = 0
  · left; exact_mod_cast hz
  right
  have key := share_exact (p := 53) (emin := -1074) (by norm_num) (by norm_num)
    (a := (cpuCount A sqrt g c (.free i) : ℤ))
    (n := (cpuCount A sqrt g c (.free i) : ℤ) + cpuCount A sqrt g c (.filled i))
    (m := 1) (j := 0) (by omega) (by norm_num) (by norm_num) (by omega)
  push_cast at key
  rw [← not_le]
  intro hle
  unfold roundDouble at hle
  have := key.1 (by simpa using hle)
  omega

open Classical in
/-- C74, obstacles: for any arithmetic and percentage 1 (the default), a cell of the grid that holds the computed positions of
at least `threshold` points of one camera within its range ends up filled, if the camera is in the grid. -/
theorem C74_measured_obstacle_is_filled {K : Type} {t n : ℤ} {o : FilterOptions}
    (ho : FilterOptions.make (.fin 1) t n = some o) {clouds : List (CpuCloud F)}
    (hlen : ∀ c ∈ clouds, c.points.length < 2 ^ 31) {output output' : VoxMap K} (hd : output.dims = g.dims)
    (h : FlVoxelizeRuns A sqrt g o clouds output output') {i : IVec} (hi : CellInGrid (axisCells g.dims) i)
    (hocc : (output.data (dataIndex g.dims i)).le (.fin (1 / 2)) = true) {c : CpuCloud F} (hc : c ∈ clouds) {i0 : IVec}
    (hi0 : flIndex A g (cpuOrigin A c.tf) = some i0) (hin : CellInGrid (axisCells g.dims) i0)
    (hmeas : t ≤ c.points.countP fun x => decide (MeasuredIn A sqrt g c i x)) :
    output'.data (dataIndex g.dims i) = .fin 1 := by
  refine cpu_filled_of_count ho hlen hd h hi hocc hc (hmeas.trans ?_)
  have hok := (flVoxelizeRuns_iff.1 h).1 c hc
  unfold cpuCount
  norm_cast
  refine List.countP_mono_left fun x hx hy => ?_
  rw [decide_eq_true_iff] at hy ⊢
  obtain ⟨y, rfl, h1, h2⟩ := hy
  obtain ⟨ms, hms⟩ := Option.isSome_iff_exists.1 (hok.2 _ hx)
  refine ⟨ms, hms, ?_⟩
  change flRaycast A g _ _ _ _ = some ms at hms
  unfold flRaycast at hms
  dsimp only at hms
  have hs : flStart A g (cpuOrigin A c.tf) (fun a => A.sub (cpuTransform A c.tf y a) (cpuOrigin A c.tf a))
      (flLength A sqrt (cpuOrigin A c.tf) (cpuTransform A c.tf y)) c.range = some (some (cpuOrigin A c.tf)) := by
    unfold flStart
    rw [hi0, Option.map_some, if_pos (inGrid_iff.2 hin)]
  simp only [hs] at hms
  obtain ⟨i', f, _, hf, hm⟩ := flCastFrom_some A g hms
  unfold flFinalPoint flClipped at hf
  rw [if_neg (by simp [h2]), h1] at hf
  cases hf
  exact (hm.filled i).2 ⟨h2, rfl, hi⟩

end

/-! ### A concrete case

One camera in cell 0 of a line of two cells, a point in cell 1 and a measurement that failed.  The square root only matters
at 1. -/

/-- The camera of the example. -/
def lookCloud : CpuCloud Fl :=
  ⟨fun k => if k = 0 ∨ k = 5 ∨ k = 10 then .fin 1 else if 12 ≤ k then .fin (1 / 2) else .fin 0, .pinf,
    [some ![.fin 1, .fin 0, .fin 0], none]⟩

/-- The map of the example: nothing known. -/
def lookMap : VoxMap ℚ := ⟨true, ⟨2, 1, 1⟩, 1, fun _ => .fin (1 / 2)⟩

theorem look_point {sqrt : Fl → Fl} (h1 : sqrt (.fin 1) = .fin 1) : cpuPoint double64 sqrt twoCells lookCloud
    (some ![.fin 1, .fin 0, .fin 0]) = some [.filled ![1, 0, 0], .free ![0, 0, 0]] := by
  have e : flLength double64 sqrt (cpuOrigin double64 lookCloud.tf) (cpuTransform double64 lookCloud.tf ![.fin 1, .fin 0, .fin 0]) =
      .fin 1 := by
    unfold flLength
    refine Eq.trans (congrArg sqrt ?_) h1
    decide +kernel
  unfold cpuPoint
  dsimp only
  rw [e]
  decide +kernel

open Classical in
/-- The run exists (`C74_defined`), the cell with the point becomes filled (`C74_measured_obstacle_is_filled`) and the one
in front of it free. -/
example {sqrt : Fl → Fl} (h1 : sqrt (.fin 1) = .fin 1) : ∃ output', FlVoxelizeRuns double64 sqrt twoCells ⟨.fin 1, 1, 1⟩
    [lookCloud] lookMap output' ∧ output'.data 1 = .fin 1 ∧ output'.data 0 = .fin 0 := by
  have ho : FilterOptions.make (.fin 1) 1 1 = some ⟨.fin 1, 1, 1⟩ := by decide +kernel
  have hlen : ∀ c ∈ [lookCloud], c.points.length < 2 ^ 31 := by decide
  obtain ⟨out, hout⟩ := (C74_defined (A := double64) (sqrt := sqrt) (g := twoCells) ho hlen (output := lookMap) rfl).2 (by
    intro c hc
    obtain rfl := List.mem_singleton.1 hc
    refine ⟨by decide +kernel, ?_⟩
    intro x hx
    have hx' : x = some ![.fin 1, .fin 0, .fin 0] ∨ x = none := by simpa [lookCloud] using hx
    rcases hx' with rfl | rfl
    · rw [look_point h1]; rfl
    · rfl)
  have hne : ∀ m, ¬ CpuPuts double64 sqrt twoCells lookCloud m none := by
    rintro m ⟨ms, e, hm⟩
    cases e
    cases hm
  have hputs : ∀ m, CpuPuts double64 sqrt twoCells lookCloud m (some ![.fin 1, .fin 0, .fin 0]) ↔
      m ∈ [Mark.filled ![1, 0, 0], Mark.free ![0, 0, 0]] := by
    intro m
    unfold CpuPuts
    rw [look_point h1]
    simp
  have hcount : ∀ m, cpuCount double64 sqrt twoCells lookCloud m =
      if m ∈ [Mark.filled ![1, 0, 0], Mark.free ![0, 0, 0]] then 1 else 0 := by
    intro m
    unfold cpuCount
    rw [show lookCloud.points = [some ![.fin 1, .fin 0, .fin 0], none] from rfl, List.countP_cons, List.countP_cons, List.countP_nil]
    simp only [hne m, hputs m, decide_eq_true_eq, if_false]
    split_ifs <;> rfl
  refine ⟨out, hout, ?_, ?_⟩
  · have := C74_decision ho hlen (g := twoCells) rfl hout (i := ![1, 0, 0]) (by unfold CellInGrid; decide) (by decide +kernel)
    simp only [List.map_cons, List.map_nil, hcount] at this
    rw [show (1 : ℕ) = dataIndex twoCells.dims ![1, 0, 0] by decide, this, decision_eq_one]
    exact ⟨_, List.mem_singleton_self _, by decide, .inl (by decide)⟩
  · have := C74_decision ho hlen (g := twoCells) rfl hout (i := ![0, 0, 0]) (by unfold CellInGrid; decide) (by decide +kernel)
    simp only [List.map_cons, List.map_nil, hcount] at this
    rw [show (0 : ℕ) = dataIndex twoCells.dims ![0, 0, 0] by decide, this, decision_eq_zero]
    refine ⟨?_, ?_⟩
    · rintro ⟨x, hx, hs⟩
      obtain rfl := List.mem_singleton.1 hx
      exact absurd hs.1 (by decide)
    · rw [List.countP_cons, List.countP_nil, if_pos]
      · decide
      · exact decide_eq_true (p := SawFree _ _ _ _) ⟨by decide, .inl (by decide)⟩

end VGT
