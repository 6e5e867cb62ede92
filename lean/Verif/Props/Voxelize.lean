import Verif.Lemmas.Voxelize2
import Verif.Props.Filter

/-!
C32 - C35 for the whole voxelizer, C39 (rejected input), C49 (hit counts), C50 (measured obstacles end up filled),
C51 (cells change only for a reason).
-/
set_option autoImplicit false

namespace VGT
open VGT.EDT VGT.Spec

section
variable {K : Type} [Field K] [LinearOrder K] [IsStrictOrderedRing K] [FloorRing K]

/-! ### Small facts used below -/

theorem filterCell_values {o : FilterOptions} {counts : List (ℤ × ℤ)} {occ : Fl} (h : occ.le (.fin (1 / 2)) = true)
    (hs : (o.filterCell counts occ).isSome) : ∃ x, o.filterCell counts occ = some (some x) ∧
      (x = .fin 0 ∨ x = .fin (1 / 2) ∨ x = .fin 1) := by
  unfold FilterOptions.filterCell at hs ⊢
  rw [if_pos (show occ.le Fl.half = true from h)] at hs ⊢
  cases hr : o.seenBy counts 0 0 with
  | none => rw [hr] at hs; simp at hs
  | some r =>
    rw [Option.map_some]
    split_ifs
    · exact ⟨_, rfl, by simp⟩
    · exact ⟨_, rfl, by simp⟩
    · exact ⟨_, rfl, Or.inr (Or.inl rfl)⟩

theorem filterCell_keep {o : FilterOptions} {counts : List (ℤ × ℤ)} {occ : Fl} (h : occ.le (.fin (1 / 2)) = false) :
    o.filterCell counts occ = some none := by
  unfold FilterOptions.filterCell
  rw [if_neg]
  show ¬ occ.le (.fin (1 / 2)) = true
  rw [h]
  simp

theorem deviceFilterCell_values {o : FilterOptions} {counts : List (ℤ × ℤ)} {occ : Fl} (h : occ.le (.fin (1 / 2)) = true)
    (hs : (o.deviceFilterCell counts occ).isSome) : ∃ x, o.deviceFilterCell counts occ = some (some x) ∧
      (x = .fin 0 ∨ x = .fin (1 / 2) ∨ x = .fin 1) := by
  unfold FilterOptions.deviceFilterCell kernelFilterCell at hs ⊢
  rw [if_pos (show occ.le Fl.half = true from h)] at hs ⊢
  cases hr : kernelSeenBy o.percent.toFloat o.threshold counts 0 0 with
  | none => rw [hr] at hs; simp at hs
  | some r =>
    rw [Option.map_some]
    split_ifs
    · exact ⟨_, rfl, by simp⟩
    · exact ⟨_, rfl, by simp⟩
    · exact ⟨_, rfl, Or.inr (Or.inl rfl)⟩

theorem deviceFilterCell_keep {o : FilterOptions} {counts : List (ℤ × ℤ)} {occ : Fl} (h : occ.le (.fin (1 / 2)) = false) :
    o.deviceFilterCell counts occ = some none := by
  unfold FilterOptions.deviceFilterCell kernelFilterCell
  rw [if_neg]
  show ¬ occ.le (.fin (1 / 2)) = true
  rw [h]
  simp

/-! ### C33 -/

/-- C33, CPU backend: the sizes stay, a cell of the given output that is above 1/2 (or NaN) is left as it is, every other
cell becomes 0, 1/2 or 1; for any clouds, also none, and any options. -/
theorem C33_cpu_keeps_filled {norm : Vec K → K} {static : VoxMap K} {o : FilterOptions} {clouds : List (Cloud K)}
    {output output' : VoxMap K} (h : CpuVoxelizeRuns norm static o clouds output output') :
    output'.initialized = output.initialized ∧ output'.dims = output.dims ∧ output'.cellSize = output.cellSize ∧
    ∀ v < output.dims.total,
      ((output.data v).le (.fin (1 / 2)) = false → output'.data v = output.data v) ∧
      ((output.data v).le (.fin (1 / 2)) = true →
        output'.data v = .fin 0 ∨ output'.data v = .fin (1 / 2) ∨ output'.data v = .fin 1) := by
  obtain ⟨_, hs, rfl⟩ := cpuRuns_iff.1 h
  refine ⟨rfl, rfl, rfl, fun v hv => ?_⟩
  unfold filterData newVal
  simp only [if_pos hv]
  constructor
  · intro hk
    rw [filterCell_keep hk]
    rfl
  · intro hk
    obtain ⟨x, hx, hv'⟩ := filterCell_values hk (hs v hv)
    rw [hx]
    exact hv'

/-- C33, device backends, relative to the static environment: a cell of the result is the static cell if that is above
1/2 (or NaN), and 0, 1/2 or 1 otherwise. -/
theorem C33_device_keeps_static_filled {static : VoxMap K} {o : FilterOptions} {tracks : List Track}
    {output output' : VoxMap K} (h : DeviceFilterRuns static o tracks output output') :
    output'.initialized = output.initialized ∧ output'.dims = output.dims ∧ output'.cellSize = output.cellSize ∧
    ∀ v < static.dims.total,
      ((static.data v).le (.fin (1 / 2)) = false → output'.data v = static.data v) ∧
      ((static.data v).le (.fin (1 / 2)) = true →
        output'.data v = .fin 0 ∨ output'.data v = .fin (1 / 2) ∨ output'.data v = .fin 1) := by
  obtain ⟨data', h1, rfl⟩ := h
  obtain ⟨hs, rfl⟩ := filterRuns_iff.1 h1
  refine ⟨rfl, rfl, rfl, fun v hv => ?_⟩
  unfold newVal
  simp only [if_pos hv]
  constructor
  · intro hk
    rw [deviceFilterCell_keep hk]
    rfl
  · intro hk
    obtain ⟨x, hx, hv'⟩ := deviceFilterCell_values hk (hs v hv)
    rw [hx]
    exact hv'

/-- C33 for the API that returns a new map: filled cells of the static environment stay filled. -/
theorem C33_copy_keeps_static_filled {norm : Vec K → K} {static : VoxMap K} {o : FilterOptions}
    {clouds : List (Option (Cloud K))} {r : VoxMap K} (h : VoxelizeCopyRuns norm static o clouds (some r)) :
    r.dims = static.dims ∧ ∀ v < static.dims.total,
      ((static.data v).le (.fin (1 / 2)) = false → r.data v = static.data v) ∧
      ((static.data v).le (.fin (1 / 2)) = true → r.data v = .fin 0 ∨ r.data v = .fin (1 / 2) ∨ r.data v = .fin 1) := by
  obtain ⟨threw, out, h1, h2⟩ := h
  unfold VoxelizeRuns at h1
  split_ifs at h1 with hrej
  · obtain ⟨rfl, _⟩ := h1
    cases h2
  · obtain ⟨rfl, hr⟩ := h1
    simp only [Bool.false_eq_true, if_false, Option.some.injEq] at h2
    subst h2
    obtain ⟨_, a, _, b⟩ := C33_cpu_keeps_filled hr
    exact ⟨a, b⟩

end

/-- A one-cell map. -/
def oneCell (occ : ℚ) : VoxMap ℚ := ⟨true, ⟨1, 1, 1⟩, 1, fun _ => .fin occ⟩

theorem oneCell_cpu (norm : Vec ℚ → ℚ) (a b : ℚ) (hb : b ≤ 1 / 2) :
    CpuVoxelizeRuns norm (oneCell a) .default [] (oneCell b)
      { oneCell b with data := fun v => if v < 1 then .fin (1 / 2) else .fin b } := by
  rw [cpuRuns_iff]
  have e : FilterOptions.default.filterCell [] (.fin b) = some (some (.fin (1 / 2))) := by
    unfold FilterOptions.filterCell
    rw [if_pos (by simpa [Fl.le, Fl.half] using hb)]
    rfl
  refine ⟨by simp, ?_, ?_⟩
  · intro v _
    show (FilterOptions.default.filterCell [] (.fin b)).isSome = true
    rw [e]
    rfl
  · unfold filterData newVal
    show VoxMap.mk _ _ _ _ = VoxMap.mk _ _ _ _
    congr 1
    funext v
    show _ = if v < 1 then ((FilterOptions.default.filterCell [] (.fin b)).getD none).getD (.fin b) else .fin b
    rw [e]
    rfl

theorem oneCell_device (a b : ℚ) (ha : 1 / 2 < a) :
    DeviceFilterRuns (oneCell a) .default [] (oneCell b) { oneCell b with data := fun _ => .fin a } := by
  refine ⟨fun _ => .fin a, ?_, rfl⟩
  rw [filterRuns_iff]
  have e : ∀ l, FilterOptions.default.deviceFilterCell l (.fin a) = some none := fun l =>
    deviceFilterCell_keep (by simpa [Fl.le] using ha)
  constructor
  · intro v _
    show (FilterOptions.default.deviceFilterCell _ (.fin a)).isSome = true
    rw [e]
    rfl
  · funext v
    show Fl.fin a = if v < 1 then ((FilterOptions.default.deviceFilterCell _ (.fin a)).getD none).getD (.fin a) else .fin a
    rw [e]
    simp

example : CpuVoxelizeRuns (fun _ => 0) (oneCell 0) .default [] (oneCell 0)
    { oneCell 0 with data := fun v => if v < 1 then .fin (1 / 2) else .fin 0 } := oneCell_cpu _ 0 0 (by norm_num)

/-- C33 and C35 are false when the output map differs from the static environment: the CPU backend ignores a filled static
cell and reports it unknown, the device backends keep it. -/
theorem C33_cpu_ignores_static_occupancy : ∃ (static output cpuOut devOut : VoxMap ℚ),
    static.data 0 = .fin 1 ∧ static.dims = output.dims ∧ static.cellSize = output.cellSize ∧
    CpuVoxelizeRuns (fun _ => 0) static .default [] output cpuOut ∧ cpuOut.data 0 = .fin (1 / 2) ∧
    DeviceFilterRuns static .default [] output devOut ∧ devOut.data 0 = .fin 1 :=
  ⟨oneCell 1, oneCell 0, _, _, rfl, rfl, rfl, oneCell_cpu _ 1 0 (by norm_num), rfl, oneCell_device 1 0 (by norm_num), rfl⟩

/-- C33 is false for the device backends when the output map differs from the static environment: a filled cell of the
output is overwritten. -/
theorem C33_device_overwrites_output : ∃ (static output devOut : VoxMap ℚ),
    output.data 0 = .fin 1 ∧ static.dims = output.dims ∧ static.cellSize = output.cellSize ∧
    DeviceFilterRuns static .default [] output devOut ∧ devOut.data 0 = .fin (1 / 2) := by
  refine ⟨oneCell 0, oneCell 1, { oneCell 1 with data := fun v => if v < 1 then .fin (1 / 2) else .fin 0 }, rfl, rfl, rfl,
    ⟨_, ?_, rfl⟩, rfl⟩
  rw [filterRuns_iff]
  have e : FilterOptions.default.deviceFilterCell [(0, 0)] (.fin 0) = some (some (.fin (1 / 2))) := by decide +kernel
  constructor
  · intro v _
    show (FilterOptions.default.deviceFilterCell [(0, 0)] (.fin 0)).isSome = true
    rw [e]
    rfl
  · funext v
    show _ = if v < 1 then ((FilterOptions.default.deviceFilterCell [(0, 0)] (.fin 0)).getD none).getD (.fin 0) else .fin 0
    rw [e]
    rfl

section
variable {K : Type} [Field K] [LinearOrder K] [IsStrictOrderedRing K] [FloorRing K]

/-! ### C34 -/

theorem samePoints_marks {d : Dims} {s : K} {norm : Vec K → K} {c c' : Cloud K} (h : SamePoints c c') :
    (CloudOk d s norm c ↔ CloudOk d s norm c') ∧ trackOf d (cloudMarks d s norm c) = trackOf d (cloudMarks d s norm c') := by
  obtain ⟨tf, range, pts⟩ := c
  obtain ⟨tf', range', pts'⟩ := c'
  obtain ⟨h1, h2, h3⟩ := h
  simp only at h1 h2 h3
  subst h1 h2
  have hp : ∀ x, pointMarks d s norm ⟨tf, range, pts⟩ x = pointMarks d s norm ⟨tf, range, pts'⟩ x := by
    intro x
    cases x <;> rfl
  constructor
  · unfold CloudOk
    simp only [hp]
    exact ⟨fun h x hx => h x (h3.mem_iff.2 hx), fun h x hx => h x (h3.mem_iff.1 hx)⟩
  · refine trackOf_perm ?_
    unfold cloudMarks
    simp only [hp]
    exact h3.flatMap_right _

/-- C34.  The result is the same for every thread count, work split and interleaving (two runs never differ), for every
order of the points in each cloud and every order of the clouds; and whether a result exists does not depend on these
either. -/
theorem C34_schedule_and_order {norm : Vec K → K} {static : VoxMap K} {o : FilterOptions} {clouds clouds' : List (Cloud K)}
    (hsame : SameClouds clouds clouds') {output out : VoxMap K} (h : CpuVoxelizeRuns norm static o clouds output out) :
    CpuVoxelizeRuns norm static o clouds' output out ∧
    ∀ out', CpuVoxelizeRuns norm static o clouds' output out' → out' = out := by
  have h' : CpuVoxelizeRuns norm static o clouds' output out := by
    rw [cpuRuns_iff] at h ⊢
    obtain ⟨mid, hf, hperm⟩ := hsame
    obtain ⟨h1, h2, h3⟩ := h
    have hok : ∀ c ∈ mid, CloudOk static.dims static.cellSize norm c := by
      intro c hc
      obtain ⟨c0, hc0, hs⟩ := forall₂_exists (R := fun c c0 => SamePoints c0 c) hf.flip hc
      exact (samePoints_marks hs).1.1 (h1 c0 hc0)
    have hhits : ∀ v, (hits static.dims static.cellSize norm clouds v).Perm (hits static.dims static.cellSize norm clouds' v) := by
      intro v
      have e : hits static.dims static.cellSize norm clouds v = hits static.dims static.cellSize norm mid v := by
        unfold hits
        clear h1 h2 h3 hok hperm
        induction hf with
        | nil => rfl
        | cons hh _ ih => rw [List.map_cons, List.map_cons, ih, (samePoints_marks hh).2]
      rw [e]
      exact hperm.map _
    have hcell : ∀ v, o.filterCell (hits static.dims static.cellSize norm clouds' v) =
        o.filterCell (hits static.dims static.cellSize norm clouds v) := fun v =>
      funext fun occ => (filterCell_perm o (hhits v) occ).symm
    simp only [hcell]
    exact ⟨fun c hc => hok c (hperm.mem_iff.2 hc), h2, h3⟩
  refine ⟨h', fun out' ho => ?_⟩
  rw [cpuRuns_iff] at h' ho
  rw [ho.2.2, h'.2.2]

/-! ### C49: the counters -/

/-- C49, counts.  After casting a cloud of fewer than 2^31 points the counters of a cell hold exactly the numbers of points
whose rays mark it free and filled, whatever the schedule; no counter wraps. -/
theorem C49_counters_exact {d : Dims} {s : K} {norm : Vec K → K} {c : Cloud K} {tr : Track}
    (h : CloudRuns d s norm c tr) (hlen : c.points.length < 2 ^ 31) {i : IVec} (hi : CellInGrid (axisCells d) i) :
    tr (dataIndex d i) = ((hitCount d s norm c (.free i) : ℤ), (hitCount d s norm c (.filled i) : ℤ)) ∧
    hitCount d s norm c (.free i) + hitCount d s norm c (.filled i) ≤ c.points.length := by
  obtain ⟨_, rfl⟩ := cloudRuns_imp h
  exact ⟨trackOf_cell hlen hi, (cloudMarks_count hi).2.2⟩

theorem goodCloud_ok {d : Dims} {s : K} (hs : 0 < s) {norm : Vec K → K} {c : Cloud K} (hg : GoodCloud norm c)
    (hne : SensorInGrid d s c ∨ ∀ x, some x ∈ c.points → c.tf x ≠ sensor c) : CloudOk d s norm c := by
  intro x hx
  cases x with
  | none => rfl
  | some x =>
    obtain ⟨ms, h, _⟩ := C36_raycast_terminates_in_grid_partial d hs (hg.2 x hx) hg.1
      (hne.elim (fun h => Or.inr h) fun h => Or.inl (h x hx))
    show (raycast d s (sensor c) (c.tf x) (norm fun a => c.tf x a - sensor c a) c.range).isSome = true
    rw [h]
    rfl

/-- C49, no undefined behaviour: with ranges at least 0, fewer than 2^31 points per cloud and no point at the sensor of a
camera outside the grid, the voxelizer has a (by C34 exactly one) result. -/
theorem C49_voxelization_is_defined {norm : Vec K → K} {static : VoxMap K} (hs : 0 < static.cellSize) {pct : ℚ} {t n : ℤ}
    {o : FilterOptions} (ho : FilterOptions.make (.fin pct) t n = some o) {clouds : List (Cloud K)}
    (hg : ∀ c ∈ clouds, GoodCloud norm c)
    (hne : ∀ c ∈ clouds, SensorInGrid static.dims static.cellSize c ∨ ∀ x, some x ∈ c.points → c.tf x ≠ sensor c)
    (hlen : ∀ c ∈ clouds, c.points.length < 2 ^ 31) {output : VoxMap K} (hd : output.dims = static.dims) :
    ∃ output', CpuVoxelizeRuns norm static o clouds output output' := by
  refine ⟨_, cpuRuns_iff.2 ⟨fun c hc => goodCloud_ok hs (hg c hc) (hne c hc), ?_, rfl⟩⟩
  intro v hv
  rw [hd] at hv
  by_cases hocc : (output.data v).le (.fin (1 / 2)) = true
  · rw [C32_filter_decision ho (hits_ok hlen hv) hocc]
    rfl
  · rw [filterCell_keep (by simpa using hocc)]
    rfl

/-! ### C32 for the whole voxelizer -/

/-- C32, end to end: the occupancy of every cell that was not filled is the documented decision on the numbers of rays of
each camera through and into that cell. -/
theorem C32_voxelizer_decision {norm : Vec K → K} {static : VoxMap K} {pct : ℚ} {t n : ℤ} {o : FilterOptions}
    (ho : FilterOptions.make (.fin pct) t n = some o) {clouds : List (Cloud K)}
    (hlen : ∀ c ∈ clouds, c.points.length < 2 ^ 31) {output output' : VoxMap K} (hd : output.dims = static.dims)
    (h : CpuVoxelizeRuns norm static o clouds output output') {i : IVec} (hi : CellInGrid (axisCells static.dims) i)
    (hocc : (output.data (dataIndex static.dims i)).le (.fin (1 / 2)) = true) :
    output'.data (dataIndex static.dims i) =
      decision (SawFilled roundDouble pct t) (SawFree roundDouble pct t) n (clouds.map fun c =>
        ((hitCount static.dims static.cellSize norm c (.free i) : ℤ),
         (hitCount static.dims static.cellSize norm c (.filled i) : ℤ))) := by
  obtain ⟨_, _, rfl⟩ := cpuRuns_iff.1 h
  have hv := dataIndex_lt hi
  unfold filterData newVal
  simp only
  rw [hd, if_pos hv, C32_filter_decision ho (hits_ok hlen hv) hocc]
  have e : hits static.dims static.cellSize norm clouds (dataIndex static.dims i) = clouds.map fun c =>
        ((hitCount static.dims static.cellSize norm c (.free i) : ℤ),
         (hitCount static.dims static.cellSize norm c (.filled i) : ℤ)) := by
    unfold hits
    exact List.map_congr_left fun c hc => trackOf_cell (hlen c hc) hi
  rw [e]
  rfl

/-! ### C51, C50: what a result says about the measurements -/

/-- A filled mark is on the cell of a point within range. -/
theorem filled_mark {d : Dims} {s : K} (hs : 0 < s) {norm : Vec K → K} {c : Cloud K} {i : IVec} {x : Option (Vec K)}
    (h : Marks d s norm c (.filled i) x) : ∃ y, x = some y ∧
      ((norm fun a => c.tf y a - sensor c a : K) : WithTop K) ≤ c.range ∧ InCell s i (c.tf y) := by
  obtain ⟨ms, h1, h2⟩ := h
  cases x with
  | none => cases h1; cases h2
  | some y =>
    refine ⟨y, rfl, ?_⟩
    change raycast d s (sensor c) (c.tf y) (norm fun a => c.tf y a - sensor c a) c.range = some ms at h1
    generalize (norm fun a => c.tf y a - sensor c a) = L at h1 ⊢
    generalize c.tf y = p at h1 ⊢
    generalize sensor c = o at h1
    have hfilled : ∀ q ray, castFrom d s q (finalPoint o p L c.range) ray (clipped L c.range) = some ms →
        (L : WithTop K) ≤ c.range ∧ InCell s i p := by
      intro q ray hc
      obtain ⟨ms', e1, _, _, _, e5, _⟩ := castFrom_total d s q (finalPoint o p L c.range) ray (clipped L c.range)
      rw [e1] at hc
      cases hc
      obtain ⟨k1, k2⟩ := e5 i h2
      have hle : (L : WithTop K) ≤ c.range := by
        unfold clipped at k1
        exact not_lt.1 (of_decide_eq_false k1)
      refine ⟨hle, ?_⟩
      have : finalPoint o p L c.range = p := by
        revert hle
        cases c.range with
        | top => intro _; rfl
        | coe r =>
          intro hle
          show (if r < L then _ else _) = p
          rw [if_neg (not_lt.2 (WithTop.coe_le_coe.1 hle))]
      rw [this] at k2
      rw [k2]
      exact cellOf_inCell hs p
    unfold raycast at h1
    simp only at h1
    split_ifs at h1 with g1 g2 g3 g4
    · exact hfilled _ _ h1
    · cases h1; cases h2
    · cases hsl : slabs d s o (fun a => (p a - o a) / L) c.range with
      | none => rw [hsl] at h1; cases h1; cases h2
      | some tmin => rw [hsl] at h1; exact hfilled _ _ h1

/-- The range-limited end of the ray always exists. -/
theorem rangeEnd_exists {o p : Vec K} {L : K} (hL : IsDist o p L) {range : WithTop K} (hr : 0 ≤ range) :
    ∃ f, IsRangeEnd o p L range f := by
  by_cases h : (L : WithTop K) ≤ range
  · refine ⟨onSeg o p 1, 1, zero_le_one, le_rfl, rfl, fun _ => rfl, fun h' => absurd h (not_le.2 h')⟩
  · push Not at h
    cases range with
    | top => exact absurd h (by simp)
    | coe r =>
      have hr0 : 0 ≤ r := by exact_mod_cast hr
      have hrL : r < L := by exact_mod_cast h
      have hL0 : 0 < L := lt_of_le_of_lt hr0 hrL
      refine ⟨onSeg o p (r / L), r / L, div_nonneg hr0 hL0.le, (div_le_one hL0).2 hrL.le, rfl,
        fun h' => absurd h' (not_le.2 h), fun _ => ?_⟩
      rw [div_mul_cancel₀ _ hL0.ne']

open Classical in
/-- C51, filled: a cell that was not filled becomes 1 only if some camera measured at least `threshold` points in that
cell within its range. -/
theorem C51_filled_only_if_measured {norm : Vec K → K} {static : VoxMap K} (hs : 0 < static.cellSize) {pct : ℚ} {t n : ℤ}
    {o : FilterOptions} (ho : FilterOptions.make (.fin pct) t n = some o) {clouds : List (Cloud K)}
    (hlen : ∀ c ∈ clouds, c.points.length < 2 ^ 31) {output output' : VoxMap K} (hd : output.dims = static.dims)
    (h : CpuVoxelizeRuns norm static o clouds output output') {i : IVec} (hi : CellInGrid (axisCells static.dims) i)
    (hocc : (output.data (dataIndex static.dims i)).le (.fin (1 / 2)) = true)
    (hone : output'.data (dataIndex static.dims i) = .fin 1) :
    ∃ c ∈ clouds, t ≤ c.points.countP fun x => decide (∃ y, x = some y ∧
      ((norm fun a => c.tf y a - sensor c a : K) : WithTop K) ≤ c.range ∧ InCell static.cellSize i (c.tf y)) := by
  rw [C32_voxelizer_decision ho hlen hd h hi hocc, decision_eq_one] at hone
  obtain ⟨x, hx, hs1, _⟩ := hone
  obtain ⟨c, hc, rfl⟩ := List.mem_map.1 hx
  refine ⟨c, hc, hs1.trans ?_⟩
  simp only
  unfold hitCount
  exact_mod_cast List.countP_mono_left fun y _ hy => by
    rw [decide_eq_true_iff] at hy ⊢
    exact filled_mark hs hy

open Classical in
/-- C51, free: with all sensors in the grid, a cell that was not filled becomes 0 only if at least
`num_cameras_seen_free` cameras have a ray (cut at the range) that passes through it. -/
theorem C51_free_only_if_seen_through {norm : Vec K → K} {static : VoxMap K} (hs : 0 < static.cellSize) {pct : ℚ} {t n : ℤ}
    {o : FilterOptions} (ho : FilterOptions.make (.fin pct) t n = some o) {clouds : List (Cloud K)}
    (hg : ∀ c ∈ clouds, GoodCloud norm c) (hin : ∀ c ∈ clouds, SensorInGrid static.dims static.cellSize c)
    (hlen : ∀ c ∈ clouds, c.points.length < 2 ^ 31) {output output' : VoxMap K} (hd : output.dims = static.dims)
    (h : CpuVoxelizeRuns norm static o clouds output output') {i : IVec} (hi : CellInGrid (axisCells static.dims) i)
    (hocc : (output.data (dataIndex static.dims i)).le (.fin (1 / 2)) = true)
    (hzero : output'.data (dataIndex static.dims i) = .fin 0) :
    n ≤ clouds.countP fun c => decide (∃ x f, some x ∈ c.points ∧
      IsRangeEnd (sensor c) (c.tf x) (norm fun a => c.tf x a - sensor c a) c.range f ∧
      Touches static.cellSize (sensor c) f i) := by
  rw [C32_voxelizer_decision ho hlen hd h hi hocc, decision_eq_zero] at hzero
  refine hzero.2.trans ?_
  rw [List.countP_map]
  norm_cast
  refine List.countP_mono_left fun c hc hf => ?_
  rw [decide_eq_true_iff]
  simp only [Function.comp_apply, decide_eq_true_eq] at hf
  have hpos := hf.1
  simp only [Nat.cast_pos] at hpos
  unfold hitCount at hpos
  rw [List.countP_pos_iff] at hpos
  obtain ⟨x, hx, hm⟩ := hpos
  rw [decide_eq_true_iff] at hm
  obtain ⟨ms, h1, h2⟩ := hm
  cases x with
  | none => cases h1; cases h2
  | some x =>
    have hL := (hg c hc).2 x hx
    obtain ⟨f, hfe⟩ := rangeEnd_exists hL (hg c hc).1
    exact ⟨x, f, hx, hfe, C37_free_only_on_ray_partial static.dims hs hL (hg c hc).1 hfe (Or.inl (hin c hc)) h1 h2⟩

open Classical in
/-- C50: with free-percentage 1 (the default), a cell of the grid that holds at least `threshold` measured points of one
camera within its range ends up filled, however many rays pass through it; sensors in the grid. -/
theorem C50_measured_obstacle_is_filled {norm : Vec K → K} {static : VoxMap K} (hs : 0 < static.cellSize) {t n : ℤ}
    {o : FilterOptions} (ho : FilterOptions.make (.fin 1) t n = some o) {clouds : List (Cloud K)}
    (hlen : ∀ c ∈ clouds, c.points.length < 2 ^ 31) {output output' : VoxMap K} (hd : output.dims = static.dims)
    (h : CpuVoxelizeRuns norm static o clouds output output') {i : IVec} (hi : CellInGrid (axisCells static.dims) i)
    (hocc : (output.data (dataIndex static.dims i)).le (.fin (1 / 2)) = true)
    {c : Cloud K} (hc : c ∈ clouds) (hin : SensorInGrid static.dims static.cellSize c) (hg : GoodCloud norm c)
    (hmeas : t ≤ c.points.countP fun x => decide (∃ y, x = some y ∧
      ((norm fun a => c.tf y a - sensor c a : K) : WithTop K) ≤ c.range ∧ InCell static.cellSize i (c.tf y))) :
    output'.data (dataIndex static.dims i) = .fin 1 := by
  rw [C32_voxelizer_decision ho hlen hd h hi hocc, decision_eq_one]
  refine ⟨_, List.mem_map.2 ⟨c, hc, rfl⟩, ?_⟩
  have ht : 1 ≤ t := (make_ok ho).2.1
  have hfill : t ≤ (hitCount static.dims static.cellSize norm c (.filled i) : ℤ) := by
    refine hmeas.trans ?_
    unfold hitCount
    norm_cast
    refine List.countP_mono_left fun x hx hy => ?_
    rw [decide_eq_true_iff] at hy ⊢
    obtain ⟨y, rfl, hr, hcell⟩ := hy
    have hL := hg.2 y hx
    obtain ⟨oc, hoc, hocin⟩ := hin
    have hclip : clipped (norm fun a => c.tf y a - sensor c a) c.range = false := by
      unfold clipped
      exact decide_eq_false (not_lt.2 hr)
    have hfin : finalPoint (sensor c) (c.tf y) (norm fun a => c.tf y a - sensor c a) c.range = c.tf y := by
      revert hr
      cases c.range with
      | top => intro _; rfl
      | coe r =>
        intro hr
        show (if r < _ then _ else _) = _
        rw [if_neg (not_lt.2 (WithTop.coe_le_coe.1 hr))]
    obtain ⟨ms, e1, _, _, _, _, e6⟩ := castFrom_total static.dims static.cellSize (sensor c) (c.tf y)
      (fun a => c.tf y a - sensor c a) false
    refine ⟨ms, ?_, ?_⟩
    · show raycast static.dims static.cellSize (sensor c) (c.tf y) (norm fun a => c.tf y a - sensor c a) c.range = some ms
      unfold raycast
      simp only
      rw [inCell_unique hs hoc] at hocin
      rw [if_pos (inGrid_iff.2 hocin), hclip, if_neg (by simp), hfin]
      exact e1
    · have := inCell_unique hs hcell
      rw [this]
      exact e6 rfl (this ▸ hi)
  have hcnt := (cloudMarks_count (s := static.cellSize) (norm := norm) (c := c) hi).2.2
  have hl := hlen c hc
  refine ⟨hfill, ?_⟩
  simp only
  by_cases hz : hitCount static.dims static.cellSize norm c (.free i) = 0
  · left; exact_mod_cast hz
  right
  have key := share_exact (p := 53) (emin := -1074) (by norm_num) (by norm_num)
    (a := (hitCount static.dims static.cellSize norm c (.free i) : ℤ))
    (n := (hitCount static.dims static.cellSize norm c (.free i) : ℤ) + hitCount static.dims static.cellSize norm c (.filled i))
    (m := 1) (j := 0) (by omega) (by norm_num) (by norm_num) (by omega)
  push_cast at key
  rw [← not_le]
  intro hle
  unfold roundDouble at hle
  have := key.1 (by simpa using hle)
  omega

end

/-- The sensor at the centre of the first of three cells sees a point in the last one. -/
def sampleCloud : Cloud ℚ := ⟨fun x a => x a + 1 / 2, ⊤, [some ![2, 0, 0], none]⟩

/-- Three free cells in a row. -/
def sampleMap : VoxMap ℚ := ⟨true, ⟨3, 1, 1⟩, 1, fun _ => .fin (1 / 2)⟩

/-- A norm that is right for rays along x. -/
def xNorm : Vec ℚ → ℚ := fun v => |v 0|

theorem sample_good : GoodCloud xNorm sampleCloud ∧ SensorInGrid sampleMap.dims sampleMap.cellSize sampleCloud ∧
    sampleCloud.points.length < 2 ^ 31 := by
  refine ⟨⟨le_top, ?_⟩, ⟨![0, 0, 0], ?_, ?_⟩, by decide⟩
  · intro x hx
    simp only [sampleCloud, List.mem_cons, Option.some.injEq, reduceCtorEq, List.not_mem_nil, or_false] at hx
    subst hx
    unfold IsDist sensor sampleCloud xNorm
    simp
  · intro a
    unfold sensor sampleCloud sampleMap
    rw [show (![0, 0, 0] : IVec) a = 0 by fin_cases a <;> rfl]
    norm_num
  · rw [cellInGrid_iff]
    simp [sampleMap]

theorem sample_make : FilterOptions.make (.fin 1) 1 1 = some .default := by decide +kernel

/-- The hypotheses of C49, C32, C50 and C51 are met: the ray passes the first two cells and hits the third. -/
example : ∃ out, CpuVoxelizeRuns xNorm sampleMap .default [sampleCloud] sampleMap out :=
  C49_voxelization_is_defined (by norm_num [sampleMap]) sample_make (by simpa using sample_good.1)
    (by simpa using Or.inl sample_good.2.1) (by simpa using sample_good.2.2) rfl

example : pointMarks ⟨3, 1, 1⟩ 1 xNorm sampleCloud (some ![2, 0, 0]) =
    some [.filled ![2, 0, 0], .free ![0, 0, 0], .free ![1, 0, 0]] := by decide +kernel

example : ((fun v => (filterData (fun v => FilterOptions.default.filterCell (hits ⟨3, 1, 1⟩ 1 xNorm [sampleCloud] v)) 3
    sampleMap.data) v) 0, (filterData (fun v => FilterOptions.default.filterCell (hits ⟨3, 1, 1⟩ 1 xNorm [sampleCloud] v)) 3
    sampleMap.data) 2) = (Fl.fin 0, Fl.fin 1) := by decide +kernel

example : SameClouds [sampleCloud, ⟨fun x => x, ⊤, []⟩] [⟨fun x => x, ⊤, []⟩, sampleCloud] :=
  ⟨[sampleCloud, ⟨fun x => x, ⊤, []⟩],
    .cons ⟨rfl, rfl, .refl _⟩ (.cons ⟨rfl, rfl, .refl _⟩ .nil), List.Perm.swap _ _ _⟩

/-! ### C35 -/

/-- The CPU filter on given tracking grids (cpu_pointcloud_voxelization.cpp:150-155). -/
def CpuFilterRuns {K : Type} (o : FilterOptions) (tracks : List Track) (output output' : VoxMap K) : Prop :=
  ∃ data', FilterRuns (fun v => o.filterCell (tracks.map fun tr => tr v)) output.dims.total output.data data' ∧
    output' = { output with data := data' }

theorem roundFloat_dyadic {m : ℤ} {j : ℕ} (hj : j ≤ 24) (hm0 : 0 < m) (hm : m ≤ 2 ^ j) :
    roundFloat ((m : ℚ) / 2 ^ j) = (m : ℚ) / 2 ^ j := by
  have hb : |m| ≤ 2 ^ 24 := by
    rw [abs_of_pos hm0]
    exact hm.trans (pow_le_pow_right₀ (by norm_num) hj)
  have := rne_exact (K := ℚ) (p := 24) (emin := -149) m (-(j : ℤ)) (by norm_num) hb (by omega)
  rw [zpow_neg, zpow_natCast, ← div_eq_mul_inv] at this
  exact this

theorem foldSeen_congr {dec dec' : ℤ × ℤ → Option SeenAs} : ∀ {l : List (ℤ × ℤ)}, (∀ c ∈ l, dec c = dec' c) →
    ∀ a b, foldSeen dec l a b = foldSeen dec' l a b
  | [], _, _, _ => rfl
  | c :: l, h, a, b => by
    have ih := foldSeen_congr fun c hc => h c (List.mem_cons_of_mem _ hc)
    unfold foldSeen
    rw [h c List.mem_cons_self]
    cases dec' c with
    | none => rfl
    | some r => cases r <;> exact ih _ _

theorem deviceFilterCell_of_fold {q : ℚ} (hfl : roundFloat q = q) {t n : ℤ} {counts : List (ℤ × ℤ)}
    (e : foldSeen (kernelDec (.fin q) t) counts 0 0 =
      foldSeen (fun c => (FilterOptions.mk (.fin q) t n).countsSeenAs c.1 c.2) counts 0 0) (occ : Fl) :
    (FilterOptions.mk (.fin q) t n).deviceFilterCell counts occ = (FilterOptions.mk (.fin q) t n).filterCell counts occ := by
  unfold FilterOptions.deviceFilterCell kernelFilterCell FilterOptions.filterCell
  simp only [Fl.toFloat, hfl]
  rw [kernelSeenBy_eq, seenBy_eq, e]

/-- C35, one cell: for a free-percentage `m / 2^j` and hit counts small enough for `float`, the filter kernels decide like
the CPU. -/
theorem C35_cell_filters_agree_partial {m : ℤ} {j : ℕ} (hj : j ≤ 24) {t n : ℤ} {o : FilterOptions}
    (ho : FilterOptions.make (.fin ((m : ℚ) / 2 ^ j)) t n = some o) {counts : List (ℤ × ℤ)}
    (hc : ∀ c ∈ counts, 0 ≤ c.1 ∧ 0 ≤ c.2 ∧ (c.1 + c.2) * 2 ^ j ≤ 2 ^ 24) (occ : Fl) :
    o.deviceFilterCell counts occ = o.filterCell counts occ := by
  have hpos : (0 : ℚ) < 2 ^ j := by positivity
  obtain ⟨rfl, ht, _, hq⟩ := make_ok ho
  rcases hq with hq | ⟨q, hq, q0, q1⟩
  · cases hq
  injection hq with hq
  subst hq
  have hm0 : 0 < m := by
    have := (div_pos_iff_of_pos_right hpos).1 q0
    exact_mod_cast this
  have hm : m ≤ 2 ^ j := by
    have := (div_le_one hpos).1 q1
    exact_mod_cast this
  have hfl := roundFloat_dyadic hj hm0 hm
  have e : foldSeen (kernelDec (.fin ((m : ℚ) / 2 ^ j)) t) counts 0 0 =
      foldSeen (fun c => (FilterOptions.mk (.fin ((m : ℚ) / 2 ^ j)) t n).countsSeenAs c.1 c.2) counts 0 0 :=
    foldSeen_congr (fun c hcc => kernelDec_exact (hc c hcc).1 (hc c hcc).2.1 hm0 hm (hc c hcc).2.2) 0 0
  exact deviceFilterCell_of_fold hfl e occ

/-- C35 for whole maps (same hit counts, output starting as a copy of the static environment, also with no camera at all):
the device filter can leave exactly what the CPU filter leaves.
Missing: other percentages and larger counts (`C35_filters_differ`), an output map different from the static environment
(`C33_cpu_ignores_static_occupancy`), and the float arithmetic of the raycasting kernels. -/
theorem C35_filters_agree_partial {K : Type} {m : ℤ} {j : ℕ} (hj : j ≤ 24) {t n : ℤ} {o : FilterOptions}
    (ho : FilterOptions.make (.fin ((m : ℚ) / 2 ^ j)) t n = some o) {tracks : List Track} {static : VoxMap K}
    (hc : ∀ tr ∈ tracks, ∀ v < static.dims.total, 0 ≤ (tr v).1 ∧ 0 ≤ (tr v).2 ∧ ((tr v).1 + (tr v).2) * 2 ^ j ≤ 2 ^ 24)
    (output' : VoxMap K) : DeviceFilterRuns static o tracks static output' ↔ CpuFilterRuns o tracks static output' := by
  have hcell : ∀ v < static.dims.total, o.deviceFilterCell
      ((if tracks = [] then [fun _ => (0, 0)] else tracks).map fun tr => tr v) (static.data v) =
      o.filterCell (tracks.map fun tr => tr v) (static.data v) := by
    intro v hv
    by_cases ht : tracks = []
    · subst ht
      rw [if_pos rfl, C35_cell_filters_agree_partial hj ho (by
        intro c hc
        simp only [List.map_cons, List.map_nil, List.mem_singleton] at hc
        subst hc
        norm_num)]
      obtain ⟨rfl, h1, h2, _⟩ := make_ok ho
      unfold FilterOptions.filterCell
      have : (FilterOptions.mk (.fin ((m : ℚ) / 2 ^ j)) t n).countsSeenAs 0 0 = some .unknown := by
        unfold FilterOptions.countsSeenAs
        simp
      simp [FilterOptions.seenBy, this]
    · rw [if_neg ht, C35_cell_filters_agree_partial hj ho]
      intro c hcm
      obtain ⟨tr, htr, rfl⟩ := List.mem_map.1 hcm
      exact hc tr htr v hv
  unfold DeviceFilterRuns CpuFilterRuns
  simp only
  refine exists_congr fun data' => and_congr_left fun _ => ?_
  rw [filterRuns_iff, filterRuns_iff]
  have e1 : (∀ v < static.dims.total, (o.deviceFilterCell
      ((if tracks = [] then [fun _ => (0, 0)] else tracks).map fun tr => tr v) (static.data v)).isSome = true) ↔
      ∀ v < static.dims.total, (o.filterCell (tracks.map fun tr => tr v) (static.data v)).isSome = true :=
    forall₂_congr fun v hv => by rw [hcell v hv]
  rw [e1]
  refine and_congr_right fun _ => ?_
  have e2 : (fun v => if v < static.dims.total then newVal (fun v => o.deviceFilterCell
      ((if tracks = [] then [fun _ => (0, 0)] else tracks).map fun tr => tr v)) static.data v else static.data v) =
      fun v => if v < static.dims.total then newVal (fun v => o.filterCell (tracks.map fun tr => tr v)) static.data v
        else static.data v := by
    funext v
    by_cases hv : v < static.dims.total
    · rw [if_pos hv, if_pos hv]
      unfold newVal
      simp only [hcell v hv]
    · rw [if_neg hv, if_neg hv]
  rw [e2]

example : ∃ o, FilterOptions.make (.fin (((3 : ℤ) : ℚ) / 2 ^ 2)) 1 1 = some o ∧
    (∀ c ∈ [((1000 : ℤ), (12 : ℤ)), (0, 4000000)], 0 ≤ c.1 ∧ 0 ≤ c.2 ∧ (c.1 + c.2) * 2 ^ 2 ≤ 2 ^ 24) ∧
    o.deviceFilterCell [(1000, 12)] (.fin 0) = some (some (.fin 0)) ∧
    o.deviceFilterCell [(0, 4000000)] (.fin 0) = some (some (.fin 1)) := by
  refine ⟨⟨.fin (3 / 4), 1, 1⟩, by norm_num [FilterOptions.make, Fl.le, Fl.lt], by simp, by decide +kernel, by decide +kernel⟩

/-- C35 is false in general: the device compares in `float`.  With free-percentage 1/2 + 2^-30 and one hit of each kind
the CPU says filled and the device free; with the default options 2^25 free hits and one filled hit are filled for the
CPU, free for the device. -/
theorem C35_filters_differ :
    (∃ o, FilterOptions.make (.fin (1 / 2 + 1 / 2 ^ 30)) 1 1 = some o ∧
      o.filterCell [(1, 1)] (.fin 0) = some (some (.fin 1)) ∧
      o.deviceFilterCell [(1, 1)] (.fin 0) = some (some (.fin 0))) ∧
    FilterOptions.default.filterCell [(2 ^ 25, 1)] (.fin 0) = some (some (.fin 1)) ∧
    FilterOptions.default.deviceFilterCell [(2 ^ 25, 1)] (.fin 0) = some (some (.fin 0)) := by
  refine ⟨⟨⟨.fin (1 / 2 + 1 / 2 ^ 30), 1, 1⟩, ?_, ?_, ?_⟩, ?_, ?_⟩ <;> decide +kernel

/-! ### C39 -/

section
variable {K : Type} [Field K] [LinearOrder K] [IsStrictOrderedRing K] [FloorRing K]

/-- What `VoxelizePointClouds` must reject. -/
def InvalidInput (static output : VoxMap K) (clouds : List (Option (Cloud K))) : Prop :=
  static.initialized = false ∨ output.initialized = false ∨ static.dims ≠ output.dims ∨
    static.cellSize ≠ output.cellSize ∨ none ∈ clouds

/-- C39, maps and clouds: `VoxelizePointClouds` throws exactly on invalid input, and then the output map is unchanged. -/
theorem C39_invalid_input_rejected {norm : Vec K → K} {static output output' : VoxMap K} {o : FilterOptions}
    {clouds : List (Option (Cloud K))} {threw : Bool} (h : VoxelizeRuns norm static o clouds output threw output') :
    (threw = true ↔ InvalidInput static output clouds) ∧ (threw = true → output' = output) := by
  have hrej : voxelizeRejects static output clouds = true ↔ InvalidInput static output clouds := by
    unfold voxelizeRejects InvalidInput
    simp only [Bool.or_eq_true, Bool.not_eq_true', decide_eq_true_eq, List.any_eq_true, Option.isNone_iff_eq_none,
      exists_eq_right, or_assoc]
  unfold VoxelizeRuns at h
  split_ifs at h with hr
  · obtain ⟨rfl, rfl⟩ := h
    exact ⟨by simpa using hrej.1 hr, fun _ => rfl⟩
  · obtain ⟨rfl, _⟩ := h
    refine ⟨?_, by simp⟩
    simp only [Bool.false_eq_true, false_iff]
    exact fun hi => hr (hrej.2 hi)

example : ∃ out, VoxelizeRuns (fun _ => 0) (oneCell 0) .default [none] (oneCell 0) true out ∧
    InvalidInput (oneCell 0) (oneCell 0) [none] :=
  ⟨oneCell 0, by unfold VoxelizeRuns; rw [if_pos (by decide +kernel)]; exact ⟨rfl, rfl⟩, by simp [InvalidInput]⟩

example : VoxelizeRuns (fun _ => 0) (oneCell 0) .default [] (oneCell 0) false
    { oneCell 0 with data := fun v => if v < 1 then .fin (1 / 2) else .fin 0 } := by
  unfold VoxelizeRuns
  rw [if_neg (by decide +kernel)]
  exact ⟨rfl, oneCell_cpu _ 0 0 (by norm_num)⟩

/-- C39, point access: copying point `index` to position `at` of a vector throws unless the point exists and three values
fit, and then writes nothing; otherwise it writes exactly these three values.  Missing: positions within 3 of the
largest `int64_t` (`C39_huge_position_undefined`). -/
theorem C39_point_access_partial {V : Type} {cloud : List (V × V × V)} {dest : List V} {index pos : ℤ}
    (hpos : pos + 3 < 2 ^ 63) :
    ((copyPoint cloud index dest pos).1 = .ok ↔ 0 ≤ index ∧ index < cloud.length ∧ 0 ≤ pos ∧ pos + 3 ≤ dest.length) ∧
    ((copyPoint cloud index dest pos).1 ≠ .ok →
      (copyPoint cloud index dest pos).1 = .throws ∧ (copyPoint cloud index dest pos).2 = dest) ∧
    ((copyPoint cloud index dest pos).1 = .ok → ∀ p, cloud[index.toNat]? = some p →
      (copyPoint cloud index dest pos).2.length = dest.length ∧
      ∀ k : ℕ, k < dest.length → (copyPoint cloud index dest pos).2[k]? =
        if (k : ℤ) = pos then some p.1 else if (k : ℤ) = pos + 1 then some p.2.1
        else if (k : ℤ) = pos + 2 then some p.2.2 else dest[k]?) := by
  unfold copyPoint enforceVectorIndex enforcePointIndex
  by_cases h1 : pos < 0
  · rw [if_pos h1]
    refine ⟨⟨by simp, by omega⟩, by simp, by simp⟩
  rw [if_neg h1, if_neg (by omega : ¬ pos + 3 ≥ 2 ^ 63)]
  by_cases h2 : pos + 3 > (dest.length : ℤ)
  · rw [if_pos h2]
    refine ⟨⟨by simp, by omega⟩, by simp, by simp⟩
  rw [if_neg h2]
  by_cases h3 : index < 0 ∨ index ≥ (cloud.length : ℤ)
  · rw [if_pos h3]
    refine ⟨⟨by simp, by omega⟩, by simp, by simp⟩
  rw [if_neg h3]
  have hlt : index.toNat < cloud.length := by omega
  simp only [List.getElem?_eq_getElem hlt]
  refine ⟨⟨fun _ => by omega, fun _ => trivial⟩, by simp, ?_⟩
  intro _ p hp
  cases hp
  refine ⟨by simp, fun k hk => ?_⟩
  simp only [List.getElem?_set, List.length_set]
  split_ifs <;> first | rfl | (exfalso; omega)

example : copyPoint [(1, 2, 3), (4, 5, 6)] 1 [0, 0, 0, 0] 1 = (.ok, [0, 4, 5, 6]) ∧
    copyPoint [(1, 2, 3), (4, 5, 6)] 2 [0, 0, 0, 0] 1 = (.throws, [0, 0, 0, 0]) ∧
    copyPoint [(1, 2, 3), (4, 5, 6)] 1 [0, 0, 0, 0] 2 = (.throws, [0, 0, 0, 0]) ∧
    copyPoint [(1, 2, 3), (4, 5, 6)] (-1) [0, 0, 0, 0] 1 = (.throws, [0, 0, 0, 0]) := by decide +kernel

/-- C39 is false for a huge destination index: `vector_index + 3` overflows before it is compared. -/
theorem C39_huge_position_undefined : (copyPoint [((1 : ℤ), (2 : ℤ), (3 : ℤ))] 0 [0, 0, 0] (2 ^ 63 - 2)).1 = .ub := by
  decide +kernel

end

end VGT
