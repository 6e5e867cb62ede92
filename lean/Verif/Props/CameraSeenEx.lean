import Verif.Props.CameraSeen
import Verif.Props.PipelineEx

/-!
C74, C76: concrete cases for sensors outside the grid, and free cells behind an obstacle on devices.
-/
set_option autoImplicit false

namespace VGT
open VGT.EDT VGT.Spec VGT.Par

theorem before4_sensor : before4.sensor = ![-3 / 2, 1 / 2, 1 / 2] := by
  unfold before4
  rw [lookFrom_sensor]

theorem before4_only {x : Fin 3 → ℚ} (hx : some x ∈ before4.points) : x = ![4, 0, 0] := by simpa [before4, lookFrom] using hx

/-- The point is in the grid, so the ray does not end before it. -/
theorem before4_reaches {tol : ℚ} (h0 : 0 ≤ tol) (h1 : tol ≤ 1 / 2) :
    Reaches tol 1 (axisCells grid4.dims) before4.range before4.sensor (before4.place ![4, 0, 0]) := by
  refine ⟨1, zero_le_one, le_rfl, ?_, ?_⟩
  · rw [onSeg_one]
    exact before4_well h0 h1
  · rw [onSeg_one, before4_place]
    refine notShort_of_end fun a => ?_
    fin_cases a <;> norm_num [grid4, axisCells] <;> constructor <;> linarith

/-- The sensor is beside two pairs of sides, and the ray leads straight through the third. -/
theorem before4_steep {tol slope : ℚ} (h1 : tol ≤ 1 / 2) (hs0 : 0 ≤ slope) (hs1 : slope ≤ 1) :
    Steep tol slope 1 (axisCells grid4.dims) before4.sensor (before4.place ![4, 0, 0]) := by
  rw [before4_place, before4_sensor]
  intro a
  fin_cases a
  · right
    rw [show distSq ![-3 / 2, 1 / 2, 1 / 2] ![5 / 2, 1 / 2, 1 / 2] = 16 by unfold distSq; decide +kernel]
    have : slope ^ 2 ≤ 1 := pow_le_one₀ hs0 hs1
    show slope ^ 2 * 16 ≤ (5 / 2 - -3 / 2) ^ 2
    linarith
  · left; norm_num [grid4, axisCells]; constructor <;> linarith
  · left; norm_num [grid4, axisCells]; constructor <;> linarith

open Classical in
/-- The hypotheses for sensors outside the grid are met on the CPU: the camera before the grid frees cell (1, 0, 0)
(`C74_double_seen_is_free_outside_partial`), and therefore looked through it (`C74_double_free_is_seen_outside_partial`,
`C74_double_free_is_seen_or_short`). -/
example {sqrt : Fl → Fl} (hs : IeeeSqrt sqrt) :
    ∃ output', FlVoxelizeRuns double64 sqrt grid4 ⟨.fin 1, 1, 1⟩ ([before4].map Camera3.cloud) dark4 output' ∧
      output'.data (dataIndex grid4.dims ![1, 0, 0]) = .fin 0 ∧
      (1 : ℤ) ≤ [before4].countP (fun c => decide (∃ x, some x ∈ c.points ∧ SeenNear (doubleReachTol 1 6 48 8) 1 c.range c.sensor (c.place x) ![1, 0, 0])) ∧
      (1 : ℤ) ≤ [before4].countP (fun c => decide (∃ x, some x ∈ c.points ∧ (SeenNear (doubleReachTol 1 6 48 8) 1 c.range c.sensor (c.place x) ![1, 0, 0] ∨
        ¬ Reaches (doubleWideTol 1 6 48 8) 1 (axisCells grid4.dims) c.range c.sensor (c.place x)))) := by
  have G := grid4_double (n := 6) (by norm_num) (by norm_num)
  have ho : FilterOptions.make (.fin 1) 1 1 = some ⟨.fin 1, 1, 1⟩ := by decide +kernel
  have hlen : ∀ c ∈ [before4], c.points.length < 2 ^ 31 := by decide
  have hsize : ∀ a, ∃ z, grid4.size a = .fin z ∧ |z - axisCells grid4.dims a * 1| ≤ 48 * 1 / 2 ^ 53 := by
    intro a; exact ⟨4, rfl, by fin_cases a <;> norm_num [grid4, axisCells]⟩
  have hall : ∀ {Q : Camera3 → Prop}, Q before4 → ∀ c ∈ [before4], Q c := by
    intro Q hQ c hc
    obtain rfl := List.mem_singleton.1 hc
    exact hQ
  have hrange : DoubleRange before4.range := ⟨by decide, fun r hr => by
    have : r = 5 := by simpa [before4, lookFrom] using hr.symm
    rw [this]
    norm_num⟩
  have hreach : ∀ a, 8 * |before4.sensor a| + 264 * 8 / 2 ^ 53 ≤ 48 * 1 := by
    rw [before4_sensor]
    intro a
    fin_cases a <;> norm_num [abs_of_neg, abs_of_pos]
  have hx : some ![4, 0, 0] ∈ before4.points := List.mem_singleton_self _
  obtain ⟨out, hout, -⟩ := before4_run hs
  have hzero : out.data (dataIndex grid4.dims ![1, 0, 0]) = .fin 0 := by
    refine C74_double_seen_is_free_outside_partial hs G (n := 48) (by norm_num) (by norm_num) hsize (by norm_num) ho hlen (cams := [before4]) (hall before4_within) rfl hout
      (by unfold CellInGrid; decide) (by decide +kernel) (hall fun x hx => ?_) ?_
    · obtain rfl := before4_only hx
      rw [before4_place]
      rintro ⟨h1, -⟩
      have := (h1 0).2
      norm_num [doubleReachTol] at this
    · have : 0 < [before4].countP fun c => decide (DoubleRange c.range ∧ (∀ a, 8 * |c.sensor a| + 264 * 8 / 2 ^ 53 ≤ 48 * 1) ∧
          ∃ x, some x ∈ c.points ∧ SeenDeep (doubleWideTol 1 6 48 8) 1 c.range c.sensor (c.place x) ![1, 0, 0] ∧
          Steep (doubleWideTol 1 6 48 8) (doubleSlope 1 48) 1 (axisCells grid4.dims) c.sensor (c.place x)) := by
        refine List.countP_pos_iff.2 ⟨_, List.mem_singleton_self _, decide_eq_true ⟨hrange, hreach, _, hx, ⟨3 / 4, by norm_num, by norm_num, ?_, ?_⟩,
          before4_steep (by norm_num [doubleWideTol]) (by norm_num [doubleSlope]) (by norm_num [doubleSlope])⟩⟩
        · rw [before4_place, before4_sensor]
          intro a
          fin_cases a <;> norm_num [doubleWideTol, onSeg]
        · intro r hr
          have : r = 5 := by simpa [before4, lookFrom] using hr.symm
          rw [this, before4_place, before4_sensor, distSq_onSeg,
            show distSq ![-3 / 2, 1 / 2, 1 / 2] ![5 / 2, 1 / 2, 1 / 2] = 16 by unfold distSq; decide +kernel]
          norm_num [doubleWideTol]
      exact_mod_cast this
  refine ⟨out, hout, hzero, ?_, ?_⟩
  · exact C74_double_free_is_seen_outside_partial hs G (n := 48) (by norm_num) (by norm_num) hsize ho hlen (cams := [before4]) (hall before4_within) (hall hrange)
      (hall hreach) (hall fun x hx => by
        obtain rfl := before4_only hx
        exact before4_reaches (by norm_num [doubleWideTol]) (by norm_num [doubleWideTol])) rfl hout (by unfold CellInGrid; decide)
      (by decide +kernel) hzero
  · exact C74_double_free_is_seen_or_short hs G (n := 48) (by norm_num) (by norm_num) hsize ho hlen (cams := [before4]) (hall before4_within) (hall hrange)
      (hall hreach) rfl hout (by unfold CellInGrid; decide) (by decide +kernel) hzero

open Classical in
/-- The same on an OpenCL device (`C76_float_free_is_seen_outside_partial`, `C76_float_free_is_seen_or_short`). -/
example {sqrt : Fl → Fl} (hs : FloatSqrt sqrt) :
    ∃ output', DeviceVoxelizeRuns openclApi float32 sqrt grid4 ⟨.fin 1, 1, 1⟩ ([before4].map (Camera3.dev floatR)) dark4 dark4 output' ∧
      output'.data (dataIndex grid4.dims ![1, 0, 0]) = .fin 0 ∧
      (1 : ℤ) ≤ [before4].countP (fun c => decide (∃ x, some x ∈ c.points ∧ SeenNear (floatReachTol 1 6 48 8) 1 c.range c.sensor (c.place x) ![1, 0, 0])) := by
  have ho : FilterOptions.make (.fin 1) 1 1 = some ⟨.fin 1, 1, 1⟩ := by decide +kernel
  have hh : Helper (F := Fl) openclApi ([before4].map (Camera3.dev floatR)) := .inl ⟨rfl, by simp [before4, lookFrom, Camera3.dev]⟩
  have hN : grid4.dims.total * 2 * numTrackingGrids ([before4].map (Camera3.dev floatR)) < 2 ^ 31 := by decide
  have hlen : ∀ c ∈ [before4], c.points.length ≤ 2 ^ 24 := by decide
  have hsize : ∀ a, ∃ z, grid4.size a = .fin z ∧ |z - axisCells grid4.dims a * 1| ≤ 48 * 1 / 2 ^ 26 := by
    intro a; exact ⟨4, rfl, by fin_cases a <;> norm_num [grid4, axisCells]⟩
  have hall : ∀ {Q : Camera3 → Prop}, Q before4 → ∀ c ∈ [before4], Q c := by
    intro Q hQ c hc
    obtain rfl := List.mem_singleton.1 hc
    exact hQ
  have hrange : FloatRange before4.range := ⟨by decide, fun r hr => by
    have : r = 5 := by simpa [before4, lookFrom] using hr.symm
    rw [this]
    norm_num⟩
  have hreach : ∀ a, 9 * |before4.sensor a| + 297 * 8 / 2 ^ 24 ≤ 48 * 1 := by
    rw [before4_sensor]
    intro a
    fin_cases a <;> norm_num [abs_of_neg, abs_of_pos]
  obtain ⟨out, hout, -⟩ := before4_float_run hs
  have hputs : ∀ m, DevPuts float32 sqrt grid4 (before4.dev floatR) m (some fun a => floatR (![4, 0, 0] a)) ↔
      m ∈ [Mark.filled ![2, 0, 0], .free ![0, 0, 0], .free ![1, 0, 0]] := by
    intro m
    unfold DevPuts
    rw [before4_dev hs]
    simp
  have hcount : ∀ m, devHits float32 sqrt grid4 (before4.dev floatR) m =
      if m ∈ [Mark.filled ![2, 0, 0], .free ![0, 0, 0], .free ![1, 0, 0]] then 1 else 0 := by
    intro m
    unfold devHits
    show List.countP _ [some fun a => floatR (![4, 0, 0] a)] = _
    rw [List.countP_cons, List.countP_nil]
    simp only [hputs m, decide_eq_true_eq]
    split_ifs <;> rfl
  have hzero : out.data (dataIndex grid4.dims ![1, 0, 0]) = .fin 0 := by
    rw [C57_device_decision hh hN ho (devs_length hlen) (g := grid4) rfl hout (i := ![1, 0, 0]) (by unfold CellInGrid; decide) (by decide +kernel)]
    unfold devCounts
    simp only [List.map_cons, List.map_nil, hcount]
    rw [decision_eq_zero]
    refine ⟨?_, ?_⟩
    · rintro ⟨x, hx, hs⟩
      obtain rfl := List.mem_singleton.1 hx
      exact absurd hs.1 (by decide)
    · rw [List.countP_cons, List.countP_nil, if_pos]
      · decide
      · rw [decide_eq_true_iff]
        exact ⟨by decide, .inl (by decide +kernel)⟩
  refine ⟨out, hout, hzero, ?_⟩
  exact C76_float_free_is_seen_outside_partial hs grid4_float (n := 48) (by norm_num) (by norm_num) hsize hh hN ho hlen (hall before4_within)
      (hall (lookFrom_turns _ _ _)) (hall hrange)
      (hall hreach) (hall fun x hx => by
        obtain rfl := before4_only hx
        exact before4_reaches (by norm_num [floatWideTol]) (by norm_num [floatWideTol])) rfl hout (by unfold CellInGrid; decide)
      (by decide +kernel) hzero

/-! ### Free cells behind an obstacle, on devices -/

theorem short4_dev {sqrt : Fl → Fl} (hs : FloatSqrt sqrt) : kernelPoint float32 sqrt grid4 (short4.dev floatR)
    (some fun a => floatR (![1, 0, 0] a)) = some [.free ![0, 0, 0]] := by
  have e : flLength float32 sqrt (kernelOrigin (short4.dev floatR).tf)
      (kernelTransform float32 (short4.dev floatR).tf fun a => floatR (![1, 0, 0] a)) = .fin 1 := by
    unfold flLength
    refine Eq.trans (congrArg sqrt ?_) (floatSqrt_sq hs (m := 1) (by norm_num))
    decide +kernel
  unfold kernelPoint
  dsimp only
  rw [e]
  decide +kernel

open Classical in
/-- C76, negative: free cells need not have been looked through if the sensor is outside the grid, on devices too.  A camera two cells before
the grid that measures an obstacle one cell before the grid, and nothing else, makes cell (0, 0, 0) free, which is behind the obstacle:
its line of sight never comes within half a cell of it. -/
theorem C76_free_behind_the_obstacle {sqrt : Fl → Fl} (hs : FloatSqrt sqrt) :
    (∃ output', DeviceVoxelizeRuns openclApi float32 sqrt grid4 ⟨.fin 1, 1, 1⟩ ([short4].map (Camera3.dev floatR)) dark4 dark4 output' ∧
      output'.data (dataIndex grid4.dims ![0, 0, 0]) = .fin 0) ∧
    ∀ x, some x ∈ short4.points → ¬ SeenNear (1 / 2) 1 short4.range short4.sensor (short4.place x) ![0, 0, 0] := by
  have ho : FilterOptions.make (.fin 1) 1 1 = some ⟨.fin 1, 1, 1⟩ := by decide +kernel
  have hh : Helper (F := Fl) openclApi ([short4].map (Camera3.dev floatR)) := .inl ⟨rfl, by simp [short4, lookFrom, Camera3.dev]⟩
  have hN : grid4.dims.total * 2 * numTrackingGrids ([short4].map (Camera3.dev floatR)) < 2 ^ 31 := by decide
  have hlen : ∀ c ∈ [short4], c.points.length ≤ 2 ^ 24 := by decide
  obtain ⟨ieee, hieee⟩ := ieeeSqrt_exists
  refine ⟨?_, (C74_free_behind_the_obstacle hieee).2⟩
  obtain ⟨out, hout⟩ := (C57_device_defined (A := float32) (sqrt := sqrt) (g := grid4) hh hN ho (devs_length hlen) (static := dark4)
      (output := dark4) rfl).2 (by
    intro c hc x hx
    obtain rfl := List.mem_singleton.1 hc
    obtain rfl : x = some fun a => floatR (![1, 0, 0] a) := by simpa [Camera3.dev, short4, lookFrom] using hx
    rw [short4_dev hs]
    rfl)
  refine ⟨out, hout, ?_⟩
  have hputs : ∀ m, DevPuts float32 sqrt grid4 (short4.dev floatR) m (some fun a => floatR (![1, 0, 0] a)) ↔
      m ∈ [Mark.free ![0, 0, 0]] := by
    intro m
    unfold DevPuts
    rw [short4_dev hs]
    simp
  have hcount : ∀ m, devHits float32 sqrt grid4 (short4.dev floatR) m = if m ∈ [Mark.free ![0, 0, 0]] then 1 else 0 := by
    intro m
    unfold devHits
    show List.countP _ [some fun a => floatR (![1, 0, 0] a)] = _
    rw [List.countP_cons, List.countP_nil]
    simp only [hputs m, decide_eq_true_eq]
    split_ifs <;> rfl
  rw [C57_device_decision hh hN ho (devs_length hlen) (g := grid4) rfl hout (i := ![0, 0, 0]) (by unfold CellInGrid; decide) (by decide +kernel)]
  unfold devCounts
  simp only [List.map_cons, List.map_nil, hcount]
  rw [decision_eq_zero]
  refine ⟨?_, ?_⟩
  · rintro ⟨x, hx, hs⟩
    obtain rfl := List.mem_singleton.1 hx
    exact absurd hs.1 (by decide)
  · rw [List.countP_cons, List.countP_nil, if_pos]
    · decide
    · rw [decide_eq_true_iff]
      exact ⟨by decide, .inl (by decide +kernel)⟩

end VGT
