import Verif.Props.World
import Verif.Props.PipelineEx

/-!
C78: concrete cases, a grid turned by a right angle and shifted in the world.
-/
set_option autoImplicit false

namespace VGT
open VGT.EDT VGT.Spec VGT.Par

/-- The pose of the world in the frame of the grid: `(w₁ - 1, 3 - w₀, w₂)`. -/
def turnedGrid : ℕ → ℚ := fun k =>
  if k = 1 ∨ k = 12 then -1 else if k = 4 ∨ k = 10 ∨ k = 15 then 1 else if k = 13 then 3 else 0

theorem third {α : Type} (a b c : α) : (![a, b, c] : Fin 3 → α) 2 = c := rfl

theorem turnedGrid_place (w : Fin 3 → ℚ) : placeInGrid turnedGrid w = ![w 1 - 1, 3 - w 0, w 2] := by
  funext a
  fin_cases a <;> simp [placeInGrid, turnedGrid] <;> ring

/-- A camera that measures one point askew, and another that fails. -/
def askewWorld : Camera3 := lookFrom ![5 / 2, 3 / 2, 1 / 2] .pinf [some ![-1, 2, 0], none]

theorem askewWorld_posed : Posed turnedGrid 8 askewWorld where
  rows := by intro a; fin_cases a <;> norm_num [turnedGrid]
  cols := by intro b; fin_cases b <;> norm_num [askewWorld, lookFrom]
  grid := by intro a; fin_cases a <;> norm_num [turnedGrid]
  shift := by intro a; fin_cases a <;> norm_num [askewWorld, lookFrom, abs_of_pos, third]
  points := by
    intro x hx
    have : x = ![-1, 2, 0] := by simpa [askewWorld, lookFrom] using hx
    subst this
    intro a
    fin_cases a <;> norm_num

theorem askewWorld_sensor : askewWorld.sensorIn turnedGrid = fun _ => 1 / 2 := by
  unfold Camera3.sensorIn askewWorld
  rw [turnedGrid_place, lookFrom_sensor]
  funext a
  fin_cases a <;> norm_num [third]

theorem askewWorld_place : askewWorld.placeIn turnedGrid ![-1, 2, 0] = ![5 / 2, 3 / 2, 1 / 2] := by
  unfold Camera3.placeIn askewWorld
  rw [turnedGrid_place, lookFrom_place]
  funext a
  fin_cases a <;> norm_num [third]

theorem grid4_double40 : DoubleGrid 1 6 (5 * 8) grid4 where
  s_ge := by norm_num
  s_le := by norm_num
  cell := rfl
  inv := by decide +kernel
  dims := by intro a; fin_cases a <;> norm_num [grid4, axisCells]
  n_ge := by norm_num
  n_le := by norm_num
  B_ge := by norm_num
  B_le := by norm_num

theorem grid4_float40 : FloatGrid 1 1 6 (5 * 8) grid4 where
  e_ge := by norm_num
  e_le := by norm_num
  inverse := by norm_num
  cell := by decide +kernel
  inv := by decide +kernel
  dims := by intro a; fin_cases a <;> norm_num [grid4, axisCells]
  n_ge := by norm_num
  n_le := by norm_num
  B_ge := by norm_num
  B_le := by norm_num

theorem askewWorld_deep {tol : ℚ} (h : tol ≤ 1 / 10) : DeepInGrid tol 1 (axisCells grid4.dims) (askewWorld.sensorIn turnedGrid) := by
  rw [askewWorld_sensor]
  intro a
  fin_cases a <;> norm_num [grid4, axisCells] <;> constructor <;> linarith

theorem askewWorld_deep' {tol : ℚ} (h : tol ≤ 1 / 10) :
    DeepInGrid tol 1 (axisCells grid4.dims) (askewWorld.placeIn turnedGrid ![-1, 2, 0]) := by
  rw [askewWorld_place]
  intro a
  fin_cases a <;> norm_num [grid4, axisCells] <;> constructor <;> linarith

theorem askewWorld_box {tol : ℚ} (h : tol ≤ 1 / 10) : DeepBox tol 1 ![2, 1, 0] (askewWorld.placeIn turnedGrid ![-1, 2, 0]) := by
  rw [askewWorld_place]
  intro a
  fin_cases a <;> norm_num <;> constructor <;> linarith

theorem askewWorld_seen {tol : ℚ} (h : tol ≤ 1 / 10) :
    SeenDeep tol 1 askewWorld.range (askewWorld.sensorIn turnedGrid) (askewWorld.placeIn turnedGrid ![-1, 2, 0]) ![1, 0, 0] := by
  refine ⟨3 / 8, by norm_num, by norm_num, ?_, fun r hr => by cases hr⟩
  rw [askewWorld_place, askewWorld_sensor]
  intro a
  fin_cases a <;> norm_num [onSeg] <;> constructor <;> linarith

theorem askewWorld_well {tol : ℚ} (x : Fin 3 → ℚ) : WellWithin tol askewWorld.range (askewWorld.sensorIn turnedGrid) (askewWorld.placeIn turnedGrid x) :=
  fun r hr => by cases hr

theorem askewWorld_only {x : Fin 3 → ℚ} (hx : some x ∈ askewWorld.points) : x = ![-1, 2, 0] := by
  simpa [askewWorld, lookFrom] using hx

theorem askewWorld_mem : some ![-1, 2, 0] ∈ askewWorld.points := List.mem_cons_self

theorem askewWorld_away {tol : ℚ} (h : tol ≤ 1 / 10) {i : IVec} (hi : i 0 ≤ 1 ∨ 1 ≤ i 2) {x : Fin 3 → ℚ} (hx : some x ∈ askewWorld.points) :
    ¬ NearBox tol 1 i (askewWorld.placeIn turnedGrid x) := by
  rw [askewWorld_only hx, askewWorld_place]
  intro hn
  rcases hi with hi | hi
  · have h1 := (hn 0).2
    have h2 : (i 0 : ℚ) ≤ 1 := by exact_mod_cast hi
    have h3 : (![5 / 2, 3 / 2, 1 / 2] : Fin 3 → ℚ) 0 = 5 / 2 := rfl
    rw [h3] at h1
    linarith
  · have h1 := (hn 2).1
    have h2 : (1 : ℚ) ≤ i 2 := by exact_mod_cast hi
    have h3 : (![5 / 2, 3 / 2, 1 / 2] : Fin 3 → ℚ) 2 = 1 / 2 := rfl
    rw [h3] at h1
    linarith

theorem one_camera {c : Camera3} {Q : Camera3 → Prop} [DecidablePred Q] (h : Q c) : (1 : ℤ) ≤ [c].countP fun c => decide (Q c) := by
  have : 0 < [c].countP fun c => decide (Q c) := List.countP_pos_iff.2 ⟨c, List.mem_singleton_self _, decide_eq_true h⟩
  exact_mod_cast this

theorem one_point {c : Camera3} {x : Fin 3 → ℚ} {Q : (Fin 3 → ℚ) → Prop} (hx : some x ∈ c.points) (h : Q x) : (1 : ℤ) ≤ c.howMany Q := by
  classical
  unfold Camera3.howMany
  have : 0 < c.points.countP fun y => decide (∃ x, y = some x ∧ Q x) := List.countP_pos_iff.2 ⟨_, hx, decide_eq_true ⟨x, rfl, h⟩⟩
  exact_mod_cast this

theorem world_tol : doubleTol 1 6 (5 * 8) + poseTol 8 ≤ 1 / 10 ∧ doubleWideTol 1 6 48 (5 * 8) + poseTol 8 ≤ 1 / 10 ∧
    floatTol 1 6 (5 * 8) + poseTol 8 ≤ 1 / 10 ∧ floatWideTol 1 6 48 (5 * 8) + poseTol 8 ≤ 1 / 10 := by
  refine ⟨?_, ?_, ?_, ?_⟩ <;> norm_num [doubleTol, doubleWideTol, floatTol, floatWideTol, poseTol]

theorem only_askew {Q : Camera3 → Prop} (h : Q askewWorld) : ∀ c ∈ [askewWorld], Q c := fun c hcm => by
  obtain rfl := List.mem_singleton.1 hcm
  exact h

theorem askewWorld_double : DoubleRange askewWorld.range := ⟨by decide, fun r hr => by cases hr⟩

theorem askewWorld_float : FloatRange askewWorld.range := ⟨by decide, fun r hr => by cases hr⟩

theorem askewWorld_range : ∀ r, askewWorld.range = .fin r → 0 ≤ r := fun r hr => by cases hr

theorem plain_filter : FilterOptions.make (.fin 1) 1 1 = some ⟨.fin 1, 1, 1⟩ := by decide +kernel

theorem dark4_half (i : IVec) : (dark4.data (dataIndex grid4.dims i)).le (.fin (1 / 2)) = true := by simp [dark4, Fl.le]

theorem askewWorld_reach : ∀ a, 8 * |askewWorld.sensorIn turnedGrid a| + 1440 * 8 / 2 ^ 53 ≤ (48 : ℚ) * 1 := by
  rw [askewWorld_sensor]
  intro a
  norm_num

theorem askewWorld_reach_float : ∀ a, 9 * |askewWorld.sensorIn turnedGrid a| + 1486 * 8 / 2 ^ 24 ≤ (48 : ℚ) * 1 := by
  rw [askewWorld_sensor]
  intro a
  norm_num

theorem grid4_size {E : ℚ} (hE : 0 ≤ E) : ∀ a, ∃ z, grid4.size a = .fin z ∧ |z - axisCells grid4.dims a * 1| ≤ E := by
  intro a
  refine ⟨4, rfl, ?_⟩
  fin_cases a <;> norm_num [grid4, axisCells] <;> exact hE

open Classical in
/-- The hypotheses of the theorems about the CPU are met, in any order of additions: there is a run (`C78_has_result`), the cell with the
point becomes filled (`C78_obstacle_is_filled`), a cell on the way free (`C78_seen_is_free_partial`), as is seen again from the result
(`C78_filled_is_real`, `C78_free_is_seen_or_short`). -/
theorem askewWorld_run {sqrt : Fl → Fl} (hs : IeeeSqrt sqrt) (late : ℕ → Bool) : ∃ output',
    FlVoxelizeRuns double64 sqrt grid4 ⟨.fin 1, 1, 1⟩ ([askewWorld].map (Camera3.cloudIn late turnedGrid)) dark4 output' ∧
    output'.data (dataIndex grid4.dims ![2, 1, 0]) = .fin 1 ∧ output'.data (dataIndex grid4.dims ![1, 0, 0]) = .fin 0 ∧
    (∃ c ∈ [askewWorld], (1 : ℤ) ≤ c.howMany fun x => NearBox (doubleTol 1 6 (5 * 8) + poseTol 8) 1 ![2, 1, 0] (c.placeIn turnedGrid x) ∧
      NotBeyond (doubleTol 1 6 (5 * 8) + poseTol 8) c.range (c.sensorIn turnedGrid) (c.placeIn turnedGrid x)) ∧
    (1 : ℤ) ≤ [askewWorld].countP fun c => decide (∃ x, some x ∈ c.points ∧
      (SeenNear (doubleReachTol 1 6 48 (5 * 8) + poseTol 8) 1 c.range (c.sensorIn turnedGrid) (c.placeIn turnedGrid x) ![1, 0, 0] ∨
      ¬ Reaches (doubleWideTol 1 6 48 (5 * 8) + poseTol 8) 1 (axisCells grid4.dims) c.range (c.sensorIn turnedGrid) (c.placeIn turnedGrid x))) := by
  have G := grid4_double40
  have hB : (1 : ℚ) / 2 ^ 60 ≤ 8 := by norm_num
  have hlen : ∀ c ∈ [askewWorld], c.points.length < 2 ^ 31 := by decide
  have hc := only_askew askewWorld_posed
  have hr := only_askew (Q := fun c => DoubleRange c.range) askewWorld_double
  have hr0 := only_askew (Q := fun c => ∀ r, c.range = .fin r → 0 ≤ r) askewWorld_range
  have hi : CellInGrid (axisCells grid4.dims) ![2, 1, 0] := by unfold CellInGrid; decide
  have hj : CellInGrid (axisCells grid4.dims) ![1, 0, 0] := by unfold CellInGrid; decide
  have hsize := grid4_size (E := 48 * 1 / 2 ^ 53) (by norm_num)
  obtain ⟨out, hout⟩ := C78_has_result (late := late) hs G hB (by norm_num) plain_filter hlen hc hr
    (only_askew (Q := fun c => DeepInGrid (doubleTol 1 6 (5 * 8) + poseTol 8) 1 (axisCells grid4.dims) (c.sensorIn turnedGrid))
      (askewWorld_deep world_tol.1)) (output := dark4) rfl
  have h1 : out.data (dataIndex grid4.dims ![2, 1, 0]) = .fin 1 := C78_obstacle_is_filled (n := 48) hs G hB (by norm_num) (by norm_num)
    hsize plain_filter hlen hc rfl hout hi (dark4_half _) (List.mem_singleton_self _) askewWorld_double askewWorld_reach
    (one_point askewWorld_mem ⟨askewWorld_box world_tol.2.1, askewWorld_well _⟩)
  have h0 : out.data (dataIndex grid4.dims ![1, 0, 0]) = .fin 0 := C78_seen_is_free_partial hs G hB plain_filter hlen hc hr0 rfl hout hj
    (dark4_half _) (only_askew (Q := fun c => ∀ x, some x ∈ c.points → ¬ (NearBox (doubleTol 1 6 (5 * 8) + poseTol 8) 1 ![1, 0, 0]
      (c.placeIn turnedGrid x) ∧ NotBeyond (doubleTol 1 6 (5 * 8) + poseTol 8) c.range (c.sensorIn turnedGrid) (c.placeIn turnedGrid x)))
      fun x hx h => askewWorld_away world_tol.1 (.inl (by decide)) hx h.1)
    (one_camera (Q := fun c => DoubleRange c.range ∧ DeepInGrid (doubleTol 1 6 (5 * 8) + poseTol 8) 1 (axisCells grid4.dims) (c.sensorIn turnedGrid) ∧
      ∃ x, some x ∈ c.points ∧ SeenDeep (doubleTol 1 6 (5 * 8) + poseTol 8) 1 c.range (c.sensorIn turnedGrid) (c.placeIn turnedGrid x) ![1, 0, 0])
      ⟨askewWorld_double, askewWorld_deep world_tol.1, _, askewWorld_mem, askewWorld_seen world_tol.1⟩)
  exact ⟨out, hout, h1, h0, C78_filled_is_real hs G hB plain_filter hlen hc hr0 rfl hout hi (dark4_half _) h1,
    C78_free_is_seen_or_short (n := 48) hs G hB (by norm_num) (by norm_num) hsize plain_filter hlen hc hr
      (only_askew (Q := fun c => ∀ a, 8 * |c.sensorIn turnedGrid a| + 1440 * 8 / 2 ^ 53 ≤ (48 : ℚ) * 1) askewWorld_reach) rfl hout hj
      (dark4_half _) h0⟩

theorem askewWorld_cuda (late : ℕ → Bool) : Helper (F := Fl) (cudaApi 256) ([askewWorld].map (Camera3.devIn floatR late turnedGrid)) ∧
    grid4.dims.total * 2 * numTrackingGrids ([askewWorld].map (Camera3.devIn floatR late turnedGrid)) < 2 ^ 31 :=
  ⟨.inr ⟨256, by norm_num, rfl, by simp [askewWorld, lookFrom, Camera3.devIn]⟩, by
    rw [show numTrackingGrids ([askewWorld].map (Camera3.devIn floatR late turnedGrid)) = 1 from rfl]
    decide⟩

open Classical in
/-- The same on a CUDA device (`C78_device_has_result`, `C78_device_obstacle_is_filled`, `C78_device_seen_is_free_partial`,
`C78_device_filled_is_real`, `C78_device_free_is_seen_or_short`). -/
theorem askewWorld_device {sqrt : Fl → Fl} (hs : FloatSqrt sqrt) (late : ℕ → Bool) : ∃ output',
    DeviceVoxelizeRuns (cudaApi 256) float32 sqrt grid4 ⟨.fin 1, 1, 1⟩ ([askewWorld].map (Camera3.devIn floatR late turnedGrid)) dark4 dark4 output' ∧
    output'.data (dataIndex grid4.dims ![2, 1, 0]) = .fin 1 ∧ output'.data (dataIndex grid4.dims ![1, 0, 0]) = .fin 0 ∧
    (∃ c ∈ [askewWorld], (1 : ℤ) ≤ c.howMany fun x => NearBox (floatTol 1 6 (5 * 8) + poseTol 8) 1 ![2, 1, 0] (c.placeIn turnedGrid x) ∧
      NotBeyond (floatTol 1 6 (5 * 8) + poseTol 8) c.range (c.sensorIn turnedGrid) (c.placeIn turnedGrid x)) ∧
    (1 : ℤ) ≤ [askewWorld].countP fun c => decide (∃ x, some x ∈ c.points ∧
      (SeenNear (floatReachTol 1 6 48 (5 * 8) + poseTol 8) 1 c.range (c.sensorIn turnedGrid) (c.placeIn turnedGrid x) ![1, 0, 0] ∨
      ¬ Reaches (floatWideTol 1 6 48 (5 * 8) + poseTol 8) 1 (axisCells grid4.dims) c.range (c.sensorIn turnedGrid) (c.placeIn turnedGrid x))) := by
  have G := grid4_float40
  obtain ⟨hh, hN⟩ := askewWorld_cuda late
  have hlen : ∀ c ∈ [askewWorld], c.points.length ≤ 2 ^ 24 := by decide
  have hc := only_askew askewWorld_posed
  have hr := only_askew (Q := fun c => FloatRange c.range) askewWorld_float
  have hr0 := only_askew (Q := fun c => ∀ r, c.range = .fin r → 0 ≤ r) askewWorld_range
  have hi : CellInGrid (axisCells grid4.dims) ![2, 1, 0] := by unfold CellInGrid; decide
  have hj : CellInGrid (axisCells grid4.dims) ![1, 0, 0] := by unfold CellInGrid; decide
  have hsize := grid4_size (E := 48 * 1 / 2 ^ 26) (by norm_num)
  obtain ⟨-, -, t1, t2⟩ := world_tol
  obtain ⟨out, hout⟩ := C78_device_has_result (static := dark4) (output := dark4) hs G (by norm_num) hh hN plain_filter hlen hc hr
    (only_askew (Q := fun c => DeepInGrid (floatTol 1 6 (5 * 8) + poseTol 8) 1 (axisCells grid4.dims) (c.sensorIn turnedGrid))
      (askewWorld_deep t1)) rfl
  have h1 : out.data (dataIndex grid4.dims ![2, 1, 0]) = .fin 1 := C78_device_obstacle_is_filled (n := 48) hs G (by norm_num) (by norm_num)
    hsize hh hN plain_filter hlen hc rfl hout hi (dark4_half _) (List.mem_singleton_self _) askewWorld_float askewWorld_reach_float
    (one_point askewWorld_mem ⟨askewWorld_box t2, askewWorld_well _⟩)
  have h0 : out.data (dataIndex grid4.dims ![1, 0, 0]) = .fin 0 := C78_device_seen_is_free_partial hs G hh hN plain_filter hlen hc hr0 rfl hout hj
    (dark4_half _) (only_askew (Q := fun c => ∀ x, some x ∈ c.points → ¬ (NearBox (floatTol 1 6 (5 * 8) + poseTol 8) 1 ![1, 0, 0]
      (c.placeIn turnedGrid x) ∧ NotBeyond (floatTol 1 6 (5 * 8) + poseTol 8) c.range (c.sensorIn turnedGrid) (c.placeIn turnedGrid x)))
      fun x hx h => askewWorld_away t1 (.inl (by decide)) hx h.1)
    (one_camera (Q := fun c => FloatRange c.range ∧ DeepInGrid (floatTol 1 6 (5 * 8) + poseTol 8) 1 (axisCells grid4.dims) (c.sensorIn turnedGrid) ∧
      ∃ x, some x ∈ c.points ∧ SeenDeep (floatTol 1 6 (5 * 8) + poseTol 8) 1 c.range (c.sensorIn turnedGrid) (c.placeIn turnedGrid x) ![1, 0, 0])
      ⟨askewWorld_float, askewWorld_deep t1, _, askewWorld_mem, askewWorld_seen t1⟩)
  exact ⟨out, hout, h1, h0, C78_device_filled_is_real hs G hh hN plain_filter hlen hc hr0 rfl hout hi (dark4_half _) h1,
    C78_device_free_is_seen_or_short (n := 48) hs G (by norm_num) (by norm_num) hsize hh hN plain_filter hlen hc hr
      (only_askew (Q := fun c => ∀ a, 9 * |c.sensorIn turnedGrid a| + 1486 * 8 / 2 ^ 24 ≤ (48 : ℚ) * 1) askewWorld_reach_float) rfl hout hj
      (dark4_half _) h0⟩

/-! ### Queries in the world -/

/-- The pose of the grid in the world. -/
noncomputable def turnedPose : Pose ℝ := ⟨![![0, -1, 0], ![1, 0, 0], ![0, 0, 1]], ![3, 1, 0]⟩

theorem turnedPose_orthogonal : Orthogonal turnedPose.R := by
  constructor <;> intro a b <;> fin_cases a <;> fin_cases b <;> simp [turnedPose]

/-- From the world to the grid, without rounding. -/
noncomputable def toTurned (l : Vec4 ℝ) : Fin 3 → ℝ := ![l.v 1 - 1, 3 - l.v 0, l.v 2]

/-- The location of the query in the world. -/
noncomputable def turnedCorner : Fin 3 → ℝ := ![1 / 2, 5 / 2, 5 / 2]

theorem toTurned_corner : toTurned (point4 turnedCorner) = corner := by
  funext a
  fin_cases a <;> norm_num [toTurned, point4, turnedCorner, corner, third]

theorem turned_frame : InFrame turnedPose.R turnedPose.t corner turnedCorner := by
  intro a
  fin_cases a <;> norm_num [turnedPose, corner, turnedCorner, third]

/-- Places of the world are where their places in the grid are. -/
theorem turned_back (w : Fin 3 → ℚ) : InFrame turnedPose.R turnedPose.t (fun a => (placeInGrid turnedGrid w a : ℝ)) fun a => (w a : ℝ) := by
  rw [turnedGrid_place]
  intro a
  fin_cases a <;> simp [turnedPose]

theorem turned_answers {toGrid : Vec4 ℝ → Fin 3 → ℝ} (ht : toGrid (point4 turnedCorner) = corner) {output' : VoxMap ℚ} (hl : output'.dims = ⟨4, 4, 4⟩ ∧
      ∀ i, CellInGrid (axisCells output'.dims) i → 1 ≤ i 2 → ¬ AboveHalf (output'.data (dataIndex output'.dims i)))
    (hone : output'.data (dataIndex grid4.dims ![2, 1, 0]) = .fin 1) :
    ∃ F e', Answers (fun _ => 0) (flTrilinear (roundedArith roundDouble)) toGrid id id ⟨.fin 0, false, false⟩ output' 1 6 F
      (point4 turnedCorner) e' turnedCorner ∧ F.pose = turnedPose := by
  have htop : CellInGrid (axisCells output'.dims) ![3, 3, 3] := by rw [hl.1]; exact top_cell
  obtain ⟨F, hF, hP⟩ := C77_field_exists (gp := ⟨.fin 0, false, false⟩) (dark4_cells hl.1) turnedPose_orthogonal htop
    (not_obstacle (hl.2 _ htop (by decide))) (j := ![2, 1, 0]) (by rw [hl.1]; unfold CellInGrid; decide)
    (.inl (by rw [hl.1, show (⟨4, 4, 4⟩ : Dims) = grid4.dims from rfl, hone]; exact aboveHalf_one))
  have e53 : (2 : ℝ) ^ (-53 : ℤ) = 1 / 2 ^ 53 := by rw [zpow_neg, one_div]; norm_cast
  obtain ⟨e', he⟩ := C77_answer_exists (norm := fun _ => 0) (interp := flTrilinear (roundedArith roundDouble)) (toGrid := toGrid)
    (toWorld := id) (rotate := id) (s := 1) (N := 6) (loc := point4 turnedCorner) (p := turnedCorner) (by rw [Rat.cast_one]; exact hF) (.inl rfl)
    (by rw [hP, ht]; exact turned_frame) (by norm_num) (by norm_num) (by norm_num) (by norm_num)
    (by rw [hl.1]; intro a; fin_cases a <;> norm_num [axisCells])
    (by
      rw [hl.1, e53, ht]
      intro a
      fin_cases a <;> norm_num [axisCells, corner])
  exact ⟨F, e', he, hP⟩

/-- From nothing known no cell at height 1 or more becomes filled. -/
theorem askewWorld_low {sqrt : Fl → Fl} (hs : IeeeSqrt sqrt) {late : ℕ → Bool} {output' : VoxMap ℚ}
    (h : FlVoxelizeRuns double64 sqrt grid4 ⟨.fin 1, 1, 1⟩ ([askewWorld].map (Camera3.cloudIn late turnedGrid)) dark4 output') :
    output'.dims = ⟨4, 4, 4⟩ ∧ ∀ i, CellInGrid (axisCells output'.dims) i → 1 ≤ i 2 → ¬ AboveHalf (output'.data (dataIndex output'.dims i)) := by
  obtain ⟨-, hd', -, hkeep⟩ := C74_keeps_filled h
  have hd : output'.dims = grid4.dims := hd'
  refine ⟨hd, fun i hi hi2 ha => ?_⟩
  rw [hd] at hi ha
  have hlt : dataIndex grid4.dims i < dark4.dims.total := dataIndex_lt (d := grid4.dims) hi
  obtain ⟨c, hcm, hcnt⟩ := C78_filled_is_real hs grid4_double40 (by norm_num) plain_filter (by decide) (only_askew askewWorld_posed)
    (only_askew (Q := fun c => ∀ r, c.range = .fin r → 0 ≤ r) askewWorld_range) rfl h hi (dark4_half i) (above_cases ha (by
      rcases (hkeep _ hlt).2 (dark4_half i) with h | h | h
      · exact .inl h
      · exact .inr (.inl h)
      · exact .inr (.inr h)))
  obtain rfl := List.mem_singleton.1 hcm
  obtain ⟨x, hx, hnear, -⟩ := howMany_pos le_rfl hcnt
  exact askewWorld_away world_tol.1 (.inr hi2) hx hnear

/-- The same on a device. -/
theorem askewWorld_low_float {sqrt : Fl → Fl} (hs : FloatSqrt sqrt) {late : ℕ → Bool} {output' : VoxMap ℚ}
    (h : DeviceVoxelizeRuns (cudaApi 256) float32 sqrt grid4 ⟨.fin 1, 1, 1⟩ ([askewWorld].map (Camera3.devIn floatR late turnedGrid)) dark4 dark4
      output') :
    output'.dims = ⟨4, 4, 4⟩ ∧ ∀ i, CellInGrid (axisCells output'.dims) i → 1 ≤ i 2 → ¬ AboveHalf (output'.data (dataIndex output'.dims i)) := by
  have hd : output'.dims = grid4.dims := device_dims h
  refine ⟨hd, fun i hi hi2 ha => ?_⟩
  rw [hd] at hi ha
  obtain ⟨hh, hN⟩ := askewWorld_cuda late
  have hlen : ∀ c ∈ [askewWorld], c.points.length ≤ 2 ^ 24 := by decide
  have hdec := C57_device_decision hh hN plain_filter (by
    rw [hat_devs (only_askew askewWorld_posed) (by norm_num) (by norm_num)]
    exact devs_length (cams := [askewWorld].map (Camera3.hat late turnedGrid)) (all_hat hlen fun _ _ h => h)) rfl h hi (dark4_half i)
  obtain ⟨c, hcm, hcnt⟩ := C78_device_filled_is_real hs grid4_float40 hh hN plain_filter hlen (only_askew askewWorld_posed)
    (only_askew (Q := fun c => ∀ r, c.range = .fin r → 0 ≤ r) askewWorld_range) rfl h hi (dark4_half i) (above_cases ha (by
      unfold decision at hdec
      split_ifs at hdec
      · exact .inr (.inr hdec)
      · exact .inl hdec
      · exact .inr (.inl hdec)))
  obtain rfl := List.mem_singleton.1 hcm
  obtain ⟨x, hx, hnear, -⟩ := howMany_pos le_rfl hcnt
  exact askewWorld_away world_tol.2.2.1 (.inr hi2) hx hnear

/-- The hypotheses of the theorems about queries are met on the CPU (`C78_clearance`, `C78_measured`). -/
example {sqrt : Fl → Fl} (hs : IeeeSqrt sqrt) (late : ℕ → Bool) : ∃ (output' : VoxMap ℚ) (F : SDFGrid ℝ) (e' : ℝ),
    FlVoxelizeRuns double64 sqrt grid4 ⟨.fin 1, 1, 1⟩ ([askewWorld].map (Camera3.cloudIn late turnedGrid)) dark4 output' ∧
    Answers (fun _ => 0) (flTrilinear (roundedArith roundDouble)) toTurned id id ⟨.fin 0, false, false⟩ output' 1 6 F
      (point4 turnedCorner) e' turnedCorner ∧
    e' - (Real.sqrt 3 + 3 + (6 : ℚ) / 2 ^ 18 + (6 : ℚ) ^ 2 / 2 ^ 37) * (1 : ℚ) - dist3 turnedCorner turnedCorner -
      2 * (doubleReachTol 1 6 48 (5 * 8) + poseTol 8 : ℚ) - dist3 (fun a => (askewWorld.place ![-1, 2, 0] a : ℝ)) (fun a => (askewWorld.place ![-1, 2, 0] a : ℝ))
      ≤ dist3 turnedCorner (fun a => (askewWorld.place ![-1, 2, 0] a : ℝ)) ∧
    OpenAround output' 1 6 (toTurned (point4 turnedCorner)) := by
  obtain ⟨out, hout, h1, -⟩ := askewWorld_run hs late
  have hl := askewWorld_low hs hout
  obtain ⟨F, e', hA, hP⟩ := turned_answers toTurned_corner hl h1
  refine ⟨out, F, e', hout, hA, ?_, ?_⟩
  · have := C78_clearance (n := 48) (p' := turnedCorner) hs grid4_double40 (by norm_num) (by norm_num) (by norm_num) (grid4_size (by norm_num)) plain_filter
      (by decide) rfl dark4_nonan hout (only_askew askewWorld_posed) (List.mem_singleton_self _) askewWorld_double askewWorld_reach askewWorld_mem
      (askewWorld_deep' world_tol.2.1) (askewWorld_well _) hA (Y := fun a => (askewWorld.place ![-1, 2, 0] a : ℝ)) (by rw [hP]; exact turned_back _)
    push_cast at this ⊢
    exact this
  · rw [toTurned_corner]
    exact corner_open (by norm_num) (by norm_num) hl.1 hl.2

/-- And on a CUDA device (`C78_device_clearance`, `C78_device_measured`). -/
example {sqrt : Fl → Fl} (hs : FloatSqrt sqrt) (late : ℕ → Bool) : ∃ (output' : VoxMap ℚ) (F : SDFGrid ℝ) (e' : ℝ),
    DeviceVoxelizeRuns (cudaApi 256) float32 sqrt grid4 ⟨.fin 1, 1, 1⟩ ([askewWorld].map (Camera3.devIn floatR late turnedGrid)) dark4 dark4 output' ∧
    Answers (fun _ => 0) (flTrilinear (roundedArith roundDouble)) toTurned id id ⟨.fin 0, false, false⟩ output' 1 6 F
      (point4 turnedCorner) e' turnedCorner ∧
    e' - (Real.sqrt 3 + 3 + (6 : ℚ) / 2 ^ 18 + (6 : ℚ) ^ 2 / 2 ^ 37) * (1 : ℚ) - dist3 turnedCorner turnedCorner -
      2 * (floatReachTol 1 6 48 (5 * 8) + poseTol 8 : ℚ) - dist3 (fun a => (askewWorld.place ![-1, 2, 0] a : ℝ)) (fun a => (askewWorld.place ![-1, 2, 0] a : ℝ))
      ≤ dist3 turnedCorner (fun a => (askewWorld.place ![-1, 2, 0] a : ℝ)) ∧
    OpenAround output' 1 6 (toTurned (point4 turnedCorner)) := by
  obtain ⟨out, hout, h1, -⟩ := askewWorld_device hs late
  obtain ⟨hh, hN⟩ := askewWorld_cuda late
  have hl := askewWorld_low_float hs hout
  obtain ⟨F, e', hA, hP⟩ := turned_answers toTurned_corner hl h1
  refine ⟨out, F, e', hout, hA, ?_, ?_⟩
  · have := C78_device_clearance (n := 48) (p' := turnedCorner) hs grid4_float40 (by norm_num) (by norm_num) (grid4_size (by norm_num)) hh hN plain_filter
      (by decide) rfl rfl dark4_nonan hout (only_askew askewWorld_posed) (List.mem_singleton_self _) askewWorld_float askewWorld_reach_float askewWorld_mem
      (askewWorld_deep' world_tol.2.2.2) (askewWorld_well _) hA (Y := fun a => (askewWorld.place ![-1, 2, 0] a : ℝ)) (by rw [hP]; exact turned_back _)
    push_cast at this ⊢
    exact this
  · rw [toTurned_corner]
    exact corner_open (by norm_num) (by norm_num) hl.1 hl.2

end VGT
