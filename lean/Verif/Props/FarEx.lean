import Verif.Props.FarWorld

/-!
C74, C76, C77, C78, C83: concrete cases with a camera a thousand cells away.
-/
set_option autoImplicit false

namespace VGT
open VGT.EDT VGT.Spec VGT.Par

/-- A camera a thousand cells before the grid. -/
def far4 : Camera3 := lookFrom ![-1000, 3 / 2, 1 / 2] .pinf [some ![2005 / 2, 0, 0]]

/-- The same in a world in which the grid is turned. -/
def farWorld : Camera3 := lookFrom ![3 / 2, -999, 1 / 2] .pinf [some ![0, 2005 / 2, 0]]

theorem grid4_double_far {B : ℚ} (h0 : 1 ≤ B) (h1 : B ≤ 2 ^ 30) : DoubleGrid 1 6 B grid4 where
  s_ge := by norm_num
  s_le := by norm_num
  cell := rfl
  inv := by decide +kernel
  dims := by intro a; fin_cases a <;> norm_num [grid4, axisCells]
  n_ge := by norm_num
  n_le := by norm_num
  B_ge := le_trans (by norm_num) h0
  B_le := le_trans h1 (by norm_num)

theorem grid4_float_far {B : ℚ} (h0 : 1 ≤ B) (h1 : B ≤ 2 ^ 30) : FloatGrid 1 1 6 B grid4 where
  e_ge := by norm_num
  e_le := by norm_num
  inverse := by norm_num
  cell := by decide +kernel
  inv := by decide +kernel
  dims := by intro a; fin_cases a <;> norm_num [grid4, axisCells]
  n_ge := by norm_num
  n_le := by norm_num
  B_ge := h0
  B_le := h1

theorem far4_within : far4.Within 1024 := lookFrom_within (by intro a; fin_cases a <;> norm_num [abs_le, third]) (by
  intro x hx a
  have : x = ![2005 / 2, 0, 0] := by simpa using hx
  subst this
  fin_cases a <;> norm_num [abs_le, third])

theorem far4_only {x : Fin 3 → ℚ} (hx : some x ∈ far4.points) : x = ![2005 / 2, 0, 0] := by simpa [far4, lookFrom] using hx

theorem far4_place : far4.place ![2005 / 2, 0, 0] = ![5 / 2, 3 / 2, 1 / 2] := by
  unfold far4
  rw [lookFrom_place]
  funext a
  fin_cases a <;> norm_num [third]

theorem far4_sensor : far4.sensor = ![-1000, 3 / 2, 1 / 2] := lookFrom_sensor _ _ _

theorem farWorld_posed : Posed turnedGrid 1024 farWorld where
  rows := by intro a; fin_cases a <;> norm_num [turnedGrid]
  cols := by intro b; fin_cases b <;> norm_num [farWorld, lookFrom]
  grid := by intro a; fin_cases a <;> norm_num [turnedGrid]
  shift := by intro a; fin_cases a <;> norm_num [farWorld, lookFrom, abs_le, third]
  points := by
    intro x hx
    have : x = ![0, 2005 / 2, 0] := by simpa [farWorld, lookFrom] using hx
    subst this
    intro a
    fin_cases a <;> norm_num [abs_le, third]

theorem farWorld_only {x : Fin 3 → ℚ} (hx : some x ∈ farWorld.points) : x = ![0, 2005 / 2, 0] := by simpa [farWorld, lookFrom] using hx

theorem farWorld_sensor : farWorld.sensorIn turnedGrid = ![-1000, 3 / 2, 1 / 2] := by
  unfold Camera3.sensorIn farWorld
  rw [turnedGrid_place, lookFrom_sensor]
  funext a
  fin_cases a <;> norm_num [third]

theorem farWorld_place : farWorld.placeIn turnedGrid ![0, 2005 / 2, 0] = ![5 / 2, 3 / 2, 1 / 2] := by
  unfold Camera3.placeIn farWorld
  rw [turnedGrid_place, lookFrom_place]
  funext a
  fin_cases a <;> norm_num [third]

/-! ### What both have in common -/

theorem far_apart {δ : ℚ} (h0 : 0 ≤ δ) (h : δ ≤ 1) : Apart δ ![-1000, 3 / 2, 1 / 2] ![5 / 2, 3 / 2, 1 / 2] := by
  unfold Apart
  norm_num [distSq, third]
  nlinarith

theorem far_gets {δ : ℚ} (h : δ ≤ 1) : GetsOn (1 / 4) δ 0 ![-1000, 3 / 2, 1 / 2] ![5 / 2, 3 / 2, 1 / 2] := by
  refine ⟨?_, ?_⟩
  · norm_num
    linarith
  · norm_num [distSq, third]

theorem far_between {tol : ℚ} (h : tol ≤ 1 / 2) {a : Fin 3} (ha : a ≠ 0) :
    BetweenFaces tol 1 (axisCells grid4.dims) a ![-1000, 3 / 2, 1 / 2] := by
  fin_cases a
  · exact absurd rfl ha
  · constructor <;> norm_num [grid4, axisCells] <;> linarith
  · constructor <;> norm_num [grid4, axisCells, third] <;> linarith

theorem far_ray {ν δ tol : ℚ} (h0 : 0 ≤ δ) (h : δ ≤ 1) (hν : ν = 1 / 4) (ht : tol ≤ 1 / 2) :
    Apart δ ![-1000, 3 / 2, 1 / 2] ![5 / 2, 3 / 2, 1 / 2] ∧ ∀ a, BetweenFaces tol 1 (axisCells grid4.dims) a ![-1000, 3 / 2, 1 / 2] ∨
      GetsOn ν δ a ![-1000, 3 / 2, 1 / 2] ![5 / 2, 3 / 2, 1 / 2] := by
  subst hν
  refine ⟨far_apart h0 h, fun a => ?_⟩
  by_cases ha : a = 0
  · subst ha
    exact .inr (far_gets h)
  · exact .inl (far_between ht ha)

theorem far_deep {tol : ℚ} (h : tol ≤ 2 / 5) : DeepBox tol 1 ![2, 1, 0] ![5 / 2, 3 / 2, 1 / 2] := by
  intro a
  fin_cases a <;> norm_num [third] <;> constructor <;> linarith

theorem far_in : CellInGrid (axisCells grid4.dims) ![2, 1, 0] := by unfold CellInGrid; decide

theorem far_grid {tol : ℚ} (h : tol ≤ 2 / 5) : DeepInGrid tol 1 (axisCells grid4.dims) ![5 / 2, 3 / 2, 1 / 2] :=
  deepInGrid_of_box zero_le_one far_in (far_deep h)

theorem far_tol : doubleFarTol 1 6 1024 ≤ 2 / 5 ∧ floatFarTol 1 6 1024 ≤ 2 / 5 ∧ doubleFarTol 1 6 (5 * 1024) + poseTol 1024 ≤ 2 / 5 ∧
    floatFarTol 1 6 (5 * 1024) + poseTol 1024 ≤ 2 / 5 := by
  norm_num [doubleFarTol, floatFarTol, poseTol]

/-- All measured points are low: no cell at height 1 or more is filled. -/
theorem far_low {output' : VoxMap ℚ} (hd : output'.dims = grid4.dims) {tol : ℚ} (ht : tol < 1 / 10) {c : Camera3}
    {Z : Camera3 → (Fin 3 → ℚ) → Prop} {f : Camera3 → (Fin 3 → ℚ) → Fin 3 → ℚ} (hlow : ∀ x, some x ∈ c.points → f c x 2 ≤ 9 / 10)
    (hreal : ∀ i, CellInGrid (axisCells grid4.dims) i → AboveHalf (output'.data (dataIndex grid4.dims i)) →
      ∃ c' ∈ [c], (1 : ℤ) ≤ c'.howMany fun x => NearBox tol 1 i (f c' x) ∧ Z c' x) :
    output'.dims = ⟨4, 4, 4⟩ ∧ ∀ i, CellInGrid (axisCells output'.dims) i → 1 ≤ i 2 → ¬ AboveHalf (output'.data (dataIndex output'.dims i)) := by
  refine ⟨hd, fun i hi hi2 ha => ?_⟩
  rw [hd] at hi ha
  obtain ⟨c', hcm, hcnt⟩ := hreal i hi ha
  obtain rfl := List.mem_singleton.1 hcm
  obtain ⟨x, hx, hnear, -⟩ := howMany_pos le_rfl hcnt
  exact low_point ht hi2 (hlow x hx) hnear

/-- After a voxelization from nothing known, what is above a half is 1. -/
theorem dark4_one {A : Arith Fl} {sqrt : Fl → Fl} {clouds : List (CpuCloud Fl)} {output' : VoxMap ℚ}
    (h : FlVoxelizeRuns A sqrt grid4 ⟨.fin 1, 1, 1⟩ clouds dark4 output') {i : IVec} (hi : CellInGrid (axisCells grid4.dims) i)
    (ha : AboveHalf (output'.data (dataIndex grid4.dims i))) : output'.data (dataIndex grid4.dims i) = .fin 1 := by
  obtain ⟨-, -, -, hkeep⟩ := C74_keeps_filled h
  have hlt : dataIndex grid4.dims i < dark4.dims.total := dataIndex_lt (d := grid4.dims) hi
  refine above_cases ha ?_
  rcases (hkeep _ hlt).2 (dark4_half i) with h | h | h
  · exact .inl h
  · exact .inr (.inl h)
  · exact .inr (.inr h)

/-- The same on a device. -/
theorem dark4_one_device {api : DeviceApi} {A : Arith Fl} {sqrt : Fl → Fl} {clouds : List (DevCloud Fl)} {output' : VoxMap ℚ}
    (hh : Helper api clouds) (hN : grid4.dims.total * 2 * numTrackingGrids clouds < 2 ^ 31) (hlen : ∀ c ∈ clouds, c.points.length ≤ 2 ^ 24)
    (h : DeviceVoxelizeRuns api A sqrt grid4 ⟨.fin 1, 1, 1⟩ clouds dark4 dark4 output') {i : IVec} (hi : CellInGrid (axisCells grid4.dims) i)
    (ha : AboveHalf (output'.data (dataIndex grid4.dims i))) : output'.data (dataIndex grid4.dims i) = .fin 1 := by
  have hdec := C57_device_decision hh hN plain_filter hlen rfl h hi (dark4_half i)
  refine above_cases ha ?_
  unfold decision at hdec
  split_ifs at hdec
  · exact .inr (.inr hdec)
  · exact .inl hdec
  · exact .inr (.inl hdec)

theorem only {c : Camera3} {Q : Camera3 → Prop} (h : Q c) : ∀ c' ∈ [c], Q c' := by simpa using h

theorem howMany_one {c : Camera3} {x : Fin 3 → ℚ} {Q : (Fin 3 → ℚ) → Prop} (hx : some x ∈ c.points) (h : Q x) : (1 : ℤ) ≤ c.howMany Q := by
  classical
  have : 0 < c.howMany Q := by
    unfold Camera3.howMany
    exact List.countP_pos_iff.2 ⟨_, hx, by rw [decide_eq_true_iff]; exact ⟨x, rfl, h⟩⟩
  omega

/-! ### In the frame of the grid -/

/-- The hypotheses of `C74_double_obstacle_anywhere`, `C77_double_kept_anywhere` and `C77_double_clearance_anywhere` are met. -/
example {sqrt : Fl → Fl} (hs : IeeeSqrt sqrt) : ∃ (output' : VoxMap ℚ) (F : SDFGrid ℝ) (e' : ℝ),
    FlVoxelizeRuns double64 sqrt grid4 ⟨.fin 1, 1, 1⟩ ([far4].map Camera3.cloud) dark4 output' ∧
    output'.data (dataIndex grid4.dims ![2, 1, 0]) = .fin 1 ∧
    Answers (fun _ => 0) (flTrilinear (roundedArith roundDouble)) (fun l => l.v) id id ⟨.fin 0, false, false⟩ output' 1 6 F
      (point4 corner) e' corner ∧
    e' - (Real.sqrt 3 + 3 + (6 : ℚ) / 2 ^ 18 + (6 : ℚ) ^ 2 / 2 ^ 37) * (1 : ℚ) - dist3 corner corner - 2 * (doubleTol 1 6 1024 : ℚ) ≤
      dist3 corner (fun a => ((far4.place ![2005 / 2, 0, 0] a : ℚ) : ℝ)) := by
  have G := grid4_double_far (B := 1024) (by norm_num) (by norm_num)
  have hlen : ∀ c ∈ [far4], c.points.length < 2 ^ 31 := by decide
  have hr : DoubleRange far4.range := ⟨by decide, fun r hr => by cases hr⟩
  have hx : some ![2005 / 2, 0, 0] ∈ far4.points := List.mem_cons_self
  have hw : ∀ tol, WellWithin tol far4.range far4.sensor (far4.place ![2005 / 2, 0, 0]) := fun _ r hr => by cases hr
  obtain ⟨out, hout⟩ := C84_double_has_result (K := ℚ) hs G (by norm_num) (grid4_size (by norm_num)) plain_filter hlen (only far4_within)
    (only (Q := fun c => DoubleRange c.range) hr) (fun c hc => by
      obtain rfl := List.mem_singleton.1 hc
      refine .inr fun x hx => ?_
      rw [far4_only hx, far4_place, far4_sensor]
      exact far_apart (by norm_num) (by norm_num)) (output := dark4) rfl
  have h1 := C74_double_obstacle_anywhere hs G (grid4_size (by norm_num)) plain_filter hlen rfl hout far_in (dark4_half _)
    (List.mem_singleton_self _) far4_within hr (howMany_one hx ⟨by rw [far4_place]; exact far_deep far_tol.1, hw _⟩)
  obtain ⟨-, hd, -⟩ := C74_keeps_filled hout
  have hl := far_low (f := fun c x => c.place x) (c := far4) (tol := doubleTol 1 6 1024) hd (by norm_num [doubleTol]) (fun x hx => by
      rw [far4_only hx, far4_place]; norm_num [third]) (fun i hi ha =>
    C74_double_filled_is_real hs G plain_filter hlen (only far4_within) rfl hout hi (dark4_half i) (dark4_one hout hi ha))
  have hdeep : DeepInGrid (doubleFarTol 1 6 1024) 1 (axisCells grid4.dims) (far4.place ![2005 / 2, 0, 0]) := by
    rw [far4_place]
    exact far_grid far_tol.1
  have hk := C77_double_kept_anywhere hs G (grid4_size (by norm_num)) plain_filter hlen rfl dark4_nonan hout (List.mem_singleton_self _)
    far4_within hr hx hdeep (hw _)
  obtain ⟨F, e', hA, hfr⟩ := low_answers (n := 6) (by norm_num) (by norm_num) hl hk
  exact ⟨out, F, e', hout, h1, hA, C77_double_clearance_anywhere hs G (grid4_size (by norm_num)) plain_filter hlen rfl dark4_nonan hout
    (List.mem_singleton_self _) far4_within hr hx hdeep (hw _) hA (hfr _)⟩

/-- The hypotheses of `C76_float_obstacle_anywhere`, `C77_float_kept_anywhere` and `C77_float_clearance_anywhere` are met. -/
example {sqrt : Fl → Fl} (hs : FloatSqrt sqrt) : ∃ (output' : VoxMap ℚ) (F : SDFGrid ℝ) (e' : ℝ),
    DeviceVoxelizeRuns openclApi float32 sqrt grid4 ⟨.fin 1, 1, 1⟩ ([far4].map (Camera3.dev floatR)) dark4 dark4 output' ∧
    output'.data (dataIndex grid4.dims ![2, 1, 0]) = .fin 1 ∧
    Answers (fun _ => 0) (flTrilinear (roundedArith roundDouble)) (fun l => l.v) id id ⟨.fin 0, false, false⟩ output' 1 6 F
      (point4 corner) e' corner ∧
    e' - (Real.sqrt 3 + 3 + (6 : ℚ) / 2 ^ 18 + (6 : ℚ) ^ 2 / 2 ^ 37) * (1 : ℚ) - dist3 corner corner - 2 * (floatTol 1 6 1024 : ℚ) ≤
      dist3 corner (fun a => ((far4.place ![2005 / 2, 0, 0] a : ℚ) : ℝ)) := by
  have G := grid4_float_far (B := 1024) (by norm_num) (by norm_num)
  have hh : Helper (F := Fl) openclApi ([far4].map (Camera3.dev floatR)) := .inl ⟨rfl, by simp [far4, lookFrom, Camera3.dev]⟩
  have hN : grid4.dims.total * 2 * numTrackingGrids ([far4].map (Camera3.dev floatR)) < 2 ^ 31 := by decide
  have hlen : ∀ c ∈ [far4], c.points.length ≤ 2 ^ 24 := by decide
  have ht : far4.Turns := lookFrom_turns _ _ _
  have hr : FloatRange far4.range := ⟨by decide, fun r hr => by cases hr⟩
  have hr0 : ∀ r, far4.range = .fin r → 0 ≤ r := fun r hr => by cases hr
  have hx : some ![2005 / 2, 0, 0] ∈ far4.points := List.mem_cons_self
  have hw : ∀ tol, WellWithin tol far4.range far4.sensor (far4.place ![2005 / 2, 0, 0]) := fun _ r hr => by cases hr
  obtain ⟨out, hout⟩ := C84_float_has_result (K := ℚ) (ν := 1 / 4) hs G (by norm_num) (by norm_num) (by norm_num) (grid4_size (by norm_num)) hh hN
    plain_filter hlen (only far4_within) (only ht) (only (Q := fun c => FloatRange c.range) hr) (fun c hc => by
      obtain rfl := List.mem_singleton.1 hc
      refine .inr fun x hx => ?_
      rw [far4_only hx, far4_place, far4_sensor]
      exact far_ray (by norm_num) (by norm_num) rfl (by norm_num [floatTol])) (static := dark4) (output := dark4) rfl
  have h1 := C76_float_obstacle_anywhere hs G (grid4_size (by norm_num)) hh hN plain_filter hlen rfl hout far_in (dark4_half _)
    (List.mem_singleton_self _) far4_within ht hr (howMany_one hx ⟨by rw [far4_place]; exact far_deep far_tol.2.1, hw _⟩)
  have hl := far_low (f := fun c x => c.place x) (c := far4) (tol := floatTol 1 6 1024) (device_dims hout) (by norm_num [floatTol]) (fun x hx => by
      rw [far4_only hx, far4_place]; norm_num [third]) (fun i hi ha =>
    C76_float_filled_is_real hs G hh hN plain_filter hlen (only far4_within) (only ht) (only (Q := fun c => ∀ r, c.range = .fin r → 0 ≤ r) hr0)
      rfl hout hi (dark4_half i) (dark4_one_device hh hN (devs_length hlen) hout hi ha))
  have hdeep : DeepInGrid (floatFarTol 1 6 1024) 1 (axisCells grid4.dims) (far4.place ![2005 / 2, 0, 0]) := by
    rw [far4_place]
    exact far_grid far_tol.2.1
  have hk := C77_float_kept_anywhere hs G (grid4_size (by norm_num)) hh hN plain_filter hlen rfl rfl dark4_nonan hout (List.mem_singleton_self _)
    far4_within ht hr hx hdeep (hw _)
  obtain ⟨F, e', hA, hfr⟩ := low_answers (n := 6) (by norm_num) (by norm_num) hl hk
  exact ⟨out, F, e', hout, h1, hA, C77_float_clearance_anywhere hs G (grid4_size (by norm_num)) hh hN plain_filter hlen rfl rfl dark4_nonan hout
    (List.mem_singleton_self _) far4_within ht hr hx hdeep (hw _) hA (hfr _)⟩

/-! ### In the world -/

theorem farWorld_world : WithinWorld 8 turnedPose.t fun a => (farWorld.place ![0, 2005 / 2, 0] a : ℝ) := by
  refine ⟨turned_world.2.origin, fun a => ?_, turned_world.2.normal⟩
  unfold farWorld
  rw [lookFrom_place]
  fin_cases a <;> norm_num [abs_le, third]

/-- The hypotheses of `C78_obstacle_anywhere`, `C78_clearance_anywhere` and `C83_world_clearance_anywhere` are met. -/
example {sqrt : Fl → Fl} (hs : IeeeSqrt sqrt) (late : ℕ → Bool) : ∃ (output' : VoxMap ℚ) (F : SDFGrid ℝ) (e' : ℝ) (toGrid : Vec4 ℝ → Fin 3 → ℝ),
    FlVoxelizeRuns double64 sqrt grid4 ⟨.fin 1, 1, 1⟩ ([farWorld].map (Camera3.cloudIn late turnedGrid)) dark4 output' ∧
    output'.data (dataIndex grid4.dims ![2, 1, 0]) = .fin 1 ∧
    Answers (fun _ => 0) (flTrilinear (roundedArith roundDouble)) toGrid id id ⟨.fin 0, false, false⟩ output' 1 6 F
      (point4 turnedCorner) e' turnedCorner ∧
    StoredPose turnedPose F.pose 0 ∧ StoredInverse turnedPose turnedGrid ∧ ToGridRuns roundDouble turnedPose toGrid ∧
    e' - (Real.sqrt 3 + 3 + (6 : ℚ) / 2 ^ 18 + (6 : ℚ) ^ 2 / 2 ^ 37) * (1 : ℚ) - dist3 turnedCorner turnedCorner -
      2 * (doubleTol 1 6 (5 * 1024) + poseTol 1024 : ℚ) - dist3 (fun a => (farWorld.place ![0, 2005 / 2, 0] a : ℝ))
        (fun a => (farWorld.place ![0, 2005 / 2, 0] a : ℝ)) ≤ dist3 turnedCorner (fun a => (farWorld.place ![0, 2005 / 2, 0] a : ℝ)) ∧
    e' - (Real.sqrt 3 + 3 + (6 : ℚ) / 2 ^ 18 + (6 : ℚ) ^ 2 / 2 ^ 37) * (1 : ℚ) - 2 * (doubleTol 1 6 (5 * 1024) + poseTol 1024 : ℚ) -
      (164 / 2 ^ 53 + 24 * 0) * 8 ≤ dist3 turnedCorner (fun a => (farWorld.place ![0, 2005 / 2, 0] a : ℝ)) := by
  have G := grid4_double_far (B := 5 * 1024) (by norm_num) (by norm_num)
  have hlen : ∀ c ∈ [farWorld], c.points.length < 2 ^ 31 := by decide
  have hr : DoubleRange farWorld.range := ⟨by decide, fun r hr => by cases hr⟩
  have hr0 : ∀ r, farWorld.range = .fin r → 0 ≤ r := fun r hr => by cases hr
  have hx : some ![0, 2005 / 2, 0] ∈ farWorld.points := List.mem_cons_self
  have hw : ∀ tol, WellWithin tol farWorld.range (farWorld.sensorIn turnedGrid) (farWorld.placeIn turnedGrid ![0, 2005 / 2, 0]) :=
    fun _ r hr => by cases hr
  obtain ⟨out, hout⟩ := C84_world_has_result (K := ℚ) (late := late) hs G (by norm_num) (by norm_num) (grid4_size (by norm_num)) plain_filter hlen
    (only farWorld_posed) (only (Q := fun c => DoubleRange c.range) hr) (fun c hc => by
      obtain rfl := List.mem_singleton.1 hc
      refine .inr fun x hx => ?_
      rw [farWorld_only hx, farWorld_place, farWorld_sensor]
      exact far_apart (by norm_num) (by norm_num)) (output := dark4) rfl
  have h1 := C78_obstacle_anywhere hs G (by norm_num) (grid4_size (by norm_num)) plain_filter hlen (only farWorld_posed) rfl hout far_in (dark4_half _)
    (List.mem_singleton_self _) hr (howMany_one hx ⟨by rw [farWorld_place]; exact far_deep far_tol.2.2.1, hw _⟩)
  obtain ⟨-, hd, -⟩ := C74_keeps_filled hout
  have hl := far_low (f := fun c x => c.placeIn turnedGrid x) (c := farWorld) (tol := doubleTol 1 6 (5 * 1024) + poseTol 1024) hd
    (by norm_num [doubleTol, poseTol]) (fun x hx => by rw [farWorld_only hx, farWorld_place]; norm_num [third]) (fun i hi ha =>
    C78_filled_is_real hs G (by norm_num) plain_filter hlen (only farWorld_posed) (only (Q := fun c => ∀ r, c.range = .fin r → 0 ≤ r) hr0) rfl hout hi
      (dark4_half i) (dark4_one hout hi ha))
  have hdeep : DeepInGrid (doubleFarTol 1 6 (5 * 1024) + poseTol 1024) 1 (axisCells grid4.dims)
      (farWorld.placeIn turnedGrid ![0, 2005 / 2, 0]) := by
    rw [farWorld_place]
    exact far_grid far_tol.2.2.1
  obtain ⟨toGrid, hrun, htg⟩ := turned_toGrid
  obtain ⟨F, e', hA, hP⟩ := turned_answers htg hl h1
  have hst : StoredPose turnedPose F.pose 0 := by rw [hP]; exact turned_stored
  refine ⟨out, F, e', toGrid, hout, h1, hA, hst, turned_inverse, hrun, ?_, ?_⟩
  · have := C78_clearance_anywhere (p' := turnedCorner) (Y := fun a => (farWorld.place ![0, 2005 / 2, 0] a : ℝ)) hs G (by norm_num)
      (grid4_size (by norm_num)) plain_filter hlen rfl dark4_nonan hout (only farWorld_posed) (List.mem_singleton_self _) hr hx hdeep (hw _) hA
      (by rw [hP]; exact turned_back _)
    push_cast at this ⊢
    exact this
  · have := C83_world_clearance_anywhere (X := 8) hs G (by norm_num) (grid4_size (by norm_num)) plain_filter hlen rfl dark4_nonan hout
      (only farWorld_posed) (List.mem_singleton_self _) hr hx hdeep (hw _) hA hst turned_inverse hrun (by rw [hP]; exact turned_world.1)
      (by rw [hP]; exact farWorld_world)
    push_cast at this ⊢
    exact this

/-- The hypotheses of `C78_device_obstacle_anywhere`, `C78_device_clearance_anywhere` and `C83_world_device_clearance_anywhere` are met. -/
example {sqrt : Fl → Fl} (hs : FloatSqrt sqrt) (late : ℕ → Bool) : ∃ (output' : VoxMap ℚ) (F : SDFGrid ℝ) (e' : ℝ) (toGrid : Vec4 ℝ → Fin 3 → ℝ),
    DeviceVoxelizeRuns openclApi float32 sqrt grid4 ⟨.fin 1, 1, 1⟩ ([farWorld].map (Camera3.devIn floatR late turnedGrid)) dark4 dark4 output' ∧
    output'.data (dataIndex grid4.dims ![2, 1, 0]) = .fin 1 ∧
    Answers (fun _ => 0) (flTrilinear (roundedArith roundDouble)) toGrid id id ⟨.fin 0, false, false⟩ output' 1 6 F
      (point4 turnedCorner) e' turnedCorner ∧
    StoredPose turnedPose F.pose 0 ∧ StoredInverse turnedPose turnedGrid ∧ ToGridRuns roundDouble turnedPose toGrid ∧
    e' - (Real.sqrt 3 + 3 + (6 : ℚ) / 2 ^ 18 + (6 : ℚ) ^ 2 / 2 ^ 37) * (1 : ℚ) - dist3 turnedCorner turnedCorner -
      2 * (floatTol 1 6 (5 * 1024) + poseTol 1024 : ℚ) - dist3 (fun a => (farWorld.place ![0, 2005 / 2, 0] a : ℝ))
        (fun a => (farWorld.place ![0, 2005 / 2, 0] a : ℝ)) ≤ dist3 turnedCorner (fun a => (farWorld.place ![0, 2005 / 2, 0] a : ℝ)) ∧
    e' - (Real.sqrt 3 + 3 + (6 : ℚ) / 2 ^ 18 + (6 : ℚ) ^ 2 / 2 ^ 37) * (1 : ℚ) - 2 * (floatTol 1 6 (5 * 1024) + poseTol 1024 : ℚ) -
      (164 / 2 ^ 53 + 24 * 0) * 8 ≤ dist3 turnedCorner (fun a => (farWorld.place ![0, 2005 / 2, 0] a : ℝ)) := by
  have G := grid4_float_far (B := 5 * 1024) (by norm_num) (by norm_num)
  have hh : Helper (F := Fl) openclApi ([farWorld].map (Camera3.devIn floatR late turnedGrid)) :=
    .inl ⟨rfl, by simp [farWorld, lookFrom, Camera3.devIn]⟩
  have hN : grid4.dims.total * 2 * numTrackingGrids ([farWorld].map (Camera3.devIn floatR late turnedGrid)) < 2 ^ 31 := by
    norm_num [grid4, numTrackingGrids, Dims.total]
  have hlen : ∀ c ∈ [farWorld], c.points.length ≤ 2 ^ 24 := by decide
  have hr : FloatRange farWorld.range := ⟨by decide, fun r hr => by cases hr⟩
  have hr0 : ∀ r, farWorld.range = .fin r → 0 ≤ r := fun r hr => by cases hr
  have hx : some ![0, 2005 / 2, 0] ∈ farWorld.points := List.mem_cons_self
  have hw : ∀ tol, WellWithin tol farWorld.range (farWorld.sensorIn turnedGrid) (farWorld.placeIn turnedGrid ![0, 2005 / 2, 0]) :=
    fun _ r hr => by cases hr
  obtain ⟨out, hout⟩ := C84_world_float_has_result (K := ℚ) (ν := 1 / 5) (late := late) hs G (by norm_num) (by norm_num) (by norm_num)
    (grid4_size (by norm_num)) hh hN plain_filter hlen (only farWorld_posed) (only (Q := fun c => FloatRange c.range) hr) (fun c hc => by
      obtain rfl := List.mem_singleton.1 hc
      refine .inr fun x hx => ?_
      rw [farWorld_only hx, farWorld_place, farWorld_sensor]
      exact far_ray (by norm_num) (by norm_num) (by norm_num) (by norm_num [floatTol, poseTol])) (static := dark4) (output := dark4) rfl
  have h1 := C78_device_obstacle_anywhere hs G (grid4_size (by norm_num)) hh hN plain_filter hlen (only farWorld_posed) rfl hout far_in (dark4_half _)
    (List.mem_singleton_self _) hr (howMany_one hx ⟨by rw [farWorld_place]; exact far_deep far_tol.2.2.2, hw _⟩)
  have hlen' : ∀ c ∈ [farWorld].map (Camera3.devIn floatR late turnedGrid), c.points.length ≤ 2 ^ 24 := by
    rw [hat_devs (only farWorld_posed) (by norm_num) (by norm_num)]
    exact devs_length (cams := [farWorld].map (Camera3.hat late turnedGrid)) (all_hat hlen fun _ _ h => h)
  have hl := far_low (f := fun c x => c.placeIn turnedGrid x) (c := farWorld) (tol := floatTol 1 6 (5 * 1024) + poseTol 1024) (device_dims hout)
    (by norm_num [floatTol, poseTol]) (fun x hx => by rw [farWorld_only hx, farWorld_place]; norm_num [third]) (fun i hi ha =>
    C78_device_filled_is_real hs G hh hN plain_filter hlen (only farWorld_posed) (only (Q := fun c => ∀ r, c.range = .fin r → 0 ≤ r) hr0) rfl hout
      hi (dark4_half i) (dark4_one_device hh hN hlen' hout hi ha))
  have hdeep : DeepInGrid (floatFarTol 1 6 (5 * 1024) + poseTol 1024) 1 (axisCells grid4.dims)
      (farWorld.placeIn turnedGrid ![0, 2005 / 2, 0]) := by
    rw [farWorld_place]
    exact far_grid far_tol.2.2.2
  obtain ⟨toGrid, hrun, htg⟩ := turned_toGrid
  obtain ⟨F, e', hA, hP⟩ := turned_answers htg hl h1
  have hst : StoredPose turnedPose F.pose 0 := by rw [hP]; exact turned_stored
  refine ⟨out, F, e', toGrid, hout, h1, hA, hst, turned_inverse, hrun, ?_, ?_⟩
  · have := C78_device_clearance_anywhere (p' := turnedCorner) (Y := fun a => (farWorld.place ![0, 2005 / 2, 0] a : ℝ)) hs G
      (grid4_size (by norm_num)) hh hN plain_filter hlen rfl rfl dark4_nonan hout (only farWorld_posed) (List.mem_singleton_self _) hr hx hdeep (hw _) hA
      (by rw [hP]; exact turned_back _)
    push_cast at this ⊢
    exact this
  · have := C83_world_device_clearance_anywhere (X := 8) hs G (grid4_size (by norm_num)) hh hN plain_filter hlen rfl rfl dark4_nonan hout
      (only farWorld_posed) (List.mem_singleton_self _) hr hx hdeep (hw _) hA hst turned_inverse hrun (by rw [hP]; exact turned_world.1)
      (by rw [hP]; exact farWorld_world)
    push_cast at this ⊢
    exact this

end VGT
