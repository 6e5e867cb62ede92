import Verif.Props.FairFreeEx

/-!
C89: cameras in the frame of the world, and concrete cases in a turned grid.
-/
set_option autoImplicit false

namespace VGT
open VGT.EDT VGT.Spec VGT.Par

/-- What a walk needs is there in a less accurate arithmetic. -/
theorem Spec.FairWalk.mono {F : Type} {A : Arith F} {sqrt : F → F} {val kept : F → Fl} {u u' η M : ℚ} (W : FairWalk A sqrt val kept u η M) (h : u ≤ u') :
    FairWalk A sqrt val kept u' η M where
  half := W.half
  ofInt := fun i hi => by
    obtain ⟨z, h1, h2⟩ := W.ofInt i hi
    exact ⟨z, h1, h2.trans (by linarith [mul_le_mul_of_nonneg_right h (abs_nonneg (i : ℚ))])⟩
  inf := W.inf
  sum := W.sum
  difference := W.difference
  quotient := W.quotient
  magnitude := W.magnitude
  root := W.root
  abs_inf := W.abs_inf
  div_big := fun x y a b hx hy hb hM => by
    rcases W.div_big x y a b hx hy hb hM with ⟨z, h1, h2⟩ | h1
    · exact .inl ⟨z, h1, h2.trans (by linarith [mul_le_mul_of_nonneg_right h (abs_nonneg (a / b))])⟩
    · exact .inr h1
  div_zero := W.div_zero
  add_big := fun x y a b hx hy ha hb hM => by
    rcases W.add_big x y a b hx hy ha hb hM with ⟨z, h1, h2⟩ | h1
    · exact .inl ⟨z, h1, h2.trans (by linarith [mul_le_mul_of_nonneg_right h (add_nonneg ha hb)])⟩
    · exact .inr h1
  inf_add := W.inf_add
  add_inf := W.add_inf

/-- Room for a walk in a less accurate arithmetic. -/
theorem Spec.WalkRoom.mono {u u' η M e B N : ℚ} {d : Dims} (V : WalkRoom u η M e B N d) (h : u ≤ u') (he : 0 ≤ e) (hM : 0 ≤ M)
    (h1 : 100 * (u' * N * N) + 600 * (u' * N) ≤ 1) (h2 : 9000 * (u' * N) ≤ 1) : WalkRoom u' η M e B N d where
  N_ge := V.N_ge
  dims := V.dims
  small := h1
  fine := h2
  η_e := V.η_e.trans (mul_le_mul_of_nonneg_right h he)
  η_B := V.η_B.trans (mul_le_mul_of_nonneg_right h he)
  M_N := V.M_N
  M_e := V.M_e
  M_u := V.M_u.trans (mul_le_mul_of_nonneg_right h hM)

theorem inGrid_range (gw : ℕ → ℚ) (c : Camera3) : (c.inGrid gw).range = c.range := rfl

theorem inGrid_points (gw : ℕ → ℚ) (c : Camera3) : (c.inGrid gw).points = c.points := rfl

section
variable {F : Type} {A : Arith F} {sqrt : F → F} {val kept : F → Fl} {u v η M e B N : ℚ} {g : RayGrid F} {gw : ℕ → ℚ}
  {K : Type} {op : FilterOptions} {pct : ℚ} {t k : ℤ} {output output' : VoxMap K} {i : IVec} {cams : List Camera3}

open Classical in
/-- C89, free cells were looked through, cameras in the frame of the world, CPU: whatever the order of additions in the product of the poses and
wherever it is contracted to fused operations.
Missing for a full statement: sensors outside the grid; for them see `C89_world_free_is_seen_or_short`. -/
theorem C89_world_free_is_seen_partial (H : AccurateArith A sqrt val kept u η M) (W : FairWalk A sqrt val kept u η M) (S : Room u η M e (5 * B))
    (P : WorldRoom u v η B) (G : GridGiven val u e (5 * B) g) (hcell : CellGiven val u e g) (V : WalkRoom u η M e (5 * B) N g.dims)
    (hop : FilterOptions.make (.fin pct) t k = some op) {clouds : List (CpuCloud F)} (hlen : ∀ cl ∈ clouds, cl.points.length < 2 ^ 31)
    (hd : output.dims = g.dims) (h : FlVoxelizeRuns A sqrt g op clouds output output')
    (hcams : List.Forall₂ (fun cl c => (Posed gw B c ∧ WorldGiven val kept v η B gw c cl.tf cl.range cl.points) ∧ RangeStored val kept cl.range) clouds cams)
    (hsensor : ∀ c ∈ cams, DeepInGrid (fairTol u (5 * B)) e (axisCells g.dims) (c.sensorIn gw))
    (hi : CellInGrid (axisCells g.dims) i) (hocc : (output.data (dataIndex g.dims i)).le (.fin (1 / 2)) = true)
    (hzero : output'.data (dataIndex g.dims i) = .fin 0) :
    k ≤ cams.countP fun c => decide (∃ x, some x ∈ c.points ∧
      SeenNear (freeTol u e (5 * B) N) e c.range (c.sensorIn gw) (c.placeIn gw x) i) := by
  have h0 := C89_free_is_seen_partial H W S G hcell V hop hlen hd h (cams := cams.map (Camera3.inGrid gw))
    (List.forall₂_map_right_iff.2 (hcams.imp fun cl c hh => ⟨(WorldGiven.both P hh.1.1 hh.1.2).1, (WorldGiven.both P hh.1.1 hh.1.2).2, hh.2⟩))
    (fun c' hc' => by
      obtain ⟨c, hc, rfl⟩ := List.mem_map.1 hc'
      rw [inGrid_sensor]
      exact hsensor c hc) hi hocc hzero
  rw [List.countP_map] at h0
  simpa only [Function.comp_def, inGrid_sensor, inGrid_place, inGrid_range, inGrid_points] using h0

open Classical in
/-- C89, what is looked through becomes free, cameras in the frame of the world, CPU.
Missing for a full statement: sensors outside the grid, for which it does not hold (`C73_grazing_ray_lost`). -/
theorem C89_world_seen_is_free_partial (H : AccurateArith A sqrt val kept u η M) (W : FairWalk A sqrt val kept u η M) (S : Room u η M e (5 * B))
    (P : WorldRoom u v η B) (G : GridGiven val u e (5 * B) g) (hcell : CellGiven val u e g) (V : WalkRoom u η M e (5 * B) N g.dims)
    (hop : FilterOptions.make (.fin pct) t k = some op) {clouds : List (CpuCloud F)} (hlen : ∀ cl ∈ clouds, cl.points.length < 2 ^ 31)
    (hd : output.dims = g.dims) (h : FlVoxelizeRuns A sqrt g op clouds output output')
    (hcams : List.Forall₂ (fun cl c => (Posed gw B c ∧ WorldGiven val kept v η B gw c cl.tf cl.range cl.points) ∧ RangeStored val kept cl.range) clouds cams)
    (hi : CellInGrid (axisCells g.dims) i) (hocc : (output.data (dataIndex g.dims i)).le (.fin (1 / 2)) = true)
    (hno : ∀ c ∈ cams, ∀ x, some x ∈ c.points → ¬ (NearBox (fairTol u (5 * B)) e i (c.placeIn gw x) ∧
      NotBeyond (fairTol u (5 * B)) c.range (c.sensorIn gw) (c.placeIn gw x)))
    (hsee : k ≤ cams.countP fun c => decide (DeepInGrid (fairTol u (5 * B)) e (axisCells g.dims) (c.sensorIn gw) ∧
      ∃ x, some x ∈ c.points ∧ SeenDeep (freeTol u e (5 * B) N) e c.range (c.sensorIn gw) (c.placeIn gw x) i)) :
    output'.data (dataIndex g.dims i) = .fin 0 := by
  refine C89_seen_is_free_partial H W S G hcell V hop hlen hd h (cams := cams.map (Camera3.inGrid gw))
    (List.forall₂_map_right_iff.2 (hcams.imp fun cl c hh => ⟨(WorldGiven.both P hh.1.1 hh.1.2).1, (WorldGiven.both P hh.1.1 hh.1.2).2, hh.2⟩))
    hi hocc (fun c' hc' => ?_) ?_
  · obtain ⟨c, hc, rfl⟩ := List.mem_map.1 hc'
    simp only [inGrid_place, inGrid_sensor]
    exact hno c hc
  · rw [List.countP_map]
    simpa only [Function.comp_def, inGrid_sensor, inGrid_place, inGrid_range, inGrid_points] using hsee

variable {share : ℤ → ℤ → Fl} {api : DeviceApi} {static : VoxMap K}

open Classical in
/-- C89, free cells were looked through, cameras in the frame of the world, devices.
Missing for a full statement: sensors outside the grid; for them see `C89_device_world_free_is_seen_or_short`. -/
theorem C89_device_world_free_is_seen_partial (H : AccurateArith A sqrt val kept u η M) (W : FairWalk A sqrt val kept u η M) (S : Room u η M e (5 * B))
    (P : WorldRoom u v η B) (G : GridGiven val u e (5 * B) g) (hcell : CellGiven val u e g) (V : WalkRoom u η M e (5 * B) N g.dims) {pct : Fl}
    (hop : FilterOptions.make pct t k = some op) {clouds : List (DevCloud F)} (hh : Helper api clouds)
    (hN : g.dims.total * 2 * numTrackingGrids clouds < 2 ^ 31) (hd : static.dims = g.dims)
    (h : FastDeviceRuns share api A sqrt g op clouds static output output')
    (hcams : List.Forall₂ (fun cl c => (Posed gw B c ∧ WorldGiven val kept v η B gw c cl.tf cl.range cl.points) ∧ RangeStored val kept cl.range) clouds cams)
    (hsensor : ∀ c ∈ cams, DeepInGrid (fairTol u (5 * B)) e (axisCells g.dims) (c.sensorIn gw))
    (hi : CellInGrid (axisCells g.dims) i) (hocc : (static.data (dataIndex g.dims i)).le (.fin (1 / 2)) = true)
    (hzero : output'.data (dataIndex g.dims i) = .fin 0) :
    k ≤ cams.countP fun c => decide (∃ x, some x ∈ c.points ∧
      SeenNear (freeTol u e (5 * B) N) e c.range (c.sensorIn gw) (c.placeIn gw x) i) := by
  have h0 := C89_device_free_is_seen_partial H W S G hcell V hop hh hN hd h (cams := cams.map (Camera3.inGrid gw))
    (List.forall₂_map_right_iff.2 (hcams.imp fun cl c hh => ⟨(WorldGiven.both P hh.1.1 hh.1.2).1, (WorldGiven.both P hh.1.1 hh.1.2).2, hh.2⟩))
    (fun c' hc' => by
      obtain ⟨c, hc, rfl⟩ := List.mem_map.1 hc'
      rw [inGrid_sensor]
      exact hsensor c hc) hi hocc hzero
  rw [List.countP_map] at h0
  simpa only [Function.comp_def, inGrid_sensor, inGrid_place, inGrid_range, inGrid_points] using h0

open Classical in
/-- C89, what is looked through becomes free, cameras in the frame of the world, devices.
Missing for a full statement: sensors outside the grid, for which it does not hold (`C57_device_misses_free_cell`). -/
theorem C89_device_world_seen_is_free_partial (H : AccurateArith A sqrt val kept u η M) (W : FairWalk A sqrt val kept u η M) (S : Room u η M e (5 * B))
    (P : WorldRoom u v η B) (G : GridGiven val u e (5 * B) g) (hcell : CellGiven val u e g) (V : WalkRoom u η M e (5 * B) N g.dims) {pct : Fl}
    (hop : FilterOptions.make pct t k = some op) {clouds : List (DevCloud F)} (hh : Helper api clouds)
    (hN : g.dims.total * 2 * numTrackingGrids clouds < 2 ^ 31) (hd : static.dims = g.dims)
    (h : FastDeviceRuns share api A sqrt g op clouds static output output')
    (hcams : List.Forall₂ (fun cl c => (Posed gw B c ∧ WorldGiven val kept v η B gw c cl.tf cl.range cl.points) ∧ RangeStored val kept cl.range) clouds cams)
    (hi : CellInGrid (axisCells g.dims) i) (hocc : (static.data (dataIndex g.dims i)).le (.fin (1 / 2)) = true)
    (hno : ∀ c ∈ cams, ∀ x, some x ∈ c.points → ¬ (NearBox (fairTol u (5 * B)) e i (c.placeIn gw x) ∧
      NotBeyond (fairTol u (5 * B)) c.range (c.sensorIn gw) (c.placeIn gw x)))
    (hsee : k ≤ cams.countP fun c => decide (DeepInGrid (fairTol u (5 * B)) e (axisCells g.dims) (c.sensorIn gw) ∧
      ∃ x, some x ∈ c.points ∧ SeenDeep (freeTol u e (5 * B) N) e c.range (c.sensorIn gw) (c.placeIn gw x) i)) :
    output'.data (dataIndex g.dims i) = .fin 0 := by
  refine C89_device_seen_is_free_partial H W S G hcell V hop hh hN hd h (cams := cams.map (Camera3.inGrid gw))
    (List.forall₂_map_right_iff.2 (hcams.imp fun cl c hh => ⟨(WorldGiven.both P hh.1.1 hh.1.2).1, (WorldGiven.both P hh.1.1 hh.1.2).2, hh.2⟩))
    hi hocc (fun c' hc' => ?_) ?_
  · obtain ⟨c, hc, rfl⟩ := List.mem_map.1 hc'
    simp only [inGrid_place, inGrid_sensor]
    exact hno c hc
  · rw [List.countP_map]
    simpa only [Function.comp_def, inGrid_sensor, inGrid_place, inGrid_range, inGrid_points] using hsee

end

/-! ### Concrete cases -/

/-- A camera of the world in cell (0, 1, 0) of the turned grid that measures a point in cell (2, 1, 0). -/
def insideW : Camera3 where
  pose := fun k => if k = 1 ∨ k = 10 then 1 else if k = 4 then -1 else if k = 12 then 3 / 2 else if k = 13 then 3 / 2 else if k = 14 then 1 / 2 else 0
  range := .fin 10
  points := [some ![2, 0, 0]]

theorem insideW_posed : Posed turnedGrid 8 insideW where
  rows := by intro a; fin_cases a <;> norm_num [turnedGrid]
  cols := by intro b; fin_cases b <;> norm_num [insideW]
  grid := by intro a; fin_cases a <;> norm_num [turnedGrid]
  shift := by intro a; fin_cases a <;> norm_num [insideW, abs_le]
  points := by
    intro x hx
    have : x = ![2, 0, 0] := by simpa [insideW] using hx
    subst this
    intro a
    fin_cases a <;> norm_num [third]

theorem insideW_place : insideW.placeIn turnedGrid ![2, 0, 0] = insideF.place ![2, 0, 0] := by
  have h : insideW.place ![2, 0, 0] = ![3 / 2, 7 / 2, 1 / 2] := by
    funext a
    fin_cases a <;> norm_num [insideW, Camera3.place, third]
  unfold Camera3.placeIn
  rw [turnedGrid_place, h, insideF_place]
  funext a
  fin_cases a <;> norm_num [third]

theorem insideW_sensor : insideW.sensorIn turnedGrid = insideF.sensor := by
  unfold Camera3.sensorIn
  rw [turnedGrid_place, insideF_sensor]
  funext a
  fin_cases a <;> norm_num [insideW, Camera3.sensor, third]

theorem insideW_only {x : Fin 3 → ℚ} (hx : some x ∈ insideW.points) : x = ![2, 0, 0] := by simpa [insideW] using hx

/-- The products of the poses with fused operations are exact. -/
theorem insideW_runs : PoseRuns (roundDouble : ℝ → ℝ) (fun k => turnedGrid k) (fun k => insideW.pose k) (fun k => insideF.pose k) := by
  have r : ∀ n : ℤ, |n| ≤ 2 ^ 53 → roundDouble ((n : ℝ) / 8) = n / 8 := fun n => roundDouble_eighth
  have r0 := r 0 (by norm_num)
  have r1 := r 8 (by norm_num)
  have r2 := r (-8) (by norm_num)
  have r3 := r (-12) (by norm_num)
  have r4 := r 12 (by norm_num)
  have r7 := r 4 (by norm_num)
  clear r
  norm_num at r0 r1 r2 r3 r4 r7
  constructor
  · intro a b
    have h := ((DotRuns.one (r := roundDouble) (turnedGrid a : ℝ) (insideW.pose (4 * b) : ℝ)).fma (turnedGrid (4 + a) : ℝ)
      (insideW.pose (4 * b + 1) : ℝ)).fma (turnedGrid (8 + a) : ℝ) (insideW.pose (4 * b + 2) : ℝ)
    have e : (insideF.pose (4 * b + a) : ℝ) = roundDouble (roundDouble (roundDouble (turnedGrid a * insideW.pose (4 * b) : ℝ) +
        turnedGrid (4 + a) * insideW.pose (4 * b + 1)) + turnedGrid (8 + a) * insideW.pose (4 * b + 2)) := by
      clear h
      fin_cases a <;> fin_cases b <;> norm_num [turnedGrid, insideW, insideF, lookFrom, r0, r1, r2]
    dsimp only
    rw [e]
    exact h
  · intro a
    have h := (((DotRuns.one (r := roundDouble) (turnedGrid a : ℝ) (insideW.pose 12 : ℝ)).fma (turnedGrid (4 + a) : ℝ) (insideW.pose 13 : ℝ)).fma
      (turnedGrid (8 + a) : ℝ) (insideW.pose 14 : ℝ)).fma (turnedGrid (12 + a) : ℝ) 1
    have e : (insideF.pose (12 + a) : ℝ) = roundDouble (roundDouble (roundDouble (roundDouble (turnedGrid a * insideW.pose 12 : ℝ) +
        turnedGrid (4 + a) * insideW.pose 13) + turnedGrid (8 + a) * insideW.pose 14) + turnedGrid (12 + a) * 1) := by
      clear h
      fin_cases a <;> norm_num [turnedGrid, insideW, insideF, lookFrom, r0, r3, r4, r7, third]
    dsimp only
    rw [e]
    exact h

theorem insideW_given {R : ℚ → Fl} {v η : ℚ} (hv : 0 ≤ v) (hη : 0 ≤ η) :
    WorldGiven Prod.fst (Fused.kept R) v η 8 turnedGrid insideW insideFcloud.tf insideFcloud.range insideFcloud.points where
  pose := ⟨insideF.pose, insideW_runs, fun a b => ⟨_, rfl, by rw [sub_self, abs_zero]; positivity⟩, fun a => ⟨_, rfl, by rw [sub_self, abs_zero]; positivity⟩⟩
  bottom := by
    intro k hk h3
    have : k = 3 ∨ k = 7 ∨ k = 11 := by omega
    rcases this with rfl | rfl | rfl <;> simp [insideFcloud, insideF, lookFrom]
  range := .inr ⟨10, 10, rfl, rfl, by norm_num, by norm_num, by rw [sub_self, abs_zero]; positivity⟩
  points := .cons (fun a => ⟨(![2, 0, 0] : Fin 3 → ℚ) a, by fin_cases a <;> rfl, by rw [sub_self, abs_zero]; positivity⟩) .nil

open Classical in
theorem insideW_count {tol tol' : ℚ} (h0 : 0 ≤ tol) (h : tol ≤ 1 / 4) (h' : tol' ≤ 1 / 4) : (1 : ℤ) ≤ [insideW].countP fun c =>
    decide (DeepInGrid tol' 1 (axisCells gridF.dims) (c.sensorIn turnedGrid) ∧
      ∃ x, some x ∈ c.points ∧ SeenDeep tol 1 c.range (c.sensorIn turnedGrid) (c.placeIn turnedGrid x) ![1, 1, 0]) := by
  have h1 : SeenDeep tol 1 insideW.range (insideW.sensorIn turnedGrid) (insideW.placeIn turnedGrid ![2, 0, 0]) ![1, 1, 0] := by
    rw [insideW_place, insideW_sensor]
    exact insideF_seen h0 h
  have h2 : DeepInGrid tol' 1 (axisCells gridF.dims) (insideW.sensorIn turnedGrid) := by
    rw [insideW_sensor]
    exact insideF_deep h'
  rw [List.countP_cons, if_pos (decide_eq_true ⟨h2, ![2, 0, 0], List.mem_cons_self, h1⟩)]
  norm_num

/-- The hypotheses of `C89_world_free_is_seen_partial` and `C89_world_seen_is_free_partial` are met: the camera looks through cell (1, 1, 0) of a
turned grid, which becomes free. -/
example {sqrt : Fl → Fl} (hs : IeeeSqrt sqrt) : ∃ output', FlVoxelizeRuns fusedDouble (fusedSqrt sqrt) gridF ⟨.fin 1, 1, 1⟩ [insideFcloud] dark4 output' ∧
    output'.data (dataIndex gridF.dims ![1, 1, 0]) = .fin 0 := by
  have G : GridGiven Prod.fst (18 * (1 / 2 ^ 53)) 1 (5 * 8) gridF := gridF_given (by norm_num) (by norm_num)
  have H := (fusedDouble_accurate hs).mono (u' := 18 * (1 / 2 ^ 53)) (by norm_num)
  have S := (room_double (e := 1) (B := 5 * 8) (by norm_num) (by norm_num) (by norm_num)).mono (u' := 18 * (1 / 2 ^ 53)) (by norm_num) (by norm_num)
  have P := worldRoom_double (B := 8) (by norm_num)
  have hlen : ∀ c ∈ [insideFcloud], c.points.length < 2 ^ 31 := by simp [insideFcloud]
  have V := (walkRoom_double (e := 1) (B := 5 * 8) (N := 6) (d := gridF.dims) (by norm_num) (by norm_num) (by norm_num) (by norm_num) (by norm_num)
    gridF_dims).mono (u' := 18 * (1 / 2 ^ 53)) (by norm_num) (by norm_num) (le_trans (by norm_num) S.M_one) (by norm_num) (by norm_num)
  have hw : WorldGiven Prod.fst (Fused.kept doubleR) (1 / 2 ^ 53) (3 * (1 / 2 ^ 1075)) 8 turnedGrid insideW insideFcloud.tf insideFcloud.range
      insideFcloud.points := insideW_given (by norm_num) (by positivity)
  obtain ⟨out, hout⟩ := C88_world_has_result (cams := [insideW]) (gw := turnedGrid) H S P G (fusedDouble_index hs)
    (indexRoom_double (by norm_num) (by norm_num) (by norm_num)) plain_filter hlen (.cons ⟨⟨insideW_posed, hw⟩, rfl⟩ .nil)
    (fun c hc => by
      obtain rfl := List.mem_singleton.1 hc
      rw [insideW_sensor]
      exact .inl (insideF_deep (by norm_num [fairTol]))) (output := dark4) rfl
  refine ⟨out, hout, ?_⟩
  refine C89_world_seen_is_free_partial (cams := [insideW]) (gw := turnedGrid) (N := 6) H ((fusedDouble_walk sqrt).mono (by norm_num)) S P G
    (gridF_cell (by norm_num)) V plain_filter hlen rfl hout (.cons ⟨⟨insideW_posed, hw⟩, insideF_stored⟩ .nil)
    (by intro a; fin_cases a <;> norm_num [gridF, axisCells, third]) (by simp [dark4, Fl.le]) (fun c hc x hx => ?_)
    (insideW_count (by norm_num [freeTol]) (by norm_num [freeTol]) (by norm_num [fairTol]))
  obtain rfl := List.mem_singleton.1 hc
  rw [insideW_only hx, insideW_place]
  exact fun h => insideF_clear (by norm_num [fairTol]) ![2, 0, 0] List.mem_cons_self h.1

/-- The hypotheses of `C89_device_world_free_is_seen_partial` and `C89_device_world_seen_is_free_partial` are met: the same camera. -/
example {sqrt : Fl → Fl} (hs : FloatSqrt sqrt) :
    ∃ output', FastDeviceRuns roughShare (cudaApi 256) fastFloat (fusedSqrt sqrt) gridF ⟨.fin 1, 1, 1⟩ [insideFdev] dark4 dark4 output' ∧
    output'.data (dataIndex gridF.dims ![1, 1, 0]) = .fin 0 := by
  have hs' : SqrtRounds sqrt (3 * (1 / 2 ^ 24)) (3 * (1 / 2 ^ 126)) := fun q hq => by
    obtain ⟨y, k1, k2, k3⟩ := sqrtRounds_float hs q hq
    exact ⟨y, k1, k2, k3.trans (by norm_num; linarith)⟩
  have G : GridGiven Prod.fst (4 * (1 / 2 ^ 24)) 1 (5 * 8) gridF := gridF_given (by norm_num) (by norm_num)
  have H := (fastFloat_accurate hs').mono (u' := 4 * (1 / 2 ^ 24)) (by norm_num)
  have S := (room_float (e := 1) (B := 5 * 8) (by norm_num) (by norm_num) (by norm_num)).mono (u' := 4 * (1 / 2 ^ 24)) (by norm_num) (by norm_num)
  have P := worldRoom_float (B := 8) (by norm_num)
  have hh : Helper (cudaApi 256) [insideFdev] := .inr ⟨256, by norm_num, rfl, by simp [insideFdev, insideFcloud]⟩
  have hN : gridF.dims.total * 2 * numTrackingGrids [insideFdev] < 2 ^ 31 := by norm_num [gridF, numTrackingGrids, Dims.total]
  have V := (walkRoom_float (e := 1) (B := 5 * 8) (N := 6) (d := gridF.dims) (by norm_num) (by norm_num) (by norm_num) (by norm_num) (by norm_num)
    gridF_dims).mono (u' := 4 * (1 / 2 ^ 24)) (by norm_num) (by norm_num) (by norm_num) (by norm_num) (by norm_num)
  have hw : WorldGiven Prod.fst (Fused.kept flushR) (1 / 2 ^ 24) (3 * (1 / 2 ^ 126)) 8 turnedGrid insideW insideFdev.tf insideFdev.range
      insideFdev.points := insideW_given (by norm_num) (by positivity)
  have hin : ∀ c ∈ [insideW], DeepInGrid (fairTol (4 * (1 / 2 ^ 24)) (5 * 8)) 1 (axisCells gridF.dims) (c.sensorIn turnedGrid) := fun c hc => by
    obtain rfl := List.mem_singleton.1 hc
    rw [insideW_sensor]
    exact insideF_deep (by norm_num [fairTol])
  obtain ⟨out, hout⟩ := C88_device_world_has_result (cams := [insideW]) (gw := turnedGrid) (share := roughShare) (ν := 1 / 4) H S P G (fastFloat_index hs')
    (indexRoom_float (by norm_num) (by norm_num) (by norm_num) (by norm_num)) plain_filter hh hN (by simp [insideFdev, insideFcloud])
    (.cons ⟨⟨insideW_posed, hw⟩, rfl⟩ .nil) (fun c hc => .inl (hin c hc)) (static := dark4) (output := dark4) rfl
  refine ⟨out, hout, ?_⟩
  refine C89_device_world_seen_is_free_partial (cams := [insideW]) (gw := turnedGrid) (N := 6) H ((fastFloat_walk sqrt).mono (by norm_num)) S P G
    (gridF_cell (by norm_num)) V plain_filter hh hN rfl hout (.cons ⟨⟨insideW_posed, hw⟩, insideF_stored⟩ .nil)
    (by intro a; fin_cases a <;> norm_num [gridF, axisCells, third]) (by simp [dark4, Fl.le]) (fun c hc x hx => ?_)
    (insideW_count (by norm_num [freeTol]) (by norm_num [freeTol]) (by norm_num [fairTol]))
  obtain rfl := List.mem_singleton.1 hc
  rw [insideW_only hx, insideW_place]
  exact fun h => insideF_clear (by norm_num [fairTol]) ![2, 0, 0] List.mem_cons_self h.1

end VGT
