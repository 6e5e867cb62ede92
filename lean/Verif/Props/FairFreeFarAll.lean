import Verif.Props.FairFreeFar
import Verif.Props.FairFreeWorld

/-!
C89: free cells of whole voxelizations were looked through, wherever the sensors are.
-/
set_option autoImplicit false

namespace VGT
open VGT.EDT VGT.Spec VGT.Par

section
variable {F : Type} {A : Arith F} {sqrt : F → F} {val kept : F → Fl} {u v η M e B N : ℚ} {g : RayGrid F} {gw : ℕ → ℚ}
  {K : Type} {op : FilterOptions} {t k : ℤ} {output output' : VoxMap K} {i : IVec} {cams : List Camera3}

open Classical in
/-- C89, free cells were looked through, CPU, wherever the sensors are: a cell that was not filled becomes 0 only if at least the required number of
cameras measured a point such that the true segment from the sensor to the point passes the cell not beyond the range, up to the tolerance, or ends (at
the point or at the range) before the grid.  For rays that end before the grid it does not hold (`C74_free_behind_the_obstacle`). -/
theorem C89_free_is_seen_or_short (H : AccurateArith A sqrt val kept u η M) (W : FairWalk A sqrt val kept u η M) (S : Room u η M e B)
    (htiny : TinyGiven A val) (G : GridGiven val u e B g) (hcell : CellGiven val u e g) (V : WalkRoom u η M e B N g.dims) (V' : FarRoom u M e B N) {pct : ℚ}
    (hop : FilterOptions.make (.fin pct) t k = some op) {clouds : List (CpuCloud F)} (hlen : ∀ cl ∈ clouds, cl.points.length < 2 ^ 31)
    (hd : output.dims = g.dims) (h : FlVoxelizeRuns A sqrt g op clouds output output')
    (hcams : List.Forall₂ (fun cl c => c.Within B ∧ Given val kept u η B c cl.tf cl.range cl.points ∧ RangeStored val kept cl.range) clouds cams)
    (hi : CellInGrid (axisCells g.dims) i) (hocc : (output.data (dataIndex g.dims i)).le (.fin (1 / 2)) = true)
    (hzero : output'.data (dataIndex g.dims i) = .fin 0) :
    k ≤ cams.countP fun c => decide (∃ x, some x ∈ c.points ∧ (SeenNear (farFreeTol u e B N) e c.range c.sensor (c.place x) i ∨
      ¬ Reaches (reachTol u B) e (axisCells g.dims) c.range c.sensor (c.place x))) := by
  rw [C74_decision hop hlen hd h hi hocc, decision_eq_zero] at hzero
  obtain ⟨-, hcnt⟩ := hzero
  rw [List.countP_map] at hcnt
  refine hcnt.trans (Nat.cast_le.2 ?_)
  refine countP_le_forall₂ hcams.flip fun c hcm cl _ hcl hp => ?_
  obtain ⟨hc, hg, hst⟩ := hcl
  rw [Function.comp_apply, decide_eq_true_iff] at hp
  rw [decide_eq_true_iff]
  have hpos : 0 < cpuCount A sqrt g cl (.free i) := by
    have h1 := hp.1
    dsimp only at h1
    exact_mod_cast h1
  unfold cpuCount at hpos
  obtain ⟨y, hy, hput⟩ := List.countP_pos_iff.1 hpos
  obtain ⟨ms, hms, hm⟩ := of_decide_eq_true hput
  obtain ⟨x', hx', hyx⟩ := forall₂_mem' hg.points y hy
  cases y with
  | none =>
    cases hms
    cases hm
  | some y =>
    cases x' with
    | none => exact absurd hyx id
    | some x =>
      obtain ⟨vo, vp, l, l', R⟩ := cpu_ray_fair H S hc hg (hc.points x hx') hyx
      exact ⟨x, hx', ray_seen_or_short H W S htiny G hcell V V' R hg.range hst hms hm hi⟩

open Classical in
/-- C89, free cells were looked through, CPU, wherever the sensors are, cameras in the frame of the world. -/
theorem C89_world_free_is_seen_or_short (H : AccurateArith A sqrt val kept u η M) (W : FairWalk A sqrt val kept u η M) (S : Room u η M e (5 * B))
    (P : WorldRoom u v η B) (htiny : TinyGiven A val) (G : GridGiven val u e (5 * B) g) (hcell : CellGiven val u e g)
    (V : WalkRoom u η M e (5 * B) N g.dims) (V' : FarRoom u M e (5 * B) N) {pct : ℚ}
    (hop : FilterOptions.make (.fin pct) t k = some op) {clouds : List (CpuCloud F)} (hlen : ∀ cl ∈ clouds, cl.points.length < 2 ^ 31)
    (hd : output.dims = g.dims) (h : FlVoxelizeRuns A sqrt g op clouds output output')
    (hcams : List.Forall₂ (fun cl c => (Posed gw B c ∧ WorldGiven val kept v η B gw c cl.tf cl.range cl.points) ∧ RangeStored val kept cl.range) clouds cams)
    (hi : CellInGrid (axisCells g.dims) i) (hocc : (output.data (dataIndex g.dims i)).le (.fin (1 / 2)) = true)
    (hzero : output'.data (dataIndex g.dims i) = .fin 0) :
    k ≤ cams.countP fun c => decide (∃ x, some x ∈ c.points ∧ (SeenNear (farFreeTol u e (5 * B) N) e c.range (c.sensorIn gw) (c.placeIn gw x) i ∨
      ¬ Reaches (reachTol u (5 * B)) e (axisCells g.dims) c.range (c.sensorIn gw) (c.placeIn gw x))) := by
  have h0 := C89_free_is_seen_or_short H W S htiny G hcell V V' hop hlen hd h (cams := cams.map (Camera3.inGrid gw))
    (List.forall₂_map_right_iff.2 (hcams.imp fun cl c hh => ⟨(WorldGiven.both P hh.1.1 hh.1.2).1, (WorldGiven.both P hh.1.1 hh.1.2).2, hh.2⟩))
    hi hocc hzero
  rw [List.countP_map] at h0
  simpa only [Function.comp_def, inGrid_sensor, inGrid_place, inGrid_range, inGrid_points] using h0

variable {share : ℤ → ℤ → Fl} {api : DeviceApi} {static : VoxMap K}

open Classical in
/-- C89, free cells were looked through, devices, wherever the sensors are: whatever the division in the filter kernel gives. -/
theorem C89_device_free_is_seen_or_short (H : AccurateArith A sqrt val kept u η M) (W : FairWalk A sqrt val kept u η M) (S : Room u η M e B)
    (htiny : TinyGiven A val) (G : GridGiven val u e B g) (hcell : CellGiven val u e g) (V : WalkRoom u η M e B N g.dims) (V' : FarRoom u M e B N) {pct : Fl}
    (hop : FilterOptions.make pct t k = some op) {clouds : List (DevCloud F)} (hh : Helper api clouds)
    (hN : g.dims.total * 2 * numTrackingGrids clouds < 2 ^ 31) (hd : static.dims = g.dims)
    (h : FastDeviceRuns share api A sqrt g op clouds static output output')
    (hcams : List.Forall₂ (fun cl c => c.Within B ∧ Given val kept u η B c cl.tf cl.range cl.points ∧ RangeStored val kept cl.range) clouds cams)
    (hi : CellInGrid (axisCells g.dims) i) (hocc : (static.data (dataIndex g.dims i)).le (.fin (1 / 2)) = true)
    (hzero : output'.data (dataIndex g.dims i) = .fin 0) :
    k ≤ cams.countP fun c => decide (∃ x, some x ∈ c.points ∧ (SeenNear (farFreeTol u e B N) e c.range c.sensor (c.place x) i ∨
      ¬ Reaches (reachTol u B) e (axisCells g.dims) c.range c.sensor (c.place x))) := by
  refine (fast_count_of_free hop hh hN hd h hi hocc hzero).trans (Nat.cast_le.2 ?_)
  refine countP_le_forall₂ hcams.flip fun c hcm cl _ hcl hp => ?_
  obtain ⟨hc, hg, hst⟩ := hcl
  rw [decide_eq_true_iff] at hp ⊢
  unfold devHits at hp
  obtain ⟨y, hy, hput⟩ := List.countP_pos_iff.1 hp
  obtain ⟨ms, hms, hm⟩ := of_decide_eq_true hput
  obtain ⟨x', hx', hyx⟩ := forall₂_mem' hg.points y hy
  cases y with
  | none =>
    cases hms
    cases hm
  | some y =>
    cases x' with
    | none => exact absurd hyx id
    | some x =>
      obtain ⟨vo, vp, l, l', R⟩ := dev_ray_fair H S hc hg (hc.points x hx') hyx
      exact ⟨x, hx', ray_seen_or_short H W S htiny G hcell V V' R hg.range hst hms hm hi⟩

open Classical in
/-- C89, free cells were looked through, devices, wherever the sensors are, cameras in the frame of the world. -/
theorem C89_device_world_free_is_seen_or_short (H : AccurateArith A sqrt val kept u η M) (W : FairWalk A sqrt val kept u η M) (S : Room u η M e (5 * B))
    (P : WorldRoom u v η B) (htiny : TinyGiven A val) (G : GridGiven val u e (5 * B) g) (hcell : CellGiven val u e g)
    (V : WalkRoom u η M e (5 * B) N g.dims) (V' : FarRoom u M e (5 * B) N) {pct : Fl}
    (hop : FilterOptions.make pct t k = some op) {clouds : List (DevCloud F)} (hh : Helper api clouds)
    (hN : g.dims.total * 2 * numTrackingGrids clouds < 2 ^ 31) (hd : static.dims = g.dims)
    (h : FastDeviceRuns share api A sqrt g op clouds static output output')
    (hcams : List.Forall₂ (fun cl c => (Posed gw B c ∧ WorldGiven val kept v η B gw c cl.tf cl.range cl.points) ∧ RangeStored val kept cl.range) clouds cams)
    (hi : CellInGrid (axisCells g.dims) i) (hocc : (static.data (dataIndex g.dims i)).le (.fin (1 / 2)) = true)
    (hzero : output'.data (dataIndex g.dims i) = .fin 0) :
    k ≤ cams.countP fun c => decide (∃ x, some x ∈ c.points ∧ (SeenNear (farFreeTol u e (5 * B) N) e c.range (c.sensorIn gw) (c.placeIn gw x) i ∨
      ¬ Reaches (reachTol u (5 * B)) e (axisCells g.dims) c.range (c.sensorIn gw) (c.placeIn gw x))) := by
  have h0 := C89_device_free_is_seen_or_short H W S htiny G hcell V V' hop hh hN hd h (cams := cams.map (Camera3.inGrid gw))
    (List.forall₂_map_right_iff.2 (hcams.imp fun cl c hh => ⟨(WorldGiven.both P hh.1.1 hh.1.2).1, (WorldGiven.both P hh.1.1 hh.1.2).2, hh.2⟩))
    hi hocc hzero
  rw [List.countP_map] at h0
  simpa only [Function.comp_def, inGrid_sensor, inGrid_place, inGrid_range, inGrid_points] using h0

end

/-! ### `double` with fused operations and `float` with fast math -/

theorem fusedDouble_tiny {sqrt : Fl → Fl} (hs : IeeeSqrt sqrt) : TinyGiven fusedDouble Prod.fst := by
  obtain ⟨t, h1, h2⟩ := (fusedDouble_index hs).tiny
  exact ⟨t, h1, h2.trans (by norm_num)⟩

theorem fastFloat_tiny {sqrt : Fl → Fl} (hs : SqrtRounds sqrt (3 * (1 / 2 ^ 24)) (3 * (1 / 2 ^ 126))) : TinyGiven fastFloat Prod.fst := by
  obtain ⟨t, h1, h2⟩ := (fastFloat_index hs).tiny
  exact ⟨t, h1, h2.trans (by norm_num)⟩

theorem farRoom_double {u e B N : ℚ} (hu : 0 ≤ u) (hu1 : u ≤ 3 * (1 / 2 ^ 53)) (hN : 3 ≤ N) (hN' : N ≤ 2 ^ 22) (hB : 0 ≤ B / e) (hB' : B / e ≤ 2 ^ 32) :
    FarRoom u (((2 - 1 / 2 ^ 52) * 2 ^ 1023) / 2) e B N := by
  have hM : (2 : ℚ) ^ 200 ≤ 2 ^ 1023 := pow_le_pow_right₀ (by norm_num) (by norm_num)
  have hNN : N * N ≤ 2 ^ 22 * 2 ^ 22 := mul_le_mul hN' hN' (by linarith) (by norm_num)
  have h1 : u * N * N ≤ 3 * (1 / 2 ^ 53) * (2 ^ 22 * 2 ^ 22) := by
    rw [mul_assoc]
    exact mul_le_mul hu1 hNN (by positivity) (by norm_num)
  have h2 : u * (N + 12 * (B / e)) ≤ 3 * (1 / 2 ^ 53) * (2 ^ 22 + 12 * 2 ^ 32) := mul_le_mul hu1 (by linarith) (by linarith) (by norm_num)
  generalize (2 : ℚ) ^ 1023 = m at *
  norm_num at h1 h2 hM hN' hB'
  refine ⟨?_, ?_, ?_⟩ <;> norm_num <;> linarith

theorem farRoom_float {u e B N : ℚ} (hu : 0 ≤ u) (hu1 : u ≤ 3 * (1 / 2 ^ 24)) (hN : 3 ≤ N) (hN' : N ≤ 202) (hB : 0 ≤ B / e) (hB' : N + 12 * (B / e) ≤ 600) :
    FarRoom u (2 ^ 126 / 2) e B N := by
  have hNN : N * N ≤ 202 * 202 := mul_le_mul hN' hN' (by linarith) (by norm_num)
  have h1 : u * N * N ≤ 3 * (1 / 2 ^ 24) * (202 * 202) := by
    rw [mul_assoc]
    exact mul_le_mul hu1 hNN (by positivity) (by norm_num)
  have h2 : u * (N + 12 * (B / e)) ≤ 3 * (1 / 2 ^ 24) * 600 := mul_le_mul hu1 hB' (by linarith) (by norm_num)
  norm_num at h1 h2
  refine ⟨?_, ?_, ?_⟩ <;> norm_num <;> linarith

section
variable {e B N : ℚ} {g : RayGrid Fused} {K : Type} {op : FilterOptions} {t k : ℤ} {cams : List Camera3} {output output' : VoxMap K} {i : IVec}

open Classical in
/-- C89 for `double` with fused operations, wherever the sensors are. -/
theorem C89_fused_double_free_is_seen_or_short {sqrt : Fl → Fl} (hs : IeeeSqrt sqrt) (he : 1 / 2 ^ 20 ≤ e) (heB : e ≤ B) (hB : B ≤ 2 ^ 100)
    (hBe : B / e ≤ 2 ^ 32) (hN : 3 ≤ N) (hN' : N ≤ 2 ^ 22) (hdim : ∀ a, (axisCells g.dims a : ℚ) + 2 ≤ N)
    (G : GridGiven Prod.fst (3 * (1 / 2 ^ 53)) e B g) (hcell : CellGiven Prod.fst (3 * (1 / 2 ^ 53)) e g) {pct : ℚ}
    (hop : FilterOptions.make (.fin pct) t k = some op) {clouds : List (CpuCloud Fused)}
    (hlen : ∀ cl ∈ clouds, cl.points.length < 2 ^ 31) (hd : output.dims = g.dims) (h : FlVoxelizeRuns fusedDouble (fusedSqrt sqrt) g op clouds output output')
    (hcams : List.Forall₂ (fun cl c => c.Within B ∧ Given Prod.fst (Fused.kept doubleR) (3 * (1 / 2 ^ 53)) (3 * (1 / 2 ^ 1075)) B c cl.tf cl.range cl.points ∧
      RangeStored Prod.fst (Fused.kept doubleR) cl.range) clouds cams)
    (hi : CellInGrid (axisCells g.dims) i) (hocc : (output.data (dataIndex g.dims i)).le (.fin (1 / 2)) = true)
    (hzero : output'.data (dataIndex g.dims i) = .fin 0) : k ≤ cams.countP fun c =>
      decide (∃ x, some x ∈ c.points ∧ (SeenNear (farFreeTol (3 * (1 / 2 ^ 53)) e B N) e c.range c.sensor (c.place x) i ∨
        ¬ Reaches (reachTol (3 * (1 / 2 ^ 53)) B) e (axisCells g.dims) c.range c.sensor (c.place x))) := by
  have he0 : 0 < e := lt_of_lt_of_le (by norm_num) he
  exact C89_free_is_seen_or_short (fusedDouble_accurate hs) (fusedDouble_walk sqrt) (room_double (le_trans (by norm_num) he) heB hB)
    (fusedDouble_tiny hs) G hcell (walkRoom_double (d := g.dims) he (heB.trans hB) hB hN hN' hdim)
    (farRoom_double (by norm_num) le_rfl hN hN' (div_nonneg (he0.le.trans heB) he0.le) hBe) hop hlen hd h hcams hi hocc hzero

open Classical in
/-- C89 for `float` with fast math, wherever the sensors are. -/
theorem C89_fast_float_free_is_seen_or_short {sqrt : Fl → Fl} (hs : SqrtRounds sqrt (3 * (1 / 2 ^ 24)) (3 * (1 / 2 ^ 126))) (he : 1 / 2 ^ 20 ≤ e) (heB : e ≤ B)
    (hB : B ≤ 2 ^ 30) (hN : 3 ≤ N) (hN' : N ≤ 202) (hBe : N + 12 * (B / e) ≤ 600) (hdim : ∀ a, (axisCells g.dims a : ℚ) + 2 ≤ N)
    (G : GridGiven Prod.fst (3 * (1 / 2 ^ 24)) e B g) (hcell : CellGiven Prod.fst (3 * (1 / 2 ^ 24)) e g) {pct : Fl}
    (hop : FilterOptions.make pct t k = some op) {clouds : List (DevCloud Fused)} {api : DeviceApi} (hh : Helper api clouds)
    (hG : g.dims.total * 2 * numTrackingGrids clouds < 2 ^ 31) {share : ℤ → ℤ → Fl} {static : VoxMap K}
    (hd : static.dims = g.dims) (h : FastDeviceRuns share api fastFloat (fusedSqrt sqrt) g op clouds static output output')
    (hcams : List.Forall₂ (fun cl c => c.Within B ∧ Given Prod.fst (Fused.kept flushR) (3 * (1 / 2 ^ 24)) (3 * (1 / 2 ^ 126)) B c cl.tf cl.range cl.points ∧
      RangeStored Prod.fst (Fused.kept flushR) cl.range) clouds cams)
    (hi : CellInGrid (axisCells g.dims) i) (hocc : (static.data (dataIndex g.dims i)).le (.fin (1 / 2)) = true)
    (hzero : output'.data (dataIndex g.dims i) = .fin 0) : k ≤ cams.countP fun c =>
      decide (∃ x, some x ∈ c.points ∧ (SeenNear (farFreeTol (3 * (1 / 2 ^ 24)) e B N) e c.range c.sensor (c.place x) i ∨
        ¬ Reaches (reachTol (3 * (1 / 2 ^ 24)) B) e (axisCells g.dims) c.range c.sensor (c.place x))) := by
  have he0 : 0 < e := lt_of_lt_of_le (by norm_num) he
  exact C89_device_free_is_seen_or_short (fastFloat_accurate hs) (fastFloat_walk sqrt) (room_float he heB hB)
    (fastFloat_tiny hs) G hcell (walkRoom_float (d := g.dims) he (heB.trans hB) hB hN hN' hdim)
    (farRoom_float (by norm_num) le_rfl hN hN' (div_nonneg (he0.le.trans heB) he0.le) hBe) hop hh hG hd h hcams hi hocc hzero

end

/-! ### Concrete cases -/

/-- Segments along the first axis do not come near cell (1, 0, 0). -/
theorem straight_unseen {o0 tol : ℚ} {range : Fl} (h : tol ≤ 1 / 4) : ¬ SeenNear tol 1 range ![o0, 3 / 2, 1 / 2] ![5 / 2, 3 / 2, 1 / 2] ![1, 0, 0] := by
  rintro ⟨τ, -, -, h1, -⟩
  have := (h1 1).2
  norm_num [onSeg] at this
  linarith

/-- They do not end before the grid. -/
theorem straight_reaches {o0 tol : ℚ} {range : Fl} (h0 : 0 ≤ tol) (h : tol ≤ 1 / 4) (hw : WellWithin tol range ![o0, 3 / 2, 1 / 2] ![5 / 2, 3 / 2, 1 / 2]) :
    Reaches tol 1 (axisCells gridF.dims) range ![o0, 3 / 2, 1 / 2] ![5 / 2, 3 / 2, 1 / 2] := by
  have e : onSeg (![o0, 3 / 2, 1 / 2] : Fin 3 → ℚ) ![5 / 2, 3 / 2, 1 / 2] 1 = ![5 / 2, 3 / 2, 1 / 2] := by
    funext a
    unfold onSeg
    ring
  refine ⟨1, by norm_num, le_rfl, by rw [e]; exact hw, ?_⟩
  rw [e]
  intro a
  fin_cases a
  · exact ⟨.inr (.inl (by norm_num; linarith)), .inr (.inl (by norm_num [gridF, axisCells]; linarith))⟩
  · exact ⟨.inl (by norm_num; linarith), .inl (by norm_num [gridF, axisCells]; linarith)⟩
  · exact ⟨.inl (by norm_num [third]; linarith), .inl (by norm_num [gridF, axisCells, third]; linarith)⟩

theorem straight_well {o0 r tol : ℚ} (h0 : 0 ≤ tol) (h : tol ≤ 1 / 4) (hr : 5 / 2 - o0 + 1 ≤ r) (h1 : o0 ≤ 5 / 2) :
    WellWithin tol (.fin r) ![o0, 3 / 2, 1 / 2] ![5 / 2, 3 / 2, 1 / 2] := by
  intro r' hr'
  cases hr'
  refine ⟨by linarith, ?_⟩
  have e : distSq (![o0, 3 / 2, 1 / 2] : Fin 3 → ℚ) ![5 / 2, 3 / 2, 1 / 2] = (5 / 2 - o0) ^ 2 := by norm_num [distSq, third]
  rw [e]
  exact pow_le_pow_left₀ (by linarith) (by linarith) 2

/-- A camera two and a half cells before the grid that measures a point in cell (2, 1, 0). -/
def beforeF : Camera3 := lookFrom ![-5 / 2, 3 / 2, 1 / 2] (.fin 7) [some ![5, 0, 0]]

/-- The camera as a device gets it. -/
def beforeFdev : DevCloud Fused := ⟨fun k => (.fin (beforeF.pose k), false), (.fin 7, false), [some ![(.fin 5, false), (.fin 0, false), (.fin 0, false)]]⟩

theorem beforeF_within : beforeF.Within 8 := lookFrom_within (by intro a; fin_cases a <;> norm_num [abs_le, third]) (by
  intro x hx a
  have : x = ![5, 0, 0] := by simpa using hx
  subst this
  fin_cases a <;> norm_num [abs_le, third])

theorem beforeF_place : beforeF.place ![5, 0, 0] = ![5 / 2, 3 / 2, 1 / 2] := by
  unfold beforeF
  rw [lookFrom_place]
  funext a
  fin_cases a <;> norm_num [third]

theorem beforeF_sensor : beforeF.sensor = ![-5 / 2, 3 / 2, 1 / 2] := by
  unfold beforeF
  rw [lookFrom_sensor]

theorem beforeF_only {x : Fin 3 → ℚ} (hx : some x ∈ beforeF.points) : x = ![5, 0, 0] := by simpa [beforeF, lookFrom] using hx

theorem beforeF_given {R : ℚ → Fl} {u η : ℚ} (hu : 0 ≤ u) (hη : 0 ≤ η) :
    Given Prod.fst (Fused.kept R) u η 8 beforeF beforeFdev.tf beforeFdev.range beforeFdev.points where
  turn := fun k _ => ⟨beforeF.pose k, rfl, by rw [sub_self, abs_zero]; exact hu⟩
  shift := fun a => ⟨beforeF.pose (12 + a), rfl, by rw [sub_self, abs_zero]; positivity⟩
  range := .inr ⟨7, 7, rfl, rfl, by norm_num, by norm_num, by rw [sub_self, abs_zero]; positivity⟩
  points := .cons (fun a => ⟨(![5, 0, 0] : Fin 3 → ℚ) a, by fin_cases a <;> rfl, by rw [sub_self, abs_zero]; positivity⟩) .nil

theorem beforeF_stored {R : ℚ → Fl} : RangeStored Prod.fst (Fused.kept R) beforeFdev.range := ⟨rfl, by simp [beforeFdev, Fused.kept]⟩

theorem insideW_posed7 : Posed turnedGrid 7 insideW where
  rows := insideW_posed.rows
  cols := insideW_posed.cols
  grid := by intro a; fin_cases a <;> norm_num [turnedGrid]
  shift := by intro a; fin_cases a <;> norm_num [insideW, abs_le]
  points := by
    intro x hx
    rw [insideW_only hx]
    intro a
    fin_cases a <;> norm_num [third]

theorem insideW_given7 {R : ℚ → Fl} {v η : ℚ} (hv : 0 ≤ v) (hη : 0 ≤ η) :
    WorldGiven Prod.fst (Fused.kept R) v η 7 turnedGrid insideW insideFcloud.tf insideFcloud.range insideFcloud.points where
  pose := ⟨insideF.pose, insideW_runs, fun a b => ⟨_, rfl, by rw [sub_self, abs_zero]; positivity⟩, fun a => ⟨_, rfl, by rw [sub_self, abs_zero]; positivity⟩⟩
  bottom := (insideW_given (R := R) hv hη).bottom
  range := (insideW_given (R := R) hv hη).range
  points := .cons (fun a => ⟨(![2, 0, 0] : Fin 3 → ℚ) a, by fin_cases a <;> rfl, by rw [sub_self, abs_zero]; positivity⟩) .nil

/-- Nobody looked through the cell. -/
theorem none_seen {c : Camera3} {P : Camera3 → Prop} {_ : DecidablePred P} (h : ¬ P c) : ¬ (1 : ℤ) ≤ [c].countP fun c => decide (P c) := by
  rw [List.countP_cons, if_neg (by simpa using h)]
  norm_num

/-- The hypotheses of `C89_free_is_seen_or_short` and `C89_fused_double_free_is_seen_or_short` are met: a camera a thousand cells before the grid does not
make cell (1, 0, 0) free, which it does not look through. -/
example {sqrt : Fl → Fl} (hs : IeeeSqrt sqrt) : ∃ output', FlVoxelizeRuns fusedDouble (fusedSqrt sqrt) gridF ⟨.fin 1, 1, 1⟩ [farFcloud] dark4 output' ∧
    output'.data (dataIndex gridF.dims ![1, 0, 0]) ≠ .fin 0 := by
  have G : GridGiven Prod.fst (3 * (1 / 2 ^ 53)) 1 1024 gridF := gridF_given (by norm_num) (by norm_num)
  have hlen : ∀ c ∈ [farFcloud], c.points.length < 2 ^ 31 := by simp [farFcloud]
  have hg := farF_given (R := doubleR) (u := 3 * (1 / 2 ^ 53)) (η := 3 * (1 / 2 ^ 1075)) (by norm_num) (by positivity)
  obtain ⟨out, hout⟩ := C88_fused_double_has_result hs (e := 1) (B := 1024) (cams := [farF]) (by norm_num) (by norm_num) (by norm_num) (by norm_num) G
    plain_filter hlen (.cons ⟨farF_within, hg, rfl⟩ .nil) (fun c hc => by
      obtain rfl := List.mem_singleton.1 hc
      refine .inr fun x hx => ?_
      rw [farF_only hx, farF_place, farF_sensor]
      norm_num [Apart, distSq, third]) (output := dark4) rfl
  refine ⟨out, hout, fun hzero => none_seen ?_ (C89_fused_double_free_is_seen_or_short hs (N := 6) (e := 1) (B := 1024) (cams := [farF]) (by norm_num)
    (by norm_num) (by norm_num) (by norm_num) (by norm_num) (by norm_num) gridF_dims G (gridF_cell (by norm_num)) plain_filter hlen rfl hout
    (.cons ⟨farF_within, hg, rfl, by simp [farFcloud, Fused.kept]⟩ .nil) (by intro a; fin_cases a <;> norm_num [gridF, axisCells, third])
    (by simp [dark4, Fl.le]) hzero)⟩
  rintro ⟨x, hx, h1⟩
  rw [farF_only hx, farF_place, farF_sensor] at h1
  rcases h1 with h1 | h1
  · exact straight_unseen (by norm_num [farFreeTol]) h1
  · exact h1 (straight_reaches (by norm_num [reachTol]) (by norm_num [reachTol])
      (straight_well (r := 1010) (by norm_num [reachTol]) (by norm_num [reachTol]) (by norm_num) (by norm_num)))

/-- The hypotheses of `C89_device_free_is_seen_or_short` and `C89_fast_float_free_is_seen_or_short` are met: a camera before the grid. -/
example {sqrt : Fl → Fl} (hs : FloatSqrt sqrt) :
    ∃ output', FastDeviceRuns roughShare (cudaApi 256) fastFloat (fusedSqrt sqrt) gridF ⟨.fin 1, 1, 1⟩ [beforeFdev] dark4 dark4 output' ∧
    output'.data (dataIndex gridF.dims ![1, 0, 0]) ≠ .fin 0 := by
  have hs' : SqrtRounds sqrt (3 * (1 / 2 ^ 24)) (3 * (1 / 2 ^ 126)) := fun q hq => by
    obtain ⟨y, k1, k2, k3⟩ := sqrtRounds_float hs q hq
    exact ⟨y, k1, k2, k3.trans (by norm_num; linarith)⟩
  have G : GridGiven Prod.fst (3 * (1 / 2 ^ 24)) 1 8 gridF := gridF_given (by norm_num) (by norm_num)
  have hh : Helper (cudaApi 256) [beforeFdev] := .inr ⟨256, by norm_num, rfl, by simp [beforeFdev]⟩
  have hN : gridF.dims.total * 2 * numTrackingGrids [beforeFdev] < 2 ^ 31 := by norm_num [gridF, numTrackingGrids, Dims.total]
  have hg := beforeF_given (R := flushR) (u := 3 * (1 / 2 ^ 24)) (η := 3 * (1 / 2 ^ 126)) (by norm_num) (by positivity)
  obtain ⟨out, hout⟩ := C88_fast_float_has_result hs' (e := 1) (B := 8) (ν := 1 / 4) (cams := [beforeF]) (share := roughShare) (by norm_num) (by norm_num)
    (by norm_num) (by norm_num) (by norm_num) (by norm_num) G plain_filter hh hN (by simp [beforeFdev])
    (.cons ⟨beforeF_within, hg, rfl⟩ .nil) (fun c hc => by
      obtain rfl := List.mem_singleton.1 hc
      refine .inr fun x hx => ?_
      rw [beforeF_only hx, beforeF_place, beforeF_sensor]
      refine ⟨by norm_num [Apart, distSq, third], fun a => ?_⟩
      fin_cases a
      · exact .inr (by norm_num [GetsOn, distSq, third])
      · exact .inl (by norm_num [BetweenFaces, fairTol, gridF, axisCells])
      · exact .inl (by norm_num [BetweenFaces, fairTol, gridF, axisCells, third])) (static := dark4) (output := dark4) rfl
  refine ⟨out, hout, fun hzero => none_seen ?_ (C89_fast_float_free_is_seen_or_short hs' (N := 6) (e := 1) (B := 8) (cams := [beforeF]) (by norm_num)
    (by norm_num) (by norm_num) (by norm_num) (by norm_num) (by norm_num) gridF_dims G (gridF_cell (by norm_num)) plain_filter hh hN rfl hout
    (.cons ⟨beforeF_within, hg, beforeF_stored⟩ .nil) (by intro a; fin_cases a <;> norm_num [gridF, axisCells, third])
    (by simp [dark4, Fl.le]) hzero)⟩
  rintro ⟨x, hx, h1⟩
  rw [beforeF_only hx, beforeF_place, beforeF_sensor] at h1
  rcases h1 with h1 | h1
  · exact straight_unseen (by norm_num [farFreeTol]) h1
  · exact h1 (straight_reaches (by norm_num [reachTol]) (by norm_num [reachTol])
      (straight_well (r := 7) (by norm_num [reachTol]) (by norm_num [reachTol]) (by norm_num) (by norm_num)))

/-- The hypotheses of `C89_world_free_is_seen_or_short` are met: a camera of the world, a hundred cells before a turned grid. -/
example {sqrt : Fl → Fl} (hs : IeeeSqrt sqrt) : ∃ output', FlVoxelizeRuns fusedDouble (fusedSqrt sqrt) gridF ⟨.fin 1, 1, 1⟩ [nearFcloud] dark4 output' ∧
    output'.data (dataIndex gridF.dims ![1, 0, 0]) ≠ .fin 0 := by
  have G : GridGiven Prod.fst (18 * (1 / 2 ^ 53)) 1 (5 * 128) gridF := gridF_given (by norm_num) (by norm_num)
  have H := (fusedDouble_accurate hs).mono (u' := 18 * (1 / 2 ^ 53)) (by norm_num)
  have S := (room_double (e := 1) (B := 5 * 128) (by norm_num) (by norm_num) (by norm_num)).mono (u' := 18 * (1 / 2 ^ 53)) (by norm_num) (by norm_num)
  have P := worldRoom_double (B := 128) (by norm_num)
  have hlen : ∀ c ∈ [nearFcloud], c.points.length < 2 ^ 31 := by simp [nearFcloud]
  have V := (walkRoom_double (e := 1) (B := 5 * 128) (N := 6) (d := gridF.dims) (by norm_num) (by norm_num) (by norm_num) (by norm_num) (by norm_num)
    gridF_dims).mono (u' := 18 * (1 / 2 ^ 53)) (by norm_num) (by norm_num) (le_trans (by norm_num) S.M_one) (by norm_num) (by norm_num)
  have V' : FarRoom (18 * (1 / 2 ^ 53)) (((2 - 1 / 2 ^ 52) * 2 ^ 1023) / 2) 1 (5 * 128) 6 :=
    ⟨by norm_num, by norm_num, le_trans (by norm_num) S.M_one⟩
  have hw : WorldGiven Prod.fst (Fused.kept doubleR) (1 / 2 ^ 53) (3 * (1 / 2 ^ 1075)) 128 turnedGrid worldF nearFcloud.tf nearFcloud.range
      nearFcloud.points := worldF_given (by norm_num) (by positivity)
  obtain ⟨out, hout⟩ := C88_world_has_result (cams := [worldF]) (gw := turnedGrid) H S P G (fusedDouble_index hs)
    (indexRoom_double (by norm_num) (by norm_num) (by norm_num)) plain_filter hlen (.cons ⟨⟨worldF_posed, hw⟩, rfl⟩ .nil)
    (fun c hc => by
      obtain rfl := List.mem_singleton.1 hc
      refine .inr fun x hx => ?_
      rw [worldF_only hx, worldF_place, worldF_sensor]
      norm_num [Apart, distSq, third]) (output := dark4) rfl
  refine ⟨out, hout, fun hzero => none_seen ?_ (C89_world_free_is_seen_or_short (cams := [worldF]) (gw := turnedGrid) (N := 6) H
    ((fusedDouble_walk sqrt).mono (by norm_num)) S P (fusedDouble_tiny hs) G (gridF_cell (by norm_num)) V V' plain_filter hlen rfl hout
    (.cons ⟨⟨worldF_posed, hw⟩, rfl, by simp [nearFcloud, Fused.kept]⟩ .nil)
    (by intro a; fin_cases a <;> norm_num [gridF, axisCells, third]) (by simp [dark4, Fl.le]) hzero)⟩
  rintro ⟨x, hx, h1⟩
  rw [worldF_only hx, worldF_place, worldF_sensor] at h1
  rcases h1 with h1 | h1
  · exact straight_unseen (by norm_num [farFreeTol]) h1
  · exact h1 (straight_reaches (by norm_num [reachTol]) (by norm_num [reachTol])
      (straight_well (r := 110) (by norm_num [reachTol]) (by norm_num [reachTol]) (by norm_num) (by norm_num)))

/-- The hypotheses of `C89_device_world_free_is_seen_or_short` are met: a camera of the world in a turned grid. -/
example {sqrt : Fl → Fl} (hs : FloatSqrt sqrt) :
    ∃ output', FastDeviceRuns roughShare (cudaApi 256) fastFloat (fusedSqrt sqrt) gridF ⟨.fin 1, 1, 1⟩ [insideFdev] dark4 dark4 output' ∧
    output'.data (dataIndex gridF.dims ![1, 0, 0]) ≠ .fin 0 := by
  have hs' : SqrtRounds sqrt (3 * (1 / 2 ^ 24)) (3 * (1 / 2 ^ 126)) := fun q hq => by
    obtain ⟨y, k1, k2, k3⟩ := sqrtRounds_float hs q hq
    exact ⟨y, k1, k2, k3.trans (by norm_num; linarith)⟩
  have G : GridGiven Prod.fst (4 * (1 / 2 ^ 24)) 1 (5 * 7) gridF := gridF_given (by norm_num) (by norm_num)
  have H := (fastFloat_accurate hs').mono (u' := 4 * (1 / 2 ^ 24)) (by norm_num)
  have S := (room_float (e := 1) (B := 5 * 7) (by norm_num) (by norm_num) (by norm_num)).mono (u' := 4 * (1 / 2 ^ 24)) (by norm_num) (by norm_num)
  have P := worldRoom_float (B := 7) (by norm_num)
  have hh : Helper (cudaApi 256) [insideFdev] := .inr ⟨256, by norm_num, rfl, by simp [insideFdev, insideFcloud]⟩
  have hN : gridF.dims.total * 2 * numTrackingGrids [insideFdev] < 2 ^ 31 := by norm_num [gridF, numTrackingGrids, Dims.total]
  have V := (walkRoom_float (e := 1) (B := 5 * 7) (N := 6) (d := gridF.dims) (by norm_num) (by norm_num) (by norm_num) (by norm_num) (by norm_num)
    gridF_dims).mono (u' := 4 * (1 / 2 ^ 24)) (by norm_num) (by norm_num) (by norm_num) (by norm_num) (by norm_num)
  have V' : FarRoom (4 * (1 / 2 ^ 24)) (2 ^ 126 / 2) 1 (5 * 7) 6 := ⟨by norm_num, by norm_num, by norm_num⟩
  have hw : WorldGiven Prod.fst (Fused.kept flushR) (1 / 2 ^ 24) (3 * (1 / 2 ^ 126)) 7 turnedGrid insideW insideFdev.tf insideFdev.range
      insideFdev.points := insideW_given7 (by norm_num) (by positivity)
  have hin : ∀ c ∈ [insideW], DeepInGrid (fairTol (4 * (1 / 2 ^ 24)) (5 * 7)) 1 (axisCells gridF.dims) (c.sensorIn turnedGrid) := fun c hc => by
    obtain rfl := List.mem_singleton.1 hc
    rw [insideW_sensor]
    exact insideF_deep (by norm_num [fairTol])
  obtain ⟨out, hout⟩ := C88_device_world_has_result (cams := [insideW]) (gw := turnedGrid) (share := roughShare) (ν := 1 / 4) H S P G (fastFloat_index hs')
    (indexRoom_float (by norm_num) (by norm_num) (by norm_num) (by norm_num)) plain_filter hh hN (by simp [insideFdev, insideFcloud])
    (.cons ⟨⟨insideW_posed7, hw⟩, rfl⟩ .nil) (fun c hc => .inl (hin c hc)) (static := dark4) (output := dark4) rfl
  refine ⟨out, hout, fun hzero => none_seen ?_ (C89_device_world_free_is_seen_or_short (cams := [insideW]) (gw := turnedGrid) (N := 6) H
    ((fastFloat_walk sqrt).mono (by norm_num)) S P (fastFloat_tiny hs') G (gridF_cell (by norm_num)) V V' plain_filter hh hN rfl hout
    (.cons ⟨⟨insideW_posed7, hw⟩, insideF_stored⟩ .nil)
    (by intro a; fin_cases a <;> norm_num [gridF, axisCells, third]) (by simp [dark4, Fl.le]) hzero)⟩
  rintro ⟨x, hx, h1⟩
  rw [insideW_only hx, insideW_place, insideW_sensor, insideF_place, insideF_sensor] at h1
  rcases h1 with h1 | h1
  · exact straight_unseen (by norm_num [farFreeTol]) h1
  · exact h1 (straight_reaches (by norm_num [reachTol]) (by norm_num [reachTol])
      (straight_well (r := 10) (by norm_num [reachTol]) (by norm_num [reachTol]) (by norm_num) (by norm_num)))

end VGT
