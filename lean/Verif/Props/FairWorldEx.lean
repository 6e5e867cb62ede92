import Verif.Props.FairWorld

/-!
C87: concrete cases, a turned grid and a camera a hundred cells away, with fused operations everywhere.
-/
set_option autoImplicit false

namespace VGT
open VGT.EDT VGT.Spec VGT.Par

/-- A camera of the world that looks along the first axis of the turned grid and measures a point in cell (2, 1, 0). -/
def worldF : Camera3 where
  pose := fun k => if k = 1 ∨ k = 10 then 1 else if k = 4 then -1 else if k = 12 then 3 / 2 else if k = 13 then -197 / 2 else if k = 14 then 1 / 2 else 0
  range := .fin 110
  points := [some ![102, 0, 0]]

/-- Its pose in the frame of the grid. -/
def nearF : Camera3 := lookFrom ![-199 / 2, 3 / 2, 1 / 2] (.fin 110) [some ![102, 0, 0]]

theorem worldF_posed : Posed turnedGrid 128 worldF where
  rows := by intro a; fin_cases a <;> norm_num [turnedGrid]
  cols := by intro b; fin_cases b <;> norm_num [worldF]
  grid := by intro a; fin_cases a <;> norm_num [turnedGrid]
  shift := by intro a; fin_cases a <;> norm_num [worldF, abs_le]
  points := by
    intro x hx
    have : x = ![102, 0, 0] := by simpa [worldF] using hx
    subst this
    intro a
    fin_cases a <;> norm_num [third]

theorem worldF_there : worldF.place ![102, 0, 0] = ![3 / 2, 7 / 2, 1 / 2] := by
  funext a
  fin_cases a <;> norm_num [worldF, Camera3.place, third]

theorem worldF_place : worldF.placeIn turnedGrid ![102, 0, 0] = ![5 / 2, 3 / 2, 1 / 2] := by
  unfold Camera3.placeIn
  rw [turnedGrid_place, worldF_there]
  funext a
  fin_cases a <;> norm_num [third]

theorem worldF_sensor : worldF.sensorIn turnedGrid = ![-199 / 2, 3 / 2, 1 / 2] := by
  unfold Camera3.sensorIn
  rw [turnedGrid_place]
  funext a
  fin_cases a <;> norm_num [worldF, Camera3.sensor, third]

theorem worldF_only {x : Fin 3 → ℚ} (hx : some x ∈ worldF.points) : x = ![102, 0, 0] := by simpa [worldF] using hx

theorem worldF_well {tol : ℚ} (h0 : 0 ≤ tol) (h1 : tol ≤ 1) :
    WellWithin tol worldF.range (worldF.sensorIn turnedGrid) (worldF.placeIn turnedGrid ![102, 0, 0]) := by
  intro r hr
  have : r = 110 := by simpa [worldF] using hr.symm
  subst this
  rw [worldF_place, worldF_sensor]
  norm_num [distSq, third]
  constructor <;> nlinarith

/-- The products of the poses with fused operations are exact. -/
theorem worldF_runs : PoseRuns (roundDouble : ℝ → ℝ) (fun k => turnedGrid k) (fun k => worldF.pose k) (fun k => nearF.pose k) := by
  have r : ∀ n : ℤ, |n| ≤ 2 ^ 53 → roundDouble ((n : ℝ) / 8) = n / 8 := fun n => roundDouble_eighth
  have r0 := r 0 (by norm_num)
  have r1 := r 8 (by norm_num)
  have r2 := r (-8) (by norm_num)
  have r3 := r (-12) (by norm_num)
  have r4 := r 12 (by norm_num)
  have r5 := r (-788) (by norm_num)
  have r6 := r (-796) (by norm_num)
  have r7 := r 4 (by norm_num)
  clear r
  norm_num at r0 r1 r2 r3 r4 r5 r6 r7
  constructor
  · intro a b
    have h := ((DotRuns.one (r := roundDouble) (turnedGrid a : ℝ) (worldF.pose (4 * b) : ℝ)).fma (turnedGrid (4 + a) : ℝ)
      (worldF.pose (4 * b + 1) : ℝ)).fma (turnedGrid (8 + a) : ℝ) (worldF.pose (4 * b + 2) : ℝ)
    have e : (nearF.pose (4 * b + a) : ℝ) = roundDouble (roundDouble (roundDouble (turnedGrid a * worldF.pose (4 * b) : ℝ) +
        turnedGrid (4 + a) * worldF.pose (4 * b + 1)) + turnedGrid (8 + a) * worldF.pose (4 * b + 2)) := by
      clear h
      fin_cases a <;> fin_cases b <;> norm_num [turnedGrid, worldF, nearF, lookFrom, r0, r1, r2]
    dsimp only
    rw [e]
    exact h
  · intro a
    have h := (((DotRuns.one (r := roundDouble) (turnedGrid a : ℝ) (worldF.pose 12 : ℝ)).fma (turnedGrid (4 + a) : ℝ) (worldF.pose 13 : ℝ)).fma
      (turnedGrid (8 + a) : ℝ) (worldF.pose 14 : ℝ)).fma (turnedGrid (12 + a) : ℝ) 1
    have e : (nearF.pose (12 + a) : ℝ) = roundDouble (roundDouble (roundDouble (roundDouble (turnedGrid a * worldF.pose 12 : ℝ) +
        turnedGrid (4 + a) * worldF.pose 13) + turnedGrid (8 + a) * worldF.pose 14) + turnedGrid (12 + a) * 1) := by
      clear h
      fin_cases a <;> norm_num [turnedGrid, worldF, nearF, lookFrom, r0, r3, r4, r5, r6, r7, third]
    dsimp only
    rw [e]
    exact h

/-- The camera as the CPU gets it. -/
def nearFcloud : CpuCloud Fused := ⟨fun k => (.fin (nearF.pose k), false), (.fin 110, false), [some ![(.fin 102, false), (.fin 0, false), (.fin 0, false)]]⟩

/-- The camera as a device gets it. -/
def nearFdev : DevCloud Fused := ⟨nearFcloud.tf, nearFcloud.range, nearFcloud.points⟩

theorem worldF_given {R : ℚ → Fl} {v η : ℚ} (hv : 0 ≤ v) (hη : 0 ≤ η) :
    WorldGiven Prod.fst (Fused.kept R) v η 128 turnedGrid worldF nearFcloud.tf nearFcloud.range nearFcloud.points where
  pose := ⟨nearF.pose, worldF_runs, fun a b => ⟨_, rfl, by rw [sub_self, abs_zero]; positivity⟩, fun a => ⟨_, rfl, by rw [sub_self, abs_zero]; positivity⟩⟩
  bottom := by
    intro k hk h3
    have : k = 3 ∨ k = 7 ∨ k = 11 := by omega
    rcases this with rfl | rfl | rfl <;> simp [nearFcloud, nearF, lookFrom]
  range := .inr ⟨110, 110, rfl, rfl, by norm_num, by norm_num, by rw [sub_self, abs_zero]; positivity⟩
  points := .cons (fun a => ⟨(![102, 0, 0] : Fin 3 → ℚ) a, by fin_cases a <;> rfl, by rw [sub_self, abs_zero]; positivity⟩) .nil

theorem nearF_point {sqrt : Fl → Fl} (hs : IeeeSqrt sqrt) : cpuPoint fusedDouble (fusedSqrt sqrt) gridF nearFcloud
    (some ![(.fin 102, false), (.fin 0, false), (.fin 0, false)]) = some [.filled ![2, 1, 0], .free ![0, 1, 0], .free ![1, 1, 0]] := by
  have e : flLength fusedDouble (fusedSqrt sqrt) (cpuOrigin fusedDouble nearFcloud.tf)
      (cpuTransform fusedDouble nearFcloud.tf ![(.fin 102, false), (.fin 0, false), (.fin 0, false)]) = (.fin 102, false) := by
    unfold flLength fusedSqrt
    refine congrArg (fun z => (z, false)) (Eq.trans (congrArg sqrt ?_) (ieeeSqrt_sq hs (m := 102) (by norm_num)))
    decide +kernel
  unfold cpuPoint
  dsimp only
  rw [e]
  decide +kernel

theorem nearF_point_fast {sqrt : Fl → Fl} (hs : FloatSqrt sqrt) : kernelPoint fastFloat (fusedSqrt sqrt) gridF nearFdev
    (some ![(.fin 102, false), (.fin 0, false), (.fin 0, false)]) = some [.filled ![2, 1, 0], .free ![0, 1, 0], .free ![1, 1, 0]] := by
  have e : flLength fastFloat (fusedSqrt sqrt) (kernelOrigin nearFdev.tf)
      (kernelTransform fastFloat nearFdev.tf ![(.fin 102, false), (.fin 0, false), (.fin 0, false)]) = (.fin 102, false) := by
    unfold flLength fusedSqrt
    refine congrArg (fun z => (z, false)) (Eq.trans (congrArg sqrt ?_) (floatSqrt_sq hs (m := 102) (by norm_num)))
    decide +kernel
  unfold kernelPoint
  dsimp only
  rw [e]
  decide +kernel

/-- More room for a less accurate arithmetic. -/
theorem Spec.Room.mono {u u' η M e B : ℚ} (S : Room u η M e B) (h : u ≤ u') (h' : 9000 * u' ≤ 1) : Room u' η M e B where
  u_pos := lt_of_lt_of_le S.u_pos h
  u_le := h'
  η_nonneg := S.η_nonneg
  e_pos := S.e_pos
  e_le := S.e_le
  η_u := S.η_u.trans h
  η_B := S.η_B.trans (mul_le_mul_of_nonneg_right h S.B_pos.le)
  η_sq := S.η_sq.trans (pow_le_pow_left₀ (mul_nonneg S.u_pos.le S.B_pos.le) (mul_le_mul_of_nonneg_right h S.B_pos.le) 2)
  η_tiny := S.η_tiny
  M_one := S.M_one
  M_B := S.M_B
  M_sq := S.M_sq
  M_inv := S.M_inv

/-- Room for `double`. -/
theorem worldRoom_double {B : ℚ} (hB : 1 / 2 ^ 200 ≤ B) : WorldRoom (18 * (1 / 2 ^ 53)) (1 / 2 ^ 53) (3 * (1 / 2 ^ 1075)) B := by
  have hη : (1 : ℚ) / 2 ^ 1075 ≤ 1 / (2 ^ 60 * 2 ^ 200) :=
    one_div_le_one_div_of_le (by positivity) (by rw [← pow_add]; exact pow_le_pow_right₀ (by norm_num) (by norm_num))
  generalize (1 : ℚ) / 2 ^ 1075 = η at hη
  refine ⟨by norm_num, by norm_num, ?_, ?_, by norm_num, hB⟩
  · norm_num at hη ⊢; linarith
  · norm_num at hη hB ⊢; linarith

/-- Room for `float`. -/
theorem worldRoom_float {B : ℚ} (hB : 1 / 2 ^ 20 ≤ B) : WorldRoom (4 * (1 / 2 ^ 24)) (1 / 2 ^ 24) (3 * (1 / 2 ^ 126)) B := by
  refine ⟨by norm_num, by norm_num, by norm_num, ?_, by norm_num, le_trans (by norm_num) hB⟩
  norm_num at hB ⊢; linarith

/-- The numbers of the query. -/
noncomputable def fusedTurned : Vec4 FusedReal := ⟨fun a => (turnedCorner a, false), (1, false)⟩

/-- `toGrid` for numbers of the fused arithmetic. -/
def fusedToGrid (toGrid : Vec4 ℝ → Fin 3 → ℝ) (l : Vec4 FusedReal) (a : Fin 3) : FusedReal := (toGrid ⟨fun a => (l.v a).1, l.w.1⟩ a, false)

theorem turned_fused {m : VoxMap ℚ} {Fd : SDFGrid ℝ} (left : Bool) (hF : FieldOf floatSDF ⟨.fin 0, false, false⟩ m ((1 : ℚ) : ℝ) Fd) (hP : Fd.pose = turnedPose)
    (hd : m.dims = ⟨4, 4, 4⟩) {toGrid : Vec4 ℝ → Fin 3 → ℝ} (ht : toGrid (point4 turnedCorner) = corner) :
    ∃ e', FairAnswers (fusedQuery roundDouble left (fun _ => (0, false)) (flTrilinear (fusedReal roundDouble left))) Prod.fst (FusedReal.kept roundDouble)
      (3 * 2 ^ (-53 : ℤ)) (3 * 2 ^ (-1075 : ℤ)) ⟨.fin 0, false, false⟩ m 1 6 Fd (Fd.inMemory roundDouble (fusedToGrid toGrid) id id) fusedTurned e'
      turnedCorner := by
  have e : ∀ a, (fusedToGrid toGrid fusedTurned a).1 = corner a := fun a => congrFun ht a
  refine C86_answer_exists hF (.inl rfl) (by rw [hP, funext e]; exact turned_frame) (by norm_num) (by norm_num) (by norm_num) (by norm_num)
    (by rw [hd]; intro a; fin_cases a <;> norm_num [axisCells]) ?_
  rw [hd, show (2 : ℝ) ^ (-53 : ℤ) = 1 / 2 ^ 53 by rw [zpow_neg, one_div]; norm_cast]
  intro a
  rw [e]
  fin_cases a <;> norm_num [axisCells, corner, third]

theorem worldF_world : WithinWorld 8 turnedPose.t fun a => (worldF.place ![102, 0, 0] a : ℝ) := by
  refine ⟨turned_world.1.1, fun a => ?_, turned_world.1.3⟩
  rw [worldF_there]
  fin_cases a <;> norm_num [abs_of_pos, third]

/-- The field of a map of which only low cells are filled. -/
theorem turned_field {out : VoxMap ℚ} (hl : out.dims = ⟨4, 4, 4⟩ ∧
      ∀ i, CellInGrid (axisCells out.dims) i → 1 ≤ i 2 → ¬ AboveHalf (out.data (dataIndex out.dims i)))
    (h1 : out.data (dataIndex gridF.dims ![2, 1, 0]) = .fin 1) :
    ∃ Fd, FieldOf floatSDF ⟨.fin 0, false, false⟩ out ((1 : ℚ) : ℝ) Fd ∧ Fd.pose = turnedPose := by
  have htop : CellInGrid (axisCells out.dims) ![3, 3, 3] := by rw [hl.1]; exact top_cell
  rw [Rat.cast_one]
  exact C77_field_exists (gp := ⟨.fin 0, false, false⟩) (dark4_cells hl.1) turnedPose_orthogonal htop
    (not_obstacle (hl.2 _ htop (by decide))) (j := ![2, 1, 0]) (by rw [hl.1]; unfold CellInGrid; decide)
    (.inl (by rw [hl.1, show (⟨4, 4, 4⟩ : Dims) = gridF.dims from rfl, h1]; exact aboveHalf_one))

/-- The hypotheses of `C87_obstacle_is_filled`, `C87_filled_is_real` and `C87_clearance` are met: fused operations in `double` everywhere. -/
example {sqrt : Fl → Fl} (hs : IeeeSqrt sqrt) (left : Bool) : ∃ (output' : VoxMap ℚ) (Fd : SDFGrid ℝ) (toGrid : Vec4 ℝ → Fin 3 → ℝ) (e' : FusedReal),
    FlVoxelizeRuns fusedDouble (fusedSqrt sqrt) gridF ⟨.fin 1, 1, 1⟩ [nearFcloud] dark4 output' ∧
    output'.data (dataIndex gridF.dims ![2, 1, 0]) = .fin 1 ∧
    flEstimate (fusedQuery roundDouble left (fun _ => (0, false)) (flTrilinear (fusedReal roundDouble left)))
      (Fd.inMemory roundDouble (fusedToGrid toGrid) id id) fusedTurned = .value e' ∧
    FusedReal.kept roundDouble e' - (Real.sqrt 3 + 3 + (6 : ℚ) / 2 ^ 18 + 174120 * (3 * 2 ^ (-53 : ℤ)) * (6 : ℚ) ^ 2) * (1 : ℚ) -
      2 * (fairTol (18 * (1 / 2 ^ 53)) (5 * 128) : ℚ) - (164 / 2 ^ 53 + 24 * 0) * 8 ≤
      dist3 turnedCorner (fun a => ((worldF.place ![102, 0, 0] a : ℚ) : ℝ)) := by
  have H := (fusedDouble_accurate hs).mono (u' := 18 * (1 / 2 ^ 53)) (by norm_num)
  have S := (room_double (e := 1) (B := 5 * 128) (by norm_num) (by norm_num) (by norm_num)).mono (u' := 18 * (1 / 2 ^ 53)) (by norm_num) (by norm_num)
  have W := worldRoom_double (B := 128) (by norm_num)
  have G : GridGiven Prod.fst (18 * (1 / 2 ^ 53)) 1 (5 * 128) gridF := gridF_given (by norm_num) (by norm_num)
  have hlen : ∀ c ∈ [nearFcloud], c.points.length < 2 ^ 31 := by simp [nearFcloud]
  have hg := worldF_given (R := doubleR) (v := 1 / 2 ^ 53) (η := 3 * (1 / 2 ^ 1075)) (by norm_num) (by positivity)
  have hx : some ![102, 0, 0] ∈ worldF.points := List.mem_cons_self
  have htol : fairFarTol (18 * (1 / 2 ^ 53)) (5 * 128) ≤ 2 / 5 := by norm_num [fairFarTol]
  have htol' : fairTol (18 * (1 / 2 ^ 53)) (5 * 128) < 1 / 10 := by norm_num [fairTol]
  have hw := worldF_well (fairTol_nonneg S) (by linarith)
  obtain ⟨out, hout⟩ := (C74_defined (A := fusedDouble) (sqrt := fusedSqrt sqrt) (g := gridF) (clouds := [nearFcloud]) plain_filter hlen
    (output := dark4) rfl).2 (by
      intro c hc
      obtain rfl := List.mem_singleton.1 hc
      refine ⟨by decide +kernel, fun x hx => ?_⟩
      obtain rfl := List.mem_singleton.1 hx
      rw [nearF_point hs]
      rfl)
  have h1 := C87_obstacle_is_filled H S W G plain_filter hlen rfl hout (List.mem_singleton_self _) worldF_posed hg (i := ![2, 1, 0]) far_in (dark4_half _)
    (howMany_one hx ⟨by rw [worldF_place]; exact far_deep htol, hw⟩)
  obtain ⟨-, hd, -, hkeep⟩ := C74_keeps_filled hout
  have hl := far_low (f := fun c x => c.placeIn turnedGrid x) (c := worldF) (tol := fairTol (18 * (1 / 2 ^ 53)) (5 * 128)) hd htol' (fun x hx => by
      rw [worldF_only hx, worldF_place]; norm_num [third]) (fun i hi ha =>
    C87_filled_is_real H S W G plain_filter hlen rfl hout (.cons ⟨worldF_posed, hg⟩ .nil) hi (dark4_half i) (by
      refine above_cases ha ?_
      rcases (hkeep _ (dataIndex_lt (d := grid4.dims) hi)).2 (dark4_half i) with h | h | h
      · exact .inl h
      · exact .inr (.inl h)
      · exact .inr (.inr h)))
  obtain ⟨Fd, hF, hP⟩ := turned_field hl h1
  obtain ⟨toGrid, hrun, ht⟩ := turned_toGrid
  obtain ⟨e', hq⟩ := turned_fused left hF hP hl.1 ht
  refine ⟨out, Fd, toGrid, e', hout, h1, hq.answer, ?_⟩
  exact C87_clearance H S W G plain_filter hlen rfl dark4_nonan hout (List.mem_singleton_self _) worldF_posed hg hx
    (by rw [worldF_place]; exact far_grid htol) hw hq (fun a => rfl) (by rw [hP]; exact turned_stored) turned_inverse hrun
    (by rw [hP]; exact turned_world.1) (by rw [hP]; exact worldF_world)

/-- The hypotheses of `C87_device_obstacle_is_filled`, `C87_device_filled_is_real` and `C87_device_clearance` are met: `float` with fused operations, rough
division and no denormal numbers on the device, fused operations in `double` for poses and the answer. -/
example {sqrt : Fl → Fl} (hs : FloatSqrt sqrt) (left : Bool) : ∃ (output' : VoxMap ℚ) (Fd : SDFGrid ℝ) (toGrid : Vec4 ℝ → Fin 3 → ℝ) (e' : FusedReal),
    FastDeviceRuns roughShare (cudaApi 256) fastFloat (fusedSqrt sqrt) gridF ⟨.fin 1, 1, 1⟩ [nearFdev] dark4 dark4 output' ∧
    output'.data (dataIndex gridF.dims ![2, 1, 0]) = .fin 1 ∧
    flEstimate (fusedQuery roundDouble left (fun _ => (0, false)) (flTrilinear (fusedReal roundDouble left)))
      (Fd.inMemory roundDouble (fusedToGrid toGrid) id id) fusedTurned = .value e' ∧
    FusedReal.kept roundDouble e' - (Real.sqrt 3 + 3 + (6 : ℚ) / 2 ^ 18 + 174120 * (3 * 2 ^ (-53 : ℤ)) * (6 : ℚ) ^ 2) * (1 : ℚ) -
      2 * (fairTol (4 * (1 / 2 ^ 24)) (5 * 128) : ℚ) - (164 / 2 ^ 53 + 24 * 0) * 8 ≤
      dist3 turnedCorner (fun a => ((worldF.place ![102, 0, 0] a : ℚ) : ℝ)) := by
  have H := (fastFloat_accurate (sqrt := sqrt) fun q hq => by
    obtain ⟨y, k1, k2, k3⟩ := sqrtRounds_float hs q hq
    exact ⟨y, k1, k2, k3.trans (by norm_num; linarith)⟩).mono (u' := 4 * (1 / 2 ^ 24)) (by norm_num)
  have S := (room_float (e := 1) (B := 5 * 128) (by norm_num) (by norm_num) (by norm_num)).mono (u' := 4 * (1 / 2 ^ 24)) (by norm_num) (by norm_num)
  have W := worldRoom_float (B := 128) (by norm_num)
  have G : GridGiven Prod.fst (4 * (1 / 2 ^ 24)) 1 (5 * 128) gridF := gridF_given (by norm_num) (by norm_num)
  have hh : Helper (F := Fused) (cudaApi 256) [nearFdev] := .inr ⟨256, by norm_num, rfl, by simp [nearFdev, nearFcloud]⟩
  have hN : gridF.dims.total * 2 * numTrackingGrids [nearFdev] < 2 ^ 31 := by
    norm_num [gridF, numTrackingGrids, Dims.total]
  have hlen : ∀ c ∈ [nearFdev], c.points.length ≤ 2 ^ 22 := by simp [nearFdev, nearFcloud]
  have hg : WorldGiven Prod.fst (Fused.kept flushR) (1 / 2 ^ 24) (3 * (1 / 2 ^ 126)) 128 turnedGrid worldF nearFdev.tf nearFdev.range nearFdev.points :=
    worldF_given (by norm_num) (by positivity)
  have hx : some ![102, 0, 0] ∈ worldF.points := List.mem_cons_self
  have htol : fairFarTol (4 * (1 / 2 ^ 24)) (5 * 128) ≤ 2 / 5 := by norm_num [fairFarTol]
  have htol' : fairTol (4 * (1 / 2 ^ 24)) (5 * 128) < 1 / 10 := by norm_num [fairTol]
  have hw := worldF_well (fairTol_nonneg S) (by linarith)
  obtain ⟨out, hout⟩ := fast_defined (K := ℚ) (share := roughShare) (A := fastFloat) (sqrt := fusedSqrt sqrt) (g := gridF) (clouds := [nearFdev])
    (static := dark4) (output := dark4) plain_filter hh hN (fun c hc => (hlen c hc).trans (by norm_num)) rfl (by
      intro c hc
      obtain rfl := List.mem_singleton.1 hc
      intro x hx
      obtain rfl := List.mem_singleton.1 hx
      rw [nearF_point_fast hs]
      rfl)
  have h1 := C87_device_obstacle_is_filled H S W G fairShare_rough (by norm_num) plain_filter hh hN hlen rfl hout (List.mem_singleton_self _) worldF_posed
    hg (i := ![2, 1, 0]) far_in (dark4_half _) (howMany_one hx ⟨by rw [worldF_place]; exact far_deep htol, hw⟩)
  have hl := far_low (f := fun c x => c.placeIn turnedGrid x) (c := worldF) (tol := fairTol (4 * (1 / 2 ^ 24)) (5 * 128)) (fast_dims hout) htol' (fun x hx => by
      rw [worldF_only hx, worldF_place]; norm_num [third]) (fun i hi ha =>
    C87_device_filled_is_real H S W G plain_filter hh hN rfl hout (.cons ⟨worldF_posed, hg⟩ .nil) hi (dark4_half i) (by
      refine above_cases ha ?_
      obtain ⟨r, -, e⟩ := fast_cell hh hN rfl hout (i := i) hi (dark4_half i)
      have e : out.data (dataIndex grid4.dims i) = _ := e
      unfold Fl.half at e
      split_ifs at e
      · exact .inr (.inr e)
      · exact .inl e
      · exact .inr (.inl e)))
  obtain ⟨Fd, hF, hP⟩ := turned_field hl h1
  obtain ⟨toGrid, hrun, ht⟩ := turned_toGrid
  obtain ⟨e', hq⟩ := turned_fused left hF hP hl.1 ht
  refine ⟨out, Fd, toGrid, e', hout, h1, hq.answer, ?_⟩
  exact C87_device_clearance H S W G fairShare_rough (by norm_num) plain_filter hh hN hlen rfl rfl dark4_nonan hout (List.mem_singleton_self _) worldF_posed hg hx
    (by rw [worldF_place]; exact far_grid htol) hw hq (fun a => rfl) (by rw [hP]; exact turned_stored) turned_inverse hrun
    (by rw [hP]; exact turned_world.1) (by rw [hP]; exact worldF_world)

end VGT
