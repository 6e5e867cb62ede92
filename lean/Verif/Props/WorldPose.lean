import Verif.Props.PoseRound
import Verif.Props.WorldEx

/-!
C83: the error of the stored inverse of the pose of the grid in the chain from measured points to the clearance of a location.
-/
set_option autoImplicit false

namespace VGT
open VGT.EDT VGT.Spec VGT.Par

/-- `X_GW` as the voxelizers get it (cpu_pointcloud_voxelization.cpp:172, device_pointcloud_voxelization.cpp:92): the columns of the
inverse stored with the grid. -/
def Spec.StoredInverse (P : Pose ℝ) (gw : ℕ → ℚ) : Prop :=
  InverseRuns roundDouble P ⟨fun a b => (gw (4 * (b : ℕ) + a) : ℝ), fun a => (gw (12 + a) : ℝ)⟩

section
variable {norm : (Fin 3 → ℝ) → ℝ} {interp : (Fin 3 → ℝ) → (Fin 3 → ℝ) → (Bool → Bool → Bool → ℝ) → (Fin 3 → ℝ) → ℝ}
  {toGrid : Vec4 ℝ → Fin 3 → ℝ} {toWorld rotate : (Fin 3 → ℝ) → Fin 3 → ℝ} {K : Type} {gp : GenParams} {F : SDFGrid ℝ}
  {e' δ X : ℝ} {p q : Fin 3 → ℝ} {sqrt : Fl → Fl} {g : RayGrid Fl} {op : FilterOptions} {t k : ℤ} {pct : ℚ}
  {late : ℕ → Bool} {gw : ℕ → ℚ} {cams : List Camera3} {static output output' : VoxMap K} {c : Camera3} {x : Fin 3 → ℚ} {P Q : Pose ℝ}

/-- C83. Where the voxelizers place a point of the world is within `(36/2⁵³ + 12 δ) X` of the point. -/
theorem C83_stored_place (hP : StoredPose P Q δ) (hQ : Orthogonal Q.R) (hgw : StoredInverse P gw) {w : Fin 3 → ℚ} {Y : Fin 3 → ℝ}
    (hX : WithinWorld X Q.t fun a => (w a : ℝ)) (hY : InFrame Q.R Q.t (fun a => (placeInGrid gw w a : ℝ)) Y) :
    dist3 Y (fun a => (w a : ℝ)) ≤ (36 / 2 ^ 53 + 12 * δ) * X := by
  rw [dist3_frame hQ hY (inFrameOf_frame hQ _)]
  refine (dist3_le_of_coords (δ := (18 / 2 ^ 53 + 6 * δ) * X) fun a => ?_).trans_eq (by ring)
  have := C83_stored_inverse hP hQ hgw hX a
  simp only [Fin.val_zero, Fin.val_one, Fin.val_two] at this
  norm_num only at this
  rw [zero_add] at this
  unfold placeInGrid
  push_cast
  refine this.trans_eq ?_
  norm_num

section
variable {s n N B : ℚ}

/-- C83 with C78, nothing measured is overlooked: from points measured by cameras in the world, over the CPU voxelizer and the field of the map,
to the clearance of a location of the world; the grid may be turned and its pose is stored with rounding. -/
theorem C83_world_clearance (hs : IeeeSqrt sqrt) (G : DoubleGrid s N (5 * B) g) (hB : 1 / 2 ^ 60 ≤ B) (hn : 8 * N ≤ n) (hn' : n ≤ 2 ^ 40)
    (hsize : ∀ a, ∃ z, g.size a = .fin z ∧ |z - axisCells g.dims a * s| ≤ n * s / 2 ^ 53) (hop : FilterOptions.make (.fin 1) 1 k = some op)
    (hlen : ∀ c ∈ cams, c.points.length < 2 ^ 31) (hd : output.dims = g.dims) (hnan : NoNaN output)
    (h : FlVoxelizeRuns double64 sqrt g op (cams.map (Camera3.cloudIn late gw)) output output') (hc : ∀ c ∈ cams, Posed gw B c)
    (hcm : c ∈ cams) (hr : DoubleRange c.range) (hreach : ∀ a, 8 * |c.sensorIn gw a| + 1440 * B / 2 ^ 53 ≤ n * s) (hx : some x ∈ c.points)
    (h1 : DeepInGrid (doubleWideTol s N n (5 * B) + poseTol B) s (axisCells g.dims) (c.placeIn gw x))
    (h2 : WellWithin (doubleWideTol s N n (5 * B) + poseTol B) c.range (c.sensorIn gw) (c.placeIn gw x))
    (hq : Answers norm interp toGrid toWorld rotate gp output' s N F (point4 p) e' q)
    (hP : StoredPose P F.pose δ) (hgw : StoredInverse P gw) (hrun : ToGridRuns roundDouble P toGrid)
    (hX : WithinWorld X F.pose.t p) (hW : WithinWorld X F.pose.t fun a => (c.place x a : ℝ)) :
    e' - (Real.sqrt 3 + 3 + N / 2 ^ 18 + N ^ 2 / 2 ^ 37) * s - 2 * (doubleReachTol s N n (5 * B) + poseTol B) - (164 / 2 ^ 53 + 24 * δ) * X ≤
      dist3 p fun a => (c.place x a : ℝ) := by
  obtain ⟨Y, hY⟩ := exists_inFrame F.pose.R F.pose.t (fun a => (c.placeIn gw x a : ℝ))
  have key := C78_clearance (p' := p) hs G hB hn hn' hsize hop hlen hd hnan h hc hcm hr hreach hx h1 h2 hq hY
  have e1 := C83_location_error hP hq.field.pose hrun hX hq.place
  have e2 := C83_stored_place hP hq.field.pose hgw hW hY
  have e3 : (2 ^ (-46 : ℤ) + 12 * δ) * X + (36 / 2 ^ 53 + 12 * δ) * X = (164 / 2 ^ 53 + 24 * δ) * X := by
    rw [zpow_neg]; norm_num; ring
  rw [← e3]
  clear e3
  generalize (2 ^ (-46 : ℤ) + 12 * δ) * X = E at *
  linarith

/-- C83 with C78, nothing is invented: near a location of the world with a small answer is something measured or known before. -/
theorem C83_world_measured (hs : IeeeSqrt sqrt) (G : DoubleGrid s n (5 * B) g) (hB : 1 / 2 ^ 60 ≤ B)
    (hop : FilterOptions.make (.fin pct) t k = some op) (hlen : ∀ c ∈ cams, c.points.length < 2 ^ 31) (hd : output.dims = g.dims)
    (hc : ∀ c ∈ cams, Posed gw B c) (hr : ∀ c ∈ cams, ∀ r, c.range = .fin r → 0 ≤ r)
    (h : FlVoxelizeRuns double64 sqrt g op (cams.map (Camera3.cloudIn late gw)) output output')
    (hq : Answers norm interp toGrid toWorld rotate gp output' s n F (point4 p) e' q) (hu : gp.unknownIsFilled = false) (hb : gp.addBorder = false)
    (ho : OpenAround output' s n (toGrid (point4 p)))
    (hP : StoredPose P F.pose δ) (hgw : StoredInverse P gw) (hrun : ToGridRuns roundDouble P toGrid) (hX : WithinWorld X F.pose.t p)
    (hW : ∀ c ∈ cams, ∀ x, some x ∈ c.points → WithinWorld X F.pose.t fun a => (c.place x a : ℝ)) :
    (∃ c ∈ cams, ∃ x, some x ∈ c.points ∧ NotBeyond (doubleTol s n (5 * B) + poseTol B) c.range (c.sensorIn gw) (c.placeIn gw x) ∧
        dist3 p (fun a => (c.place x a : ℝ)) ≤ e' + (1 / 2 + Real.sqrt 3 + n / 2 ^ 18 + n ^ 2 / 2 ^ 37) * s +
          2 * (doubleTol s n (5 * B) + poseTol B) + (164 / 2 ^ 53 + 24 * δ) * X) ∨
      ∃ i, CellInGrid (axisCells g.dims) i ∧ AboveHalf (output.data (dataIndex g.dims i)) ∧
        ∀ Y, InFrame F.pose.R F.pose.t (fun a => ((cellCentre s i a : ℚ) : ℝ)) Y → dist3 p Y ≤
          e' + (1 / 2 + Real.sqrt 3 + n / 2 ^ 18 + n ^ 2 / 2 ^ 37) * s + 2 * doubleTol s n (5 * B) + (128 / 2 ^ 53 + 12 * δ) * X := by
  have e1 := C83_location_error hP hq.field.pose hrun hX hq.place
  have e4 : (2 ^ (-46 : ℤ) + 12 * δ) * X = (128 / 2 ^ 53 + 12 * δ) * X := by
    rw [zpow_neg]; norm_num
  rw [e4] at e1
  rcases C78_measured (p' := p) hs G hB hop hlen hd hc hr h hq hu hb ho with ⟨c, hcm, x, hx, hbey, key⟩ | ⟨i, hi, hab, key⟩
  · refine .inl ⟨c, hcm, x, hx, hbey, ?_⟩
    obtain ⟨Y, hY⟩ := exists_inFrame F.pose.R F.pose.t (fun a => (c.placeIn gw x a : ℝ))
    have e2 := C83_stored_place hP hq.field.pose hgw (hW c hcm x hx) hY
    have e3 : (128 / 2 ^ 53 + 12 * δ) * X + (36 / 2 ^ 53 + 12 * δ) * X = (164 / 2 ^ 53 + 24 * δ) * X := by ring
    have := key Y hY
    rw [← e3]
    linarith
  · exact .inr ⟨i, hi, hab, fun Y hY => by have := key Y hY; linarith⟩

end

section
variable {e v n N B : ℚ} {api : DeviceApi}

/-- C83 with C78, nothing measured is overlooked on a device: as `C83_world_clearance`. -/
theorem C83_world_device_clearance (hs : FloatSqrt sqrt) (G : FloatGrid e v N (5 * B) g) (hn : 8 * N ≤ n) (hn' : n ≤ 5592)
    (hsize : ∀ a, ∃ z, g.size a = .fin z ∧ |z - axisCells g.dims a * e| ≤ n * e / 2 ^ 26)
    (hh : Helper api (cams.map (Camera3.devIn floatR late gw)))
    (hN : g.dims.total * 2 * numTrackingGrids (cams.map (Camera3.devIn floatR late gw)) < 2 ^ 31)
    (hop : FilterOptions.make (.fin 1) 1 k = some op)
    (hlen : ∀ c ∈ cams, c.points.length ≤ 2 ^ 24) (hd : static.dims = g.dims) (hdo : output.dims = g.dims) (hnan : NoNaN static)
    (h : DeviceVoxelizeRuns api float32 sqrt g op (cams.map (Camera3.devIn floatR late gw)) static output output')
    (hc : ∀ c ∈ cams, Posed gw B c) (hcm : c ∈ cams) (hr : FloatRange c.range)
    (hreach : ∀ a, 9 * |c.sensorIn gw a| + 1486 * B / 2 ^ 24 ≤ n * e) (hx : some x ∈ c.points)
    (h1 : DeepInGrid (floatWideTol e N n (5 * B) + poseTol B) e (axisCells g.dims) (c.placeIn gw x))
    (h2 : WellWithin (floatWideTol e N n (5 * B) + poseTol B) c.range (c.sensorIn gw) (c.placeIn gw x))
    (hq : Answers norm interp toGrid toWorld rotate gp output' e N F (point4 p) e' q)
    (hP : StoredPose P F.pose δ) (hgw : StoredInverse P gw) (hrun : ToGridRuns roundDouble P toGrid)
    (hX : WithinWorld X F.pose.t p) (hW : WithinWorld X F.pose.t fun a => (c.place x a : ℝ)) :
    e' - (Real.sqrt 3 + 3 + N / 2 ^ 18 + N ^ 2 / 2 ^ 37) * e - 2 * (floatReachTol e N n (5 * B) + poseTol B) - (164 / 2 ^ 53 + 24 * δ) * X ≤
      dist3 p fun a => (c.place x a : ℝ) := by
  obtain ⟨Y, hY⟩ := exists_inFrame F.pose.R F.pose.t (fun a => (c.placeIn gw x a : ℝ))
  have key := C78_device_clearance (p' := p) hs G hn hn' hsize hh hN hop hlen hd hdo hnan h hc hcm hr hreach hx h1 h2 hq hY
  have e1 := C83_location_error hP hq.field.pose hrun hX hq.place
  have e2 := C83_stored_place hP hq.field.pose hgw hW hY
  have e3 : (2 ^ (-46 : ℤ) + 12 * δ) * X + (36 / 2 ^ 53 + 12 * δ) * X = (164 / 2 ^ 53 + 24 * δ) * X := by
    rw [zpow_neg]; norm_num; ring
  rw [← e3]
  clear e3
  generalize (2 ^ (-46 : ℤ) + 12 * δ) * X = E at *
  linarith

/-- C83 with C78, nothing is invented on a device: as `C83_world_measured`; "before" is the static environment. -/
theorem C83_world_device_measured (hs : FloatSqrt sqrt) (G : FloatGrid e v n (5 * B) g) (hh : Helper api (cams.map (Camera3.devIn floatR late gw)))
    (hN : g.dims.total * 2 * numTrackingGrids (cams.map (Camera3.devIn floatR late gw)) < 2 ^ 31)
    (hop : FilterOptions.make (.fin pct) t k = some op)
    (hlen : ∀ c ∈ cams, c.points.length ≤ 2 ^ 24) (hd : static.dims = g.dims) (hdo : output.dims = g.dims)
    (hc : ∀ c ∈ cams, Posed gw B c) (hr : ∀ c ∈ cams, ∀ r, c.range = .fin r → 0 ≤ r)
    (h : DeviceVoxelizeRuns api float32 sqrt g op (cams.map (Camera3.devIn floatR late gw)) static output output')
    (hq : Answers norm interp toGrid toWorld rotate gp output' e n F (point4 p) e' q) (hu : gp.unknownIsFilled = false) (hb : gp.addBorder = false)
    (ho : OpenAround output' e n (toGrid (point4 p)))
    (hP : StoredPose P F.pose δ) (hgw : StoredInverse P gw) (hrun : ToGridRuns roundDouble P toGrid) (hX : WithinWorld X F.pose.t p)
    (hW : ∀ c ∈ cams, ∀ x, some x ∈ c.points → WithinWorld X F.pose.t fun a => (c.place x a : ℝ)) :
    (∃ c ∈ cams, ∃ x, some x ∈ c.points ∧ NotBeyond (floatTol e n (5 * B) + poseTol B) c.range (c.sensorIn gw) (c.placeIn gw x) ∧
        dist3 p (fun a => (c.place x a : ℝ)) ≤ e' + (1 / 2 + Real.sqrt 3 + n / 2 ^ 18 + n ^ 2 / 2 ^ 37) * e +
          2 * (floatTol e n (5 * B) + poseTol B) + (164 / 2 ^ 53 + 24 * δ) * X) ∨
      ∃ i, CellInGrid (axisCells g.dims) i ∧ AboveHalf (static.data (dataIndex g.dims i)) ∧
        ∀ Y, InFrame F.pose.R F.pose.t (fun a => ((cellCentre e i a : ℚ) : ℝ)) Y → dist3 p Y ≤
          e' + (1 / 2 + Real.sqrt 3 + n / 2 ^ 18 + n ^ 2 / 2 ^ 37) * e + 2 * floatTol e n (5 * B) + (128 / 2 ^ 53 + 12 * δ) * X := by
  have e1 := C83_location_error hP hq.field.pose hrun hX hq.place
  have e4 : (2 ^ (-46 : ℤ) + 12 * δ) * X = (128 / 2 ^ 53 + 12 * δ) * X := by
    rw [zpow_neg]; norm_num
  rw [e4] at e1
  rcases C78_device_measured (p' := p) hs G hh hN hop hlen hd hdo hc hr h hq hu hb ho with ⟨c, hcm, x, hx, hbey, key⟩ | ⟨i, hi, hab, key⟩
  · refine .inl ⟨c, hcm, x, hx, hbey, ?_⟩
    obtain ⟨Y, hY⟩ := exists_inFrame F.pose.R F.pose.t (fun a => (c.placeIn gw x a : ℝ))
    have e2 := C83_stored_place hP hq.field.pose hgw (hW c hcm x hx) hY
    have e3 : (128 / 2 ^ 53 + 12 * δ) * X + (36 / 2 ^ 53 + 12 * δ) * X = (164 / 2 ^ 53 + 24 * δ) * X := by ring
    have := key Y hY
    rw [← e3]
    linarith
  · exact .inr ⟨i, hi, hab, fun Y hY => by have := key Y hY; linarith⟩

end

end

/-! ### Examples -/

theorem small_exact : roundDouble (0 : ℝ) = 0 ∧ roundDouble (-1 : ℝ) = -1 ∧ roundDouble (3 : ℝ) = 3 ∧ roundDouble (5 / 2 : ℝ) = 5 / 2 ∧
    roundDouble (3 / 2 : ℝ) = 3 / 2 ∧ roundDouble (-(1 / 2) : ℝ) = -(1 / 2) := by
  have h0 := roundDouble_eighth (n := 0) (by norm_num)
  have h1 := roundDouble_eighth (n := -8) (by norm_num)
  have h2 := roundDouble_eighth (n := 24) (by norm_num)
  have h3 := roundDouble_eighth (n := 20) (by norm_num)
  have h4 := roundDouble_eighth (n := 12) (by norm_num)
  have h5 := roundDouble_eighth (n := -4) (by norm_num)
  norm_num at h0 h1 h2 h3 h4 h5 ⊢
  exact ⟨h0, h1, h2, h3, h4, h5⟩

theorem turned_inverse : StoredInverse turnedPose turnedGrid := by
  obtain ⟨r0, r1, r3, -, -, -⟩ := small_exact
  refine ⟨fun a b => ?_, fun a => ?_⟩
  · fin_cases a <;> fin_cases b <;> simp [turnedPose, turnedGrid]
  · have h := ((DotRuns.one (r := roundDouble) (-turnedPose.R 0 a) (turnedPose.t 0)).fma (-turnedPose.R 1 a) (turnedPose.t 1)).fma
      (-turnedPose.R 2 a) (turnedPose.t 2)
    have e : ((turnedGrid (12 + a) : ℚ) : ℝ) = roundDouble (roundDouble (roundDouble (-turnedPose.R 0 a * turnedPose.t 0) +
        -turnedPose.R 1 a * turnedPose.t 1) + -turnedPose.R 2 a * turnedPose.t 2) := by
      fin_cases a <;> simp [turnedPose, turnedGrid, r0, r1, r3]
    dsimp only
    rw [e]
    exact h

/-- A transform that may be computed for the turned grid, without error at one place. -/
theorem turned_toGrid : ∃ toGrid, ToGridRuns roundDouble turnedPose toGrid ∧ toGrid (point4 turnedCorner) = corner := by
  classical
  obtain ⟨r0, r1, r3, r5, r32, r12⟩ := small_exact
  choose f hf using fun (v : Vec4 ℝ) (a : Fin 3) => dotRuns_exists (roundDouble : ℝ → ℝ) (turnedPose.R 0 a, v.v 0)
    [(turnedPose.R 1 a, v.v 1), (turnedPose.R 2 a, v.v 2), (((turnedGrid (12 + a) : ℚ) : ℝ), v.w)]
  refine ⟨fun v => if v = point4 turnedCorner then corner else f v, ⟨⟨fun a b => turnedPose.R b a, fun a => (turnedGrid (12 + a) : ℝ)⟩,
    ⟨fun _ _ => rfl, turned_inverse.2⟩, fun v a => ?_⟩, if_pos rfl⟩
  dsimp only
  split_ifs with hv
  · subst hv
    have h := (((DotRuns.one (r := roundDouble) (turnedPose.R 0 a) (turnedCorner 0)).fma (turnedPose.R 1 a) (turnedCorner 1)).fma
      (turnedPose.R 2 a) (turnedCorner 2)).fma ((turnedGrid (12 + a) : ℚ) : ℝ) 1
    have e : corner a = roundDouble (roundDouble (roundDouble (roundDouble (turnedPose.R 0 a * turnedCorner 0) +
        turnedPose.R 1 a * turnedCorner 1) + turnedPose.R 2 a * turnedCorner 2) + ((turnedGrid (12 + a) : ℚ) : ℝ) * 1) := by
      clear h hf
      have R0 : turnedPose.R 0 = ![0, -1, 0] := rfl
      have R1 : turnedPose.R 1 = ![1, 0, 0] := rfl
      have R2 : turnedPose.R 2 = ![0, 0, 1] := rfl
      rw [R0, R1, R2]
      fin_cases a <;> norm_num [turnedGrid, turnedCorner, corner, third, r0, r1, r3, r5, r32, r12]
    unfold ApplyRuns
    rw [e]
    exact h
  · exact hf v a

theorem turned_stored : StoredPose turnedPose turnedPose 0 := ⟨rfl, by simp, by norm_num⟩

theorem turned_world : WithinWorld 8 turnedPose.t turnedCorner ∧ WithinWorld 8 turnedPose.t fun a => (askewWorld.place ![-1, 2, 0] a : ℝ) := by
  have hn : (2 : ℝ) ^ (-1022 : ℤ) ≤ 8 := le_trans (zpow_le_zpow_right₀ (by norm_num) (by norm_num : (-1022 : ℤ) ≤ 0)) (by norm_num)
  have ht : ∀ a, |turnedPose.t a| ≤ 8 := by intro a; fin_cases a <;> norm_num [turnedPose, abs_of_pos]
  refine ⟨⟨ht, fun a => ?_, hn⟩, ht, fun a => ?_, hn⟩
  · fin_cases a <;> norm_num [turnedCorner, abs_of_pos]
  · unfold askewWorld
    rw [lookFrom_place]
    fin_cases a <;> norm_num [abs_of_pos]

/-- The hypotheses of `C83_world_clearance` and `C83_world_measured` are met. -/
example {sqrt : Fl → Fl} (hs : IeeeSqrt sqrt) (late : ℕ → Bool) : ∃ (output' : VoxMap ℚ) (F : SDFGrid ℝ) (e' : ℝ) (toGrid : Vec4 ℝ → Fin 3 → ℝ),
    FlVoxelizeRuns double64 sqrt grid4 ⟨.fin 1, 1, 1⟩ ([askewWorld].map (Camera3.cloudIn late turnedGrid)) dark4 output' ∧
    Answers (fun _ => 0) (flTrilinear (roundedArith roundDouble)) toGrid id id ⟨.fin 0, false, false⟩ output' 1 6 F
      (point4 turnedCorner) e' turnedCorner ∧
    StoredPose turnedPose F.pose 0 ∧ StoredInverse turnedPose turnedGrid ∧ ToGridRuns roundDouble turnedPose toGrid ∧
    e' - (Real.sqrt 3 + 3 + (6 : ℚ) / 2 ^ 18 + (6 : ℚ) ^ 2 / 2 ^ 37) * (1 : ℚ) - 2 * (doubleReachTol 1 6 48 (5 * 8) + poseTol 8 : ℚ) -
      (164 / 2 ^ 53 + 24 * 0) * 8 ≤ dist3 turnedCorner (fun a => (askewWorld.place ![-1, 2, 0] a : ℝ)) ∧
    OpenAround output' 1 6 (toGrid (point4 turnedCorner)) := by
  obtain ⟨out, hout, h1, -⟩ := askewWorld_run hs late
  have hl := askewWorld_low hs hout
  obtain ⟨toGrid, hrun, ht⟩ := turned_toGrid
  obtain ⟨F, e', hA, hP⟩ := turned_answers ht hl h1
  have hst : StoredPose turnedPose F.pose 0 := by rw [hP]; exact turned_stored
  refine ⟨out, F, e', toGrid, hout, hA, hst, turned_inverse, hrun, ?_, ?_⟩
  · have := C83_world_clearance (n := 48) (X := 8) hs grid4_double40 (by norm_num) (by norm_num) (by norm_num) (grid4_size (by norm_num)) plain_filter
      (by decide) rfl dark4_nonan hout (only_askew askewWorld_posed) (List.mem_singleton_self _) askewWorld_double askewWorld_reach askewWorld_mem
      (askewWorld_deep' world_tol.2.1) (askewWorld_well _) hA hst turned_inverse hrun (by rw [hP]; exact turned_world.1)
      (by rw [hP]; exact turned_world.2)
    push_cast at this ⊢
    exact this
  · rw [ht]
    exact corner_open (by norm_num) (by norm_num) hl.1 hl.2

/-- The hypotheses of `C83_world_device_clearance` and `C83_world_device_measured` are met. -/
example {sqrt : Fl → Fl} (hs : FloatSqrt sqrt) (late : ℕ → Bool) : ∃ (output' : VoxMap ℚ) (F : SDFGrid ℝ) (e' : ℝ) (toGrid : Vec4 ℝ → Fin 3 → ℝ),
    DeviceVoxelizeRuns (cudaApi 256) float32 sqrt grid4 ⟨.fin 1, 1, 1⟩ ([askewWorld].map (Camera3.devIn floatR late turnedGrid)) dark4 dark4 output' ∧
    Answers (fun _ => 0) (flTrilinear (roundedArith roundDouble)) toGrid id id ⟨.fin 0, false, false⟩ output' 1 6 F
      (point4 turnedCorner) e' turnedCorner ∧
    StoredPose turnedPose F.pose 0 ∧ StoredInverse turnedPose turnedGrid ∧ ToGridRuns roundDouble turnedPose toGrid ∧
    e' - (Real.sqrt 3 + 3 + (6 : ℚ) / 2 ^ 18 + (6 : ℚ) ^ 2 / 2 ^ 37) * (1 : ℚ) - 2 * (floatReachTol 1 6 48 (5 * 8) + poseTol 8 : ℚ) -
      (164 / 2 ^ 53 + 24 * 0) * 8 ≤ dist3 turnedCorner (fun a => (askewWorld.place ![-1, 2, 0] a : ℝ)) ∧
    OpenAround output' 1 6 (toGrid (point4 turnedCorner)) := by
  obtain ⟨out, hout, h1, -⟩ := askewWorld_device hs late
  obtain ⟨hh, hN⟩ := askewWorld_cuda late
  have hl := askewWorld_low_float hs hout
  obtain ⟨toGrid, hrun, ht⟩ := turned_toGrid
  obtain ⟨F, e', hA, hP⟩ := turned_answers ht hl h1
  have hst : StoredPose turnedPose F.pose 0 := by rw [hP]; exact turned_stored
  refine ⟨out, F, e', toGrid, hout, hA, hst, turned_inverse, hrun, ?_, ?_⟩
  · have := C83_world_device_clearance (n := 48) (X := 8) hs grid4_float40 (by norm_num) (by norm_num) (grid4_size (by norm_num)) hh hN plain_filter
      (by decide) rfl rfl dark4_nonan hout (only_askew askewWorld_posed) (List.mem_singleton_self _) askewWorld_float askewWorld_reach_float
      askewWorld_mem (askewWorld_deep' world_tol.2.2.2) (askewWorld_well _) hA hst turned_inverse hrun (by rw [hP]; exact turned_world.1)
      (by rw [hP]; exact turned_world.2)
    push_cast at this ⊢
    exact this
  · rw [ht]
    exact corner_open (by norm_num) (by norm_num) hl.1 hl.2

end VGT
