import Verif.Props.FarSensor
import Verif.Props.WorldPose
import Verif.Props.AnywhereWorld

/-!
C78, C83: obstacles measured by cameras in the world are kept however far away the sensor is.
-/
set_option autoImplicit false

namespace VGT
open VGT.EDT VGT.Spec VGT.Par

section
variable {norm : (Fin 3 → ℝ) → ℝ} {interp : (Fin 3 → ℝ) → (Fin 3 → ℝ) → (Bool → Bool → Bool → ℝ) → (Fin 3 → ℝ) → ℝ}
  {toGrid : Vec4 ℝ → Fin 3 → ℝ} {toWorld rotate : (Fin 3 → ℝ) → Fin 3 → ℝ} {K : Type} {gp : GenParams} {F : SDFGrid ℝ}
  {loc : Vec4 ℝ} {e' δ X : ℝ} {p p' q Y : Fin 3 → ℝ} {sqrt : Fl → Fl} {g : RayGrid Fl} {op : FilterOptions} {t k : ℤ} {i : IVec}
  {late : ℕ → Bool} {gw : ℕ → ℚ} {cams : List Camera3} {static output output' : VoxMap K} {c : Camera3} {x : Fin 3 → ℚ} {P : Pose ℝ}

section
variable {s n B : ℚ}

/-- C78, obstacles are kept however far away the sensor is, for cameras in the frame of the world: as `C74_double_obstacle_anywhere`. -/
theorem C78_obstacle_anywhere (hs : IeeeSqrt sqrt) (G : DoubleGrid s n (5 * B) g) (hB : 1 / 2 ^ 60 ≤ B)
    (hsize : ∀ a, ∃ z, g.size a = .fin z ∧ |z - axisCells g.dims a * s| ≤ n * s / 2 ^ 53)
    (hop : FilterOptions.make (.fin 1) t k = some op) (hlen : ∀ c ∈ cams, c.points.length < 2 ^ 31) (hc : ∀ c ∈ cams, Posed gw B c)
    (hd : output.dims = g.dims)
    (h : FlVoxelizeRuns double64 sqrt g op (cams.map (Camera3.cloudIn late gw)) output output') (hi : CellInGrid (axisCells g.dims) i)
    (hocc : (output.data (dataIndex g.dims i)).le (.fin (1 / 2)) = true) (hcm : c ∈ cams)
    (hr : DoubleRange c.range)
    (hpts : t ≤ c.howMany fun x => DeepBox (doubleFarTol s n (5 * B) + poseTol B) s i (c.placeIn gw x) ∧
      WellWithin (doubleFarTol s n (5 * B) + poseTol B) c.range (c.sensorIn gw) (c.placeIn gw x)) :
    output'.data (dataIndex g.dims i) = .fin 1 := by
  have hB' := five_le hB G.B_le
  rw [hat_clouds hc hB hB'] at h
  have H := hc c hcm
  refine C74_double_obstacle_anywhere hs G hsize hop (all_hat hlen fun _ _ h => h) hd h hi hocc
    (List.mem_map_of_mem hcm) (hat_within H hB hB') hr (hpts.trans (Nat.cast_le.2 (howMany_of_hat fun x hx hp => ?_)))
  exact ⟨pose_deep H hB hB' hx hp.1, pose_well H hB hB' hx hp.2⟩

/-- C78, nothing measured is overlooked however far away the sensor is, for cameras in the frame of the world. -/
theorem C78_clearance_anywhere (hs : IeeeSqrt sqrt) (G : DoubleGrid s n (5 * B) g) (hB : 1 / 2 ^ 60 ≤ B)
    (hsize : ∀ a, ∃ z, g.size a = .fin z ∧ |z - axisCells g.dims a * s| ≤ n * s / 2 ^ 53) (hop : FilterOptions.make (.fin 1) 1 k = some op)
    (hlen : ∀ c ∈ cams, c.points.length < 2 ^ 31) (hd : output.dims = g.dims) (hnan : NoNaN output)
    (h : FlVoxelizeRuns double64 sqrt g op (cams.map (Camera3.cloudIn late gw)) output output') (hc : ∀ c ∈ cams, Posed gw B c)
    (hcm : c ∈ cams) (hr : DoubleRange c.range) (hx : some x ∈ c.points)
    (h1 : DeepInGrid (doubleFarTol s n (5 * B) + poseTol B) s (axisCells g.dims) (c.placeIn gw x))
    (h2 : WellWithin (doubleFarTol s n (5 * B) + poseTol B) c.range (c.sensorIn gw) (c.placeIn gw x))
    (hq : Answers norm interp toGrid toWorld rotate gp output' s n F loc e' p)
    (hY : InFrame F.pose.R F.pose.t (fun a => (c.placeIn gw x a : ℝ)) Y) :
    e' - (Real.sqrt 3 + 3 + n / 2 ^ 18 + n ^ 2 / 2 ^ 37) * s - dist3 p p' - 2 * (doubleTol s n (5 * B) + poseTol B) -
      dist3 Y (fun a => (c.place x a : ℝ)) ≤ dist3 p' fun a => (c.place x a : ℝ) := by
  have hB' := five_le hB G.B_le
  rw [hat_clouds hc hB hB'] at h
  have H := hc c hcm
  obtain ⟨Z, hZ, hZY⟩ := hat_dist (late := late) H hB hB' hq.field.pose hx hY
  have key := C77_double_clearance_anywhere (p' := p') hs G hsize hop (all_hat hlen fun _ _ h => h) hd hnan h (List.mem_map_of_mem hcm)
    (hat_within H hB hB') hr hx (pose_deepInGrid H hB hB' hx h1) (pose_well H hB hB' hx h2) hq hZ
  have t1 := dist3_triangle p' Y Z
  have t2 := dist3_triangle p' (fun a => (c.place x a : ℝ)) Y
  rw [dist3_comm Y Z] at t1
  rw [dist3_comm (fun a => (c.place x a : ℝ)) Y] at t2
  linarith

/-- C83 with C78, nothing measured is overlooked however far away the sensor is: from points measured by cameras in the world, over the CPU
voxelizer and the field of the map, to the clearance of a location of the world. -/
theorem C83_world_clearance_anywhere (hs : IeeeSqrt sqrt) (G : DoubleGrid s n (5 * B) g) (hB : 1 / 2 ^ 60 ≤ B)
    (hsize : ∀ a, ∃ z, g.size a = .fin z ∧ |z - axisCells g.dims a * s| ≤ n * s / 2 ^ 53) (hop : FilterOptions.make (.fin 1) 1 k = some op)
    (hlen : ∀ c ∈ cams, c.points.length < 2 ^ 31) (hd : output.dims = g.dims) (hnan : NoNaN output)
    (h : FlVoxelizeRuns double64 sqrt g op (cams.map (Camera3.cloudIn late gw)) output output') (hc : ∀ c ∈ cams, Posed gw B c)
    (hcm : c ∈ cams) (hr : DoubleRange c.range) (hx : some x ∈ c.points)
    (h1 : DeepInGrid (doubleFarTol s n (5 * B) + poseTol B) s (axisCells g.dims) (c.placeIn gw x))
    (h2 : WellWithin (doubleFarTol s n (5 * B) + poseTol B) c.range (c.sensorIn gw) (c.placeIn gw x))
    (hq : Answers norm interp toGrid toWorld rotate gp output' s n F (point4 p) e' q)
    (hP : StoredPose P F.pose δ) (hgw : StoredInverse P gw) (hrun : ToGridRuns roundDouble P toGrid)
    (hX : WithinWorld X F.pose.t p) (hW : WithinWorld X F.pose.t fun a => (c.place x a : ℝ)) :
    e' - (Real.sqrt 3 + 3 + n / 2 ^ 18 + n ^ 2 / 2 ^ 37) * s - 2 * (doubleTol s n (5 * B) + poseTol B) - (164 / 2 ^ 53 + 24 * δ) * X ≤
      dist3 p fun a => (c.place x a : ℝ) := by
  obtain ⟨Y, hY⟩ := exists_inFrame F.pose.R F.pose.t (fun a => (c.placeIn gw x a : ℝ))
  have key := C78_clearance_anywhere (p' := p) hs G hB hsize hop hlen hd hnan h hc hcm hr hx h1 h2 hq hY
  have e1 := C83_location_error hP hq.field.pose hrun hX hq.place
  have e2 := C83_stored_place hP hq.field.pose hgw hW hY
  have e3 : (2 ^ (-46 : ℤ) + 12 * δ) * X + (36 / 2 ^ 53 + 12 * δ) * X = (164 / 2 ^ 53 + 24 * δ) * X := by
    rw [zpow_neg]; norm_num; ring
  rw [← e3]
  clear e3
  generalize (2 ^ (-46 : ℤ) + 12 * δ) * X = E at *
  linarith

end

section
variable {e v n B : ℚ} {api : DeviceApi}

/-- C78, obstacles are kept on a device however far away the sensor is, for cameras in the frame of the world. -/
theorem C78_device_obstacle_anywhere (hs : FloatSqrt sqrt) (G : FloatGrid e v n (5 * B) g)
    (hsize : ∀ a, ∃ z, g.size a = .fin z ∧ |z - axisCells g.dims a * e| ≤ n * e / 2 ^ 24)
    (hh : Helper api (cams.map (Camera3.devIn floatR late gw)))
    (hN : g.dims.total * 2 * numTrackingGrids (cams.map (Camera3.devIn floatR late gw)) < 2 ^ 31)
    (hop : FilterOptions.make (.fin 1) t k = some op) (hlen : ∀ c ∈ cams, c.points.length ≤ 2 ^ 24) (hc : ∀ c ∈ cams, Posed gw B c)
    (hd : static.dims = g.dims) (h : DeviceVoxelizeRuns api float32 sqrt g op (cams.map (Camera3.devIn floatR late gw)) static output output')
    (hi : CellInGrid (axisCells g.dims) i) (hocc : (static.data (dataIndex g.dims i)).le (.fin (1 / 2)) = true)
    (hcm : c ∈ cams) (hr : FloatRange c.range)
    (hpts : t ≤ c.howMany fun x => DeepBox (floatFarTol e n (5 * B) + poseTol B) e i (c.placeIn gw x) ∧
      WellWithin (floatFarTol e n (5 * B) + poseTol B) c.range (c.sensorIn gw) (c.placeIn gw x)) :
    output'.data (dataIndex g.dims i) = .fin 1 := by
  obtain ⟨hB, hB'⟩ := float_bounds G
  rw [hat_devs hc hB hB'] at h hh hN
  have H := hc c hcm
  refine C76_float_obstacle_anywhere hs G hsize hh hN hop (all_hat hlen fun _ _ h => h) hd h hi hocc
    (List.mem_map_of_mem hcm) (hat_within H hB hB') (hat_turns H hB hB') hr
    (hpts.trans (Nat.cast_le.2 (howMany_of_hat fun x hx hp => ?_)))
  exact ⟨pose_deep H hB hB' hx hp.1, pose_well H hB hB' hx hp.2⟩

/-- C78, nothing measured is overlooked on a device however far away the sensor is, for cameras in the frame of the world. -/
theorem C78_device_clearance_anywhere (hs : FloatSqrt sqrt) (G : FloatGrid e v n (5 * B) g)
    (hsize : ∀ a, ∃ z, g.size a = .fin z ∧ |z - axisCells g.dims a * e| ≤ n * e / 2 ^ 24)
    (hh : Helper api (cams.map (Camera3.devIn floatR late gw)))
    (hN : g.dims.total * 2 * numTrackingGrids (cams.map (Camera3.devIn floatR late gw)) < 2 ^ 31)
    (hop : FilterOptions.make (.fin 1) 1 k = some op)
    (hlen : ∀ c ∈ cams, c.points.length ≤ 2 ^ 24) (hd : static.dims = g.dims) (hdo : output.dims = g.dims) (hnan : NoNaN static)
    (h : DeviceVoxelizeRuns api float32 sqrt g op (cams.map (Camera3.devIn floatR late gw)) static output output')
    (hc : ∀ c ∈ cams, Posed gw B c) (hcm : c ∈ cams) (hr : FloatRange c.range)
    (hx : some x ∈ c.points)
    (h1 : DeepInGrid (floatFarTol e n (5 * B) + poseTol B) e (axisCells g.dims) (c.placeIn gw x))
    (h2 : WellWithin (floatFarTol e n (5 * B) + poseTol B) c.range (c.sensorIn gw) (c.placeIn gw x))
    (hq : Answers norm interp toGrid toWorld rotate gp output' e n F loc e' p)
    (hY : InFrame F.pose.R F.pose.t (fun a => (c.placeIn gw x a : ℝ)) Y) :
    e' - (Real.sqrt 3 + 3 + n / 2 ^ 18 + n ^ 2 / 2 ^ 37) * e - dist3 p p' - 2 * (floatTol e n (5 * B) + poseTol B) -
      dist3 Y (fun a => (c.place x a : ℝ)) ≤ dist3 p' fun a => (c.place x a : ℝ) := by
  obtain ⟨hB, hB'⟩ := float_bounds G
  rw [hat_devs hc hB hB'] at h hh hN
  have H := hc c hcm
  obtain ⟨Z, hZ, hZY⟩ := hat_dist (late := late) H hB hB' hq.field.pose hx hY
  have key := C77_float_clearance_anywhere (p' := p') hs G hsize hh hN hop (all_hat hlen fun _ _ h => h) hd hdo hnan h (List.mem_map_of_mem hcm)
    (hat_within H hB hB') (hat_turns H hB hB') hr hx (pose_deepInGrid H hB hB' hx h1)
    (pose_well H hB hB' hx h2) hq hZ
  have t1 := dist3_triangle p' Y Z
  have t2 := dist3_triangle p' (fun a => (c.place x a : ℝ)) Y
  rw [dist3_comm Y Z] at t1
  rw [dist3_comm (fun a => (c.place x a : ℝ)) Y] at t2
  linarith

/-- C83 with C78, nothing measured is overlooked on a device however far away the sensor is. -/
theorem C83_world_device_clearance_anywhere (hs : FloatSqrt sqrt) (G : FloatGrid e v n (5 * B) g)
    (hsize : ∀ a, ∃ z, g.size a = .fin z ∧ |z - axisCells g.dims a * e| ≤ n * e / 2 ^ 24)
    (hh : Helper api (cams.map (Camera3.devIn floatR late gw)))
    (hN : g.dims.total * 2 * numTrackingGrids (cams.map (Camera3.devIn floatR late gw)) < 2 ^ 31)
    (hop : FilterOptions.make (.fin 1) 1 k = some op)
    (hlen : ∀ c ∈ cams, c.points.length ≤ 2 ^ 24) (hd : static.dims = g.dims) (hdo : output.dims = g.dims) (hnan : NoNaN static)
    (h : DeviceVoxelizeRuns api float32 sqrt g op (cams.map (Camera3.devIn floatR late gw)) static output output')
    (hc : ∀ c ∈ cams, Posed gw B c) (hcm : c ∈ cams) (hr : FloatRange c.range)
    (hx : some x ∈ c.points)
    (h1 : DeepInGrid (floatFarTol e n (5 * B) + poseTol B) e (axisCells g.dims) (c.placeIn gw x))
    (h2 : WellWithin (floatFarTol e n (5 * B) + poseTol B) c.range (c.sensorIn gw) (c.placeIn gw x))
    (hq : Answers norm interp toGrid toWorld rotate gp output' e n F (point4 p) e' q)
    (hP : StoredPose P F.pose δ) (hgw : StoredInverse P gw) (hrun : ToGridRuns roundDouble P toGrid)
    (hX : WithinWorld X F.pose.t p) (hW : WithinWorld X F.pose.t fun a => (c.place x a : ℝ)) :
    e' - (Real.sqrt 3 + 3 + n / 2 ^ 18 + n ^ 2 / 2 ^ 37) * e - 2 * (floatTol e n (5 * B) + poseTol B) - (164 / 2 ^ 53 + 24 * δ) * X ≤
      dist3 p fun a => (c.place x a : ℝ) := by
  obtain ⟨Y, hY⟩ := exists_inFrame F.pose.R F.pose.t (fun a => (c.placeIn gw x a : ℝ))
  have key := C78_device_clearance_anywhere (p' := p) hs G hsize hh hN hop hlen hd hdo hnan h hc hcm hr hx h1 h2 hq hY
  have e1 := C83_location_error hP hq.field.pose hrun hX hq.place
  have e2 := C83_stored_place hP hq.field.pose hgw hW hY
  have e3 : (2 ^ (-46 : ℤ) + 12 * δ) * X + (36 / 2 ^ 53 + 12 * δ) * X = (164 / 2 ^ 53 + 24 * δ) * X := by
    rw [zpow_neg]; norm_num; ring
  rw [← e3]
  clear e3
  generalize (2 ^ (-46 : ℤ) + 12 * δ) * X = E at *
  linarith

end
end

end VGT
