import Verif.Lemmas.World
import Verif.Props.PipelineAll
import Verif.Props.CameraSeen

/-!
C78: the theorems about voxelization in floating point and about queries, for cameras in the frame of the world.
-/
set_option autoImplicit false

namespace VGT
open VGT.EDT VGT.Spec VGT.Par

/-- What the rounding of the product of two poses costs. -/
def poseTol (B : ℚ) : ℚ := 60 * B / 2 ^ 53

section
variable {late : ℕ → Bool} {gw : ℕ → ℚ} {B tol s : ℚ} {c : Camera3} {cams : List Camera3} {x : Fin 3 → ℚ} {m : Fin 3 → ℕ} {i : IVec}

/-! ### Cameras and their computed poses -/

theorem hat_clouds (H : ∀ c ∈ cams, Posed gw B c) (hB : 1 / 2 ^ 60 ≤ B) (hB' : B ≤ 2 ^ 60) :
    cams.map (Camera3.cloudIn late gw) = (cams.map (Camera3.hat late gw)).map Camera3.cloud := by
  rw [List.map_map]
  exact List.map_congr_left fun c hc => hat_cloud (H c hc) hB hB'

theorem hat_devs {R : ℚ → Fl} (H : ∀ c ∈ cams, Posed gw B c) (hB : 1 / 2 ^ 60 ≤ B) (hB' : B ≤ 2 ^ 60) :
    cams.map (Camera3.devIn R late gw) = (cams.map (Camera3.hat late gw)).map (Camera3.dev R) := by
  rw [List.map_map]
  exact List.map_congr_left fun c hc => hat_dev (H c hc) hB hB'

theorem all_hat {P Q : Camera3 → Prop} (h : ∀ c ∈ cams, Q c) (h' : ∀ c ∈ cams, Q c → P (c.hat late gw)) :
    ∀ c ∈ cams.map (Camera3.hat late gw), P c := fun c hc => by
  obtain ⟨d, hd, rfl⟩ := List.mem_map.1 hc
  exact h' d hd (h d hd)

section
variable (H : Posed gw B c) (hB : 1 / 2 ^ 60 ≤ B) (hB' : B ≤ 2 ^ 60)
include H hB hB'

theorem pose_beside (hx : some x ∈ c.points) :
    Beside (44 * B / 2 ^ 53) (30 * B / 2 ^ 53) (c.hat late gw).sensor ((c.hat late gw).place x) (c.sensorIn gw) (c.placeIn gw x) :=
  hat_beside H hB hB' (H.points x hx)

omit H hB' in
theorem pose_costs : tol + 44 * B / 2 ^ 53 ≤ tol + poseTol B ∧ tol + 2 * (30 * B / 2 ^ 53) ≤ tol + poseTol B ∧ 0 ≤ 30 * B / 2 ^ 53 ∧
    tol ≤ tol + poseTol B := by
  have hB0 : 0 ≤ B := le_trans (by norm_num) hB
  unfold poseTol
  refine ⟨by linarith, by linarith, by positivity, ?_⟩
  have : 0 ≤ 60 * B / 2 ^ 53 := by positivity
  linarith

theorem pose_near (hr : ∀ r, c.range = .fin r → 0 ≤ r) (h0 : 0 ≤ tol) (hx : some x ∈ c.points)
    (h : NearBox tol s i ((c.hat late gw).place x) ∧ NotBeyond tol (c.hat late gw).range (c.hat late gw).sensor ((c.hat late gw).place x)) :
    NearBox (tol + poseTol B) s i (c.placeIn gw x) ∧ NotBeyond (tol + poseTol B) c.range (c.sensorIn gw) (c.placeIn gw x) := by
  obtain ⟨k1, k2, -, -⟩ := pose_costs (tol := tol) hB
  have K := pose_beside (late := late) H hB hB' hx
  exact ⟨nearBox_shift K.stop k1 h.1, notBeyond_shift hr h0 K.way k2 h.2⟩

theorem pose_well (hx : some x ∈ c.points) (h : WellWithin (tol + poseTol B) c.range (c.sensorIn gw) (c.placeIn gw x)) :
    WellWithin tol (c.hat late gw).range (c.hat late gw).sensor ((c.hat late gw).place x) :=
  wellWithin_shift (pose_beside (late := late) H hB hB' hx).way (pose_costs (tol := tol) hB).2.1 h

theorem pose_deep (hx : some x ∈ c.points) (h : DeepBox (tol + poseTol B) s i (c.placeIn gw x)) : DeepBox tol s i ((c.hat late gw).place x) :=
  deepBox_shift (pose_beside (late := late) H hB hB' hx).stop (pose_costs (tol := tol) hB).1 h

theorem pose_deepInGrid (hx : some x ∈ c.points) (h : DeepInGrid (tol + poseTol B) s m (c.placeIn gw x)) :
    DeepInGrid tol s m ((c.hat late gw).place x) :=
  deepInGrid_shift (pose_beside (late := late) H hB hB' hx).stop (pose_costs (tol := tol) hB).1 h

theorem pose_sensor_near (a : Fin 3) : |c.sensorIn gw a - (c.hat late gw).sensor a| ≤ 14 * B / 2 ^ 53 := by
  rw [abs_sub_comm]
  exact (hat_pose (late := late) H hB hB').2.2 a

theorem pose_sensor (h : DeepInGrid (tol + poseTol B) s m (c.sensorIn gw)) : DeepInGrid tol s m (c.hat late gw).sensor := by
  refine deepInGrid_shift (pose_sensor_near (late := late) H hB hB') ?_ h
  have hB0 : 0 ≤ B := le_trans (by norm_num) hB
  unfold poseTol
  linarith

theorem pose_reach {L : ℚ} (h : ∀ a, 8 * |c.sensorIn gw a| + 1440 * B / 2 ^ 53 ≤ L) (a : Fin 3) :
    8 * |(c.hat late gw).sensor a| + 264 * (5 * B) / 2 ^ 53 ≤ L := by
  have h1 := pose_sensor_near (late := late) H hB hB' a
  have h2 := abs_sub_abs_le_abs_sub ((c.hat late gw).sensor a) (c.sensorIn gw a)
  rw [abs_sub_comm] at h2
  have hB0 : 0 ≤ B := le_trans (by norm_num) hB
  have h3 := h a
  linarith

theorem pose_reach_float {L : ℚ} (h : ∀ a, 9 * |c.sensorIn gw a| + 1486 * B / 2 ^ 24 ≤ L) (a : Fin 3) :
    9 * |(c.hat late gw).sensor a| + 297 * (5 * B) / 2 ^ 24 ≤ L := by
  have h1 := pose_sensor_near (late := late) H hB hB' a
  have h2 := abs_sub_abs_le_abs_sub ((c.hat late gw).sensor a) (c.sensorIn gw a)
  rw [abs_sub_comm] at h2
  have hB0 : 0 ≤ B := le_trans (by norm_num) hB
  have h3 := h a
  linarith

theorem pose_seen (hr : ∀ r, c.range = .fin r → 0 ≤ r) (h0 : 0 ≤ tol) (hx : some x ∈ c.points)
    (h : SeenNear tol s (c.hat late gw).range (c.hat late gw).sensor ((c.hat late gw).place x) i) :
    SeenNear (tol + poseTol B) s c.range (c.sensorIn gw) (c.placeIn gw x) i := by
  obtain ⟨k1, k2, -, -⟩ := pose_costs (tol := tol) hB
  exact seenNear_shift (pose_beside H hB hB' hx) hr h0 k1 k2 h

theorem pose_seenDeep (hx : some x ∈ c.points) (h : SeenDeep (tol + poseTol B) s c.range (c.sensorIn gw) (c.placeIn gw x) i) :
    SeenDeep tol s (c.hat late gw).range (c.hat late gw).sensor ((c.hat late gw).place x) i := by
  obtain ⟨k1, k2, -, -⟩ := pose_costs (tol := tol) hB
  exact seenDeep_shift (pose_beside H hB hB' hx) k1 k2 h

theorem pose_reaches (hx : some x ∈ c.points) (h : Reaches (tol + poseTol B) s m c.range (c.sensorIn gw) (c.placeIn gw x)) :
    Reaches tol s m (c.hat late gw).range (c.hat late gw).sensor ((c.hat late gw).place x) := by
  obtain ⟨k1, k2, k3, -⟩ := pose_costs (tol := tol) hB
  exact reaches_shift (pose_beside H hB hB' hx) k3 k1 k2 h

end

theorem five_le (hB : 1 / 2 ^ 60 ≤ B) (h : 5 * B ≤ 2 ^ 60) : B ≤ 2 ^ 60 := by
  have : 0 ≤ B := le_trans (by norm_num) hB
  linarith

theorem range_of_double {range : Fl} (h : DoubleRange range) (r : ℚ) (hr : range = .fin r) : 0 ≤ r := le_trans (by positivity) (h.2 r hr)

theorem range_of_float {range : Fl} (h : FloatRange range) (r : ℚ) (hr : range = .fin r) : 0 ≤ r := le_trans (by positivity) (h.2 r hr)

end

/-! ### CPU -/

section
variable {late : ℕ → Bool} {gw : ℕ → ℚ} {sqrt : Fl → Fl} {s n N B pct : ℚ} {g : RayGrid Fl} {K : Type} {t k : ℤ} {op : FilterOptions}
  {cams : List Camera3} {c : Camera3} {output output' : VoxMap K} {i : IVec}

/-- C78, filled cells are where something is, for cameras in the frame of the world: the voxelizer turns the pose of every camera into the
frame of the grid, in `double`, and every cell filled afterwards has its points truly in it and in range, up to
`(33 n² s + 1560 B) / 2^53`, whatever the order of the additions in the product of the poses. -/
theorem C78_filled_is_real (hs : IeeeSqrt sqrt) (G : DoubleGrid s n (5 * B) g) (hB : 1 / 2 ^ 60 ≤ B)
    (hop : FilterOptions.make (.fin pct) t k = some op) (hlen : ∀ c ∈ cams, c.points.length < 2 ^ 31) (hc : ∀ c ∈ cams, Posed gw B c)
    (hr : ∀ c ∈ cams, ∀ r, c.range = .fin r → 0 ≤ r) (hd : output.dims = g.dims)
    (h : FlVoxelizeRuns double64 sqrt g op (cams.map (Camera3.cloudIn late gw)) output output') (hi : CellInGrid (axisCells g.dims) i)
    (hocc : (output.data (dataIndex g.dims i)).le (.fin (1 / 2)) = true) (hone : output'.data (dataIndex g.dims i) = .fin 1) :
    ∃ c ∈ cams, t ≤ c.howMany fun x => NearBox (doubleTol s n (5 * B) + poseTol B) s i (c.placeIn gw x) ∧
      NotBeyond (doubleTol s n (5 * B) + poseTol B) c.range (c.sensorIn gw) (c.placeIn gw x) := by
  have hB' := five_le hB G.B_le
  rw [hat_clouds hc hB hB'] at h
  obtain ⟨d, hdm, hcnt⟩ := C74_double_filled_is_real hs G hop (all_hat hlen fun _ _ h => h)
    (all_hat hc fun _ _ H => hat_within H hB hB') hd h hi hocc hone
  obtain ⟨c, hcm, rfl⟩ := List.mem_map.1 hdm
  refine ⟨c, hcm, hcnt.trans (Nat.cast_le.2 (howMany_hat fun x hx hp => ?_))⟩
  exact pose_near (hc c hcm) hB hB' (hr c hcm) G.tol_nonneg hx hp

/-- C78, obstacles are kept, for cameras in the frame of the world, wherever the sensor is. -/
theorem C78_obstacle_is_filled (hs : IeeeSqrt sqrt) (G : DoubleGrid s N (5 * B) g) (hB : 1 / 2 ^ 60 ≤ B) (hn : 8 * N ≤ n) (hn' : n ≤ 2 ^ 40)
    (hsize : ∀ a, ∃ z, g.size a = .fin z ∧ |z - axisCells g.dims a * s| ≤ n * s / 2 ^ 53)
    (hop : FilterOptions.make (.fin 1) t k = some op) (hlen : ∀ c ∈ cams, c.points.length < 2 ^ 31) (hc : ∀ c ∈ cams, Posed gw B c)
    (hd : output.dims = g.dims)
    (h : FlVoxelizeRuns double64 sqrt g op (cams.map (Camera3.cloudIn late gw)) output output') (hi : CellInGrid (axisCells g.dims) i)
    (hocc : (output.data (dataIndex g.dims i)).le (.fin (1 / 2)) = true) (hcm : c ∈ cams)
    (hr : DoubleRange c.range) (hreach : ∀ a, 8 * |c.sensorIn gw a| + 1440 * B / 2 ^ 53 ≤ n * s)
    (hpts : t ≤ c.howMany fun x => DeepBox (doubleWideTol s N n (5 * B) + poseTol B) s i (c.placeIn gw x) ∧
      WellWithin (doubleWideTol s N n (5 * B) + poseTol B) c.range (c.sensorIn gw) (c.placeIn gw x)) :
    output'.data (dataIndex g.dims i) = .fin 1 := by
  have hB' := five_le hB G.B_le
  rw [hat_clouds hc hB hB'] at h
  have H := hc c hcm
  refine C74_double_obstacle_is_filled hs G hn hn' hsize hop (all_hat hlen fun _ _ h => h) hd h hi hocc
    (List.mem_map_of_mem hcm) (hat_within H hB hB') hr (pose_reach H hB hB' hreach) (hpts.trans (Nat.cast_le.2 (howMany_of_hat fun x hx hp => ?_)))
  exact ⟨pose_deep H hB hB' hx hp.1, pose_well H hB hB' hx hp.2⟩

open Classical in
/-- C78, free cells were looked through or lie beyond something measured before the grid, for cameras in the frame of the world. -/
theorem C78_free_is_seen_or_short (hs : IeeeSqrt sqrt) (G : DoubleGrid s N (5 * B) g) (hB : 1 / 2 ^ 60 ≤ B) (hn : 8 * N ≤ n)
    (hn' : n ≤ 2 ^ 40) (hsize : ∀ a, ∃ z, g.size a = .fin z ∧ |z - axisCells g.dims a * s| ≤ n * s / 2 ^ 53)
    (hop : FilterOptions.make (.fin pct) t k = some op) (hlen : ∀ c ∈ cams, c.points.length < 2 ^ 31)
    (hc : ∀ c ∈ cams, Posed gw B c) (hr : ∀ c ∈ cams, DoubleRange c.range)
    (hreach : ∀ c ∈ cams, ∀ a, 8 * |c.sensorIn gw a| + 1440 * B / 2 ^ 53 ≤ n * s)
    (hd : output.dims = g.dims) (h : FlVoxelizeRuns double64 sqrt g op (cams.map (Camera3.cloudIn late gw)) output output')
    (hi : CellInGrid (axisCells g.dims) i) (hocc : (output.data (dataIndex g.dims i)).le (.fin (1 / 2)) = true)
    (hzero : output'.data (dataIndex g.dims i) = .fin 0) :
    k ≤ cams.countP fun c => decide (∃ x, some x ∈ c.points ∧
      (SeenNear (doubleReachTol s N n (5 * B) + poseTol B) s c.range (c.sensorIn gw) (c.placeIn gw x) i ∨
      ¬ Reaches (doubleWideTol s N n (5 * B) + poseTol B) s (axisCells g.dims) c.range (c.sensorIn gw) (c.placeIn gw x))) := by
  have hB' := five_le hB G.B_le
  rw [hat_clouds hc hB hB'] at h
  have key := C74_double_free_is_seen_or_short hs G hn hn' hsize hop (all_hat hlen fun _ _ h => h)
    (all_hat hc fun _ _ H => hat_within H hB hB') (all_hat (P := fun c => DoubleRange c.range) hr fun _ _ h => h)
    (all_hat (P := fun c => ∀ a, 8 * |c.sensor a| + 264 * (5 * B) / 2 ^ 53 ≤ n * s) hreach
      fun c hcm h => pose_reach (hc c hcm) hB hB' h) hd h hi hocc hzero
  rw [List.countP_map] at key
  refine key.trans (Nat.cast_le.2 (List.countP_mono_left fun c hcm hp => ?_))
  rw [Function.comp_apply, decide_eq_true_iff] at hp
  rw [decide_eq_true_iff]
  obtain ⟨x, hx, hp⟩ := hp
  exact ⟨x, hx, hp.imp (pose_seen (hc c hcm) hB hB' (range_of_double (hr c hcm)) (G.reach_nonneg hn) hx)
    (mt (pose_reaches (hc c hcm) hB hB' hx))⟩

open Classical in
/-- C78, what is looked through becomes free, for cameras in the frame of the world.
Missing for a full statement: sensors outside the grid, for which it does not hold (`C73_grazing_ray_lost`). -/
theorem C78_seen_is_free_partial (hs : IeeeSqrt sqrt) (G : DoubleGrid s n (5 * B) g) (hB : 1 / 2 ^ 60 ≤ B)
    (hop : FilterOptions.make (.fin pct) t k = some op) (hlen : ∀ c ∈ cams, c.points.length < 2 ^ 31)
    (hc : ∀ c ∈ cams, Posed gw B c) (hr : ∀ c ∈ cams, ∀ r, c.range = .fin r → 0 ≤ r)
    (hd : output.dims = g.dims) (h : FlVoxelizeRuns double64 sqrt g op (cams.map (Camera3.cloudIn late gw)) output output')
    (hi : CellInGrid (axisCells g.dims) i) (hocc : (output.data (dataIndex g.dims i)).le (.fin (1 / 2)) = true)
    (hno : ∀ c ∈ cams, ∀ x, some x ∈ c.points → ¬ (NearBox (doubleTol s n (5 * B) + poseTol B) s i (c.placeIn gw x) ∧
      NotBeyond (doubleTol s n (5 * B) + poseTol B) c.range (c.sensorIn gw) (c.placeIn gw x)))
    (hsee : k ≤ cams.countP fun c => decide (DoubleRange c.range ∧
      DeepInGrid (doubleTol s n (5 * B) + poseTol B) s (axisCells g.dims) (c.sensorIn gw) ∧
      ∃ x, some x ∈ c.points ∧ SeenDeep (doubleTol s n (5 * B) + poseTol B) s c.range (c.sensorIn gw) (c.placeIn gw x) i)) :
    output'.data (dataIndex g.dims i) = .fin 0 := by
  have hB' := five_le hB G.B_le
  rw [hat_clouds hc hB hB'] at h
  refine C74_double_seen_is_free_partial hs G hop (all_hat hlen fun _ _ h => h) (all_hat hc fun _ _ H => hat_within H hB hB') hd h hi hocc
    (all_hat (P := fun c => ∀ x, some x ∈ c.points → ¬ (NearBox (doubleTol s n (5 * B)) s i (c.place x) ∧
      NotBeyond (doubleTol s n (5 * B)) c.range c.sensor (c.place x))) hno fun c hcm hno x hx hp =>
        hno x hx (pose_near (hc c hcm) hB hB' (hr c hcm) G.tol_nonneg hx hp)) (hsee.trans (Nat.cast_le.2 ?_))
  rw [List.countP_map]
  refine List.countP_mono_left fun c hcm hp => ?_
  rw [Function.comp_apply, decide_eq_true_iff]
  rw [decide_eq_true_iff] at hp
  obtain ⟨h1, h2, x, hx, h3⟩ := hp
  exact ⟨h1, pose_sensor (hc c hcm) hB hB' h2, x, hx, pose_seenDeep (hc c hcm) hB hB' hx h3⟩

/-- C78, every voxelization with sensors in the grid has a result, for cameras in the frame of the world. -/
theorem C78_has_result (hs : IeeeSqrt sqrt) (G : DoubleGrid s n (5 * B) g) (hB : 1 / 2 ^ 60 ≤ B) (hBs : 5 * B ≤ 2 ^ 56 * s)
    (hop : FilterOptions.make (.fin pct) t k = some op) (hlen : ∀ c ∈ cams, c.points.length < 2 ^ 31)
    (hc : ∀ c ∈ cams, Posed gw B c) (hr : ∀ c ∈ cams, DoubleRange c.range)
    (hsensor : ∀ c ∈ cams, DeepInGrid (doubleTol s n (5 * B) + poseTol B) s (axisCells g.dims) (c.sensorIn gw))
    (hd : output.dims = g.dims) :
    ∃ output', FlVoxelizeRuns double64 sqrt g op (cams.map (Camera3.cloudIn late gw)) output output' := by
  have hB' := five_le hB G.B_le
  rw [hat_clouds hc hB hB']
  exact C74_double_has_result hs G hBs hop (all_hat hlen fun _ _ h => h) (all_hat hc fun _ _ H => hat_within H hB hB')
    (all_hat (P := fun c => DoubleRange c.range) hr fun _ _ h => h)
    (all_hat (P := fun c => DeepInGrid (doubleTol s n (5 * B)) s (axisCells g.dims) c.sensor) hsensor
      fun c hcm h => pose_sensor (hc c hcm) hB hB' h) hd

end

/-! ### Devices -/

section
variable {late : ℕ → Bool} {gw : ℕ → ℚ} {sqrt : Fl → Fl} {e v n N B pct : ℚ} {g : RayGrid Fl} {K : Type} {api : DeviceApi} {t k : ℤ}
  {op : FilterOptions} {cams : List Camera3} {c : Camera3} {static output output' : VoxMap K} {i : IVec}

theorem float_bounds (G : FloatGrid e v n (5 * B) g) : 1 / 2 ^ 60 ≤ B ∧ B ≤ 2 ^ 60 := by
  have h1 := G.e_ge; have h2 := G.B_ge; have h3 := G.B_le
  constructor
  · have : (1 : ℚ) / 2 ^ 60 ≤ 1 / 2 ^ 20 / 5 := by norm_num
    linarith
  · have : (2 : ℚ) ^ 30 / 5 ≤ 2 ^ 60 := by norm_num
    linarith

/-- C78, filled cells are where something is, on a device and for cameras in the frame of the world: the poses are multiplied in `double` and
the product converted to `float`. -/
theorem C78_device_filled_is_real (hs : FloatSqrt sqrt) (G : FloatGrid e v n (5 * B) g)
    (hh : Helper api (cams.map (Camera3.devIn floatR late gw)))
    (hN : g.dims.total * 2 * numTrackingGrids (cams.map (Camera3.devIn floatR late gw)) < 2 ^ 31)
    (hop : FilterOptions.make (.fin pct) t k = some op) (hlen : ∀ c ∈ cams, c.points.length ≤ 2 ^ 24)
    (hc : ∀ c ∈ cams, Posed gw B c) (hr : ∀ c ∈ cams, ∀ r, c.range = .fin r → 0 ≤ r) (hd : static.dims = g.dims)
    (h : DeviceVoxelizeRuns api float32 sqrt g op (cams.map (Camera3.devIn floatR late gw)) static output output')
    (hi : CellInGrid (axisCells g.dims) i)
    (hocc : (static.data (dataIndex g.dims i)).le (.fin (1 / 2)) = true) (hone : output'.data (dataIndex g.dims i) = .fin 1) :
    ∃ c ∈ cams, t ≤ c.howMany fun x => NearBox (floatTol e n (5 * B) + poseTol B) e i (c.placeIn gw x) ∧
      NotBeyond (floatTol e n (5 * B) + poseTol B) c.range (c.sensorIn gw) (c.placeIn gw x) := by
  obtain ⟨hB, hB'⟩ := float_bounds G
  rw [hat_devs hc hB hB'] at h hh hN
  obtain ⟨d, hdm, hcnt⟩ := C76_float_filled_is_real hs G hh hN hop (all_hat hlen fun _ _ h => h)
    (all_hat hc fun _ _ H => hat_within H hB hB') (all_hat hc fun _ _ H => hat_turns H hB hB')
    (all_hat (P := fun c => ∀ r, c.range = .fin r → 0 ≤ r) hr fun _ _ h => h) hd h hi hocc hone
  obtain ⟨c, hcm, rfl⟩ := List.mem_map.1 hdm
  refine ⟨c, hcm, hcnt.trans (Nat.cast_le.2 (howMany_hat fun x hx hp => ?_))⟩
  exact pose_near (hc c hcm) hB hB' (hr c hcm) G.tol_nonneg hx hp

/-- C78, obstacles are kept, on a device and for cameras in the frame of the world, wherever the sensor is. -/
theorem C78_device_obstacle_is_filled (hs : FloatSqrt sqrt) (G : FloatGrid e v N (5 * B) g) (hn : 8 * N ≤ n) (hn' : n ≤ 5592)
    (hsize : ∀ a, ∃ z, g.size a = .fin z ∧ |z - axisCells g.dims a * e| ≤ n * e / 2 ^ 26)
    (hh : Helper api (cams.map (Camera3.devIn floatR late gw)))
    (hN : g.dims.total * 2 * numTrackingGrids (cams.map (Camera3.devIn floatR late gw)) < 2 ^ 31)
    (hop : FilterOptions.make (.fin 1) t k = some op) (hlen : ∀ c ∈ cams, c.points.length ≤ 2 ^ 24) (hc : ∀ c ∈ cams, Posed gw B c)
    (hd : static.dims = g.dims) (h : DeviceVoxelizeRuns api float32 sqrt g op (cams.map (Camera3.devIn floatR late gw)) static output output')
    (hi : CellInGrid (axisCells g.dims) i) (hocc : (static.data (dataIndex g.dims i)).le (.fin (1 / 2)) = true)
    (hcm : c ∈ cams) (hr : FloatRange c.range) (hreach : ∀ a, 9 * |c.sensorIn gw a| + 1486 * B / 2 ^ 24 ≤ n * e)
    (hpts : t ≤ c.howMany fun x => DeepBox (floatWideTol e N n (5 * B) + poseTol B) e i (c.placeIn gw x) ∧
      WellWithin (floatWideTol e N n (5 * B) + poseTol B) c.range (c.sensorIn gw) (c.placeIn gw x)) :
    output'.data (dataIndex g.dims i) = .fin 1 := by
  obtain ⟨hB, hB'⟩ := float_bounds G
  rw [hat_devs hc hB hB'] at h hh hN
  have H := hc c hcm
  refine C76_float_obstacle_is_filled hs G hn hn' hsize hh hN hop (all_hat hlen fun _ _ h => h) hd h hi hocc
    (List.mem_map_of_mem hcm) (hat_within H hB hB') (hat_turns H hB hB') hr (pose_reach_float H hB hB' hreach)
    (hpts.trans (Nat.cast_le.2 (howMany_of_hat fun x hx hp => ?_)))
  exact ⟨pose_deep H hB hB' hx hp.1, pose_well H hB hB' hx hp.2⟩

open Classical in
/-- C78, free cells were looked through or lie beyond something measured before the grid, on a device and for cameras in the frame of the
world. -/
theorem C78_device_free_is_seen_or_short (hs : FloatSqrt sqrt) (G : FloatGrid e v N (5 * B) g) (hn : 8 * N ≤ n) (hn' : n ≤ 5592)
    (hsize : ∀ a, ∃ z, g.size a = .fin z ∧ |z - axisCells g.dims a * e| ≤ n * e / 2 ^ 26)
    (hh : Helper api (cams.map (Camera3.devIn floatR late gw)))
    (hN : g.dims.total * 2 * numTrackingGrids (cams.map (Camera3.devIn floatR late gw)) < 2 ^ 31)
    (hop : FilterOptions.make (.fin pct) t k = some op) (hlen : ∀ c ∈ cams, c.points.length ≤ 2 ^ 24)
    (hc : ∀ c ∈ cams, Posed gw B c) (hr : ∀ c ∈ cams, FloatRange c.range)
    (hreach : ∀ c ∈ cams, ∀ a, 9 * |c.sensorIn gw a| + 1486 * B / 2 ^ 24 ≤ n * e) (hd : static.dims = g.dims)
    (h : DeviceVoxelizeRuns api float32 sqrt g op (cams.map (Camera3.devIn floatR late gw)) static output output')
    (hi : CellInGrid (axisCells g.dims) i)
    (hocc : (static.data (dataIndex g.dims i)).le (.fin (1 / 2)) = true) (hzero : output'.data (dataIndex g.dims i) = .fin 0) :
    k ≤ cams.countP fun c => decide (∃ x, some x ∈ c.points ∧
      (SeenNear (floatReachTol e N n (5 * B) + poseTol B) e c.range (c.sensorIn gw) (c.placeIn gw x) i ∨
      ¬ Reaches (floatWideTol e N n (5 * B) + poseTol B) e (axisCells g.dims) c.range (c.sensorIn gw) (c.placeIn gw x))) := by
  obtain ⟨hB, hB'⟩ := float_bounds G
  rw [hat_devs hc hB hB'] at h hh hN
  have key := C76_float_free_is_seen_or_short hs G hn hn' hsize hh hN hop (all_hat hlen fun _ _ h => h)
    (all_hat hc fun _ _ H => hat_within H hB hB') (all_hat hc fun _ _ H => hat_turns H hB hB')
    (all_hat (P := fun c => FloatRange c.range) hr fun _ _ h => h)
    (all_hat (P := fun c => ∀ a, 9 * |c.sensor a| + 297 * (5 * B) / 2 ^ 24 ≤ n * e) hreach
      fun c hcm h => pose_reach_float (hc c hcm) hB hB' h) hd h hi hocc hzero
  rw [List.countP_map] at key
  refine key.trans (Nat.cast_le.2 (List.countP_mono_left fun c hcm hp => ?_))
  rw [Function.comp_apply, decide_eq_true_iff] at hp
  rw [decide_eq_true_iff]
  obtain ⟨x, hx, hp⟩ := hp
  exact ⟨x, hx, hp.imp (pose_seen (hc c hcm) hB hB' (range_of_float (hr c hcm)) (G.reach_nonneg hn) hx)
    (mt (pose_reaches (hc c hcm) hB hB' hx))⟩

open Classical in
/-- C78, what is looked through becomes free, on a device and for cameras in the frame of the world.
Missing for a full statement: sensors outside the grid, for which it does not hold (`C57_device_misses_free_cell`). -/
theorem C78_device_seen_is_free_partial (hs : FloatSqrt sqrt) (G : FloatGrid e v n (5 * B) g)
    (hh : Helper api (cams.map (Camera3.devIn floatR late gw)))
    (hN : g.dims.total * 2 * numTrackingGrids (cams.map (Camera3.devIn floatR late gw)) < 2 ^ 31)
    (hop : FilterOptions.make (.fin pct) t k = some op) (hlen : ∀ c ∈ cams, c.points.length ≤ 2 ^ 24)
    (hc : ∀ c ∈ cams, Posed gw B c) (hr : ∀ c ∈ cams, ∀ r, c.range = .fin r → 0 ≤ r) (hd : static.dims = g.dims)
    (h : DeviceVoxelizeRuns api float32 sqrt g op (cams.map (Camera3.devIn floatR late gw)) static output output')
    (hi : CellInGrid (axisCells g.dims) i) (hocc : (static.data (dataIndex g.dims i)).le (.fin (1 / 2)) = true)
    (hno : ∀ c ∈ cams, ∀ x, some x ∈ c.points → ¬ (NearBox (floatTol e n (5 * B) + poseTol B) e i (c.placeIn gw x) ∧
      NotBeyond (floatTol e n (5 * B) + poseTol B) c.range (c.sensorIn gw) (c.placeIn gw x)))
    (hsee : k ≤ cams.countP fun c => decide (FloatRange c.range ∧
      DeepInGrid (floatTol e n (5 * B) + poseTol B) e (axisCells g.dims) (c.sensorIn gw) ∧
      ∃ x, some x ∈ c.points ∧ SeenDeep (floatTol e n (5 * B) + poseTol B) e c.range (c.sensorIn gw) (c.placeIn gw x) i)) :
    output'.data (dataIndex g.dims i) = .fin 0 := by
  obtain ⟨hB, hB'⟩ := float_bounds G
  rw [hat_devs hc hB hB'] at h hh hN
  refine C76_float_seen_is_free_partial hs G hh hN hop (all_hat hlen fun _ _ h => h) (all_hat hc fun _ _ H => hat_within H hB hB')
    (all_hat hc fun _ _ H => hat_turns H hB hB') (all_hat (P := fun c => ∀ r, c.range = .fin r → 0 ≤ r) hr fun _ _ h => h) hd h hi hocc
    (all_hat (P := fun c => ∀ x, some x ∈ c.points → ¬ (NearBox (floatTol e n (5 * B)) e i (c.place x) ∧
      NotBeyond (floatTol e n (5 * B)) c.range c.sensor (c.place x))) hno fun c hcm hno x hx hp =>
        hno x hx (pose_near (hc c hcm) hB hB' (hr c hcm) G.tol_nonneg hx hp)) (hsee.trans (Nat.cast_le.2 ?_))
  rw [List.countP_map]
  refine List.countP_mono_left fun c hcm hp => ?_
  rw [Function.comp_apply, decide_eq_true_iff]
  rw [decide_eq_true_iff] at hp
  obtain ⟨h1, h2, x, hx, h3⟩ := hp
  exact ⟨h1, pose_sensor (hc c hcm) hB hB' h2, x, hx, pose_seenDeep (hc c hcm) hB hB' hx h3⟩

/-- C78, every voxelization on a device with sensors in the grid has a result, for cameras in the frame of the world. -/
theorem C78_device_has_result (hs : FloatSqrt sqrt) (G : FloatGrid e v n (5 * B) g) (hBe : 5 * B ≤ 2 ^ 23 * e)
    (hh : Helper api (cams.map (Camera3.devIn floatR late gw)))
    (hN : g.dims.total * 2 * numTrackingGrids (cams.map (Camera3.devIn floatR late gw)) < 2 ^ 31)
    (hop : FilterOptions.make (.fin pct) t k = some op) (hlen : ∀ c ∈ cams, c.points.length ≤ 2 ^ 24)
    (hc : ∀ c ∈ cams, Posed gw B c) (hr : ∀ c ∈ cams, FloatRange c.range)
    (hsensor : ∀ c ∈ cams, DeepInGrid (floatTol e n (5 * B) + poseTol B) e (axisCells g.dims) (c.sensorIn gw)) (hd : static.dims = g.dims) :
    ∃ output', DeviceVoxelizeRuns api float32 sqrt g op (cams.map (Camera3.devIn floatR late gw)) static output output' := by
  obtain ⟨hB, hB'⟩ := float_bounds G
  rw [hat_devs hc hB hB'] at hh hN ⊢
  exact C76_float_has_result hs G hBe hh hN hop (all_hat hlen fun _ _ h => h) (all_hat hc fun _ _ H => hat_within H hB hB')
    (all_hat hc fun _ _ H => hat_turns H hB hB') (all_hat (P := fun c => FloatRange c.range) hr fun _ _ h => h)
    (all_hat (P := fun c => DeepInGrid (floatTol e n (5 * B)) e (axisCells g.dims) c.sensor) hsensor
      fun c hcm h => pose_sensor (hc c hcm) hB hB' h) hd

end

/-! ### From points in the world to the answers of queries -/

section
variable {norm : (Fin 3 → ℝ) → ℝ} {interp : (Fin 3 → ℝ) → (Fin 3 → ℝ) → (Bool → Bool → Bool → ℝ) → (Fin 3 → ℝ) → ℝ}
  {toGrid : Vec4 ℝ → Fin 3 → ℝ} {toWorld rotate : (Fin 3 → ℝ) → Fin 3 → ℝ} {K : Type} {gp : GenParams} {F : SDFGrid ℝ}
  {loc : Vec4 ℝ} {e' : ℝ} {p p' Y : Fin 3 → ℝ} {sqrt : Fl → Fl} {g : RayGrid Fl} {op : FilterOptions} {t k : ℤ} {pct : ℚ}
  {late : ℕ → Bool} {gw : ℕ → ℚ} {cams : List Camera3} {static output output' : VoxMap K} {c : Camera3} {x : Fin 3 → ℚ}

/-- How far apart the places of the computed and of the true position are in the world. -/
theorem hat_dist {B : ℚ} (H : Posed gw B c) (hB : 1 / 2 ^ 60 ≤ B) (hB' : B ≤ 2 ^ 60) (hR : Orthogonal F.pose.R) (hx : some x ∈ c.points)
    (hY : InFrame F.pose.R F.pose.t (fun a => (c.placeIn gw x a : ℝ)) Y) :
    ∃ Z, InFrame F.pose.R F.pose.t (fun a => ((c.hat late gw).place x a : ℝ)) Z ∧ dist3 Z Y ≤ 2 * poseTol B := by
  obtain ⟨Z, hZ⟩ := exists_inFrame F.pose.R F.pose.t (fun a => ((c.hat late gw).place x a : ℝ))
  refine ⟨Z, hZ, ?_⟩
  rw [dist3_frame hR hZ hY]
  refine dist3_le_of_coords fun a => ?_
  have h := (pose_beside (late := late) H hB hB' hx).stop a
  rw [abs_sub_comm] at h
  have hB0 : 0 ≤ B := le_trans (by norm_num) hB
  have h2 : |(c.hat late gw).place x a - c.placeIn gw x a| ≤ poseTol B := h.trans (by unfold poseTol; linarith)
  exact_mod_cast h2

section
variable {s n N B : ℚ}

/-- C78, nothing measured is overlooked, for cameras in the frame of the world: voxelize on the CPU with percentage 1 and threshold 1, extract
the signed distance field and query it.  Every measured point, at its place `W` in the world, that is truly in the grid and nearer than
the range, by more than a tolerance, is at least as far from `p'` as the computed answer, less `√3 + 3 + N/2¹⁸ + N²/2³⁷` cell edges, less
`dist3 p p'`, less twice the tolerance, less `dist3 Y W`: how far the stored poses of the grid, of which one should be the inverse of the
other, move `W`. -/
theorem C78_clearance (hs : IeeeSqrt sqrt) (G : DoubleGrid s N (5 * B) g) (hB : 1 / 2 ^ 60 ≤ B) (hn : 8 * N ≤ n) (hn' : n ≤ 2 ^ 40)
    (hsize : ∀ a, ∃ z, g.size a = .fin z ∧ |z - axisCells g.dims a * s| ≤ n * s / 2 ^ 53) (hop : FilterOptions.make (.fin 1) 1 k = some op)
    (hlen : ∀ c ∈ cams, c.points.length < 2 ^ 31) (hd : output.dims = g.dims) (hnan : NoNaN output)
    (h : FlVoxelizeRuns double64 sqrt g op (cams.map (Camera3.cloudIn late gw)) output output') (hc : ∀ c ∈ cams, Posed gw B c)
    (hcm : c ∈ cams) (hr : DoubleRange c.range) (hreach : ∀ a, 8 * |c.sensorIn gw a| + 1440 * B / 2 ^ 53 ≤ n * s) (hx : some x ∈ c.points)
    (h1 : DeepInGrid (doubleWideTol s N n (5 * B) + poseTol B) s (axisCells g.dims) (c.placeIn gw x))
    (h2 : WellWithin (doubleWideTol s N n (5 * B) + poseTol B) c.range (c.sensorIn gw) (c.placeIn gw x))
    (hq : Answers norm interp toGrid toWorld rotate gp output' s N F loc e' p)
    (hY : InFrame F.pose.R F.pose.t (fun a => (c.placeIn gw x a : ℝ)) Y) :
    e' - (Real.sqrt 3 + 3 + N / 2 ^ 18 + N ^ 2 / 2 ^ 37) * s - dist3 p p' - 2 * (doubleReachTol s N n (5 * B) + poseTol B) -
      dist3 Y (fun a => (c.place x a : ℝ)) ≤ dist3 p' fun a => (c.place x a : ℝ) := by
  have hB' := five_le hB G.B_le
  rw [hat_clouds hc hB hB'] at h
  have H := hc c hcm
  obtain ⟨Z, hZ, hZY⟩ := hat_dist (late := late) H hB hB' hq.field.pose hx hY
  have key := C77_double_clearance (p' := p') hs G hn hn' hsize hop (all_hat hlen fun _ _ h => h) hd hnan h (List.mem_map_of_mem hcm)
    (hat_within H hB hB') hr (pose_reach H hB hB' hreach) hx (pose_deepInGrid H hB hB' hx h1) (pose_well H hB hB' hx h2) hq hZ
  have t1 := dist3_triangle p' Y Z
  have t2 := dist3_triangle p' (fun a => (c.place x a : ℝ)) Y
  rw [dist3_comm Y Z] at t1
  rw [dist3_comm (fun a => (c.place x a : ℝ)) Y] at t2
  linarith

/-- C78, nothing is invented, for cameras in the frame of the world: as `C77_double_measured`. -/
theorem C78_measured (hs : IeeeSqrt sqrt) (G : DoubleGrid s n (5 * B) g) (hB : 1 / 2 ^ 60 ≤ B) (hop : FilterOptions.make (.fin pct) t k = some op)
    (hlen : ∀ c ∈ cams, c.points.length < 2 ^ 31) (hd : output.dims = g.dims) (hc : ∀ c ∈ cams, Posed gw B c)
    (hr : ∀ c ∈ cams, ∀ r, c.range = .fin r → 0 ≤ r)
    (h : FlVoxelizeRuns double64 sqrt g op (cams.map (Camera3.cloudIn late gw)) output output')
    (hq : Answers norm interp toGrid toWorld rotate gp output' s n F loc e' p) (hu : gp.unknownIsFilled = false) (hb : gp.addBorder = false)
    (ho : OpenAround output' s n (toGrid loc)) :
    (∃ c ∈ cams, ∃ x, some x ∈ c.points ∧
        NotBeyond (doubleTol s n (5 * B) + poseTol B) c.range (c.sensorIn gw) (c.placeIn gw x) ∧
        ∀ Y, InFrame F.pose.R F.pose.t (fun a => (c.placeIn gw x a : ℝ)) Y → dist3 p' (fun a => (c.place x a : ℝ)) ≤
          e' + (1 / 2 + Real.sqrt 3 + n / 2 ^ 18 + n ^ 2 / 2 ^ 37) * s + dist3 p p' + 2 * (doubleTol s n (5 * B) + poseTol B) +
            dist3 Y fun a => (c.place x a : ℝ)) ∨
      ∃ i, CellInGrid (axisCells g.dims) i ∧ AboveHalf (output.data (dataIndex g.dims i)) ∧
        ∀ Y, InFrame F.pose.R F.pose.t (fun a => ((cellCentre s i a : ℚ) : ℝ)) Y → dist3 p' Y ≤
          e' + (1 / 2 + Real.sqrt 3 + n / 2 ^ 18 + n ^ 2 / 2 ^ 37) * s + dist3 p p' + 2 * doubleTol s n (5 * B) := by
  have hB' := five_le hB G.B_le
  rw [hat_clouds hc hB hB'] at h
  obtain ⟨y, hy, hdist⟩ := C77_double_measured (p' := p') hs G hop (all_hat hlen fun _ _ h => h) hd
    (all_hat hc fun _ _ H => hat_within H hB hB') h hq hu hb ho
  rcases hy with ⟨d, hdm, x, hx, rfl, hbey⟩ | ⟨i, hi, habove, rfl⟩
  · obtain ⟨c, hcm, rfl⟩ := List.mem_map.1 hdm
    have H := hc c hcm
    refine .inl ⟨c, hcm, x, hx, ?_, fun Y hY => ?_⟩
    · exact notBeyond_shift (hr c hcm) G.tol_nonneg (pose_beside (late := late) H hB hB' hx).way (pose_costs hB).2.1 hbey
    · obtain ⟨Z, hZ, hZY⟩ := hat_dist (late := late) H hB hB' hq.field.pose hx hY
      have h1 := hdist Z hZ
      have t1 := dist3_triangle p' Z Y
      have t2 := dist3_triangle p' Y (fun a => (c.place x a : ℝ))
      linarith
  · exact .inr ⟨i, hi, habove, hdist⟩

end

section
variable {e v n N B : ℚ} {api : DeviceApi}

/-- C78, nothing measured is overlooked on a device, for cameras in the frame of the world: as `C78_clearance`. -/
theorem C78_device_clearance (hs : FloatSqrt sqrt) (G : FloatGrid e v N (5 * B) g) (hn : 8 * N ≤ n) (hn' : n ≤ 5592)
    (hsize : ∀ a, ∃ z, g.size a = .fin z ∧ |z - axisCells g.dims a * e| ≤ n * e / 2 ^ 26)
    (hh : Helper api (cams.map (Camera3.devIn floatR late gw)))
    (hN : g.dims.total * 2 * numTrackingGrids (cams.map (Camera3.devIn floatR late gw)) < 2 ^ 31)
    (hop : FilterOptions.make (.fin 1) 1 k = some op)
    (hlen : ∀ c ∈ cams, c.points.length ≤ 2 ^ 24) (hd : static.dims = g.dims) (hdo : output.dims = g.dims) (hnan : NoNaN static)
    (h : DeviceVoxelizeRuns api float32 sqrt g op (cams.map (Camera3.devIn floatR late gw)) static output output')
    (hc : ∀ c ∈ cams, Posed gw B c) (hcm : c ∈ cams) (hr : FloatRange c.range)
    (hreach : ∀ a, 9 * |c.sensorIn gw a| + 1486 * B / 2 ^ 24 ≤ n * e) (hx : some x ∈ c.points)
    (h1 : DeepInGrid (floatWideTol e N n (5 * B) + poseTol B) e (axisCells g.dims) (c.placeIn gw x))
    (h2 : WellWithin (floatWideTol e N n (5 * B) + poseTol B) c.range (c.sensorIn gw) (c.placeIn gw x))
    (hq : Answers norm interp toGrid toWorld rotate gp output' e N F loc e' p)
    (hY : InFrame F.pose.R F.pose.t (fun a => (c.placeIn gw x a : ℝ)) Y) :
    e' - (Real.sqrt 3 + 3 + N / 2 ^ 18 + N ^ 2 / 2 ^ 37) * e - dist3 p p' - 2 * (floatReachTol e N n (5 * B) + poseTol B) -
      dist3 Y (fun a => (c.place x a : ℝ)) ≤ dist3 p' fun a => (c.place x a : ℝ) := by
  obtain ⟨hB, hB'⟩ := float_bounds G
  rw [hat_devs hc hB hB'] at h hh hN
  have H := hc c hcm
  obtain ⟨Z, hZ, hZY⟩ := hat_dist (late := late) H hB hB' hq.field.pose hx hY
  have key := C77_float_clearance (p' := p') hs G hn hn' hsize hh hN hop (all_hat hlen fun _ _ h => h) hd hdo hnan h (List.mem_map_of_mem hcm)
    (hat_within H hB hB') (hat_turns H hB hB') hr (pose_reach_float H hB hB' hreach) hx (pose_deepInGrid H hB hB' hx h1)
    (pose_well H hB hB' hx h2) hq hZ
  have t1 := dist3_triangle p' Y Z
  have t2 := dist3_triangle p' (fun a => (c.place x a : ℝ)) Y
  rw [dist3_comm Y Z] at t1
  rw [dist3_comm (fun a => (c.place x a : ℝ)) Y] at t2
  linarith

/-- C78, nothing is invented on a device, for cameras in the frame of the world: as `C78_measured`; "before" is the static environment. -/
theorem C78_device_measured (hs : FloatSqrt sqrt) (G : FloatGrid e v n (5 * B) g) (hh : Helper api (cams.map (Camera3.devIn floatR late gw)))
    (hN : g.dims.total * 2 * numTrackingGrids (cams.map (Camera3.devIn floatR late gw)) < 2 ^ 31)
    (hop : FilterOptions.make (.fin pct) t k = some op)
    (hlen : ∀ c ∈ cams, c.points.length ≤ 2 ^ 24) (hd : static.dims = g.dims) (hdo : output.dims = g.dims)
    (hc : ∀ c ∈ cams, Posed gw B c) (hr : ∀ c ∈ cams, ∀ r, c.range = .fin r → 0 ≤ r)
    (h : DeviceVoxelizeRuns api float32 sqrt g op (cams.map (Camera3.devIn floatR late gw)) static output output')
    (hq : Answers norm interp toGrid toWorld rotate gp output' e n F loc e' p) (hu : gp.unknownIsFilled = false) (hb : gp.addBorder = false)
    (ho : OpenAround output' e n (toGrid loc)) :
    (∃ c ∈ cams, ∃ x, some x ∈ c.points ∧
        NotBeyond (floatTol e n (5 * B) + poseTol B) c.range (c.sensorIn gw) (c.placeIn gw x) ∧
        ∀ Y, InFrame F.pose.R F.pose.t (fun a => (c.placeIn gw x a : ℝ)) Y → dist3 p' (fun a => (c.place x a : ℝ)) ≤
          e' + (1 / 2 + Real.sqrt 3 + n / 2 ^ 18 + n ^ 2 / 2 ^ 37) * e + dist3 p p' + 2 * (floatTol e n (5 * B) + poseTol B) +
            dist3 Y fun a => (c.place x a : ℝ)) ∨
      ∃ i, CellInGrid (axisCells g.dims) i ∧ AboveHalf (static.data (dataIndex g.dims i)) ∧
        ∀ Y, InFrame F.pose.R F.pose.t (fun a => ((cellCentre e i a : ℚ) : ℝ)) Y → dist3 p' Y ≤
          e' + (1 / 2 + Real.sqrt 3 + n / 2 ^ 18 + n ^ 2 / 2 ^ 37) * e + dist3 p p' + 2 * floatTol e n (5 * B) := by
  obtain ⟨hB, hB'⟩ := float_bounds G
  rw [hat_devs hc hB hB'] at h hh hN
  obtain ⟨y, hy, hdist⟩ := C77_float_measured (p' := p') hs G hh hN hop (all_hat hlen fun _ _ h => h) hd hdo
    (all_hat hc fun _ _ H => hat_within H hB hB') (all_hat hc fun _ _ H => hat_turns H hB hB')
    (all_hat (P := fun c => ∀ r, c.range = .fin r → 0 ≤ r) hr fun _ _ h => h) h hq hu hb ho
  rcases hy with ⟨d, hdm, x, hx, rfl, hbey⟩ | ⟨i, hi, habove, rfl⟩
  · obtain ⟨c, hcm, rfl⟩ := List.mem_map.1 hdm
    have H := hc c hcm
    refine .inl ⟨c, hcm, x, hx, ?_, fun Y hY => ?_⟩
    · exact notBeyond_shift (hr c hcm) G.tol_nonneg (pose_beside (late := late) H hB hB' hx).way (pose_costs hB).2.1 hbey
    · obtain ⟨Z, hZ, hZY⟩ := hat_dist (late := late) H hB hB' hq.field.pose hx hY
      have h1 := hdist Z hZ
      have t1 := dist3_triangle p' Z Y
      have t2 := dist3_triangle p' Y (fun a => (c.place x a : ℝ))
      linarith
  · exact .inr ⟨i, hi, habove, hdist⟩

end

end

end VGT
