import Verif.Props.CameraFloat
import Verif.Spec.Pipeline

/-!
C77: with percentage 1 and threshold 1 no measured point gets lost in the map, wherever in its cell it is.
-/
set_option autoImplicit false

namespace VGT
open VGT.EDT VGT.Spec VGT.Par

theorem aboveHalf_of_not_le {o : Fl} (h : o ≠ .nan) (h' : o.le (.fin (1 / 2)) = false) : AboveHalf o := by
  cases o with
  | nan => exact absurd rfl h
  | ninf => cases h'
  | pinf => exact .inl rfl
  | fin q => exact .inr ⟨q, rfl, by simpa [Fl.le] using h'⟩

theorem aboveHalf_one : AboveHalf (.fin 1) := .inr ⟨1, rfl, by norm_num⟩

/-! ### CPU -/

section
variable {R : ℚ → Fl} {sqrt : Fl → Fl} {u η M s n N E B : ℚ} {g : RayGrid Fl} {bits : ℕ} {K : Type} {k : ℤ} {op : FilterOptions}
  {cams : List Camera3} {output output' : VoxMap K} {c : Camera3} {x : Fin 3 → ℚ}

/-- A point whose ray marks its computed cell filled is kept. -/
theorem cpu_point_kept (P : CamPrecise R sqrt u η M s n N E B g) (hop : FilterOptions.make (.fin 1) 1 k = some op)
    (hlen : ∀ c ∈ cams, c.points.length < 2 ^ 31) (hd : output.dims = g.dims) (hnan : NoNaN output)
    (h : FlVoxelizeRuns (ieee R bits) sqrt g op (cams.map Camera3.cloud) output output') (hcm : c ∈ cams) (hc : c.Within B)
    (hx : some x ∈ c.points)
    (hfill : ∀ (o p : Fin 3 → ℚ) (len : ℚ) (ms : List Mark), RayFacts R sqrt u B bits c x o p len → castRay R bits g c o p len = some ms →
      ∃ f, flIndex (ieee R bits) g (fun a => .fin (p a)) = some f ∧ CellInGrid (axisCells g.dims) f ∧ Mark.filled f ∈ ms) :
    Kept (camTol u E B) s output' (c.place x) := by
  obtain ⟨ms, hms⟩ := Option.isSome_iff_exists.1 (point_defined h hcm hx)
  obtain ⟨o, p, len, F, e⟩ := cpuRay P bits hc hx
  obtain ⟨f, hf, hin, hm⟩ := hfill o p len ms F (e ▸ hms)
  obtain ⟨-, hd', -, hkeep⟩ := C74_keeps_filled h
  have hd2 : output'.dims = g.dims := hd'.trans hd
  unfold Kept
  rw [hd2]
  refine ⟨f, hin, point_near P F.near_p hf hin, ?_⟩
  cases hocc : (output.data (dataIndex g.dims f)).le (.fin (1 / 2)) with
  | true =>
    have hpos : 0 < cpuCount (ieee R bits) sqrt g c.cloud (.filled f) := cpuCount_pos.2 ⟨x, hx, ms, hms, hm⟩
    rw [cpu_filled_of_count hop (clouds_length hlen) hd h hin hocc (List.mem_map_of_mem hcm) (by exact_mod_cast hpos)]
    exact aboveHalf_one
  | false =>
    have hlt : dataIndex g.dims f < output.dims.total := by
      rw [hd]
      exact dataIndex_lt hin
    rw [(hkeep _ hlt).1 hocc]
    exact aboveHalf_of_not_le (hnan _ hlt) hocc

/-- C77, points are kept: with percentage 1 and threshold 1, every measured point whose true position is in the grid and nearer than the
range, by more than the tolerance, is within the tolerance of a cell that is filled afterwards.  It may be anywhere in its cell.
Missing for a full statement: sensors outside the grid. -/
theorem C77_point_kept_partial (P : CamPrecise R sqrt u η M s n N E B g) (hop : FilterOptions.make (.fin 1) 1 k = some op)
    (hlen : ∀ c ∈ cams, c.points.length < 2 ^ 31) (hd : output.dims = g.dims) (hnan : NoNaN output)
    (h : FlVoxelizeRuns (ieee R bits) sqrt g op (cams.map Camera3.cloud) output output') (hcm : c ∈ cams) (hc : c.Within B)
    (hr : RangeOk η B c.range) (hsensor : DeepInGrid (camTol u E B) s (axisCells g.dims) c.sensor) (hx : some x ∈ c.points)
    (h1 : DeepInGrid (camTol u E B) s (axisCells g.dims) (c.place x))
    (h2 : WellWithin (camTol u E B) c.range c.sensor (c.place x)) : Kept (camTol u E B) s output' (c.place x) :=
  cpu_point_kept P hop hlen hd hnan h hcm hc hx fun _ _ _ _ F hms => ray_fills_in P F hr hsensor h1 h2 hms

/-- C77, points are kept, wherever the sensor is: it may be up to `n / 8` cells from the origin of the grid. -/
theorem C77_point_kept (P : CamPrecise R sqrt u η M s n N E B g) (W : Wide u η M s n N E g) (hop : FilterOptions.make (.fin 1) 1 k = some op)
    (hlen : ∀ c ∈ cams, c.points.length < 2 ^ 31) (hd : output.dims = g.dims) (hnan : NoNaN output)
    (h : FlVoxelizeRuns (ieee R bits) sqrt g op (cams.map Camera3.cloud) output output') (hcm : c ∈ cams) (hc : c.Within B)
    (hr : RangeOk η B c.range) (hreach : ∀ a, 8 * |c.sensor a| + 264 * (u * B) ≤ n * s) (hx : some x ∈ c.points)
    (h1 : DeepInGrid (wideTol u E B) s (axisCells g.dims) (c.place x))
    (h2 : WellWithin (wideTol u E B) c.range c.sensor (c.place x)) : Kept (camTol u E B) s output' (c.place x) :=
  cpu_point_kept P hop hlen hd hnan h hcm hc hx fun _ _ _ _ F hms => ray_fills_wide P W F hr hreach h1 h2 hms

end

/-! ### Devices -/

section
variable {R : ℚ → Fl} {sqrt : Fl → Fl} {u η M e s n N E E' B : ℚ} {g : RayGrid Fl} {bits : ℕ} {K : Type} {api : DeviceApi} {k : ℤ}
  {op : FilterOptions} {cams : List Camera3} {static output output' : VoxMap K} {c : Camera3} {x : Fin 3 → ℚ}

/-- C57, the cells filled in the static environment stay as they are. -/
theorem C57_device_keeps_filled {F : Type} {A : Arith F} {sqrt : F → F} {g : RayGrid F} {clouds : List (DevCloud F)} (hh : Helper api clouds)
    (hN : g.dims.total * 2 * numTrackingGrids clouds < 2 ^ 31) (hd : static.dims = g.dims)
    (h : DeviceVoxelizeRuns api A sqrt g op clouds static output output') {v : ℕ} (hv : v < g.dims.total)
    (hocc : (static.data v).le (.fin (1 / 2)) = false) : output'.data v = static.data v := by
  obtain ⟨-, tracks, htr, data, hf, rfl⟩ := (C57_device_voxelizer hh hN hd).1 h
  obtain ⟨-, rfl⟩ := filterRuns_iff.1 hf
  dsimp only
  rw [hd, if_pos hv]
  unfold newVal
  dsimp only
  rw [deviceFilterCell_keep hocc]
  rfl

theorem device_dims {F : Type} {A : Arith F} {sqrt : F → F} {g : RayGrid F} {clouds : List (DevCloud F)}
    (h : DeviceVoxelizeRuns api A sqrt g op clouds static output output') : output'.dims = output.dims := by
  obtain ⟨_, _, _, _, rfl⟩ := h
  rfl

/-- A point whose ray marks its computed cell filled is kept. -/
theorem dev_point_kept (P : DevPrecise R sqrt u η M e s n N E E' B g) (hh : Helper api (cams.map (Camera3.dev R)))
    (hN : g.dims.total * 2 * numTrackingGrids (cams.map (Camera3.dev R)) < 2 ^ 31) (hop : FilterOptions.make (.fin 1) 1 k = some op)
    (hlen : ∀ c ∈ cams, c.points.length ≤ 2 ^ 24) (hd : static.dims = g.dims) (hdo : output.dims = g.dims) (hnan : NoNaN static)
    (h : DeviceVoxelizeRuns api (ieee R bits) sqrt g op (cams.map (Camera3.dev R)) static output output') (hcm : c ∈ cams)
    (hc : c.Within B) (ht : c.Turns) (hx : some x ∈ c.points)
    (hfill : ∀ (o p : Fin 3 → ℚ) (len : ℚ) (ms : List Mark), RayFacts R sqrt u B bits (Camera3.conv R c) x o p len →
      castRay R bits g (Camera3.conv R c) o p len = some ms →
      ∃ f, flIndex (ieee R bits) g (fun a => .fin (p a)) = some f ∧ CellInGrid (axisCells g.dims) f ∧ Mark.filled f ∈ ms) :
    Kept (devTol u E' B) e output' (c.place x) := by
  obtain ⟨ms, hms⟩ := Option.isSome_iff_exists.1 (dev_point_defined hh hN hd h hcm hx)
  obtain ⟨o, p, len, F, he⟩ := devRay P.cam bits hc ht hx
  obtain ⟨f, hf, hin, hm⟩ := hfill o p len ms F (he ▸ hms)
  have hd2 : output'.dims = g.dims := (device_dims h).trans hdo
  obtain ⟨d, d1, d2, d3, d4⟩ := edge_cost P
  obtain ⟨hu, hs, hB, huB, -, -⟩ := P.cam.pos
  unfold Kept
  rw [hd2]
  refine ⟨f, hin, nearBox_mono (by linarith) (nearBox_edge d1 (edge_cells P hin) (point_near P.cam F.near_p hf hin)), ?_⟩
  have hlt := dataIndex_lt hin
  cases hocc : (static.data (dataIndex g.dims f)).le (.fin (1 / 2)) with
  | true =>
    have hpos : 0 < devHits (ieee R bits) sqrt g (c.dev R) (.filled f) := devHits_pos.2 ⟨x, hx, ms, hms, hm⟩
    rw [dev_filled_of_count hop hh hN (devs_length hlen) hd h hin hocc (List.mem_map_of_mem hcm) (by exact_mod_cast hpos)]
    exact aboveHalf_one
  | false =>
    rw [C57_device_keeps_filled hh hN hd h hlt hocc]
    exact aboveHalf_of_not_le (hnan _ (by rw [hd]; exact hlt)) hocc

/-- C77, points are kept on a device: with percentage 1 and threshold 1, every measured point whose true position is in the grid and nearer
than the range, by more than the tolerance, is within the tolerance of a cell that is filled afterwards.
Missing for a full statement: sensors outside the grid. -/
theorem C77_device_point_kept_partial (P : DevPrecise R sqrt u η M e s n N E E' B g) (hh : Helper api (cams.map (Camera3.dev R)))
    (hN : g.dims.total * 2 * numTrackingGrids (cams.map (Camera3.dev R)) < 2 ^ 31) (hop : FilterOptions.make (.fin 1) 1 k = some op)
    (hlen : ∀ c ∈ cams, c.points.length ≤ 2 ^ 24) (hd : static.dims = g.dims) (hdo : output.dims = g.dims) (hnan : NoNaN static)
    (h : DeviceVoxelizeRuns api (ieee R bits) sqrt g op (cams.map (Camera3.dev R)) static output output') (hcm : c ∈ cams)
    (hc : c.Within B) (ht : c.Turns) (hr : DevRange η B c.range)
    (hsensor : DeepInGrid (devTol u E' B) e (axisCells g.dims) c.sensor) (hx : some x ∈ c.points)
    (h1 : DeepInGrid (devTol u E' B) e (axisCells g.dims) (c.place x))
    (h2 : WellWithin (devTol u E' B) c.range c.sensor (c.place x)) : Kept (devTol u E' B) e output' (c.place x) := by
  refine dev_point_kept P hh hN hop hlen hd hdo hnan h hcm hc ht hx fun _ _ _ _ F hms => ?_
  obtain ⟨d, d1, d2, d3, d4⟩ := edge_cost P
  obtain ⟨hu, hs, hB, huB, -, -⟩ := P.cam.pos
  have hn := P.cam.ray.n_ge
  have hnd : 0 ≤ N * d := mul_nonneg (by linarith [P.cam.ray.N_ge]) ((abs_nonneg _).trans d1)
  refine ray_fills_in P.cam F (hr.ok P.cam.cam P.cam.rounds) (dev_sensor P hsensor) ?_ ?_ hms
  · exact deepInGrid_edge d1 (n := N) (fun a => by have := P.cam.grid.dims a; linarith) (deepInGrid_mono (by linarith) h1)
  · exact wellWithin_convert P.cam.cam P.cam.rounds d2 (by linarith) (place_near hc ht (hc.points x hx)) (wellWithin_mono (by linarith) h2)

/-- C77, points are kept on a device, wherever the sensor is: it may be up to `n / 8` cells from the origin of the grid. -/
theorem C77_device_point_kept (P : DevPrecise R sqrt u η M e s n N E E' B g) (W : Wide u η M s n N E g) (hB7 : 1 ≤ 10 ^ 7 * B)
    (hh : Helper api (cams.map (Camera3.dev R)))
    (hN : g.dims.total * 2 * numTrackingGrids (cams.map (Camera3.dev R)) < 2 ^ 31) (hop : FilterOptions.make (.fin 1) 1 k = some op)
    (hlen : ∀ c ∈ cams, c.points.length ≤ 2 ^ 24) (hd : static.dims = g.dims) (hdo : output.dims = g.dims) (hnan : NoNaN static)
    (h : DeviceVoxelizeRuns api (ieee R bits) sqrt g op (cams.map (Camera3.dev R)) static output output') (hcm : c ∈ cams)
    (hc : c.Within B) (ht : c.Turns) (hr : DevRange η B c.range)
    (hreach : ∀ a, 8 * |c.sensor a| + 264 * (u * B) ≤ n * s) (hx : some x ∈ c.points)
    (h1 : DeepInGrid (devWideTol u E' B) e (axisCells g.dims) (c.place x))
    (h2 : WellWithin (devWideTol u E' B) c.range c.sensor (c.place x)) : Kept (devTol u E' B) e output' (c.place x) := by
  refine dev_point_kept P hh hN hop hlen hd hdo hnan h hcm hc ht hx fun _ _ _ _ F hms => ?_
  obtain ⟨d, d1, d2, d3, d4⟩ := edge_cost P
  obtain ⟨hu, hs, hB, huB, -, -⟩ := P.cam.pos
  have hn := P.cam.ray.n_ge
  have hnd : 0 ≤ N * d := mul_nonneg (by linarith [P.cam.ray.N_ge]) ((abs_nonneg _).trans d1)
  have k7 : 9000 * (u * B) ≤ B := by
    have := mul_le_mul_of_nonneg_right P.cam.cam.u_le hB.le
    linarith
  have hw : wideTol u E B = camTol u E B + 600 * (u * B) + (1 + B) / 10 ^ 8 := rfl
  have hw0 : 0 ≤ (1 + B) / 10 ^ 8 := by positivity
  have hw1 : (1 + B) / 10 ^ 8 ≤ 11 / 100 * B := by
    rw [div_le_iff₀ (by norm_num)]
    linarith
  have hdw : devWideTol u E' B = devTol u E' B + 600 * (u * B) + (1 + B) / 10 ^ 8 := rfl
  refine ray_fills_wide P.cam W F (hr.ok P.cam.cam P.cam.rounds) hreach ?_ ?_ hms
  · exact deepInGrid_edge d1 (n := N) (fun a => by have := P.cam.grid.dims a; linarith) (deepInGrid_mono (by linarith) h1)
  · exact wellWithin_convert P.cam.cam P.cam.rounds (by linarith) (by linarith) (place_near hc ht (hc.points x hx))
      (wellWithin_mono (by linarith) h2)

end

end VGT
