import Verif.Lemmas.FairWorld
import Verif.Props.FairPipeline
import Verif.Props.WorldPose

/-!
C87: cameras in the frame of the world, poses multiplied in any order with or without fused operations, and voxelization and queries in arithmetic that
is not IEEE.
-/
set_option autoImplicit false

namespace VGT
open VGT.EDT VGT.Spec VGT.Par

section
variable {F : Type} {A : Arith F} {sqrt : F → F} {val kept : F → Fl} {u v η M e B : ℚ} {g : RayGrid F} {c : Camera3} {gw : ℕ → ℚ}
  {K : Type} {op : FilterOptions} {t k : ℤ} {static output output' : VoxMap K} {i : IVec} {x : Fin 3 → ℚ}

theorem WorldGiven.both {tf : ℕ → F} {range : F} {points : List (Option (Fin 3 → F))} (W : WorldRoom u v η B) (hp : Posed gw B c)
    (hw : WorldGiven val kept v η B gw c tf range points) :
    (c.inGrid gw).Within (5 * B) ∧ Given val kept u η (5 * B) (c.inGrid gw) tf range points :=
  ⟨inGrid_within hp (le_trans (by positivity) W.B_ge), WorldGiven.given hw hp W.B_ge W.v_nonneg W.v_le W.η_v W.η_B W.u_ge⟩

/-- C87, obstacles are filled, CPU: as `C85_obstacle_is_filled`, for cameras in the frame of the world. -/
theorem C87_obstacle_is_filled (H : AccurateArith A sqrt val kept u η M) (S : Room u η M e (5 * B)) (W : WorldRoom u v η B)
    (G : GridGiven val u e (5 * B) g) (hop : FilterOptions.make (.fin 1) t k = some op) {clouds : List (CpuCloud F)}
    (hlen : ∀ cl ∈ clouds, cl.points.length < 2 ^ 31) (hd : output.dims = g.dims) (h : FlVoxelizeRuns A sqrt g op clouds output output')
    {cl : CpuCloud F} (hcl : cl ∈ clouds) (hp : Posed gw B c) (hw : WorldGiven val kept v η B gw c cl.tf cl.range cl.points)
    (hi : CellInGrid (axisCells g.dims) i) (hocc : (output.data (dataIndex g.dims i)).le (.fin (1 / 2)) = true)
    (hcnt : t ≤ c.howMany fun x => DeepBox (fairFarTol u (5 * B)) e i (c.placeIn gw x) ∧
      WellWithin (fairTol u (5 * B)) c.range (c.sensorIn gw) (c.placeIn gw x)) :
    output'.data (dataIndex g.dims i) = .fin 1 := by
  obtain ⟨hc, hg⟩ := WorldGiven.both W hp hw
  refine C85_obstacle_is_filled H S G hop hlen hd h hcl hc hg hi hocc ?_
  simp only [inGrid_place, inGrid_sensor]
  exact hcnt

/-- C87, filled cells are where something is, CPU: as `C85_filled_is_real`, for cameras in the frame of the world. -/
theorem C87_filled_is_real (H : AccurateArith A sqrt val kept u η M) (S : Room u η M e (5 * B)) (W : WorldRoom u v η B)
    (G : GridGiven val u e (5 * B) g) {pct : ℚ} (hop : FilterOptions.make (.fin pct) t k = some op) {clouds : List (CpuCloud F)}
    (hlen : ∀ cl ∈ clouds, cl.points.length < 2 ^ 31) (hd : output.dims = g.dims) (h : FlVoxelizeRuns A sqrt g op clouds output output')
    {cams : List Camera3}
    (hcams : List.Forall₂ (fun cl c => Posed gw B c ∧ WorldGiven val kept v η B gw c cl.tf cl.range cl.points) clouds cams)
    (hi : CellInGrid (axisCells g.dims) i) (hocc : (output.data (dataIndex g.dims i)).le (.fin (1 / 2)) = true)
    (hone : output'.data (dataIndex g.dims i) = .fin 1) :
    ∃ c ∈ cams, t ≤ c.howMany fun x => NearBox (fairTol u (5 * B)) e i (c.placeIn gw x) ∧
      NotBeyond (fairTol u (5 * B)) c.range (c.sensorIn gw) (c.placeIn gw x) := by
  obtain ⟨c', hc', key⟩ := C85_filled_is_real H S G hop hlen hd h (cams := cams.map (Camera3.inGrid gw))
    (List.forall₂_map_right_iff.2 (hcams.imp fun cl c hh => WorldGiven.both W hh.1 hh.2)) hi hocc hone
  obtain ⟨c, hc, rfl⟩ := List.mem_map.1 hc'
  simp only [inGrid_place, inGrid_sensor] at key
  exact ⟨c, hc, key⟩

theorem world_point_kept (H : AccurateArith A sqrt val kept u η M) (S : Room u η M e (5 * B)) (W : WorldRoom u v η B)
    (G : GridGiven val u e (5 * B) g) (hop : FilterOptions.make (.fin 1) 1 k = some op) {clouds : List (CpuCloud F)}
    (hlen : ∀ cl ∈ clouds, cl.points.length < 2 ^ 31) (hd : output.dims = g.dims) (hnan : NoNaN output)
    (h : FlVoxelizeRuns A sqrt g op clouds output output') {cl : CpuCloud F} (hcl : cl ∈ clouds) (hp : Posed gw B c)
    (hw : WorldGiven val kept v η B gw c cl.tf cl.range cl.points) (hx : some x ∈ c.points)
    (h1 : DeepInGrid (fairFarTol u (5 * B)) e (axisCells g.dims) (c.placeIn gw x))
    (h2 : WellWithin (fairTol u (5 * B)) c.range (c.sensorIn gw) (c.placeIn gw x)) :
    Kept (fairTol u (5 * B)) e output' (c.placeIn gw x) := by
  obtain ⟨hc, hg⟩ := WorldGiven.both W hp hw
  rw [← inGrid_place] at h1 ⊢
  rw [← inGrid_place, ← inGrid_sensor] at h2
  exact C85_point_kept H S G hop hlen hd hnan h hcl hc hg hx h1 h2

variable {share : ℤ → ℤ → Fl} {L : ℕ} {api : DeviceApi}

/-- C87, obstacles are filled, devices. -/
theorem C87_device_obstacle_is_filled (H : AccurateArith A sqrt val kept u η M) (S : Room u η M e (5 * B)) (W : WorldRoom u v η B)
    (G : GridGiven val u e (5 * B) g) (hs : FairShare share L) (hL : L < 2 ^ 31) (hop : FilterOptions.make (.fin 1) t k = some op)
    {clouds : List (DevCloud F)} (hh : Helper api clouds) (hN : g.dims.total * 2 * numTrackingGrids clouds < 2 ^ 31)
    (hlen : ∀ cl ∈ clouds, cl.points.length ≤ L) (hd : static.dims = g.dims)
    (h : FastDeviceRuns share api A sqrt g op clouds static output output') {cl : DevCloud F} (hcl : cl ∈ clouds)
    (hp : Posed gw B c) (hw : WorldGiven val kept v η B gw c cl.tf cl.range cl.points) (hi : CellInGrid (axisCells g.dims) i)
    (hocc : (static.data (dataIndex g.dims i)).le (.fin (1 / 2)) = true)
    (hcnt : t ≤ c.howMany fun x => DeepBox (fairFarTol u (5 * B)) e i (c.placeIn gw x) ∧
      WellWithin (fairTol u (5 * B)) c.range (c.sensorIn gw) (c.placeIn gw x)) :
    output'.data (dataIndex g.dims i) = .fin 1 := by
  obtain ⟨hc, hg⟩ := WorldGiven.both W hp hw
  refine C85_device_obstacle_is_filled H S G hs hL hop hh hN hlen hd h hcl hc hg hi hocc ?_
  simp only [inGrid_place, inGrid_sensor]
  exact hcnt

/-- C87, filled cells are where something is, devices. -/
theorem C87_device_filled_is_real (H : AccurateArith A sqrt val kept u η M) (S : Room u η M e (5 * B)) (W : WorldRoom u v η B)
    (G : GridGiven val u e (5 * B) g) {pct : Fl} (hop : FilterOptions.make pct t k = some op) {clouds : List (DevCloud F)} (hh : Helper api clouds)
    (hN : g.dims.total * 2 * numTrackingGrids clouds < 2 ^ 31) (hd : static.dims = g.dims)
    (h : FastDeviceRuns share api A sqrt g op clouds static output output') {cams : List Camera3}
    (hcams : List.Forall₂ (fun cl c => Posed gw B c ∧ WorldGiven val kept v η B gw c cl.tf cl.range cl.points) clouds cams)
    (hi : CellInGrid (axisCells g.dims) i) (hocc : (static.data (dataIndex g.dims i)).le (.fin (1 / 2)) = true)
    (hone : output'.data (dataIndex g.dims i) = .fin 1) :
    ∃ c ∈ cams, t ≤ c.howMany fun x => NearBox (fairTol u (5 * B)) e i (c.placeIn gw x) ∧
      NotBeyond (fairTol u (5 * B)) c.range (c.sensorIn gw) (c.placeIn gw x) := by
  obtain ⟨c', hc', key⟩ := C85_device_filled_is_real H S G hop hh hN hd h (cams := cams.map (Camera3.inGrid gw))
    (List.forall₂_map_right_iff.2 (hcams.imp fun cl c hh => WorldGiven.both W hh.1 hh.2)) hi hocc hone
  obtain ⟨c, hc, rfl⟩ := List.mem_map.1 hc'
  simp only [inGrid_place, inGrid_sensor] at key
  exact ⟨c, hc, key⟩

theorem world_device_point_kept (H : AccurateArith A sqrt val kept u η M) (S : Room u η M e (5 * B)) (W : WorldRoom u v η B)
    (G : GridGiven val u e (5 * B) g) (hs : FairShare share L) (hL : L < 2 ^ 31) (hop : FilterOptions.make (.fin 1) 1 k = some op)
    {clouds : List (DevCloud F)} (hh : Helper api clouds) (hN : g.dims.total * 2 * numTrackingGrids clouds < 2 ^ 31)
    (hlen : ∀ cl ∈ clouds, cl.points.length ≤ L) (hd : static.dims = g.dims) (hdo : output.dims = g.dims) (hnan : NoNaN static)
    (h : FastDeviceRuns share api A sqrt g op clouds static output output') {cl : DevCloud F} (hcl : cl ∈ clouds) (hp : Posed gw B c)
    (hw : WorldGiven val kept v η B gw c cl.tf cl.range cl.points) (hx : some x ∈ c.points)
    (h1 : DeepInGrid (fairFarTol u (5 * B)) e (axisCells g.dims) (c.placeIn gw x))
    (h2 : WellWithin (fairTol u (5 * B)) c.range (c.sensorIn gw) (c.placeIn gw x)) :
    Kept (fairTol u (5 * B)) e output' (c.placeIn gw x) := by
  obtain ⟨hc, hg⟩ := WorldGiven.both W hp hw
  rw [← inGrid_place] at h1 ⊢
  rw [← inGrid_place, ← inGrid_sensor] at h2
  exact C85_device_point_kept H S G hs hL hop hh hN hlen hd hdo hnan h hcl hc hg hx h1 h2

end

/-! ### Queries -/

section
variable {F : Type} {A : QueryArith F} {val kept : F → ℝ} {u η δ X : ℝ} {K : Type} {gp : GenParams} {Fd : SDFGrid ℝ} {fg : FlSDF F} {loc : Vec4 F} {e' : F}
  {p q : Fin 3 → ℝ} {P : Pose ℝ} {toGrid : Vec4 ℝ → Fin 3 → ℝ} {G : Type} {Bt : Arith G} {sqrt : G → G} {val' kept' : G → Fl} {u' v η' M' e B n : ℚ}
  {g : RayGrid G} {op : FilterOptions} {k : ℤ} {static output output' : VoxMap K} {c : Camera3} {gw : ℕ → ℚ} {x : Fin 3 → ℚ}

/-- From a kept point of the world to the clearance of a location of the world. -/
theorem FairAnswers.clear_world {tol : ℚ} (htol : 0 ≤ tol) (hk : Kept tol e output' (c.placeIn gw x))
    (hq : FairAnswers A val kept u η gp output' e n Fd fg loc e' q) (hloc : ∀ a, val (fg.toGrid loc a) = toGrid (point4 p) a)
    (hP : StoredPose P Fd.pose δ) (hgw : StoredInverse P gw) (hrun : ToGridRuns roundDouble P toGrid)
    (hX : WithinWorld X Fd.pose.t p) (hW : WithinWorld X Fd.pose.t fun a => (c.place x a : ℝ)) :
    kept e' - (Real.sqrt 3 + 3 + n / 2 ^ 18 + 174120 * u * n ^ 2) * e - 2 * tol - (164 / 2 ^ 53 + 24 * δ) * X ≤
      dist3 p fun a => (c.place x a : ℝ) := by
  obtain ⟨Y, hY⟩ := exists_inFrame Fd.pose.R Fd.pose.t (fun a => (c.placeIn gw x a : ℝ))
  have key := hq.clear htol hk hY (p' := p)
  have hpl := hq.place
  rw [funext hloc] at hpl
  have e1 := C83_location_error hP hq.field.pose hrun hX hpl
  have e2 := C83_stored_place hP hq.field.pose hgw hW hY
  have e3 : (2 ^ (-46 : ℤ) + 12 * δ) * X + (36 / 2 ^ 53 + 12 * δ) * X = (164 / 2 ^ 53 + 24 * δ) * X := by
    rw [zpow_neg]; norm_num; ring
  rw [← e3]
  clear e3
  generalize (2 ^ (-46 : ℤ) + 12 * δ) * X = E at *
  have e4 := dist3_triangle p (fun a => (c.place x a : ℝ)) Y
  rw [dist3_comm (fun a => (c.place x a : ℝ)) Y] at e4
  linarith

/-- C87, nothing measured is overlooked, CPU: cameras and the location of the query are in the frame of the world, the grid may be turned and its pose is
stored with rounding, poses are multiplied in any order with or without fused operations, the map is built in an arithmetic that is right up to `u'` and
the answer computed in one that is right up to `u`. -/
theorem C87_clearance (H : AccurateArith Bt sqrt val' kept' u' η' M') (S : Room u' η' M' e (5 * B)) (W : WorldRoom u' v η' B)
    (Gg : GridGiven val' u' e (5 * B) g) (hop : FilterOptions.make (.fin 1) 1 k = some op) {clouds : List (CpuCloud G)}
    (hlen : ∀ cl ∈ clouds, cl.points.length < 2 ^ 31) (hd : output.dims = g.dims) (hnan : NoNaN output)
    (h : FlVoxelizeRuns Bt sqrt g op clouds output output') {cl : CpuCloud G} (hcl : cl ∈ clouds) (hp : Posed gw B c)
    (hw : WorldGiven val' kept' v η' B gw c cl.tf cl.range cl.points) (hx : some x ∈ c.points)
    (h1 : DeepInGrid (fairFarTol u' (5 * B)) e (axisCells g.dims) (c.placeIn gw x))
    (h2 : WellWithin (fairTol u' (5 * B)) c.range (c.sensorIn gw) (c.placeIn gw x))
    (hq : FairAnswers A val kept u η gp output' e n Fd fg loc e' q) (hloc : ∀ a, val (fg.toGrid loc a) = toGrid (point4 p) a)
    (hP : StoredPose P Fd.pose δ) (hgw : StoredInverse P gw) (hrun : ToGridRuns roundDouble P toGrid)
    (hX : WithinWorld X Fd.pose.t p) (hW : WithinWorld X Fd.pose.t fun a => (c.place x a : ℝ)) :
    kept e' - (Real.sqrt 3 + 3 + n / 2 ^ 18 + 174120 * u * n ^ 2) * e - 2 * fairTol u' (5 * B) - (164 / 2 ^ 53 + 24 * δ) * X ≤
      dist3 p fun a => (c.place x a : ℝ) :=
  FairAnswers.clear_world (fairTol_nonneg S) (world_point_kept H S W Gg hop hlen hd hnan h hcl hp hw hx h1 h2) hq hloc hP hgw hrun hX hW

/-- C87, nothing measured is overlooked, devices. -/
theorem C87_device_clearance {share : ℤ → ℤ → Fl} {L : ℕ} {api : DeviceApi} (H : AccurateArith Bt sqrt val' kept' u' η' M')
    (S : Room u' η' M' e (5 * B)) (W : WorldRoom u' v η' B) (Gg : GridGiven val' u' e (5 * B) g) (hs : FairShare share L) (hL : L < 2 ^ 31)
    (hop : FilterOptions.make (.fin 1) 1 k = some op) {clouds : List (DevCloud G)} (hh : Helper api clouds)
    (hN : g.dims.total * 2 * numTrackingGrids clouds < 2 ^ 31) (hlen : ∀ cl ∈ clouds, cl.points.length ≤ L) (hd : static.dims = g.dims)
    (hdo : output.dims = g.dims) (hnan : NoNaN static) (h : FastDeviceRuns share api Bt sqrt g op clouds static output output')
    {cl : DevCloud G} (hcl : cl ∈ clouds) (hp : Posed gw B c)
    (hw : WorldGiven val' kept' v η' B gw c cl.tf cl.range cl.points) (hx : some x ∈ c.points)
    (h1 : DeepInGrid (fairFarTol u' (5 * B)) e (axisCells g.dims) (c.placeIn gw x))
    (h2 : WellWithin (fairTol u' (5 * B)) c.range (c.sensorIn gw) (c.placeIn gw x))
    (hq : FairAnswers A val kept u η gp output' e n Fd fg loc e' q) (hloc : ∀ a, val (fg.toGrid loc a) = toGrid (point4 p) a)
    (hP : StoredPose P Fd.pose δ) (hgw : StoredInverse P gw) (hrun : ToGridRuns roundDouble P toGrid)
    (hX : WithinWorld X Fd.pose.t p) (hW : WithinWorld X Fd.pose.t fun a => (c.place x a : ℝ)) :
    kept e' - (Real.sqrt 3 + 3 + n / 2 ^ 18 + 174120 * u * n ^ 2) * e - 2 * fairTol u' (5 * B) - (164 / 2 ^ 53 + 24 * δ) * X ≤
      dist3 p fun a => (c.place x a : ℝ) :=
  FairAnswers.clear_world (fairTol_nonneg S) (world_device_point_kept H S W Gg hs hL hop hh hN hlen hd hdo hnan h hcl hp hw hx h1 h2) hq hloc hP hgw hrun
    hX hW

end

end VGT
