import Verif.Props.FairWorldEx
import Verif.Props.FairFineWorld

/-!
C86 and C87: projection without IEEE arithmetic, in the frame of the world.
-/
set_option autoImplicit false

namespace VGT
open VGT.EDT VGT.Spec VGT.Par

section
variable {filled : Idx → Bool} {border left : Bool} {g : SDFGrid ℝ} {N X δ : ℝ} {P : Pose ℝ} {norm : (Fin 3 → FusedReal) → FusedReal}
  {interp : (Fin 3 → FusedReal) → (Fin 3 → FusedReal) → (Bool → Bool → Bool → FusedReal) → (Fin 3 → FusedReal) → FusedReal}
  {toGrid : Vec4 ℝ → Fin 3 → ℝ} {toWorld rotate : (Fin 3 → FusedReal) → Fin 3 → FusedReal}

/-- C86, projection in `double` with fused products and sums: the returned location is farther from filled cells of the world than requested, less the
margins. -/
theorem C86_projection_clear_world (hg : GeneratedBy floatSDF filled border g) (hP : StoredPose P g.pose δ) (hrun : ToGridRuns roundDouble P toGrid)
    (hs : (2 : ℝ) ^ (-100 : ℤ) ≤ g.s) (hs' : g.s ≤ 2 ^ (100 : ℤ)) (h1 : 1 ≤ N) (hN34 : N ≤ 2 ^ 34) (hN : ∀ a, (axisCells g.dims a : ℝ) ≤ N)
    (hint : interp = flTrilinear (fusedReal roundDouble left) ∨ interp = flBilinear (fusedReal roundDouble left))
    {fuel : ℕ} {loc ret : Vec4 FusedReal} {minDist mult : FusedReal}
    (hret : flProject (fusedQuery roundDouble left norm interp) (g.inMemory roundDouble (storedToGrid roundDouble toGrid) toWorld rotate) fuel loc minDist
      mult = some (.value ret))
    (hin : flEstimate (fusedQuery roundDouble left norm interp) (g.inMemory roundDouble (storedToGrid roundDouble toGrid) toWorld rotate) loc ≠ .empty)
    (hX : WithinWorld X g.pose.t (fun a => FusedReal.kept roundDouble (ret.v a)))
    {o : Fin 3 → ℤ} (ho : CellInGrid (axisCells g.dims) o) (hfo : filled (cellIdx o) = true) {x y : Vec ℝ} (hxy : InFrame g.pose.R g.pose.t x y)
    (hx : InClosedCell g.s o x) :
    FusedReal.kept roundDouble minDist - (Real.sqrt 3 + 3 + N / 2 ^ 18 + N ^ 2 / 2 ^ 34) * g.s - (2 ^ (-46 : ℤ) + 12 * δ) * X <
      dist3 (fun a => FusedReal.kept roundDouble (ret.v a)) y := by
  obtain ⟨hw, h | ⟨d, hd, hlt⟩⟩ := C65_project _ _ hret
  · exact absurd h.2 hin
  · have hw : FusedReal.kept roundDouble ret.w = 1 := of_decide_eq_true hw
    have := (C86_clear_ball_world hg hP hrun hs hs' h1 hN34 hN hint hw hd hX ho hxy hx).1 hfo
    have hlt : decide (FusedReal.kept roundDouble d ≤ FusedReal.kept roundDouble minDist) = false := hlt
    have hlt : FusedReal.kept roundDouble minDist < FusedReal.kept roundDouble d := by simpa using hlt
    linarith

end

section
variable {F : Type} {A : QueryArith F} {val kept : F → ℝ} {u η δ X : ℝ} {K : Type} {gp : GenParams} {Fd : SDFGrid ℝ} {fg : FlSDF F} {loc ret : Vec4 F}
  {e' minDist mult : F} {fuel : ℕ}
  {p q : Fin 3 → ℝ} {P : Pose ℝ} {toGrid : Vec4 ℝ → Fin 3 → ℝ} {G : Type} {Bt : Arith G} {sqrt : G → G} {val' kept' : G → Fl} {u' v η' M' e B n : ℚ}
  {g : RayGrid G} {op : FilterOptions} {k : ℤ} {static output output' : VoxMap K} {c : Camera3} {gw : ℕ → ℚ} {x : Fin 3 → ℚ}

/-- A location with an answer is projected: the returned location has an answer that is larger than the requested distance. -/
theorem FairAnswers.projected (hq : FairAnswers A val kept u η gp output' e n Fd fg loc e' q)
    (hret : flProject A fg fuel loc minDist mult = some (.value ret)) :
    ∃ d q', kept minDist < kept d ∧ FairAnswers A val kept u η gp output' e n Fd fg ret d q' := by
  obtain ⟨-, h | ⟨d, hd, hlt⟩⟩ := C65_project _ _ hret
  · rw [hq.answer] at h
    cases h.2
  · obtain ⟨q', hq'⟩ := frame_place (Q := Fd.pose) (fun a => val (fg.toGrid ret a))
    rw [hq.fair.le] at hlt
    exact ⟨d, q', by simpa using hlt, hq.field, hq.fair, hq.room, hq.memory, hq.formula, hd, hq', hq.s_ge, hq.cells⟩

/-- C87, projected locations are clear of what was measured, CPU: as `C87_clearance`, for the location `p` that projection returns and the requested
distance. -/
theorem C87_projection (H : AccurateArith Bt sqrt val' kept' u' η' M') (S : Room u' η' M' e (5 * B)) (W : WorldRoom u' v η' B)
    (Gg : GridGiven val' u' e (5 * B) g) (hop : FilterOptions.make (.fin 1) 1 k = some op) {clouds : List (CpuCloud G)}
    (hlen : ∀ cl ∈ clouds, cl.points.length < 2 ^ 31) (hd : output.dims = g.dims) (hnan : NoNaN output)
    (h : FlVoxelizeRuns Bt sqrt g op clouds output output') {cl : CpuCloud G} (hcl : cl ∈ clouds) (hp : Posed gw B c)
    (hw : WorldGiven val' kept' v η' B gw c cl.tf cl.range cl.points) (hx : some x ∈ c.points)
    (h1 : DeepInGrid (fairFarTol u' (5 * B)) e (axisCells g.dims) (c.placeIn gw x))
    (h2 : WellWithin (fairTol u' (5 * B)) c.range (c.sensorIn gw) (c.placeIn gw x))
    (hq : FairAnswers A val kept u η gp output' e n Fd fg loc e' q) (hret : flProject A fg fuel loc minDist mult = some (.value ret))
    (hloc : ∀ a, val (fg.toGrid ret a) = toGrid (point4 p) a)
    (hP : StoredPose P Fd.pose δ) (hgw : StoredInverse P gw) (hrun : ToGridRuns roundDouble P toGrid)
    (hX : WithinWorld X Fd.pose.t p) (hW : WithinWorld X Fd.pose.t fun a => (c.place x a : ℝ)) :
    kept minDist - (Real.sqrt 3 + 3 + n / 2 ^ 18 + 174120 * u * n ^ 2) * e - 2 * fairTol u' (5 * B) - (164 / 2 ^ 53 + 24 * δ) * X <
      dist3 p fun a => (c.place x a : ℝ) := by
  obtain ⟨d, q', hlt, hq'⟩ := hq.projected hret
  have := C87_clearance H S W Gg hop hlen hd hnan h hcl hp hw hx h1 h2 hq' hloc hP hgw hrun hX hW
  linarith

/-- C87, projected locations are clear of what was measured, devices. -/
theorem C87_device_projection {share : ℤ → ℤ → Fl} {L : ℕ} {api : DeviceApi} (H : AccurateArith Bt sqrt val' kept' u' η' M')
    (S : Room u' η' M' e (5 * B)) (W : WorldRoom u' v η' B) (Gg : GridGiven val' u' e (5 * B) g) (hs : FairShare share L) (hL : L < 2 ^ 31)
    (hop : FilterOptions.make (.fin 1) 1 k = some op) {clouds : List (DevCloud G)} (hh : Helper api clouds)
    (hN : g.dims.total * 2 * numTrackingGrids clouds < 2 ^ 31) (hlen : ∀ cl ∈ clouds, cl.points.length ≤ L) (hd : static.dims = g.dims)
    (hdo : output.dims = g.dims) (hnan : NoNaN static) (h : FastDeviceRuns share api Bt sqrt g op clouds static output output')
    {cl : DevCloud G} (hcl : cl ∈ clouds) (hp : Posed gw B c)
    (hw : WorldGiven val' kept' v η' B gw c cl.tf cl.range cl.points) (hx : some x ∈ c.points)
    (h1 : DeepInGrid (fairFarTol u' (5 * B)) e (axisCells g.dims) (c.placeIn gw x))
    (h2 : WellWithin (fairTol u' (5 * B)) c.range (c.sensorIn gw) (c.placeIn gw x))
    (hq : FairAnswers A val kept u η gp output' e n Fd fg loc e' q) (hret : flProject A fg fuel loc minDist mult = some (.value ret))
    (hloc : ∀ a, val (fg.toGrid ret a) = toGrid (point4 p) a)
    (hP : StoredPose P Fd.pose δ) (hgw : StoredInverse P gw) (hrun : ToGridRuns roundDouble P toGrid)
    (hX : WithinWorld X Fd.pose.t p) (hW : WithinWorld X Fd.pose.t fun a => (c.place x a : ℝ)) :
    kept minDist - (Real.sqrt 3 + 3 + n / 2 ^ 18 + 174120 * u * n ^ 2) * e - 2 * fairTol u' (5 * B) - (164 / 2 ^ 53 + 24 * δ) * X <
      dist3 p fun a => (c.place x a : ℝ) := by
  obtain ⟨d, q', hlt, hq'⟩ := hq.projected hret
  have := C87_device_clearance H S W Gg hs hL hop hh hN hlen hd hdo hnan h hcl hp hw hx h1 h2 hq' hloc hP hgw hrun hX hW
  linarith

end

/-! ### Concrete cases -/

/-- The hypotheses of `C86_projection_clear_world` are met in the turned row: the answer exceeds the requested distance by 1. -/
example (left : Bool) : ∃ (g : SDFGrid ℝ) (toGrid : Vec4 ℝ → Fin 3 → ℝ) (minDist : FusedReal),
    GeneratedBy floatSDF (fun i => decide (i.1 = 0)) false g ∧ g.pose = slantPose ∧ ToGridRuns roundDouble slantStored toGrid ∧
    flProject (fusedQuery roundDouble left (fun _ => (0, false)) (flTrilinear (fusedReal roundDouble left)))
      (g.inMemory roundDouble (storedToGrid roundDouble toGrid) id id) 5 ⟨slantStart, (1, false)⟩ minDist (1, false) = some (.value ⟨slantStart, (1, false)⟩) ∧
    ∀ x y, InFrame g.pose.R g.pose.t x y → InClosedCell 1 ![0, 0, 0] x → FusedReal.kept roundDouble minDist - 5 < dist3 slantPlace y := by
  obtain ⟨g, hg, hd, hs, hP⟩ := C68_generated_exists exRow_ok slantPose_orthogonal (filled := fun i => decide (i.1 = 0)) false
    (i := (1, 0, 0)) (by decide) (by decide) (j := (0, 0, 0)) (by decide) (by decide)
  obtain ⟨toGrid, hrun⟩ := toGridRuns_exists roundDouble slantStored
  dsimp only at hd hs
  have hst : StoredPose slantStored g.pose (2 ^ (-52 : ℤ)) := by rw [hP]; exact slantStored_near
  have hN : ∀ a, (axisCells g.dims a : ℝ) ≤ 64 := by
    rw [hd]; intro a; fin_cases a <;> simp [axisCells]
  have s1 : (2 : ℝ) ^ (-100 : ℤ) ≤ g.s := by rw [hs]; norm_num
  have s2 : g.s ≤ (2 : ℝ) ^ (100 : ℤ) := by rw [hs]; norm_num
  have kp : ∀ b, FusedReal.kept roundDouble (slantStart b) = slantPlace b := fun b => if_neg (by decide : ¬ (false = true))
  obtain ⟨⟨e', he'⟩, -⟩ := slant_exists hg.pose hd hs hP hrun left
  have kd : FusedReal.kept roundDouble ((FusedReal.kept roundDouble e' - 1, false) : FusedReal) = FusedReal.kept roundDouble e' - 1 :=
    if_neg (by decide : ¬ (false = true))
  have hproj := project_far (mult := ((1, false) : FusedReal)) _ _ he' (minDist := (FusedReal.kept roundDouble e' - 1, false)) (by
    show decide (_ ≤ FusedReal.kept roundDouble ((FusedReal.kept roundDouble e' - 1, false) : FusedReal)) = false
    rw [kd]
    simp) (by
    show decide (FusedReal.kept roundDouble ((1, false) : FusedReal) = 1) = true
    exact decide_eq_true (if_neg (by decide : ¬ (false = true)))) 5
  refine ⟨g, toGrid, _, hg, hP, hrun, hproj, fun x y hxy hx => ?_⟩
  have hX : WithinWorld 2048 g.pose.t slantPlace := by rw [hP]; exact slantPlace_world
  have ek : (fun a => FusedReal.kept roundDouble (slantStart a)) = slantPlace := funext kp
  have := C86_projection_clear_world (X := 2048) hg hst hrun s1 s2 (N := 64) (by norm_num) (by norm_num) hN (.inl rfl)
    hproj (by rw [he']; exact fun h => by cases h) (by dsimp only; rw [ek]; exact hX) (o := ![0, 0, 0])
    (by rw [hd]; intro a; fin_cases a <;> simp [axisCells]) (by decide) hxy (by rw [hs]; exact hx)
  have h3 : Real.sqrt 3 ≤ 19 / 10 := by rw [Real.sqrt_le_left (by norm_num)]; norm_num
  dsimp only at this
  rw [hs, ek] at this
  norm_num at this ⊢
  linarith

/-- The hypotheses of `C87_projection` are met: the case of `C87_clearance`. -/
example {sqrt : Fl → Fl} (hs : IeeeSqrt sqrt) (left : Bool) : ∃ (output' : VoxMap ℚ) (Fd : SDFGrid ℝ) (toGrid : Vec4 ℝ → Fin 3 → ℝ) (minDist e' : FusedReal),
    FlVoxelizeRuns fusedDouble (fusedSqrt sqrt) gridF ⟨.fin 1, 1, 1⟩ [nearFcloud] dark4 output' ∧
    output'.data (dataIndex gridF.dims ![2, 1, 0]) = .fin 1 ∧
    flEstimate (fusedQuery roundDouble left (fun _ => (0, false)) (flTrilinear (fusedReal roundDouble left)))
      (Fd.inMemory roundDouble (fusedToGrid toGrid) id id) fusedTurned = .value e' ∧
    FusedReal.kept roundDouble e' - 1 = FusedReal.kept roundDouble minDist ∧
    flProject (fusedQuery roundDouble left (fun _ => (0, false)) (flTrilinear (fusedReal roundDouble left)))
      (Fd.inMemory roundDouble (fusedToGrid toGrid) id id) 5 fusedTurned minDist (1, false) = some (.value fusedTurned) ∧
    FusedReal.kept roundDouble minDist - (Real.sqrt 3 + 3 + (6 : ℚ) / 2 ^ 18 + 174120 * (3 * 2 ^ (-53 : ℤ)) * (6 : ℚ) ^ 2) * (1 : ℚ) -
      2 * (fairTol (18 * (1 / 2 ^ 53)) (5 * 128) : ℚ) - (164 / 2 ^ 53 + 24 * 0) * 8 <
      dist3 turnedCorner (fun a => ((worldF.place ![102, 0, 0] a : ℚ) : ℝ)) := by
  have H := (fusedDouble_accurate hs).mono (u' := 18 * (1 / 2 ^ 53)) (by norm_num)
  have S := (room_double (e := 1) (B := 5 * 128) (by norm_num) (by norm_num) (by norm_num)).mono (u' := 18 * (1 / 2 ^ 53)) (by norm_num) (by norm_num)
  have W := worldRoom_double (B := 128) (by norm_num)
  have G : GridGiven Prod.fst (18 * (1 / 2 ^ 53)) 1 (5 * 128) gridF := gridF_given (by norm_num) (by norm_num)
  have hlen : ∀ c ∈ [nearFcloud], c.points.length < 2 ^ 31 := by simp [nearFcloud]
  have hg := worldF_given (R := doubleR) (v := 1 / 2 ^ 53) (η := 3 * (1 / 2 ^ 1075)) (by norm_num) (by positivity)
  have hx : some ![102, 0, 0] ∈ worldF.points := List.mem_cons_self
  have htol : fairFarTol (18 * (1 / 2 ^ 53)) (5 * 128) ≤ 2 / 5 := by norm_num [fairFarTol]
  have htol' : fairTol (18 * (1 / 2 ^ 53)) (5 * 128) < 1 / 10 := by norm_num [fairTol]
  have hw := worldF_well (fairTol_nonneg S) (by linarith)
  obtain ⟨out, hout⟩ := (C74_defined (A := fusedDouble) (sqrt := fusedSqrt sqrt) (g := gridF) (clouds := [nearFcloud]) plain_filter hlen
    (output := dark4) rfl).2 (by
      intro c hc
      obtain rfl := List.mem_singleton.1 hc
      refine ⟨by decide +kernel, fun x hx => ?_⟩
      obtain rfl := List.mem_singleton.1 hx
      rw [nearF_point hs]
      rfl)
  have h1 := C87_obstacle_is_filled H S W G plain_filter hlen rfl hout (List.mem_singleton_self _) worldF_posed hg (i := ![2, 1, 0]) far_in (dark4_half _)
    (howMany_one hx ⟨by rw [worldF_place]; exact far_deep htol, hw⟩)
  obtain ⟨-, hd, -, hkeep⟩ := C74_keeps_filled hout
  have hl := far_low (f := fun c x => c.placeIn turnedGrid x) (c := worldF) (tol := fairTol (18 * (1 / 2 ^ 53)) (5 * 128)) hd htol' (fun x hx => by
      rw [worldF_only hx, worldF_place]; norm_num [third]) (fun i hi ha =>
    C87_filled_is_real H S W G plain_filter hlen rfl hout (.cons ⟨worldF_posed, hg⟩ .nil) hi (dark4_half i) (by
      refine above_cases ha ?_
      rcases (hkeep _ (dataIndex_lt (d := grid4.dims) hi)).2 (dark4_half i) with h | h | h
      · exact .inl h
      · exact .inr (.inl h)
      · exact .inr (.inr h)))
  obtain ⟨Fd, hF, hP⟩ := turned_field hl h1
  obtain ⟨toGrid, hrun, ht⟩ := turned_toGrid
  obtain ⟨e', hq⟩ := turned_fused left hF hP hl.1 ht
  have kd : FusedReal.kept roundDouble ((FusedReal.kept roundDouble e' - 1, false) : FusedReal) = FusedReal.kept roundDouble e' - 1 :=
    if_neg (by decide : ¬ (false = true))
  have hproj := project_far (mult := ((1, false) : FusedReal)) _ _ hq.answer (minDist := (FusedReal.kept roundDouble e' - 1, false)) (by
    show decide (_ ≤ FusedReal.kept roundDouble ((FusedReal.kept roundDouble e' - 1, false) : FusedReal)) = false
    rw [kd]
    simp) (by
    show decide (FusedReal.kept roundDouble ((1, false) : FusedReal) = 1) = true
    exact decide_eq_true (if_neg (by decide : ¬ (false = true)))) 5
  refine ⟨out, Fd, toGrid, (FusedReal.kept roundDouble e' - 1, false), e', hout, h1, hq.answer, kd.symm, hproj, ?_⟩
  exact C87_projection H S W G plain_filter hlen rfl dark4_nonan hout (List.mem_singleton_self _) worldF_posed hg hx
    (by rw [worldF_place]; exact far_grid htol) hw hq hproj (fun a => rfl) (by rw [hP]; exact turned_stored) turned_inverse hrun
    (by rw [hP]; exact turned_world.1) (by rw [hP]; exact worldF_world)

/-- The hypotheses of `C87_device_projection` are met: the case of `C87_device_clearance`. -/
example {sqrt : Fl → Fl} (hs : FloatSqrt sqrt) (left : Bool) : ∃ (output' : VoxMap ℚ) (Fd : SDFGrid ℝ) (toGrid : Vec4 ℝ → Fin 3 → ℝ) (minDist e' : FusedReal),
    FastDeviceRuns roughShare (cudaApi 256) fastFloat (fusedSqrt sqrt) gridF ⟨.fin 1, 1, 1⟩ [nearFdev] dark4 dark4 output' ∧
    output'.data (dataIndex gridF.dims ![2, 1, 0]) = .fin 1 ∧
    flEstimate (fusedQuery roundDouble left (fun _ => (0, false)) (flTrilinear (fusedReal roundDouble left)))
      (Fd.inMemory roundDouble (fusedToGrid toGrid) id id) fusedTurned = .value e' ∧
    FusedReal.kept roundDouble e' - 1 = FusedReal.kept roundDouble minDist ∧
    flProject (fusedQuery roundDouble left (fun _ => (0, false)) (flTrilinear (fusedReal roundDouble left)))
      (Fd.inMemory roundDouble (fusedToGrid toGrid) id id) 5 fusedTurned minDist (1, false) = some (.value fusedTurned) ∧
    FusedReal.kept roundDouble minDist - (Real.sqrt 3 + 3 + (6 : ℚ) / 2 ^ 18 + 174120 * (3 * 2 ^ (-53 : ℤ)) * (6 : ℚ) ^ 2) * (1 : ℚ) -
      2 * (fairTol (4 * (1 / 2 ^ 24)) (5 * 128) : ℚ) - (164 / 2 ^ 53 + 24 * 0) * 8 <
      dist3 turnedCorner (fun a => ((worldF.place ![102, 0, 0] a : ℚ) : ℝ)) := by
  have H := (fastFloat_accurate (sqrt := sqrt) fun q hq => by
    obtain ⟨y, k1, k2, k3⟩ := sqrtRounds_float hs q hq
    exact ⟨y, k1, k2, k3.trans (by norm_num; linarith)⟩).mono (u' := 4 * (1 / 2 ^ 24)) (by norm_num)
  have S := (room_float (e := 1) (B := 5 * 128) (by norm_num) (by norm_num) (by norm_num)).mono (u' := 4 * (1 / 2 ^ 24)) (by norm_num) (by norm_num)
  have W := worldRoom_float (B := 128) (by norm_num)
  have G : GridGiven Prod.fst (4 * (1 / 2 ^ 24)) 1 (5 * 128) gridF := gridF_given (by norm_num) (by norm_num)
  have hh : Helper (F := Fused) (cudaApi 256) [nearFdev] := .inr ⟨256, by norm_num, rfl, by simp [nearFdev, nearFcloud]⟩
  have hN : gridF.dims.total * 2 * numTrackingGrids [nearFdev] < 2 ^ 31 := by
    norm_num [gridF, numTrackingGrids, Dims.total]
  have hlen : ∀ c ∈ [nearFdev], c.points.length ≤ 2 ^ 22 := by simp [nearFdev, nearFcloud]
  have hg : WorldGiven Prod.fst (Fused.kept flushR) (1 / 2 ^ 24) (3 * (1 / 2 ^ 126)) 128 turnedGrid worldF nearFdev.tf nearFdev.range nearFdev.points :=
    worldF_given (by norm_num) (by positivity)
  have hx : some ![102, 0, 0] ∈ worldF.points := List.mem_cons_self
  have htol : fairFarTol (4 * (1 / 2 ^ 24)) (5 * 128) ≤ 2 / 5 := by norm_num [fairFarTol]
  have htol' : fairTol (4 * (1 / 2 ^ 24)) (5 * 128) < 1 / 10 := by norm_num [fairTol]
  have hw := worldF_well (fairTol_nonneg S) (by linarith)
  obtain ⟨out, hout⟩ := fast_defined (K := ℚ) (share := roughShare) (A := fastFloat) (sqrt := fusedSqrt sqrt) (g := gridF) (clouds := [nearFdev])
    (static := dark4) (output := dark4) plain_filter hh hN (fun c hc => (hlen c hc).trans (by norm_num)) rfl (by
      intro c hc
      obtain rfl := List.mem_singleton.1 hc
      intro x hx
      obtain rfl := List.mem_singleton.1 hx
      rw [nearF_point_fast hs]
      rfl)
  have h1 := C87_device_obstacle_is_filled H S W G fairShare_rough (by norm_num) plain_filter hh hN hlen rfl hout (List.mem_singleton_self _) worldF_posed
    hg (i := ![2, 1, 0]) far_in (dark4_half _) (howMany_one hx ⟨by rw [worldF_place]; exact far_deep htol, hw⟩)
  have hl := far_low (f := fun c x => c.placeIn turnedGrid x) (c := worldF) (tol := fairTol (4 * (1 / 2 ^ 24)) (5 * 128)) (fast_dims hout) htol' (fun x hx => by
      rw [worldF_only hx, worldF_place]; norm_num [third]) (fun i hi ha =>
    C87_device_filled_is_real H S W G plain_filter hh hN rfl hout (.cons ⟨worldF_posed, hg⟩ .nil) hi (dark4_half i) (by
      refine above_cases ha ?_
      obtain ⟨r, -, e⟩ := fast_cell hh hN rfl hout (i := i) hi (dark4_half i)
      have e : out.data (dataIndex grid4.dims i) = _ := e
      unfold Fl.half at e
      split_ifs at e
      · exact .inr (.inr e)
      · exact .inl e
      · exact .inr (.inl e)))
  obtain ⟨Fd, hF, hP⟩ := turned_field hl h1
  obtain ⟨toGrid, hrun, ht⟩ := turned_toGrid
  obtain ⟨e', hq⟩ := turned_fused left hF hP hl.1 ht
  have kd : FusedReal.kept roundDouble ((FusedReal.kept roundDouble e' - 1, false) : FusedReal) = FusedReal.kept roundDouble e' - 1 :=
    if_neg (by decide : ¬ (false = true))
  have hproj := project_far (mult := ((1, false) : FusedReal)) _ _ hq.answer (minDist := (FusedReal.kept roundDouble e' - 1, false)) (by
    show decide (_ ≤ FusedReal.kept roundDouble ((FusedReal.kept roundDouble e' - 1, false) : FusedReal)) = false
    rw [kd]
    simp) (by
    show decide (FusedReal.kept roundDouble ((1, false) : FusedReal) = 1) = true
    exact decide_eq_true (if_neg (by decide : ¬ (false = true)))) 5
  refine ⟨out, Fd, toGrid, (FusedReal.kept roundDouble e' - 1, false), e', hout, h1, hq.answer, kd.symm, hproj, ?_⟩
  exact C87_device_projection H S W G fairShare_rough (by norm_num) plain_filter hh hN hlen rfl rfl dark4_nonan hout (List.mem_singleton_self _) worldF_posed hg hx
    (by rw [worldF_place]; exact far_grid htol) hw hq hproj (fun a => rfl) (by rw [hP]; exact turned_stored) turned_inverse hrun
    (by rw [hP]; exact turned_world.1) (by rw [hP]; exact worldF_world)

end VGT
