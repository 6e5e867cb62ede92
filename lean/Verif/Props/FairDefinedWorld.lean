import Verif.Props.FairDefined
import Verif.Props.FairWorldEx

/-!
C88: cameras in the frame of the world, the arithmetic of the CPU with fused operations and of devices with fast math, and concrete cases.
-/
set_option autoImplicit false

namespace VGT
open VGT.EDT VGT.Spec VGT.Par

section
variable {F : Type} {A : Arith F} {sqrt : F → F} {val kept : F → Fl} {u v η M e B ν L : ℚ} {g : RayGrid F} {gw : ℕ → ℚ}
  {K : Type} {op : FilterOptions} {pct : ℚ} {t k : ℤ} {output : VoxMap K}

/-- C88, cameras in the frame of the world, CPU. -/
theorem C88_world_has_result (H : AccurateArith A sqrt val kept u η M) (S : Room u η M e (5 * B)) (W : WorldRoom u v η B)
    (G : GridGiven val u e (5 * B) g) (I : FairIndex A sqrt val kept L) (N : IndexRoom (9 / 10 ^ 11) e (5 * B) L M)
    (hop : FilterOptions.make (.fin pct) t k = some op) {clouds : List (CpuCloud F)} {cams : List Camera3}
    (hlen : ∀ cl ∈ clouds, cl.points.length < 2 ^ 31)
    (hcams : List.Forall₂ (fun cl c => (Posed gw B c ∧ WorldGiven val kept v η B gw c cl.tf cl.range cl.points) ∧ kept cl.range = val cl.range) clouds cams)
    (hpts : ∀ c ∈ cams, DeepInGrid (fairTol u (5 * B)) e (axisCells g.dims) (c.sensorIn gw) ∨
      ∀ x, some x ∈ c.points → Apart (1000 * (u * (5 * B))) (c.sensorIn gw) (c.placeIn gw x)) (hd : output.dims = g.dims) :
    ∃ output', FlVoxelizeRuns A sqrt g op clouds output output' := by
  refine C88_has_result H S G I N hop hlen (cams := cams.map (Camera3.inGrid gw))
    (List.forall₂_map_right_iff.2 (hcams.imp fun cl c hh => ?_)) ?_ hd
  · obtain ⟨h1, h2⟩ := WorldGiven.both W hh.1.1 hh.1.2
    exact ⟨h1, h2, hh.2⟩
  · intro c' hc'
    obtain ⟨c, hc, rfl⟩ := List.mem_map.1 hc'
    simp only [inGrid_place, inGrid_sensor]
    exact hpts c hc

/-- C88, cameras in the frame of the world, devices. -/
theorem C88_device_world_has_result {share : ℤ → ℤ → Fl} {api : DeviceApi} {static : VoxMap K} (H : AccurateArith A sqrt val kept u η M)
    (S : Room u η M e (5 * B)) (W : WorldRoom u v η B) (G : GridGiven val u e (5 * B) g) (I : FairIndex A sqrt val kept L)
    (N : IndexRoom ν e (5 * B) L M) (hop : FilterOptions.make (.fin pct) t k = some op) {clouds : List (DevCloud F)} {cams : List Camera3}
    (hh : Helper api clouds) (hN : g.dims.total * 2 * numTrackingGrids clouds < 2 ^ 31) (hlen : ∀ cl ∈ clouds, cl.points.length ≤ 2 ^ 24)
    (hcams : List.Forall₂ (fun cl c => (Posed gw B c ∧ WorldGiven val kept v η B gw c cl.tf cl.range cl.points) ∧ kept cl.range = val cl.range) clouds cams)
    (hpts : ∀ c ∈ cams, DeepInGrid (fairTol u (5 * B)) e (axisCells g.dims) (c.sensorIn gw) ∨ ∀ x, some x ∈ c.points →
      Apart (1000 * (u * (5 * B))) (c.sensorIn gw) (c.placeIn gw x) ∧
      ∀ a, BetweenFaces (fairTol u (5 * B)) e (axisCells g.dims) a (c.sensorIn gw) ∨
        GetsOn ν (1000 * (u * (5 * B))) a (c.sensorIn gw) (c.placeIn gw x))
    (hd : static.dims = g.dims) : ∃ output', FastDeviceRuns share api A sqrt g op clouds static output output' := by
  refine C88_device_has_result H S G I N hop hh hN hlen (cams := cams.map (Camera3.inGrid gw))
    (List.forall₂_map_right_iff.2 (hcams.imp fun cl c hh => ?_)) ?_ hd
  · obtain ⟨h1, h2⟩ := WorldGiven.both W hh.1.1 hh.1.2
    exact ⟨h1, h2, hh.2⟩
  · intro c' hc'
    obtain ⟨c, hc, rfl⟩ := List.mem_map.1 hc'
    simp only [inGrid_place, inGrid_sensor]
    exact hpts c hc

end

/-! ### The arithmetic of builds -/

theorem kept_as_is (r : ℚ → Fl) (x : Fl) : Fused.kept r (x, false) = x := by cases x <;> rfl

/-- Fused arithmetic has indices up to half of what the type holds. -/
theorem fused_index {r rd : ℚ → Fl} {bits : ℕ} (sqrt : Fl → Fl) (hb : 2 ≤ bits) (ht : ∃ t, r (1 / 10 ^ 10) = .fin t ∧ |t - 1 / 10 ^ 10| ≤ 1 / 10 ^ 12) :
    FairIndex (fusedArith r rd bits) (fusedSqrt sqrt) Prod.fst (Fused.kept r) (2 ^ (bits - 2)) where
  toInt := fun x q h hq => by
    show (Fl.floorInt bits (x.kept r)).isSome = true
    rw [h]
    have e : (2 : ℚ) ^ (bits - 1) = 2 * 2 ^ (bits - 2) := by
      rw [← pow_succ']
      congr 1
      omega
    have hp : (1 : ℚ) ≤ 2 ^ (bits - 2) := one_le_pow₀ (by norm_num)
    have h1 := abs_le.1 hq
    have f1 := Int.floor_le q
    have f2 := Int.lt_floor_add_one q
    have g1 : -2 ^ (bits - 1) ≤ ⌊q⌋ := by
      have : ((-2 ^ (bits - 1) : ℤ) : ℚ) ≤ (⌊q⌋ : ℚ) := by push_cast; linarith
      exact_mod_cast this
    have g2 : ⌊q⌋ < 2 ^ (bits - 1) := by
      have : (⌊q⌋ : ℚ) < ((2 ^ (bits - 1) : ℤ) : ℚ) := by push_cast; linarith
      exact_mod_cast this
    unfold Fl.floorInt
    simp [g1, g2]
  fits := fun i hi => by
    have e : (2 : ℚ) ^ (bits - 1) = 2 * 2 ^ (bits - 2) := by
      rw [← pow_succ']
      congr 1
      omega
    have hp : (1 : ℚ) ≤ 2 ^ (bits - 2) := one_le_pow₀ (by norm_num)
    have h1 := abs_le.1 hi
    have g1 : -2 ^ (bits - 1) ≤ i := by
      have : ((-2 ^ (bits - 1) : ℤ) : ℚ) ≤ (i : ℚ) := by push_cast; linarith
      exact_mod_cast this
    have g2 : i < 2 ^ (bits - 1) := by
      have : (i : ℚ) < ((2 ^ (bits - 1) : ℤ) : ℚ) := by push_cast; linarith
      exact_mod_cast this
    exact decide_eq_true ⟨g1, g2⟩
  tiny := by
    obtain ⟨t, h1, h2⟩ := ht
    refine ⟨t, h1, ?_⟩
    have := near_bound h2 (le_of_eq (abs_of_pos (show (0 : ℚ) < 1 / 10 ^ 10 by norm_num)))
    norm_num at this ⊢
    linarith
  root := fun x => kept_as_is r _

/-- `double` with fused operations: coordinates may be `2^22` cells. -/
theorem indexRoom_double {e B : ℚ} (he : 1 / 2 ^ 20 ≤ e) (hB : 0 ≤ B) (h : B ≤ 2 ^ 22 * e) :
    IndexRoom (9 / 10 ^ 11) e B (2 ^ (64 - 2)) (((2 - 1 / 2 ^ 52) * 2 ^ 1023) / 2) := by
  have he0 : 0 < e := lt_of_lt_of_le (by norm_num) he
  have hM : (2 : ℚ) ^ 63 ≤ 2 ^ 1023 := pow_le_pow_right₀ (by norm_num) (by norm_num)
  refine ⟨le_rfl, by norm_num, ?_, ?_⟩
  · generalize (2 : ℚ) ^ 1023 = m at *
    norm_num at hM ⊢
    linarith
  · have h1 : (51 * (B / (9 / 10 ^ 11)) + 1 / 10 ^ 7) / e ≤ 2 ^ 62 - 4 := by
      rw [div_le_iff₀ he0]
      norm_num at h he ⊢
      linarith
    norm_num at h1 ⊢
    linarith

/-- `float` with fast math: coordinates may be `ν 2^24` cells. -/
theorem indexRoom_float {e B ν : ℚ} (he : 1 / 2 ^ 20 ≤ e) (hν : 9 / 10 ^ 11 ≤ ν) (hν1 : ν ≤ 1) (h : B ≤ 2 ^ 24 * (ν * e)) :
    IndexRoom ν e B (2 ^ (32 - 2)) (2 ^ 126 / 2) := by
  have he0 : 0 < e := lt_of_lt_of_le (by norm_num) he
  have hν0 : 0 < ν := lt_of_lt_of_le (by norm_num) hν
  refine ⟨hν, hν1, by norm_num, ?_⟩
  have h0 : B / ν ≤ 2 ^ 24 * e := by
    rw [div_le_iff₀ hν0]
    linarith
  have h1 : (51 * (B / ν) + 1 / 10 ^ 7) / e ≤ 2 ^ 30 - 4 := by
    rw [div_le_iff₀ he0]
    norm_num at h0 he ⊢
    linarith
  norm_num at h1 ⊢
  linarith

theorem fusedDouble_index {sqrt : Fl → Fl} (hs : IeeeSqrt sqrt) :
    FairIndex fusedDouble (fusedSqrt sqrt) Prod.fst (Fused.kept doubleR) (2 ^ (64 - 2)) :=
  fused_index sqrt (by norm_num) (by
    obtain ⟨t, h1, h2⟩ := (fusedDouble_accurate hs).tiny
    exact ⟨t, (kept_as_is doubleR _).symm.trans h1, h2⟩)

theorem fastFloat_index {sqrt : Fl → Fl} (hs : SqrtRounds sqrt (3 * (1 / 2 ^ 24)) (3 * (1 / 2 ^ 126))) :
    FairIndex fastFloat (fusedSqrt sqrt) Prod.fst (Fused.kept flushR) (2 ^ (32 - 2)) :=
  fused_index sqrt (by norm_num) (by
    obtain ⟨t, h1, h2⟩ := (fastFloat_accurate hs).tiny
    exact ⟨t, (kept_as_is flushR _).symm.trans h1, h2⟩)

/-- C88 for `double` with fused operations: every voxelization has a result if coordinates are at most `2^22` cells and no point is measured at a
sensor outside the grid (nearer than `3000 B / 2^53`). -/
theorem C88_fused_double_has_result {sqrt : Fl → Fl} (hs : IeeeSqrt sqrt) {e B : ℚ} (he : 1 / 2 ^ 20 ≤ e) (heB : e ≤ B) (hB : B ≤ 2 ^ 22 * e)
    (hB' : B ≤ 2 ^ 100) {g : RayGrid Fused} (G : GridGiven Prod.fst (3 * (1 / 2 ^ 53)) e B g) {K : Type} {op : FilterOptions} {pct : ℚ} {t k : ℤ}
    (hop : FilterOptions.make (.fin pct) t k = some op) {clouds : List (CpuCloud Fused)} {cams : List Camera3}
    (hlen : ∀ cl ∈ clouds, cl.points.length < 2 ^ 31)
    (hcams : List.Forall₂ (fun cl c => c.Within B ∧ Given Prod.fst (Fused.kept doubleR) (3 * (1 / 2 ^ 53)) (3 * (1 / 2 ^ 1075)) B c cl.tf cl.range cl.points ∧
      cl.range.kept doubleR = cl.range.1) clouds cams)
    (hpts : ∀ c ∈ cams, DeepInGrid (fairTol (3 * (1 / 2 ^ 53)) B) e (axisCells g.dims) c.sensor ∨
      ∀ x, some x ∈ c.points → Apart (3000 * B / 2 ^ 53) c.sensor (c.place x)) {output : VoxMap K} (hd : output.dims = g.dims) :
    ∃ output', FlVoxelizeRuns fusedDouble (fusedSqrt sqrt) g op clouds output output' := by
  refine C88_has_result (fusedDouble_accurate hs) (room_double (le_trans (by norm_num) he) heB hB') G (fusedDouble_index hs)
    (indexRoom_double he ((le_trans (by norm_num) he).trans heB) hB) hop hlen hcams (fun c hc => ?_) hd
  rw [show 1000 * (3 * (1 / 2 ^ 53) * B) = 3000 * B / 2 ^ 53 by ring]
  exact hpts c hc

/-- C88 for `float` with fast math. -/
theorem C88_fast_float_has_result {sqrt : Fl → Fl} (hs : SqrtRounds sqrt (3 * (1 / 2 ^ 24)) (3 * (1 / 2 ^ 126))) {e B ν : ℚ} (he : 1 / 2 ^ 20 ≤ e)
    (heB : e ≤ B) (hν : 9 / 10 ^ 11 ≤ ν) (hν1 : ν ≤ 1) (hB : B ≤ 2 ^ 24 * (ν * e)) (hB' : B ≤ 2 ^ 30) {g : RayGrid Fused}
    (G : GridGiven Prod.fst (3 * (1 / 2 ^ 24)) e B g) {K : Type} {op : FilterOptions} {pct : ℚ} {t k : ℤ}
    (hop : FilterOptions.make (.fin pct) t k = some op) {clouds : List (DevCloud Fused)} {cams : List Camera3} {api : DeviceApi}
    (hh : Helper api clouds) (hN : g.dims.total * 2 * numTrackingGrids clouds < 2 ^ 31) (hlen : ∀ cl ∈ clouds, cl.points.length ≤ 2 ^ 24)
    (hcams : List.Forall₂ (fun cl c => c.Within B ∧ Given Prod.fst (Fused.kept flushR) (3 * (1 / 2 ^ 24)) (3 * (1 / 2 ^ 126)) B c cl.tf cl.range cl.points ∧
      cl.range.kept flushR = cl.range.1) clouds cams)
    (hpts : ∀ c ∈ cams, DeepInGrid (fairTol (3 * (1 / 2 ^ 24)) B) e (axisCells g.dims) c.sensor ∨ ∀ x, some x ∈ c.points →
      Apart (3000 * B / 2 ^ 24) c.sensor (c.place x) ∧
      ∀ a, BetweenFaces (fairTol (3 * (1 / 2 ^ 24)) B) e (axisCells g.dims) a c.sensor ∨ GetsOn ν (3000 * B / 2 ^ 24) a c.sensor (c.place x))
    {share : ℤ → ℤ → Fl} {static output : VoxMap K} (hd : static.dims = g.dims) :
    ∃ output', FastDeviceRuns share api fastFloat (fusedSqrt sqrt) g op clouds static output output' := by
  refine C88_device_has_result (fastFloat_accurate hs) (room_float he heB hB') G (fastFloat_index hs) (indexRoom_float he hν hν1 hB) hop hh hN hlen
    hcams (fun c hc => ?_) hd
  rw [show 1000 * (3 * (1 / 2 ^ 24) * B) = 3000 * B / 2 ^ 24 by ring]
  exact hpts c hc

/-! ### Concrete cases -/

theorem farF_sensor : farF.sensor = ![-1999 / 2, 3 / 2, 1 / 2] := by
  unfold farF
  rw [lookFrom_sensor]

/-- The hypotheses of `C88_has_result` and `C88_fused_double_has_result` are met: a camera a thousand cells before the grid. -/
example {sqrt : Fl → Fl} (hs : IeeeSqrt sqrt) :
    ∃ output', FlVoxelizeRuns fusedDouble (fusedSqrt sqrt) gridF ⟨.fin 1, 1, 1⟩ [farFcloud] dark4 output' := by
  refine C88_fused_double_has_result hs (e := 1) (B := 1024) (cams := [farF]) (by norm_num) (by norm_num) (by norm_num) (by norm_num)
    (gridF_given (by norm_num) (by norm_num)) plain_filter (by simp [farFcloud]) (.cons ⟨farF_within, farF_given (by norm_num) (by positivity), rfl⟩ .nil)
    (fun c hc => ?_) rfl
  obtain rfl := List.mem_singleton.1 hc
  refine .inr fun x hx => ?_
  rw [farF_only hx, farF_place, farF_sensor]
  norm_num [Apart, distSq, third]

/-- The hypotheses of `C88_device_has_result` and `C88_fast_float_has_result` are met: the same camera. -/
example {sqrt : Fl → Fl} (hs : FloatSqrt sqrt) :
    ∃ output', FastDeviceRuns roughShare (cudaApi 256) fastFloat (fusedSqrt sqrt) gridF ⟨.fin 1, 1, 1⟩ [farFdev] dark4 dark4 output' := by
  refine C88_fast_float_has_result (sqrt := sqrt) (fun q hq => ?_) (e := 1) (B := 1024) (ν := 1 / 4) (cams := [farF]) (by norm_num) (by norm_num)
    (by norm_num) (by norm_num) (by norm_num) (by norm_num) (gridF_given (by norm_num) (by norm_num)) plain_filter
    (.inr ⟨256, by norm_num, rfl, by simp [farFdev, farFcloud]⟩) (by norm_num [gridF, numTrackingGrids, Dims.total]) (by simp [farFdev, farFcloud])
    (.cons ⟨farF_within, farF_given (by norm_num) (by positivity), rfl⟩ .nil) (fun c hc => ?_) rfl
  · obtain ⟨y, k1, k2, k3⟩ := sqrtRounds_float hs q hq
    exact ⟨y, k1, k2, k3.trans (by norm_num; linarith)⟩
  · obtain rfl := List.mem_singleton.1 hc
    refine .inr fun x hx => ?_
    rw [farF_only hx, farF_place, farF_sensor]
    refine ⟨by norm_num [Apart, distSq, third], fun a => ?_⟩
    fin_cases a
    · exact .inr (by norm_num [GetsOn, distSq, third])
    · exact .inl (by norm_num [BetweenFaces, fairTol, gridF, axisCells])
    · exact .inl (by norm_num [BetweenFaces, fairTol, gridF, axisCells, third])

/-- The hypotheses of `C88_world_has_result` are met: a turned grid. -/
example {sqrt : Fl → Fl} (hs : IeeeSqrt sqrt) :
    ∃ output', FlVoxelizeRuns fusedDouble (fusedSqrt sqrt) gridF ⟨.fin 1, 1, 1⟩ [nearFcloud] dark4 output' := by
  refine C88_world_has_result (e := 1) (B := 128) (cams := [worldF]) (gw := turnedGrid) ((fusedDouble_accurate hs).mono (u' := 18 * (1 / 2 ^ 53)) (by norm_num))
    ((room_double (e := 1) (B := 5 * 128) (by norm_num) (by norm_num) (by norm_num)).mono (u' := 18 * (1 / 2 ^ 53)) (by norm_num) (by norm_num))
    (worldRoom_double (B := 128) (by norm_num)) (gridF_given (by norm_num) (by norm_num)) (fusedDouble_index hs)
    (indexRoom_double (by norm_num) (by norm_num) (by norm_num)) plain_filter (by simp [nearFcloud])
    (.cons ⟨⟨worldF_posed, worldF_given (by norm_num) (by positivity)⟩, rfl⟩ .nil) (fun c hc => ?_) rfl
  obtain rfl := List.mem_singleton.1 hc
  refine .inr fun x hx => ?_
  rw [worldF_only hx, worldF_place, worldF_sensor]
  norm_num [Apart, distSq, third]

/-- The hypotheses of `C88_device_world_has_result` are met: the same camera. -/
example {sqrt : Fl → Fl} (hs : FloatSqrt sqrt) :
    ∃ output', FastDeviceRuns roughShare (cudaApi 256) fastFloat (fusedSqrt sqrt) gridF ⟨.fin 1, 1, 1⟩ [nearFdev] dark4 dark4 output' := by
  have hs' : SqrtRounds sqrt (3 * (1 / 2 ^ 24)) (3 * (1 / 2 ^ 126)) := fun q hq => by
    obtain ⟨y, k1, k2, k3⟩ := sqrtRounds_float hs q hq
    exact ⟨y, k1, k2, k3.trans (by norm_num; linarith)⟩
  refine C88_device_world_has_result (e := 1) (B := 128) (ν := 1 / 4) (cams := [worldF]) (gw := turnedGrid)
    ((fastFloat_accurate hs').mono (u' := 4 * (1 / 2 ^ 24)) (by norm_num))
    ((room_float (e := 1) (B := 5 * 128) (by norm_num) (by norm_num) (by norm_num)).mono (u' := 4 * (1 / 2 ^ 24)) (by norm_num) (by norm_num))
    (worldRoom_float (B := 128) (by norm_num)) (gridF_given (by norm_num) (by norm_num)) (fastFloat_index hs')
    (indexRoom_float (by norm_num) (by norm_num) (by norm_num) (by norm_num)) plain_filter (.inr ⟨256, by norm_num, rfl, by simp [nearFdev, nearFcloud]⟩)
    (by norm_num [gridF, numTrackingGrids, Dims.total]) (by simp [nearFdev, nearFcloud])
    (.cons ⟨⟨worldF_posed, worldF_given (by norm_num) (by positivity)⟩, rfl⟩ .nil) (fun c hc => ?_) rfl
  obtain rfl := List.mem_singleton.1 hc
  refine .inr fun x hx => ?_
  rw [worldF_only hx, worldF_place, worldF_sensor]
  refine ⟨by norm_num [Apart, distSq, third], fun a => ?_⟩
  fin_cases a
  · exact .inr (by norm_num [GetsOn, distSq, third])
  · exact .inl (by norm_num [BetweenFaces, fairTol, gridF, axisCells])
  · exact .inl (by norm_num [BetweenFaces, fairTol, gridF, axisCells, third])

end VGT
