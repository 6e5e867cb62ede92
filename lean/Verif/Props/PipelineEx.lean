import Verif.Props.PipelineAll

/-!
C77: when there is a field and an answer, and concrete cases.
-/
set_option autoImplicit false

namespace VGT
open VGT.EDT VGT.Spec VGT.Par

theorem idx_in {d : Dims} {i : Fin 3 → ℤ} (h : CellInGrid (axisCells d) i) : d.In (cellIdx i) := cellIdx_in h

/-- C77, there is a field: every map with an obstacle and a cell that is none has a signed distance field, at any pose. -/
theorem C77_field_exists {K : Type} {ro : Rounding} {gp : GenParams} {m : VoxMap K} {s : ℝ} (hok : GenOK ro (m.cells s).info) {P : Pose ℝ}
    (hP : Orthogonal P.R) {i j : Fin 3 → ℤ} (hi : CellInGrid (axisCells m.dims) i)
    (fi : ¬ Obstacle gp.unknownIsFilled (m.data (dataIndex m.dims i))) (hj : CellInGrid (axisCells m.dims) j)
    (fj : Obstacle gp.unknownIsFilled (m.data (dataIndex m.dims j))) : ∃ F, FieldOf ro gp m s F ∧ F.pose = P := by
  obtain ⟨r, hr⟩ := gridRuns_exists hok (isFilledPlain id (m.cells s) gp) gp.addBorder gp.oob
  obtain ⟨out, data, rfl, h⟩ := finite_run (filled := fun i => occFilled gp ((m.cells s).data i)) hok
    (fun i hi => isFilledPlain_toZ id (m.cells s) gp hi) (idx_in hi)
    (by
      have h := mt (occFilled_iff gp _).1 fi
      exact Bool.eq_false_iff.2 h) (idx_in hj) ((occFilled_iff gp _).2 fj) hr
  exact ⟨⟨m.dims, s, P, data⟩, ⟨hP, hok, rfl, rfl, out, hr, h⟩, rfl⟩

/-- C77, there is an answer at every location that is in the grid by a little more than the rounding error of its coordinates. -/
theorem C77_answer_exists {norm : (Fin 3 → ℝ) → ℝ} {interp : (Fin 3 → ℝ) → (Fin 3 → ℝ) → (Bool → Bool → Bool → ℝ) → (Fin 3 → ℝ) → ℝ}
    {toGrid : Vec4 ℝ → Fin 3 → ℝ} {toWorld rotate : (Fin 3 → ℝ) → Fin 3 → ℝ} {K : Type} {gp : GenParams} {m : VoxMap K} {s N : ℚ}
    {F : SDFGrid ℝ} {loc : Vec4 ℝ} {p : Fin 3 → ℝ} (hF : FieldOf floatSDF gp m (s : ℝ) F) (hint : DoubleInterpolation interp)
    (hp : InFrame F.pose.R F.pose.t (toGrid loc) p) (hs : 1 / 2 ^ 100 ≤ s) (hs' : s ≤ 2 ^ 100) (hN : 1 ≤ N) (hN' : N ≤ 2 ^ 43)
    (hcells : ∀ a, (axisCells m.dims a : ℚ) ≤ N)
    (hin : ∀ a, 5 * (2 ^ (-53 : ℤ) * N) * s ≤ toGrid loc a ∧ toGrid loc a < (axisCells m.dims a - 5 * (2 ^ (-53 : ℤ) * N)) * s) :
    ∃ e', Answers norm interp toGrid toWorld rotate gp m s N F loc e' p := by
  have b1 : (2 : ℝ) ^ (-100 : ℤ) ≤ F.s := by
    rw [hF.edge]
    have h1 : ((1 / 2 ^ 100 : ℚ) : ℝ) ≤ s := Rat.cast_le.2 hs
    push_cast at h1
    rw [zpow_neg, ← one_div]
    exact_mod_cast h1
  have b2 : F.s ≤ 2 ^ (100 : ℤ) := by
    rw [hF.edge]
    exact_mod_cast hs'
  have b3 : (1 : ℝ) ≤ N := by exact_mod_cast hN
  have b4 : (N : ℝ) ≤ 2 ^ 43 := by exact_mod_cast hN'
  have hsb : (2 : ℝ) ^ (-1022 : ℤ) ≤ F.s := le_trans (zpow_le_zpow_right₀ (by norm_num) (by norm_num)) b1
  have hsb' : F.s ≤ (2 : ℝ) ^ (1022 : ℤ) := b2.trans (zpow_le_zpow_right₀ (by norm_num) (by norm_num))
  have hpr : Precise (roundDouble : ℝ → ℝ) (2 ^ (-53 : ℤ)) (2 ^ (-1075 : ℤ)) F.s N := precise_double hsb b3 b4
  have hsp := hpr.s0
  have h5 : 0 ≤ 5 * (2 ^ (-53 : ℤ) * (N : ℝ)) := by positivity
  rw [← hF.edge, ← hF.dims] at hin
  obtain ⟨e', he'⟩ := (C67_estimate_defined hpr (double_inverse hsb hsb') (norm := norm) (interp := interp) (toGrid := toGrid)
    (toWorld := toWorld) (rotate := rotate) (loc := loc) (fun a => by
      obtain ⟨h1, h2⟩ := hin a
      have h3 : 0 ≤ toGrid loc a := le_trans (by positivity) h1
      rw [abs_of_nonneg h3]
      have h4 : (axisCells F.dims a : ℝ) ≤ N := by
        rw [hF.dims]
        exact_mod_cast hcells a
      exact h2.le.trans (mul_le_mul_of_nonneg_right (by linarith) hsp.le))).1 hin
  exact ⟨e', hF, hint, he', hp, hs, hs', hN, hN', hcells⟩

/-! ### Concrete cases -/

theorem dark4_cells {output' : VoxMap ℚ} (hd : output'.dims = ⟨4, 4, 4⟩) : GenOK floatSDF (output'.cells 1).info where
  rq := roundDouble_isDoubleRounding
  rr := roundDouble_isRounding
  rc := roundFloat_isRounding
  uniform := ⟨rfl, rfl⟩
  res := one_pos
  repr := roundDouble_isRounding.one
  castPos := by
    have : floatSDF.cast 1 = 1 := roundFloat_isRounding.one
    show 0 < floatSDF.cast 1
    rw [this]; exact one_pos
  fits := by
    show Fits (enlarge output'.dims)
    rw [hd]
    constructor <;> decide

/-- Queries without rounding of the pose, at the centre of cell (0, 3, 3). -/
noncomputable def corner : Fin 3 → ℝ := ![3 / 2, 5 / 2, 5 / 2]

/-- A field without border and unknown cells, and its answer at `corner`, exist for a map of 4×4×4 cells with a filled and a free cell. -/
theorem corner_answers {n : ℚ} (hn : 6 ≤ n) (hn' : n ≤ 48) {output' : VoxMap ℚ} (hd : output'.dims = ⟨4, 4, 4⟩) {i j : Fin 3 → ℤ} (hi : CellInGrid (axisCells output'.dims) i)
    (fi : ¬ Obstacle false (output'.data (dataIndex output'.dims i))) (hj : CellInGrid (axisCells output'.dims) j)
    (fj : Obstacle false (output'.data (dataIndex output'.dims j))) :
    ∃ F e', Answers (fun _ => 0) (flTrilinear (roundedArith roundDouble)) (fun l => l.v) id id ⟨.fin 0, false, false⟩ output' 1 n F
      (point4 corner) e' corner ∧ ∀ x, InFrame F.pose.R F.pose.t x x := by
  obtain ⟨F, hF, hP⟩ := C77_field_exists (gp := ⟨.fin 0, false, false⟩) (dark4_cells hd)
    (P := ⟨fun i j => if i = j then 1 else 0, fun _ => 0⟩)
    (by constructor <;> intro a b <;> fin_cases a <;> fin_cases b <;> simp) hi fi hj fj
  have hframe : ∀ x : Fin 3 → ℝ, InFrame F.pose.R F.pose.t x x := by
    rw [hP]; intro x a; fin_cases a <;> simp
  have hn1 : (n : ℝ) ≤ 48 := by exact_mod_cast hn'
  have hn0 : (0 : ℝ) ≤ n := by
    have : (6 : ℝ) ≤ n := by exact_mod_cast hn
    linarith
  have e53 : (2 : ℝ) ^ (-53 : ℤ) = 1 / 2 ^ 53 := by rw [zpow_neg, one_div]; norm_cast
  obtain ⟨e', he⟩ := C77_answer_exists (norm := fun _ => 0) (interp := flTrilinear (roundedArith roundDouble)) (toGrid := fun l => l.v)
    (toWorld := id) (rotate := id) (s := 1) (N := n) (loc := point4 corner) (p := corner) (by rw [Rat.cast_one]; exact hF) (.inl rfl) (hframe _)
    (by norm_num) (by norm_num) (by linarith) (by linarith)
    (by rw [hd]; intro a; fin_cases a <;> simp [axisCells] <;> linarith)
    (by
      rw [hd, e53]
      intro a
      fin_cases a <;> simp [axisCells, point4, corner] <;> constructor <;> linarith)
  exact ⟨F, e', he, hframe⟩


/-- A cell at height 1 or more is not next to a point below 9/10. -/
theorem low_point {tol : ℚ} (ht : tol < 1 / 10) {i : Fin 3 → ℤ} (hi : 1 ≤ i 2) {y : Fin 3 → ℚ} (hy : y 2 ≤ 9 / 10) : ¬ NearBox tol 1 i y := by
  intro h
  have h1 := (h 2).1
  have h2 : (1 : ℚ) ≤ i 2 := by exact_mod_cast hi
  linarith

/-- The cells around `corner` are at height 1 or more. -/
theorem corner_high {i : Fin 3 → ℤ} (h : ∀ a, |cellCentre ((1 : ℚ) : ℝ) i a - corner a| ≤ 17 / 16 * ((1 : ℚ) : ℝ)) : 1 ≤ i 2 := by
  by_contra hlt
  have h1 : (i 2 : ℝ) ≤ 0 := by
    have : i 2 ≤ 0 := by omega
    exact_mod_cast this
  have h2 := (abs_le.1 (h 2)).1
  have h3 : corner 2 = 5 / 2 := rfl
  simp only [cellCentre, h3] at h2
  push_cast at h2
  linarith

/-- `corner` is in the open if all filled cells are at height 0. -/
theorem corner_open {n : ℚ} (hn : 0 ≤ n) (hn' : n ≤ 48) {output' : VoxMap ℚ} (hd : output'.dims = ⟨4, 4, 4⟩)
    (h : ∀ i, CellInGrid (axisCells output'.dims) i → 1 ≤ i 2 → ¬ AboveHalf (output'.data (dataIndex output'.dims i))) :
    OpenAround output' 1 n corner where
  mid := by
    have hn1 : (n : ℝ) ≤ 48 := by exact_mod_cast hn'
    have hn0 : (0 : ℝ) ≤ n := by exact_mod_cast hn
    have e53 : (2 : ℝ) ^ (-53 : ℤ) = 1 / 2 ^ 53 := by rw [zpow_neg, one_div]; norm_cast
    rw [hd, e53]
    intro a
    right
    fin_cases a <;> simp [axisCells, corner] <;> constructor <;> linarith
  free := fun i hi hn => h i hi (corner_high hn)

theorem not_obstacle {o : Fl} (h : ¬ AboveHalf o) : ¬ Obstacle false o := by
  rintro (h1 | ⟨h1, -⟩)
  · exact h h1
  · cases h1

theorem above_cases {o : Fl} (h : AboveHalf o) (ho : o = .fin 0 ∨ o = .fin (1 / 2) ∨ o = .fin 1) : o = .fin 1 := by
  rcases ho with rfl | rfl | rfl
  · rcases h with h3 | ⟨q, h3, h4⟩ <;> cases h3
    norm_num at h4
  · rcases h with h3 | ⟨q, h3, h4⟩ <;> cases h3
    norm_num at h4
  · rfl

theorem dark4_nonan : NoNaN dark4 := fun _ _ => by simp [dark4]

/-- From nothing known, with all points low, no cell at height 1 or more becomes filled. -/
theorem dark4_low {sqrt : Fl → Fl} (hs : IeeeSqrt sqrt) {n : ℚ} (h0 : 6 ≤ n) (h1 : n ≤ 48) {c : Camera3} (hlen : c.points.length < 2 ^ 31)
    (hc : c.Within 8) (hlow : ∀ x, some x ∈ c.points → c.place x 2 ≤ 9 / 10) {output' : VoxMap ℚ}
    (h : FlVoxelizeRuns double64 sqrt grid4 ⟨.fin 1, 1, 1⟩ ([c].map Camera3.cloud) dark4 output') :
    output'.dims = ⟨4, 4, 4⟩ ∧ ∀ i, CellInGrid (axisCells output'.dims) i → 1 ≤ i 2 → ¬ AboveHalf (output'.data (dataIndex output'.dims i)) := by
  obtain ⟨-, hd', -, hkeep⟩ := C74_keeps_filled h
  have hd : output'.dims = grid4.dims := hd'
  refine ⟨hd, fun i hi hi2 ha => ?_⟩
  rw [hd] at hi ha
  have hlt : dataIndex grid4.dims i < dark4.dims.total := dataIndex_lt (d := grid4.dims) hi
  have hocc : (dark4.data (dataIndex grid4.dims i)).le (.fin (1 / 2)) = true := by simp [dark4, Fl.le]
  obtain ⟨c', hcm, hcnt⟩ := C74_double_filled_is_real (cams := [c]) hs (grid4_double h0 (by linarith))
    (by decide +kernel : FilterOptions.make (.fin 1) 1 1 = some ⟨.fin 1, 1, 1⟩)
    (by simpa using hlen) (by simpa using hc) rfl h hi hocc (above_cases ha (by
      rcases (hkeep _ hlt).2 hocc with h | h | h
      · exact .inl h
      · exact .inr (.inl h)
      · exact .inr (.inr h)))
  obtain rfl := List.mem_singleton.1 hcm
  obtain ⟨x, hx, hnear, -⟩ := howMany_pos le_rfl hcnt
  refine low_point ?_ hi2 (hlow x hx) hnear
  unfold doubleTol
  have : n ^ 2 ≤ 48 ^ 2 := by
    have : 0 ≤ n := by linarith
    gcongr
  norm_num at this ⊢
  linarith

/-- The same on a device. -/
theorem dark4_low_float {sqrt : Fl → Fl} (hs : FloatSqrt sqrt) {api : DeviceApi} {c : Camera3} (hh : Helper api ([c].map (Camera3.dev floatR)))
    (hN : grid4.dims.total * 2 * numTrackingGrids ([c].map (Camera3.dev floatR)) < 2 ^ 31) (hlen : c.points.length ≤ 2 ^ 24)
    (hc : c.Within 8) (ht : c.Turns) (hr : ∀ r, c.range = .fin r → 0 ≤ r) (hlow : ∀ x, some x ∈ c.points → c.place x 2 ≤ 9 / 10)
    {output' : VoxMap ℚ} (h : DeviceVoxelizeRuns api float32 sqrt grid4 ⟨.fin 1, 1, 1⟩ ([c].map (Camera3.dev floatR)) dark4 dark4 output') :
    output'.dims = ⟨4, 4, 4⟩ ∧ ∀ i, CellInGrid (axisCells output'.dims) i → 1 ≤ i 2 → ¬ AboveHalf (output'.data (dataIndex output'.dims i)) := by
  have hd : output'.dims = grid4.dims := device_dims h
  refine ⟨hd, fun i hi hi2 ha => ?_⟩
  rw [hd] at hi ha
  have hop : FilterOptions.make (.fin 1) 1 1 = some ⟨.fin 1, 1, 1⟩ := by decide +kernel
  have hlen' : ∀ c' ∈ [c], c'.points.length ≤ 2 ^ 24 := by simpa using hlen
  have hocc : (dark4.data (dataIndex grid4.dims i)).le (.fin (1 / 2)) = true := by simp [dark4, Fl.le]
  have hdec := C57_device_decision hh hN hop (devs_length hlen') rfl h hi hocc
  obtain ⟨c', hcm, hcnt⟩ := C76_float_filled_is_real (cams := [c]) hs grid4_float hh hN hop hlen' (by simpa using hc) (by simpa using ht)
    (by simpa using hr) rfl h hi hocc (above_cases ha (by
      unfold decision at hdec
      split_ifs at hdec
      · exact .inr (.inr hdec)
      · exact .inl hdec
      · exact .inr (.inl hdec)))
  obtain rfl := List.mem_singleton.1 hcm
  obtain ⟨x, hx, hnear, -⟩ := howMany_pos le_rfl hcnt
  refine low_point ?_ hi2 (hlow x hx) hnear
  norm_num [floatTol]

theorem askew_place : askew.place ![2, 1, 0] = ![5 / 2, 3 / 2, 1 / 2] := by
  unfold askew
  rw [lookFrom_place]
  funext a
  fin_cases a <;> norm_num

theorem before4_place : before4.place ![4, 0, 0] = ![5 / 2, 1 / 2, 1 / 2] := by
  unfold before4
  rw [lookFrom_place]
  funext a
  fin_cases a <;> norm_num

theorem askew_low : ∀ x, some x ∈ askew.points → askew.place x 2 ≤ 9 / 10 := by
  intro x hx
  have : x = ![2, 1, 0] := by simpa [askew, lookFrom] using hx
  subst this
  rw [askew_place]
  norm_num [show (![5 / 2, 3 / 2, 1 / 2] : Fin 3 → ℚ) 2 = 1 / 2 from rfl]

theorem before4_low : ∀ x, some x ∈ before4.points → before4.place x 2 ≤ 9 / 10 := by
  intro x hx
  have : x = ![4, 0, 0] := by simpa [before4, lookFrom] using hx
  subst this
  rw [before4_place]
  norm_num [show (![5 / 2, 1 / 2, 1 / 2] : Fin 3 → ℚ) 2 = 1 / 2 from rfl]

theorem before4_within : before4.Within 8 := lookFrom_within (by intro a; fin_cases a <;> norm_num [abs_le]) (by
  intro x hx a
  have : x = ![4, 0, 0] := by simpa using hx
  subst this
  fin_cases a <;> norm_num)

theorem before4_well {tol : ℚ} (h0 : 0 ≤ tol) (h1 : tol ≤ 1 / 2) : WellWithin tol before4.range before4.sensor (before4.place ![4, 0, 0]) := by
  intro r hr
  have : r = 5 := by simpa [before4, lookFrom] using hr.symm
  rw [this, before4_place]
  unfold before4
  rw [lookFrom_sensor]
  rw [show distSq ![-3 / 2, 1 / 2, 1 / 2] ![5 / 2, 1 / 2, 1 / 2] = 16 by unfold distSq; decide +kernel]
  constructor <;> nlinarith

theorem top_cell : CellInGrid (axisCells (⟨4, 4, 4⟩ : Dims)) ![3, 3, 3] := by unfold CellInGrid; decide

/-- The answer at `corner` for a map with an obstacle that is low. -/
theorem low_answers {n tol : ℚ} (hn : 6 ≤ n) (hn' : n ≤ 48) {output' : VoxMap ℚ} {y : Fin 3 → ℚ} (hl : output'.dims = ⟨4, 4, 4⟩ ∧
      ∀ i, CellInGrid (axisCells output'.dims) i → 1 ≤ i 2 → ¬ AboveHalf (output'.data (dataIndex output'.dims i))) (hk : Kept tol 1 output' y) :
    ∃ F e', Answers (fun _ => 0) (flTrilinear (roundedArith roundDouble)) (fun l => l.v) id id ⟨.fin 0, false, false⟩ output' 1 n F
      (point4 corner) e' corner ∧ ∀ x, InFrame F.pose.R F.pose.t x x := by
  obtain ⟨i, hi, -, ha⟩ := hk
  have htop : CellInGrid (axisCells output'.dims) ![3, 3, 3] := by rw [hl.1]; exact top_cell
  exact corner_answers hn hn' hl.1 htop (not_obstacle (hl.2 _ htop (by decide))) hi (.inl ha)

/-- The hypotheses of the theorems for sensors in the grid are met on the CPU (`C77_double_clearance_partial`, `C77_double_measured`). -/
example {sqrt : Fl → Fl} (hs : IeeeSqrt sqrt) : ∃ (output' : VoxMap ℚ) (F : SDFGrid ℝ) (e' : ℝ),
    Answers (fun _ => 0) (flTrilinear (roundedArith roundDouble)) (fun l => l.v) id id ⟨.fin 0, false, false⟩ output' 1 6 F
      (point4 corner) e' corner ∧
    e' - (Real.sqrt 3 + 3 + (6 : ℚ) / 2 ^ 18 + (6 : ℚ) ^ 2 / 2 ^ 37) * (1 : ℚ) - dist3 corner corner - 2 * (doubleTol 1 6 8 : ℚ) ≤
      dist3 corner (fun a => ((askew.place ![2, 1, 0] a : ℚ) : ℝ)) ∧
    ∃ y : Fin 3 → ℚ, ((∃ c ∈ [askew], ∃ x, some x ∈ c.points ∧ y = c.place x ∧ NotBeyond (doubleTol 1 6 8) c.range c.sensor y) ∨
        ∃ i, CellInGrid (axisCells grid4.dims) i ∧ AboveHalf (dark4.data (dataIndex grid4.dims i)) ∧ y = cellCentre 1 i) ∧
      ∀ Y, InFrame F.pose.R F.pose.t (fun a => (y a : ℝ)) Y → dist3 corner Y ≤
        e' + (1 / 2 + Real.sqrt 3 + (6 : ℚ) / 2 ^ 18 + (6 : ℚ) ^ 2 / 2 ^ 37) * (1 : ℚ) + dist3 corner corner + 2 * (doubleTol 1 6 8 : ℚ) := by
  have G := grid4_double (n := 6) (by norm_num) (by norm_num)
  have ho : FilterOptions.make (.fin 1) 1 1 = some ⟨.fin 1, 1, 1⟩ := by decide +kernel
  have hlen : ∀ c ∈ [askew], c.points.length < 2 ^ 31 := by decide
  have hm : askew ∈ [askew] := List.mem_singleton_self _
  have hr : DoubleRange askew.range := ⟨by decide, fun r hr => by cases hr⟩
  have hsensor : DeepInGrid (doubleTol 1 6 8) 1 (axisCells grid4.dims) askew.sensor := by
    unfold askew
    rw [lookFrom_sensor]
    intro a
    fin_cases a <;> norm_num [doubleTol, grid4, axisCells]
  have hx : some ![2, 1, 0] ∈ askew.points := List.mem_cons_self
  have h1 : DeepInGrid (doubleTol 1 6 8) 1 (axisCells grid4.dims) (askew.place ![2, 1, 0]) := by
    rw [askew_place]
    intro a
    fin_cases a <;> norm_num [doubleTol, grid4, axisCells]
  have h2 : WellWithin (doubleTol 1 6 8) askew.range askew.sensor (askew.place ![2, 1, 0]) := fun r hr => by cases hr
  obtain ⟨out, hout, -⟩ := askew_run hs
  have hl := dark4_low (c := askew) hs (n := 6) (by norm_num) (by norm_num) (hlen _ hm) askew_within askew_low hout
  have hk : Kept (doubleTol 1 6 8) 1 out (askew.place ![2, 1, 0]) := by
    rw [← camTol_double] at hsensor h1 h2 ⊢
    exact C77_point_kept_partial (cams := [askew]) (G.precise hs) ho hlen rfl dark4_nonan hout hm askew_within (hr.ok G.B_le) hsensor hx h1 h2
  obtain ⟨F, e', hA, hfr⟩ := low_answers (n := 6) (by norm_num) (by norm_num) hl hk
  refine ⟨out, F, e', hA, ?_, ?_⟩
  · exact C77_double_clearance_partial (cams := [askew]) hs G ho hlen rfl dark4_nonan hout hm askew_within hr hsensor hx h1 h2 hA (hfr _)
  · exact C77_double_measured (cams := [askew]) hs G ho hlen rfl (by simpa using askew_within) hout hA rfl rfl
      (corner_open (by norm_num) (by norm_num) hl.1 hl.2)

/-- The hypotheses for sensors outside the grid are met on the CPU (`C77_double_clearance`). -/
example {sqrt : Fl → Fl} (hs : IeeeSqrt sqrt) : ∃ (output' : VoxMap ℚ) (F : SDFGrid ℝ) (e' : ℝ),
    Answers (fun _ => 0) (flTrilinear (roundedArith roundDouble)) (fun l => l.v) id id ⟨.fin 0, false, false⟩ output' 1 6 F
      (point4 corner) e' corner ∧
    e' - (Real.sqrt 3 + 3 + (6 : ℚ) / 2 ^ 18 + (6 : ℚ) ^ 2 / 2 ^ 37) * (1 : ℚ) - dist3 corner corner - 2 * (doubleReachTol 1 6 48 8 : ℚ) ≤
      dist3 corner (fun a => ((before4.place ![4, 0, 0] a : ℚ) : ℝ)) := by
  have G := grid4_double (n := 6) (by norm_num) (by norm_num)
  have ho : FilterOptions.make (.fin 1) 1 1 = some ⟨.fin 1, 1, 1⟩ := by decide +kernel
  have hlen : ∀ c ∈ [before4], c.points.length < 2 ^ 31 := by decide
  have hm : before4 ∈ [before4] := List.mem_singleton_self _
  have hr : DoubleRange before4.range := by
    refine ⟨by decide, fun r hr => ?_⟩
    have : r = 5 := by simpa [before4, lookFrom] using hr.symm
    rw [this]
    norm_num
  have hreach : ∀ a, 8 * |before4.sensor a| + 264 * 8 / 2 ^ 53 ≤ (48 : ℚ) * 1 := by
    unfold before4
    rw [lookFrom_sensor]
    intro a
    fin_cases a <;> norm_num [abs_of_neg, abs_of_pos]
  have hsize : ∀ a, ∃ z, grid4.size a = .fin z ∧ |z - axisCells grid4.dims a * 1| ≤ 48 * 1 / 2 ^ 53 := by
    intro a; exact ⟨4, rfl, by fin_cases a <;> norm_num [grid4, axisCells]⟩
  have hx : some ![4, 0, 0] ∈ before4.points := List.mem_cons_self
  have h1 : DeepInGrid (doubleWideTol 1 6 48 8) 1 (axisCells grid4.dims) (before4.place ![4, 0, 0]) := by
    rw [before4_place]
    intro a
    fin_cases a <;> norm_num [doubleWideTol, grid4, axisCells]
  have h2 : WellWithin (doubleWideTol 1 6 48 8) before4.range before4.sensor (before4.place ![4, 0, 0]) :=
    before4_well (by norm_num [doubleWideTol]) (by norm_num [doubleWideTol])
  obtain ⟨out, hout, -⟩ := before4_run hs
  have hl := dark4_low (c := before4) hs (n := 6) (by norm_num) (by norm_num) (hlen _ hm) before4_within before4_low hout
  have hk : Kept (doubleReachTol 1 6 48 8) 1 out (before4.place ![4, 0, 0]) := by
    rw [← wideTol_double] at h1 h2
    rw [← camTol_double_wide]
    exact C77_point_kept (cams := [before4]) (G.preciseWide hs (n := 48) (by norm_num) (by norm_num)) (G.toWide (by norm_num) (by norm_num) hsize) ho hlen rfl dark4_nonan hout hm before4_within
      (hr.ok G.B_le) (fun a => by have := hreach a; linarith) hx h1 h2
  obtain ⟨F, e', hA, hfr⟩ := low_answers (n := 6) (by norm_num) (by norm_num) hl hk
  exact ⟨out, F, e', hA, C77_double_clearance (cams := [before4]) hs G (n := 48) (by norm_num) (by norm_num) hsize ho hlen rfl dark4_nonan hout hm before4_within hr
    hreach hx h1 h2 hA (hfr _)⟩

/-- The hypotheses for sensors in the grid are met on a CUDA device (`C77_float_clearance_partial`, `C77_float_measured`). -/
example {sqrt : Fl → Fl} (hs : FloatSqrt sqrt) : ∃ (output' : VoxMap ℚ) (F : SDFGrid ℝ) (e' : ℝ),
    Answers (fun _ => 0) (flTrilinear (roundedArith roundDouble)) (fun l => l.v) id id ⟨.fin 0, false, false⟩ output' 1 6 F
      (point4 corner) e' corner ∧
    e' - (Real.sqrt 3 + 3 + (6 : ℚ) / 2 ^ 18 + (6 : ℚ) ^ 2 / 2 ^ 37) * (1 : ℚ) - dist3 corner corner - 2 * (floatTol 1 6 8 : ℚ) ≤
      dist3 corner (fun a => ((askew.place ![2, 1, 0] a : ℚ) : ℝ)) ∧
    ∃ y : Fin 3 → ℚ, ((∃ c ∈ [askew], ∃ x, some x ∈ c.points ∧ y = c.place x ∧ NotBeyond (floatTol 1 6 8) c.range c.sensor y) ∨
        ∃ i, CellInGrid (axisCells grid4.dims) i ∧ AboveHalf (dark4.data (dataIndex grid4.dims i)) ∧ y = cellCentre 1 i) ∧
      ∀ Y, InFrame F.pose.R F.pose.t (fun a => (y a : ℝ)) Y → dist3 corner Y ≤
        e' + (1 / 2 + Real.sqrt 3 + (6 : ℚ) / 2 ^ 18 + (6 : ℚ) ^ 2 / 2 ^ 37) * (1 : ℚ) + dist3 corner corner + 2 * (floatTol 1 6 8 : ℚ) := by
  have G := grid4_float
  have ho : FilterOptions.make (.fin 1) 1 1 = some ⟨.fin 1, 1, 1⟩ := by decide +kernel
  have hh : Helper (F := Fl) (cudaApi 256) ([askew].map (Camera3.dev floatR)) := .inr ⟨256, by norm_num, rfl, by simp [askew, lookFrom, Camera3.dev]⟩
  have hN : grid4.dims.total * 2 * numTrackingGrids ([askew].map (Camera3.dev floatR)) < 2 ^ 31 := by decide
  have hlen : ∀ c ∈ [askew], c.points.length ≤ 2 ^ 24 := by decide
  have hm : askew ∈ [askew] := List.mem_singleton_self _
  have ht : askew.Turns := lookFrom_turns _ _ _
  have hr : FloatRange askew.range := ⟨by decide, fun r hr => by cases hr⟩
  have hr0 : ∀ r, askew.range = .fin r → 0 ≤ r := fun r hr => by cases hr
  have hsensor : DeepInGrid (floatTol 1 6 8) 1 (axisCells grid4.dims) askew.sensor := by
    unfold askew
    rw [lookFrom_sensor]
    intro a
    fin_cases a <;> norm_num [floatTol, grid4, axisCells]
  have hx : some ![2, 1, 0] ∈ askew.points := List.mem_cons_self
  have h1 : DeepInGrid (floatTol 1 6 8) 1 (axisCells grid4.dims) (askew.place ![2, 1, 0]) := by
    rw [askew_place]
    intro a
    fin_cases a <;> norm_num [floatTol, grid4, axisCells]
  have h2 : WellWithin (floatTol 1 6 8) askew.range askew.sensor (askew.place ![2, 1, 0]) := fun r hr => by cases hr
  obtain ⟨out, hout⟩ := C76_float_has_result (cams := [askew]) (static := dark4) (output := dark4) hs G (by norm_num) hh hN ho hlen
    (by simpa using askew_within) (by simpa using ht) (by simpa using hr) (by simpa using hsensor) rfl
  have hl := dark4_low_float (c := askew) hs hh hN (hlen _ hm) askew_within ht hr0 askew_low hout
  have hk : Kept (floatTol 1 6 8) 1 out (askew.place ![2, 1, 0]) := by
    rw [← devTol_float] at hsensor h1 h2 ⊢
    obtain ⟨s, -, -, P⟩ := G.precise hs
    exact C77_device_point_kept_partial (bits := 32) (cams := [askew]) P hh hN ho hlen rfl rfl dark4_nonan hout hm askew_within ht
      (hr.ok G.B_le) hsensor hx h1 h2
  obtain ⟨F, e', hA, hfr⟩ := low_answers (n := 6) (by norm_num) (by norm_num) hl hk
  refine ⟨out, F, e', hA, ?_, ?_⟩
  · exact C77_float_clearance_partial (cams := [askew]) hs G hh hN ho hlen rfl rfl dark4_nonan hout hm askew_within ht hr hsensor hx h1 h2 hA (hfr _)
  · exact C77_float_measured (cams := [askew]) hs G hh hN ho hlen rfl rfl (by simpa using askew_within) (by simpa using ht) (by simpa using hr0)
      hout hA rfl rfl (corner_open (by norm_num) (by norm_num) hl.1 hl.2)

/-- The hypotheses for sensors outside the grid are met on an OpenCL device (`C77_float_clearance`). -/
example {sqrt : Fl → Fl} (hs : FloatSqrt sqrt) : ∃ (output' : VoxMap ℚ) (F : SDFGrid ℝ) (e' : ℝ),
    Answers (fun _ => 0) (flTrilinear (roundedArith roundDouble)) (fun l => l.v) id id ⟨.fin 0, false, false⟩ output' 1 6 F
      (point4 corner) e' corner ∧
    e' - (Real.sqrt 3 + 3 + (6 : ℚ) / 2 ^ 18 + (6 : ℚ) ^ 2 / 2 ^ 37) * (1 : ℚ) - dist3 corner corner - 2 * (floatReachTol 1 6 48 8 : ℚ) ≤
      dist3 corner (fun a => ((before4.place ![4, 0, 0] a : ℚ) : ℝ)) := by
  have G := grid4_float
  have ho : FilterOptions.make (.fin 1) 1 1 = some ⟨.fin 1, 1, 1⟩ := by decide +kernel
  have hh : Helper (F := Fl) openclApi ([before4].map (Camera3.dev floatR)) := .inl ⟨rfl, by simp [before4, lookFrom, Camera3.dev]⟩
  have hN : grid4.dims.total * 2 * numTrackingGrids ([before4].map (Camera3.dev floatR)) < 2 ^ 31 := by decide
  have hlen : ∀ c ∈ [before4], c.points.length ≤ 2 ^ 24 := by decide
  have hm : before4 ∈ [before4] := List.mem_singleton_self _
  have ht : before4.Turns := lookFrom_turns _ _ _
  have hr : FloatRange before4.range := by
    refine ⟨by decide, fun r hr => ?_⟩
    have : r = 5 := by simpa [before4, lookFrom] using hr.symm
    rw [this]
    norm_num
  have hr0 : ∀ r, before4.range = .fin r → 0 ≤ r := fun r h => le_trans (by norm_num) (hr.2 r h)
  have hreach : ∀ a, 9 * |before4.sensor a| + 297 * 8 / 2 ^ 24 ≤ (48 : ℚ) * 1 := by
    unfold before4
    rw [lookFrom_sensor]
    intro a
    fin_cases a <;> norm_num [abs_of_neg, abs_of_pos]
  have hsize : ∀ a, ∃ z, grid4.size a = .fin z ∧ |z - axisCells grid4.dims a * 1| ≤ 48 * 1 / 2 ^ 26 := by
    intro a; exact ⟨4, rfl, by fin_cases a <;> norm_num [grid4, axisCells]⟩
  have hx : some ![4, 0, 0] ∈ before4.points := List.mem_cons_self
  have h1 : DeepInGrid (floatWideTol 1 6 48 8) 1 (axisCells grid4.dims) (before4.place ![4, 0, 0]) := by
    rw [before4_place]
    intro a
    fin_cases a <;> norm_num [floatWideTol, grid4, axisCells]
  have h2 : WellWithin (floatWideTol 1 6 48 8) before4.range before4.sensor (before4.place ![4, 0, 0]) :=
    before4_well (by norm_num [floatWideTol]) (by norm_num [floatWideTol])
  obtain ⟨out, hout, -⟩ := before4_float_run hs
  have hl := dark4_low_float (c := before4) hs hh hN (hlen _ hm) before4_within ht hr0 before4_low hout
  have hk : Kept (floatReachTol 1 6 48 8) 1 out (before4.place ![4, 0, 0]) := by
    rw [← devWideTol_float] at h1 h2
    rw [← devTol_float_wide]
    obtain ⟨s, P, hW, hB7, hrch⟩ := G.wide hs (n := 48) (by norm_num) (by norm_num) hsize
    exact C77_device_point_kept (bits := 32) (cams := [before4]) P hW hB7 hh hN ho hlen rfl rfl dark4_nonan hout hm before4_within ht
      (hr.ok G.B_le) (fun a => hrch _ (hreach a)) hx h1 h2
  obtain ⟨F, e', hA, hfr⟩ := low_answers (n := 6) (by norm_num) (by norm_num) hl hk
  exact ⟨out, F, e', hA, C77_float_clearance (cams := [before4]) hs G (n := 48) (by norm_num) (by norm_num) hsize hh hN ho hlen rfl rfl dark4_nonan hout hm
    before4_within ht hr hreach hx h1 h2 hA (hfr _)⟩

end VGT
