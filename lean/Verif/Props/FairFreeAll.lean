import Verif.Props.FairFree

/-!
C89: free cells of whole voxelizations, on the CPU and on devices, in any arithmetic that is right up to a small error.
-/
set_option autoImplicit false

namespace VGT
open VGT.EDT VGT.Spec VGT.Par

/-! ### The filter of the devices -/

section
variable {F K : Type} {share : ℤ → ℤ → Fl} {api : DeviceApi} {A : Arith F} {sqrt : F → F} {g : RayGrid F} {op : FilterOptions}
  {clouds : List (DevCloud F)} {static output output' : VoxMap K} {i : IVec}

theorem fastDec_free {percent : Fl} {t : ℤ} {c : ℤ × ℤ} (h : fastDec share percent t c = some .free) : 0 < c.1 := by
  unfold fastDec at h
  dsimp only at h
  by_contra hc
  rw [if_neg (fun h => hc h.1), if_neg (by omega)] at h
  split_ifs at h <;> cases h

theorem fastDec_of_free {percent : Fl} {t : ℤ} (ht : 1 ≤ t) {c : ℤ × ℤ} (h1 : 0 < c.1) (h2 : c.2 = 0) : fastDec share percent t c = some .free := by
  unfold fastDec
  dsimp only
  rw [h2, if_neg (show ¬ (0 : ℤ) ≥ t by omega), if_neg (by omega), if_pos h1]

theorem fast_fold (hh : Helper api clouds) (hN : g.dims.total * 2 * numTrackingGrids clouds < 2 ^ 31) (hd : static.dims = g.dims)
    (h : FastDeviceRuns share api A sqrt g op clouds static output output') (hi : CellInGrid (axisCells g.dims) i)
    (hocc : (static.data (dataIndex g.dims i)).le (.fin (1 / 2)) = true) :
    ∃ l, l = (if clouds = [] then [(0, 0)] else devCounts A sqrt g clouds i) ∧ output'.data (dataIndex g.dims i) =
      if 0 < l.countP (fun c => fastDec share op.percent.toFloat op.threshold c = some .filled) then .fin 1
      else if ((l.countP fun c => fastDec share op.percent.toFloat op.threshold c = some .free : ℕ) : ℤ) ≥ op.cameras then .fin 0 else .half := by
  obtain ⟨r, hr, e⟩ := fast_cell hh hN hd h hi hocc
  refine ⟨_, rfl, ?_⟩
  have hdec : ∀ y ∈ (if clouds = [] then [(0, 0)] else devCounts A sqrt g clouds i), ∃ r, fastDec share op.percent.toFloat op.threshold y = some r := by
    intro y hy
    cases hy' : fastDec share op.percent.toFloat op.threshold y with
    | none =>
      rw [foldSeen_none ⟨y, hy, hy'⟩] at hr
      cases hr
    | some r => exact ⟨r, rfl⟩
  rw [foldSeen_some hdec] at hr
  cases hr
  rw [e]
  simp only [zero_add, gt_iff_lt, Nat.cast_pos]

open Classical in
/-- A cell becomes 0 only if enough cameras mark it free. -/
theorem fast_count_of_free {pct : Fl} {t k : ℤ} (hop : FilterOptions.make pct t k = some op) (hh : Helper api clouds)
    (hN : g.dims.total * 2 * numTrackingGrids clouds < 2 ^ 31) (hd : static.dims = g.dims)
    (h : FastDeviceRuns share api A sqrt g op clouds static output output') (hi : CellInGrid (axisCells g.dims) i)
    (hocc : (static.data (dataIndex g.dims i)).le (.fin (1 / 2)) = true) (hzero : output'.data (dataIndex g.dims i) = .fin 0) :
    k ≤ clouds.countP fun c => decide (0 < devHits A sqrt g c (.free i)) := by
  obtain ⟨l, hl, e⟩ := fast_fold hh hN hd h hi hocc
  obtain ⟨rfl, -, -⟩ := make_ok hop
  rw [e] at hzero
  unfold Fl.half at hzero
  dsimp only at hzero
  split_ifs at hzero with h1 h2
  · have := Fl.fin.inj hzero; norm_num at this
  · refine h2.le.trans (Nat.cast_le.2 ?_)
    by_cases hnil : clouds = []
    · rw [if_pos hnil] at hl
      rw [hl, List.countP_cons, List.countP_nil, if_neg]
      · exact Nat.zero_le _
      · intro h3
        exact absurd (fastDec_free (of_decide_eq_true h3)) (by norm_num)
    · rw [if_neg hnil] at hl
      rw [hl]
      unfold devCounts
      rw [List.countP_map]
      refine List.countP_mono_left fun c _ hp => ?_
      rw [Function.comp_apply, decide_eq_true_iff] at hp
      have := fastDec_free hp
      dsimp only at this
      rw [decide_eq_true_iff]
      exact_mod_cast this
  · have := Fl.fin.inj hzero; norm_num at this

open Classical in
/-- A cell that no camera marks filled and enough cameras mark free becomes 0. -/
theorem fast_free_of_count {pct : Fl} {t k : ℤ} (hop : FilterOptions.make pct t k = some op) (hh : Helper api clouds)
    (hN : g.dims.total * 2 * numTrackingGrids clouds < 2 ^ 31) (hd : static.dims = g.dims)
    (h : FastDeviceRuns share api A sqrt g op clouds static output output') (hi : CellInGrid (axisCells g.dims) i)
    (hocc : (static.data (dataIndex g.dims i)).le (.fin (1 / 2)) = true) (hno : ∀ c ∈ clouds, devHits A sqrt g c (.filled i) = 0)
    (hcnt : k ≤ clouds.countP fun c => decide (0 < devHits A sqrt g c (.free i))) : output'.data (dataIndex g.dims i) = .fin 0 := by
  obtain ⟨l, hl, e⟩ := fast_fold hh hN hd h hi hocc
  obtain ⟨rfl, ht, hk, -⟩ := make_ok hop
  have hnil : clouds ≠ [] := by
    rintro rfl
    rw [List.countP_nil] at hcnt
    norm_num at hcnt
    omega
  rw [if_neg hnil] at hl
  rw [e, if_neg, if_pos]
  · refine hcnt.trans (Nat.cast_le.2 ?_)
    rw [hl]
    unfold devCounts
    rw [List.countP_map]
    refine List.countP_mono_left fun c hc hp => ?_
    rw [decide_eq_true_iff] at hp
    rw [Function.comp_apply, decide_eq_true_iff]
    exact fastDec_of_free ht (by dsimp only; exact_mod_cast hp) (by dsimp only; rw [hno c hc]; rfl)
  · rw [List.countP_pos_iff]
    rintro ⟨y, hy, h1⟩
    have h2 := fastDec_filled (of_decide_eq_true h1)
    rw [hl] at hy
    obtain ⟨c, hc, rfl⟩ := List.mem_map.1 hy
    dsimp only at h2
    rw [hno c hc] at h2
    norm_num at h2
    omega

end

section
variable {F : Type} {A : Arith F} {sqrt : F → F} {val kept : F → Fl} {u η M e B N : ℚ} {g : RayGrid F} {c : Camera3} {x : Fin 3 → ℚ}
  {o p : Fin 3 → F} {vo vp : Fin 3 → ℚ} {l l' : ℚ} {K : Type} {op : FilterOptions} {pct : ℚ} {t k : ℤ} {output output' : VoxMap K} {i : IVec}
  {cams : List Camera3}

/-- A sensor deep in the grid is found in the grid. -/
theorem sensor_in_fair (H : AccurateArith A sqrt val kept u η M) (S : Room u η M e B) (G : GridGiven val u e B g)
    (R : FairRay A sqrt val kept u B c x o p vo vp l l') (h : DeepInGrid (fairTol u B) e (axisCells g.dims) c.sensor) {f : IVec}
    (hf : flIndex A g o = some f) : CellInGrid (axisCells g.dims) f := by
  obtain ⟨v, hv, hv'⟩ := G.inv
  have huB := mul_pos S.u_pos S.B_pos
  have he := S.e_pos
  intro a
  obtain ⟨h1, h2⟩ := index_fair H S (R.val_o a) hv hv' ((R.o_le a).trans (by linarith [S.B_pos])) (axes3_some.1 hf a) rfl
  have h3 := abs_le.1 (R.near_o a)
  have h4 := h a
  unfold fairTol at h4
  have k1 : (0 : ℚ) < f a + 1 := by
    by_contra hcon
    push Not at hcon
    have := mul_nonpos_of_nonpos_of_nonneg hcon he.le
    linarith
  have k2 : (f a : ℚ) < axisCells g.dims a := by
    by_contra hcon
    push Not at hcon
    have := mul_le_mul_of_nonneg_right hcon he.le
    linarith
  have k1' : 0 < f a + 1 := by exact_mod_cast k1
  have k2' : f a < axisCells g.dims a := by exact_mod_cast k2
  exact ⟨by omega, k2'⟩

/-! ### CPU -/

open Classical in
/-- C89, free cells were looked through, CPU: a cell that was not filled becomes 0 only if, for at least the required number of cameras, the true segment
from the sensor to some measured point passes the cell and not beyond the range, up to the tolerance.
Missing for a full statement: sensors outside the grid; for them see `C89_free_is_seen_or_short`. -/
theorem C89_free_is_seen_partial (H : AccurateArith A sqrt val kept u η M) (W : FairWalk A sqrt val kept u η M) (S : Room u η M e B)
    (G : GridGiven val u e B g) (hcell : CellGiven val u e g) (V : WalkRoom u η M e B N g.dims)
    (hop : FilterOptions.make (.fin pct) t k = some op) {clouds : List (CpuCloud F)} (hlen : ∀ cl ∈ clouds, cl.points.length < 2 ^ 31)
    (hd : output.dims = g.dims) (h : FlVoxelizeRuns A sqrt g op clouds output output')
    (hcams : List.Forall₂ (fun cl c => c.Within B ∧ Given val kept u η B c cl.tf cl.range cl.points ∧ RangeStored val kept cl.range) clouds cams)
    (hsensor : ∀ c ∈ cams, DeepInGrid (fairTol u B) e (axisCells g.dims) c.sensor)
    (hi : CellInGrid (axisCells g.dims) i) (hocc : (output.data (dataIndex g.dims i)).le (.fin (1 / 2)) = true)
    (hzero : output'.data (dataIndex g.dims i) = .fin 0) :
    k ≤ cams.countP fun c => decide (∃ x, some x ∈ c.points ∧ SeenNear (freeTol u e B N) e c.range c.sensor (c.place x) i) := by
  rw [C74_decision hop hlen hd h hi hocc, decision_eq_zero] at hzero
  obtain ⟨-, hcnt⟩ := hzero
  rw [List.countP_map] at hcnt
  refine hcnt.trans (Nat.cast_le.2 ?_)
  refine countP_le_forall₂ hcams.flip fun c hcm cl _ hcl hp => ?_
  obtain ⟨hc, hg, hst, hr0⟩ := hcl
  rw [Function.comp_apply, decide_eq_true_iff] at hp
  rw [decide_eq_true_iff]
  have hpos : 0 < cpuCount A sqrt g cl (.free i) := by
    have h1 := hp.1
    dsimp only at h1
    exact_mod_cast h1
  unfold cpuCount at hpos
  obtain ⟨y, hy, hput⟩ := List.countP_pos_iff.1 hpos
  obtain ⟨ms, hms, hm⟩ := of_decide_eq_true hput
  obtain ⟨x', hx', hyx⟩ := forall₂_mem' hg.points y hy
  cases y with
  | none =>
    cases hms
    cases hm
  | some y =>
    cases x' with
    | none => exact absurd hyx id
    | some x =>
      obtain ⟨vo, vp, l, l', R⟩ := cpu_ray_fair H S hc hg (hc.points x hx') hyx
      obtain ⟨i0, hi0⟩ := sensor_index_any hms
      exact ⟨x, hx', ray_seen_near_fair H W S G hcell V R hg.range hst hr0 hi0 (sensor_in_fair H S G R (hsensor c hcm) hi0) hms hm hi⟩

open Classical in
/-- C89, what is looked through becomes free, CPU: a cell that was not filled becomes 0 if, for at least the required number of cameras in the grid, the
true segment from the sensor to some measured point passes the cell deeper than the tolerance and nearer than the range by more than the tolerance, and no
camera measured a point within the tolerance of the cell.
Missing for a full statement: sensors outside the grid, for which it does not hold (`C73_grazing_ray_lost`). -/
theorem C89_seen_is_free_partial (H : AccurateArith A sqrt val kept u η M) (W : FairWalk A sqrt val kept u η M) (S : Room u η M e B)
    (G : GridGiven val u e B g) (hcell : CellGiven val u e g) (V : WalkRoom u η M e B N g.dims)
    (hop : FilterOptions.make (.fin pct) t k = some op) {clouds : List (CpuCloud F)} (hlen : ∀ cl ∈ clouds, cl.points.length < 2 ^ 31)
    (hd : output.dims = g.dims) (h : FlVoxelizeRuns A sqrt g op clouds output output')
    (hcams : List.Forall₂ (fun cl c => c.Within B ∧ Given val kept u η B c cl.tf cl.range cl.points ∧ RangeStored val kept cl.range) clouds cams)
    (hi : CellInGrid (axisCells g.dims) i) (hocc : (output.data (dataIndex g.dims i)).le (.fin (1 / 2)) = true)
    (hno : ∀ c ∈ cams, ∀ x, some x ∈ c.points →
      ¬ (NearBox (fairTol u B) e i (c.place x) ∧ NotBeyond (fairTol u B) c.range c.sensor (c.place x)))
    (hsee : k ≤ cams.countP fun c => decide (DeepInGrid (fairTol u B) e (axisCells g.dims) c.sensor ∧
      ∃ x, some x ∈ c.points ∧ SeenDeep (freeTol u e B N) e c.range c.sensor (c.place x) i)) :
    output'.data (dataIndex g.dims i) = .fin 0 := by
  have ht : 1 ≤ t := (make_ok hop).2.1
  have hfilled : ∀ cl ∈ clouds, cpuCount A sqrt g cl (.filled i) = 0 := by
    intro cl hcl
    by_contra hne
    have hpos := Nat.pos_of_ne_zero hne
    unfold cpuCount at hpos
    obtain ⟨y, hy, hput⟩ := List.countP_pos_iff.1 hpos
    obtain ⟨ms, hms, hm⟩ := of_decide_eq_true hput
    obtain ⟨c, hcm, hc, hg, -⟩ := forall₂_mem' hcams cl hcl
    obtain ⟨x', hx', hyx⟩ := forall₂_mem' hg.points y hy
    cases y with
    | none =>
      cases hms
      cases hm
    | some y =>
      cases x' with
      | none => exact absurd hyx id
      | some x =>
        obtain ⟨vo, vp, l, l', R⟩ := cpu_ray_fair H S hc hg (hc.points x hx') hyx
        exact hno c hcm x hx' (filled_near_fair H S G R hg.range hms hm)
  rw [C74_decision hop hlen hd h hi hocc, decision_eq_zero]
  constructor
  · rintro ⟨y, hy, hs1, _⟩
    obtain ⟨cl, hcl, rfl⟩ := List.mem_map.1 hy
    simp only [hfilled cl hcl] at hs1
    norm_num at hs1
    omega
  · rw [List.countP_map]
    refine hsee.trans (Nat.cast_le.2 ?_)
    refine countP_le_forall₂ hcams fun cl hcl c hcm hc hp => ?_
    obtain ⟨hc, hg, hst, hr0⟩ := hc
    rw [decide_eq_true_iff] at hp
    obtain ⟨hsensor, x, hx, hdeep⟩ := hp
    rw [Function.comp_apply, decide_eq_true_iff]
    obtain ⟨y, hy, hyx⟩ := forall₂_mem hg.points _ hx
    obtain ⟨ms, hms⟩ := Option.isSome_iff_exists.1 (((flVoxelizeRuns_iff.1 h).1 cl hcl).2 y hy)
    have hpos : 0 < cpuCount A sqrt g cl (.free i) := by
      cases y with
      | none => exact absurd hyx id
      | some y =>
        obtain ⟨vo, vp, l, l', R⟩ := cpu_ray_fair H S hc hg (hc.points x hx) hyx
        obtain ⟨i0, hi0⟩ := sensor_index_any hms
        rcases ray_seen_deep_fair H W S G hcell V R hg.range hst hr0 hi0 (sensor_in_fair H S G R hsensor hi0) hms hi hdeep with h1 | h1
        · unfold cpuCount
          exact List.countP_pos_iff.2 ⟨some y, hy, decide_eq_true ⟨ms, hms, h1⟩⟩
        · have h2 := hfilled cl hcl
          unfold cpuCount at h2
          have h3 := List.countP_eq_zero.1 h2 (some y) hy
          exact absurd (decide_eq_true ⟨ms, hms, h1⟩) h3
    refine ⟨by dsimp only; exact_mod_cast hpos, .inl ?_⟩
    simp only [hfilled cl hcl]
    norm_num
    omega

/-! ### Devices -/

variable {share : ℤ → ℤ → Fl} {api : DeviceApi} {static : VoxMap K}

open Classical in
/-- C89, free cells were looked through, devices: whatever the division in the filter kernel gives.
Missing for a full statement: sensors outside the grid; for them see `C89_device_free_is_seen_or_short`. -/
theorem C89_device_free_is_seen_partial (H : AccurateArith A sqrt val kept u η M) (W : FairWalk A sqrt val kept u η M) (S : Room u η M e B)
    (G : GridGiven val u e B g) (hcell : CellGiven val u e g) (V : WalkRoom u η M e B N g.dims) {pct : Fl}
    (hop : FilterOptions.make pct t k = some op) {clouds : List (DevCloud F)} (hh : Helper api clouds)
    (hN : g.dims.total * 2 * numTrackingGrids clouds < 2 ^ 31) (hd : static.dims = g.dims)
    (h : FastDeviceRuns share api A sqrt g op clouds static output output')
    (hcams : List.Forall₂ (fun cl c => c.Within B ∧ Given val kept u η B c cl.tf cl.range cl.points ∧ RangeStored val kept cl.range) clouds cams)
    (hsensor : ∀ c ∈ cams, DeepInGrid (fairTol u B) e (axisCells g.dims) c.sensor)
    (hi : CellInGrid (axisCells g.dims) i) (hocc : (static.data (dataIndex g.dims i)).le (.fin (1 / 2)) = true)
    (hzero : output'.data (dataIndex g.dims i) = .fin 0) :
    k ≤ cams.countP fun c => decide (∃ x, some x ∈ c.points ∧ SeenNear (freeTol u e B N) e c.range c.sensor (c.place x) i) := by
  refine (fast_count_of_free hop hh hN hd h hi hocc hzero).trans (Nat.cast_le.2 ?_)
  refine countP_le_forall₂ hcams.flip fun c hcm cl _ hcl hp => ?_
  obtain ⟨hc, hg, hst, hr0⟩ := hcl
  rw [decide_eq_true_iff] at hp ⊢
  unfold devHits at hp
  obtain ⟨y, hy, hput⟩ := List.countP_pos_iff.1 hp
  obtain ⟨ms, hms, hm⟩ := of_decide_eq_true hput
  obtain ⟨x', hx', hyx⟩ := forall₂_mem' hg.points y hy
  cases y with
  | none =>
    cases hms
    cases hm
  | some y =>
    cases x' with
    | none => exact absurd hyx id
    | some x =>
      obtain ⟨vo, vp, l, l', R⟩ := dev_ray_fair H S hc hg (hc.points x hx') hyx
      obtain ⟨i0, hi0⟩ := sensor_index_any hms
      exact ⟨x, hx', ray_seen_near_fair H W S G hcell V R hg.range hst hr0 hi0 (sensor_in_fair H S G R (hsensor c hcm) hi0) hms hm hi⟩

open Classical in
/-- C89, what is looked through becomes free, devices: whatever the division in the filter kernel gives.
Missing for a full statement: sensors outside the grid, for which it does not hold (`C57_device_misses_free_cell`). -/
theorem C89_device_seen_is_free_partial (H : AccurateArith A sqrt val kept u η M) (W : FairWalk A sqrt val kept u η M) (S : Room u η M e B)
    (G : GridGiven val u e B g) (hcell : CellGiven val u e g) (V : WalkRoom u η M e B N g.dims) {pct : Fl}
    (hop : FilterOptions.make pct t k = some op) {clouds : List (DevCloud F)} (hh : Helper api clouds)
    (hN : g.dims.total * 2 * numTrackingGrids clouds < 2 ^ 31) (hd : static.dims = g.dims)
    (h : FastDeviceRuns share api A sqrt g op clouds static output output')
    (hcams : List.Forall₂ (fun cl c => c.Within B ∧ Given val kept u η B c cl.tf cl.range cl.points ∧ RangeStored val kept cl.range) clouds cams)
    (hi : CellInGrid (axisCells g.dims) i) (hocc : (static.data (dataIndex g.dims i)).le (.fin (1 / 2)) = true)
    (hno : ∀ c ∈ cams, ∀ x, some x ∈ c.points →
      ¬ (NearBox (fairTol u B) e i (c.place x) ∧ NotBeyond (fairTol u B) c.range c.sensor (c.place x)))
    (hsee : k ≤ cams.countP fun c => decide (DeepInGrid (fairTol u B) e (axisCells g.dims) c.sensor ∧
      ∃ x, some x ∈ c.points ∧ SeenDeep (freeTol u e B N) e c.range c.sensor (c.place x) i)) :
    output'.data (dataIndex g.dims i) = .fin 0 := by
  have hfilled : ∀ cl ∈ clouds, devHits A sqrt g cl (.filled i) = 0 := by
    intro cl hcl
    by_contra hne
    have hpos := Nat.pos_of_ne_zero hne
    unfold devHits at hpos
    obtain ⟨y, hy, hput⟩ := List.countP_pos_iff.1 hpos
    obtain ⟨ms, hms, hm⟩ := of_decide_eq_true hput
    obtain ⟨c, hcm, hc, hg, -⟩ := forall₂_mem' hcams cl hcl
    obtain ⟨x', hx', hyx⟩ := forall₂_mem' hg.points y hy
    cases y with
    | none =>
      cases hms
      cases hm
    | some y =>
      cases x' with
      | none => exact absurd hyx id
      | some x =>
        obtain ⟨vo, vp, l, l', R⟩ := dev_ray_fair H S hc hg (hc.points x hx') hyx
        exact hno c hcm x hx' (filled_near_fair H S G R hg.range hms hm)
  refine fast_free_of_count hop hh hN hd h hi hocc hfilled (hsee.trans (Nat.cast_le.2 ?_))
  refine countP_le_forall₂ hcams fun cl hcl c hcm hc hp => ?_
  obtain ⟨hc, hg, hst, hr0⟩ := hc
  rw [decide_eq_true_iff] at hp ⊢
  obtain ⟨hsensor, x, hx, hdeep⟩ := hp
  obtain ⟨y, hy, hyx⟩ := forall₂_mem hg.points _ hx
  obtain ⟨ms, hms⟩ := Option.isSome_iff_exists.1 (fast_points hh hN h cl hcl y hy)
  cases y with
  | none => exact absurd hyx id
  | some y =>
    obtain ⟨vo, vp, l, l', R⟩ := dev_ray_fair H S hc hg (hc.points x hx) hyx
    obtain ⟨i0, hi0⟩ := sensor_index_any hms
    rcases ray_seen_deep_fair H W S G hcell V R hg.range hst hr0 hi0 (sensor_in_fair H S G R hsensor hi0) hms hi hdeep with h1 | h1
    · unfold devHits
      exact List.countP_pos_iff.2 ⟨some y, hy, decide_eq_true ⟨ms, hms, h1⟩⟩
    · have h2 := hfilled cl hcl
      unfold devHits at h2
      have h3 := List.countP_eq_zero.1 h2 (some y) hy
      exact absurd (decide_eq_true ⟨ms, hms, h1⟩) h3

end

end VGT
