import Verif.Props.Accurate
import Verif.Props.DeviceFast
import Verif.Props.Pipeline

/-!
C85: whole voxelizations, on the CPU and on devices, and the answers of queries.
-/
set_option autoImplicit false

namespace VGT
open VGT.EDT VGT.Spec VGT.Par

theorem countP_le_forall₂ {α β : Type} {r : α → β → Prop} {p : α → Bool} {q : β → Bool} : ∀ {l : List α} {l' : List β}, List.Forall₂ r l l' →
    (∀ a ∈ l, ∀ b ∈ l', r a b → q b = true → p a = true) → l'.countP q ≤ l.countP p
  | [], [], _, _ => by simp
  | a :: l, b :: l', .cons h hs, k => by
    have ih := countP_le_forall₂ hs fun a ha b hb => k a (List.mem_cons_of_mem _ ha) b (List.mem_cons_of_mem _ hb)
    have h1 := k a List.mem_cons_self b List.mem_cons_self h
    rw [List.countP_cons, List.countP_cons]
    by_cases hb : q b = true
    · rw [if_pos hb, if_pos (h1 hb)]
      omega
    · rw [if_neg hb]
      omega

theorem forall₂_mem {α β : Type} {r : α → β → Prop} : ∀ {l : List α} {l' : List β}, List.Forall₂ r l l' → ∀ b ∈ l', ∃ a ∈ l, r a b
  | [], [], _, b, hb => by cases hb
  | _ :: _, _ :: _, .cons h hs, b, hb => by
    rcases List.mem_cons.1 hb with rfl | hb
    · exact ⟨_, List.mem_cons_self, h⟩
    · obtain ⟨a, ha, hr⟩ := forall₂_mem hs b hb
      exact ⟨a, List.mem_cons_of_mem _ ha, hr⟩

theorem forall₂_mem' {α β : Type} {r : α → β → Prop} : ∀ {l : List α} {l' : List β}, List.Forall₂ r l l' → ∀ a ∈ l, ∃ b ∈ l', r a b
  | [], [], _, a, ha => by cases ha
  | _ :: _, _ :: _, .cons h hs, a, ha => by
    rcases List.mem_cons.1 ha with rfl | ha
    · exact ⟨_, List.mem_cons_self, h⟩
    · obtain ⟨b, hb, hr⟩ := forall₂_mem' hs a ha
      exact ⟨b, List.mem_cons_of_mem _ hb, hr⟩

section
variable {F : Type} {A : Arith F} {sqrt : F → F} {val kept : F → Fl} {u η M e B : ℚ} {g : RayGrid F} {c : Camera3} {tf : ℕ → F} {range : F}
  {points : List (Option (Fin 3 → F))}

/-! ### Rays -/

theorem cpu_ray_fair (H : AccurateArith A sqrt val kept u η M) (S : Room u η M e B) (hc : c.Within B) (hg : Given val kept u η B c tf range points)
    {x : Fin 3 → ℚ} (hx : ∀ a, |x a| ≤ B) {y : Fin 3 → F} (hy : PointGiven val (u * B) (some y) (some x)) :
    ∃ vo vp l l', FairRay A sqrt val kept u B c x (cpuOrigin A tf) (cpuTransform A tf y) vo vp l l' := by
  have hB := S.B_pos
  have huB := mul_nonneg S.u_nonneg hB.le
  have hw : ∀ a : Fin 3, ∃ z, val (A.mul (tf (12 + a)) A.one) = .fin z ∧ |z - c.pose (12 + a)| ≤ 4 * (u * B) := fun a => by
    obtain ⟨z, h1, h2⟩ := hg.shift a
    exact shift_fair H S h1 (hc.shift a) h2
  refine fairRay H S hc hx (fun a => ?_) fun a => transform_fair H S hc hg.turn hx hy a (hw a)
  have := transform_fair H S hc hg.turn (x := fun _ => 0) (fun a => by rw [abs_zero]; exact hB.le) (y := fun _ => A.zero)
    (fun a => ⟨0, H.zero.1, by rw [sub_self, abs_zero]; exact huB⟩) a (hw a)
  obtain ⟨z, h1, h2⟩ := this
  refine ⟨z, h1, ?_⟩
  unfold Camera3.place at h2
  simpa [Camera3.sensor] using h2

theorem dev_ray_fair (H : AccurateArith A sqrt val kept u η M) (S : Room u η M e B) (hc : c.Within B) (hg : Given val kept u η B c tf range points)
    {x : Fin 3 → ℚ} (hx : ∀ a, |x a| ≤ B) {y : Fin 3 → F} (hy : PointGiven val (u * B) (some y) (some x)) :
    ∃ vo vp l l', FairRay A sqrt val kept u B c x (kernelOrigin tf) (kernelTransform A tf y) vo vp l l' := by
  have huB := mul_nonneg S.u_nonneg S.B_pos.le
  refine fairRay H S hc hx (fun a => ?_) fun a => transform_fair H S hc hg.turn hx hy a ?_
  · obtain ⟨z, h1, h2⟩ := hg.shift a
    exact ⟨z, h1, le_trans h2 (by linarith)⟩
  · obtain ⟨z, h1, h2⟩ := hg.shift a
    exact ⟨z, h1, le_trans h2 (by linarith)⟩

theorem deepBox_grid {tol s : ℚ} {d : Dims} {i : IVec} {y : Fin 3 → ℚ} (hs : 0 < s) (hi : CellInGrid (axisCells d) i) (h : DeepBox tol s i y) :
    DeepInGrid tol s (axisCells d) y := by
  intro a
  obtain ⟨h1, h2⟩ := h a
  obtain ⟨k1, k2⟩ := hi a
  have k1' : (0 : ℚ) ≤ i a := by exact_mod_cast k1
  have k2' : (i a : ℚ) + 1 ≤ axisCells d a := by exact_mod_cast k2
  have m1 := mul_nonneg k1' hs.le
  have m2 := mul_le_mul_of_nonneg_right k2' hs.le
  constructor <;> linarith

theorem fairTol_nonneg (S : Room u η M e B) : 0 ≤ fairTol u B := by
  have huB := mul_nonneg S.u_nonneg S.B_pos.le
  unfold fairTol
  linarith

theorem fairTol_le (S : Room u η M e B) : fairTol u B ≤ fairFarTol u B := by
  have hB := S.B_pos
  have huB := mul_nonneg S.u_nonneg hB.le
  have : 0 ≤ B / 10 ^ 8 := by positivity
  unfold fairTol fairFarTol
  linarith

open Classical in
theorem howMany_le_hits {Q : (Fin 3 → ℚ) → Prop} {P : Option (Fin 3 → F) → Prop} {ε : ℚ} (h : List.Forall₂ (PointGiven val ε) points c.points)
    (hp : ∀ y x, some y ∈ points → some x ∈ c.points → PointGiven val ε (some y) (some x) → Q x → P (some y)) :
    c.howMany Q ≤ points.countP fun y => decide (P y) := by
  unfold Camera3.howMany
  refine countP_le_forall₂ h fun y hy x' hx' hyx hq => ?_
  rw [decide_eq_true_iff] at hq ⊢
  obtain ⟨x, rfl, hq⟩ := hq
  cases y with
  | none => exact absurd hyx id
  | some y => exact hp y x hy hx' hyx hq

open Classical in
theorem hits_le_howMany {Q : (Fin 3 → ℚ) → Prop} {P : Option (Fin 3 → F) → Prop} {ε : ℚ} (h : List.Forall₂ (PointGiven val ε) points c.points)
    (h0 : ¬ P none) (hp : ∀ y x, some x ∈ c.points → PointGiven val ε (some y) (some x) → P (some y) → Q x) :
    points.countP (fun y => decide (P y)) ≤ c.howMany Q := by
  unfold Camera3.howMany
  refine countP_le_forall₂ h.flip fun x' hx' y hy hyx hq => ?_
  rw [decide_eq_true_iff] at hq ⊢
  cases y with
  | none => exact absurd hq h0
  | some y =>
    cases x' with
    | none => exact absurd hyx id
    | some x => exact ⟨x, rfl, hp y x hx' hyx hq⟩

/-! ### CPU -/

variable {K : Type} {op : FilterOptions} {t k : ℤ} {output output' : VoxMap K} {i : IVec} {x : Fin 3 → ℚ}

/-- C85, obstacles are filled, CPU: if percentage is 1, a cell in whose inside at least `threshold` measured points of a camera are, deeper than
`800 u B + B / 10⁸` and nearer than the range by `400 u B`, is 1 afterwards, or was filled before.  Sensors may be anywhere within `B`. -/
theorem C85_obstacle_is_filled (H : AccurateArith A sqrt val kept u η M) (S : Room u η M e B) (G : GridGiven val u e B g)
    (hop : FilterOptions.make (.fin 1) t k = some op) {clouds : List (CpuCloud F)} (hlen : ∀ cl ∈ clouds, cl.points.length < 2 ^ 31)
    (hd : output.dims = g.dims) (h : FlVoxelizeRuns A sqrt g op clouds output output') {cl : CpuCloud F} (hcl : cl ∈ clouds) (hc : c.Within B)
    (hg : Given val kept u η B c cl.tf cl.range cl.points) (hi : CellInGrid (axisCells g.dims) i)
    (hocc : (output.data (dataIndex g.dims i)).le (.fin (1 / 2)) = true)
    (hcnt : t ≤ c.howMany fun x => DeepBox (fairFarTol u B) e i (c.place x) ∧ WellWithin (fairTol u B) c.range c.sensor (c.place x)) :
    output'.data (dataIndex g.dims i) = .fin 1 := by
  refine cpu_filled_of_count hop hlen hd h hi hocc hcl (hcnt.trans ?_)
  refine Nat.cast_le.2 (howMany_le_hits hg.points fun y x hy hx hyx hq => ?_)
  obtain ⟨ms, hms⟩ := Option.isSome_iff_exists.1 (((flVoxelizeRuns_iff.1 h).1 cl hcl).2 _ hy)
  obtain ⟨vo, vp, l, l', R⟩ := cpu_ray_fair H S hc hg (hc.points x hx) hyx
  obtain ⟨f, hf, -, hm⟩ := fills_fair H S G R hg.range (deepBox_grid S.e_pos hi hq.1) hq.2 hms
  rw [point_deep_fair H S G R (deepBox_mono (fairTol_le S) hq.1) hf] at hm
  exact ⟨ms, hms, hm⟩

/-- C85, filled cells are where something is, CPU: whatever the percentage, a cell that was not filled becomes 1 only if some camera measured at least
`threshold` points that are in the cell and not beyond the range, up to `400 u B`. -/
theorem C85_filled_is_real (H : AccurateArith A sqrt val kept u η M) (S : Room u η M e B) (G : GridGiven val u e B g) {pct : ℚ}
    (hop : FilterOptions.make (.fin pct) t k = some op) {clouds : List (CpuCloud F)} (hlen : ∀ cl ∈ clouds, cl.points.length < 2 ^ 31)
    (hd : output.dims = g.dims) (h : FlVoxelizeRuns A sqrt g op clouds output output') {cams : List Camera3}
    (hcams : List.Forall₂ (fun cl c => c.Within B ∧ Given val kept u η B c cl.tf cl.range cl.points) clouds cams)
    (hi : CellInGrid (axisCells g.dims) i) (hocc : (output.data (dataIndex g.dims i)).le (.fin (1 / 2)) = true)
    (hone : output'.data (dataIndex g.dims i) = .fin 1) :
    ∃ c ∈ cams, t ≤ c.howMany fun x =>
      NearBox (fairTol u B) e i (c.place x) ∧ NotBeyond (fairTol u B) c.range c.sensor (c.place x) := by
  rw [C74_decision hop hlen hd h hi hocc, decision_eq_one] at hone
  obtain ⟨y, hy, hs1, -⟩ := hone
  obtain ⟨cl, hcl, rfl⟩ := List.mem_map.1 hy
  obtain ⟨c, hcm, hc, hg⟩ := forall₂_mem' hcams cl hcl
  refine ⟨c, hcm, hs1.trans ?_⟩
  refine Nat.cast_le.2 (hits_le_howMany hg.points ?_ fun y x hx hyx hq => ?_)
  · rintro ⟨ms, hms, hm⟩
    cases hms
    cases hm
  · obtain ⟨ms, hms, hm⟩ := hq
    obtain ⟨vo, vp, l, l', R⟩ := cpu_ray_fair H S hc hg (hc.points x hx) hyx
    exact filled_near_fair H S G R hg.range hms hm

/-- C85, CPU: with percentage 1 and threshold 1, a measured point that is truly in the grid and nearer than the range is in, or at most `400 u B`
beside, a cell above one half afterwards. -/
theorem C85_point_kept (H : AccurateArith A sqrt val kept u η M) (S : Room u η M e B) (G : GridGiven val u e B g)
    (hop : FilterOptions.make (.fin 1) 1 k = some op) {clouds : List (CpuCloud F)} (hlen : ∀ cl ∈ clouds, cl.points.length < 2 ^ 31)
    (hd : output.dims = g.dims) (hnan : NoNaN output) (h : FlVoxelizeRuns A sqrt g op clouds output output') {cl : CpuCloud F} (hcl : cl ∈ clouds)
    (hc : c.Within B) (hg : Given val kept u η B c cl.tf cl.range cl.points) (hx : some x ∈ c.points)
    (h1 : DeepInGrid (fairFarTol u B) e (axisCells g.dims) (c.place x)) (h2 : WellWithin (fairTol u B) c.range c.sensor (c.place x)) :
    Kept (fairTol u B) e output' (c.place x) := by
  obtain ⟨y, hy, hyx⟩ := forall₂_mem hg.points _ hx
  obtain ⟨ms, hms⟩ := Option.isSome_iff_exists.1 (((flVoxelizeRuns_iff.1 h).1 cl hcl).2 y hy)
  cases y with
  | none => exact absurd hyx id
  | some y =>
    obtain ⟨vo, vp, l, l', R⟩ := cpu_ray_fair H S hc hg (hc.points x hx) hyx
    obtain ⟨f, hf, hin, hm⟩ := fills_fair H S G R hg.range h1 h2 hms
    obtain ⟨-, hd', -, hkeep⟩ := C74_keeps_filled h
    have hd2 := hd'.trans hd
    unfold Kept
    rw [hd2]
    refine ⟨f, hin, point_near_fair H S G R hf, ?_⟩
    have hlt : dataIndex g.dims f < output.dims.total := by
      rw [hd]
      exact dataIndex_lt hin
    cases hocc : (output.data (dataIndex g.dims f)).le (.fin (1 / 2)) with
    | true =>
      have hpos : 0 < cpuCount A sqrt g cl (.filled f) := by
        classical
        unfold cpuCount
        exact List.countP_pos_iff.2 ⟨some y, hy, decide_eq_true ⟨ms, hms, hm⟩⟩
      rw [cpu_filled_of_count hop hlen hd h hin hocc hcl (by exact_mod_cast hpos)]
      exact aboveHalf_one
    | false =>
      rw [(hkeep _ hlt).1 hocc]
      exact aboveHalf_of_not_le (hnan _ hlt) hocc

/-! ### Devices -/

variable {share : ℤ → ℤ → Fl} {L : ℕ} {api : DeviceApi} {static : VoxMap K}

/-- C85, obstacles are filled, devices: also with approximate division in the filter kernel. -/
theorem C85_device_obstacle_is_filled (H : AccurateArith A sqrt val kept u η M) (S : Room u η M e B) (G : GridGiven val u e B g)
    (hs : FairShare share L) (hL : L < 2 ^ 31) (hop : FilterOptions.make (.fin 1) t k = some op) {clouds : List (DevCloud F)}
    (hh : Helper api clouds) (hN : g.dims.total * 2 * numTrackingGrids clouds < 2 ^ 31) (hlen : ∀ cl ∈ clouds, cl.points.length ≤ L)
    (hd : static.dims = g.dims) (h : FastDeviceRuns share api A sqrt g op clouds static output output') {cl : DevCloud F} (hcl : cl ∈ clouds)
    (hc : c.Within B) (hg : Given val kept u η B c cl.tf cl.range cl.points) (hi : CellInGrid (axisCells g.dims) i)
    (hocc : (static.data (dataIndex g.dims i)).le (.fin (1 / 2)) = true)
    (hcnt : t ≤ c.howMany fun x => DeepBox (fairFarTol u B) e i (c.place x) ∧ WellWithin (fairTol u B) c.range c.sensor (c.place x)) :
    output'.data (dataIndex g.dims i) = .fin 1 := by
  refine fast_filled_of_count hs hL hop hh hN hlen hd h hi hocc hcl (hcnt.trans ?_)
  refine Nat.cast_le.2 (howMany_le_hits hg.points fun y x hy hx hyx hq => ?_)
  obtain ⟨ms, hms⟩ := Option.isSome_iff_exists.1 (fast_points hh hN h cl hcl _ hy)
  obtain ⟨vo, vp, l, l', R⟩ := dev_ray_fair H S hc hg (hc.points x hx) hyx
  obtain ⟨f, hf, -, hm⟩ := fills_fair H S G R hg.range (deepBox_grid S.e_pos hi hq.1) hq.2 hms
  rw [point_deep_fair H S G R (deepBox_mono (fairTol_le S) hq.1) hf] at hm
  exact ⟨ms, hms, hm⟩

/-- C85, filled cells are where something is, devices: whatever the division in the filter kernel gives. -/
theorem C85_device_filled_is_real (H : AccurateArith A sqrt val kept u η M) (S : Room u η M e B) (G : GridGiven val u e B g) {pct : Fl}
    (hop : FilterOptions.make pct t k = some op) {clouds : List (DevCloud F)} (hh : Helper api clouds)
    (hN : g.dims.total * 2 * numTrackingGrids clouds < 2 ^ 31) (hd : static.dims = g.dims)
    (h : FastDeviceRuns share api A sqrt g op clouds static output output') {cams : List Camera3}
    (hcams : List.Forall₂ (fun cl c => c.Within B ∧ Given val kept u η B c cl.tf cl.range cl.points) clouds cams)
    (hi : CellInGrid (axisCells g.dims) i) (hocc : (static.data (dataIndex g.dims i)).le (.fin (1 / 2)) = true)
    (hone : output'.data (dataIndex g.dims i) = .fin 1) :
    ∃ c ∈ cams, t ≤ c.howMany fun x =>
      NearBox (fairTol u B) e i (c.place x) ∧ NotBeyond (fairTol u B) c.range c.sensor (c.place x) := by
  obtain ⟨cl, hcl, hs1⟩ := fast_count_of_filled hop hh hN hd h hi hocc hone
  obtain ⟨c, hcm, hc, hg⟩ := forall₂_mem' hcams cl hcl
  refine ⟨c, hcm, hs1.trans ?_⟩
  refine Nat.cast_le.2 (hits_le_howMany hg.points ?_ fun y x hx hyx hq => ?_)
  · rintro ⟨ms, hms, hm⟩
    cases hms
    cases hm
  · obtain ⟨ms, hms, hm⟩ := hq
    obtain ⟨vo, vp, l, l', R⟩ := dev_ray_fair H S hc hg (hc.points x hx) hyx
    exact filled_near_fair H S G R hg.range hms hm

/-- C85, devices: with percentage 1 and threshold 1, a measured point that is truly in the grid and nearer than the range is in, or at most
`400 u B` beside, a cell above one half afterwards. -/
theorem C85_device_point_kept (H : AccurateArith A sqrt val kept u η M) (S : Room u η M e B) (G : GridGiven val u e B g)
    (hs : FairShare share L) (hL : L < 2 ^ 31) (hop : FilterOptions.make (.fin 1) 1 k = some op) {clouds : List (DevCloud F)}
    (hh : Helper api clouds) (hN : g.dims.total * 2 * numTrackingGrids clouds < 2 ^ 31) (hlen : ∀ cl ∈ clouds, cl.points.length ≤ L)
    (hd : static.dims = g.dims) (hdo : output.dims = g.dims) (hnan : NoNaN static)
    (h : FastDeviceRuns share api A sqrt g op clouds static output output') {cl : DevCloud F} (hcl : cl ∈ clouds) (hc : c.Within B)
    (hg : Given val kept u η B c cl.tf cl.range cl.points) (hx : some x ∈ c.points)
    (h1 : DeepInGrid (fairFarTol u B) e (axisCells g.dims) (c.place x)) (h2 : WellWithin (fairTol u B) c.range c.sensor (c.place x)) :
    Kept (fairTol u B) e output' (c.place x) := by
  obtain ⟨y, hy, hyx⟩ := forall₂_mem hg.points _ hx
  obtain ⟨ms, hms⟩ := Option.isSome_iff_exists.1 (fast_points hh hN h cl hcl y hy)
  cases y with
  | none => exact absurd hyx id
  | some y =>
    obtain ⟨vo, vp, l, l', R⟩ := dev_ray_fair H S hc hg (hc.points x hx) hyx
    obtain ⟨f, hf, hin, hm⟩ := fills_fair H S G R hg.range h1 h2 hms
    have hd2 := (fast_dims h).trans hdo
    unfold Kept
    rw [hd2]
    refine ⟨f, hin, point_near_fair H S G R hf, ?_⟩
    have hlt := dataIndex_lt hin
    cases hocc : (static.data (dataIndex g.dims f)).le (.fin (1 / 2)) with
    | true =>
      have hpos : 0 < devHits A sqrt g cl (.filled f) := by
        classical
        unfold devHits
        exact List.countP_pos_iff.2 ⟨some y, hy, decide_eq_true ⟨ms, hms, hm⟩⟩
      rw [fast_filled_of_count hs hL hop hh hN hlen hd h hin hocc hcl (by exact_mod_cast hpos)]
      exact aboveHalf_one
    | false =>
      rw [fast_keeps hd h hlt hocc]
      exact aboveHalf_of_not_le (hnan _ (by rw [hd]; exact hlt)) hocc

end

/-! ### Queries -/

section
variable {norm : (Fin 3 → ℝ) → ℝ} {interp : (Fin 3 → ℝ) → (Fin 3 → ℝ) → (Bool → Bool → Bool → ℝ) → (Fin 3 → ℝ) → ℝ}
  {toGrid : Vec4 ℝ → Fin 3 → ℝ} {toWorld rotate : (Fin 3 → ℝ) → Fin 3 → ℝ} {K F : Type} {gp : GenParams} {Fd : SDFGrid ℝ}
  {loc : Vec4 ℝ} {e' : ℝ} {p p' Y : Fin 3 → ℝ} {A : Arith F} {sqrt : F → F} {val kept : F → Fl} {u η M e B n : ℚ} {g : RayGrid F}
  {op : FilterOptions} {k : ℤ} {static output output' : VoxMap K} {c : Camera3} {x : Fin 3 → ℚ}

/-- C85, nothing measured is overlooked, CPU: voxelize in such an arithmetic with percentage 1 and threshold 1, extract the signed distance field and
query it (both as in C77).  Every measured point that is truly in the grid and nearer than the range is at least the estimate `e'` away from the
location, less `√3 + 3 + n/2¹⁸ + n²/2³⁷` cell edges, less the error of the location, less `800 u B`. -/
theorem C85_clearance (H : AccurateArith A sqrt val kept u η M) (S : Room u η M e B) (G : GridGiven val u e B g)
    (hop : FilterOptions.make (.fin 1) 1 k = some op) {clouds : List (CpuCloud F)} (hlen : ∀ cl ∈ clouds, cl.points.length < 2 ^ 31)
    (hd : output.dims = g.dims) (hnan : NoNaN output) (h : FlVoxelizeRuns A sqrt g op clouds output output') {cl : CpuCloud F} (hcl : cl ∈ clouds)
    (hc : c.Within B) (hg : Given val kept u η B c cl.tf cl.range cl.points) (hx : some x ∈ c.points)
    (h1 : DeepInGrid (fairFarTol u B) e (axisCells g.dims) (c.place x)) (h2 : WellWithin (fairTol u B) c.range c.sensor (c.place x))
    (hq : Answers norm interp toGrid toWorld rotate gp output' e n Fd loc e' p)
    (hY : InFrame Fd.pose.R Fd.pose.t (fun a => (c.place x a : ℝ)) Y) :
    e' - (Real.sqrt 3 + 3 + n / 2 ^ 18 + n ^ 2 / 2 ^ 37) * e - dist3 p p' - 2 * fairTol u B ≤ dist3 p' Y :=
  hq.clear (fairTol_nonneg S) (C85_point_kept H S G hop hlen hd hnan h hcl hc hg hx h1 h2) hY

/-- C85, nothing measured is overlooked, devices. -/
theorem C85_device_clearance {share : ℤ → ℤ → Fl} {L : ℕ} {api : DeviceApi} (H : AccurateArith A sqrt val kept u η M) (S : Room u η M e B)
    (G : GridGiven val u e B g) (hs : FairShare share L) (hL : L < 2 ^ 31) (hop : FilterOptions.make (.fin 1) 1 k = some op)
    {clouds : List (DevCloud F)} (hh : Helper api clouds) (hN : g.dims.total * 2 * numTrackingGrids clouds < 2 ^ 31)
    (hlen : ∀ cl ∈ clouds, cl.points.length ≤ L) (hd : static.dims = g.dims) (hdo : output.dims = g.dims) (hnan : NoNaN static)
    (h : FastDeviceRuns share api A sqrt g op clouds static output output') {cl : DevCloud F} (hcl : cl ∈ clouds) (hc : c.Within B)
    (hg : Given val kept u η B c cl.tf cl.range cl.points) (hx : some x ∈ c.points)
    (h1 : DeepInGrid (fairFarTol u B) e (axisCells g.dims) (c.place x)) (h2 : WellWithin (fairTol u B) c.range c.sensor (c.place x))
    (hq : Answers norm interp toGrid toWorld rotate gp output' e n Fd loc e' p)
    (hY : InFrame Fd.pose.R Fd.pose.t (fun a => (c.place x a : ℝ)) Y) :
    e' - (Real.sqrt 3 + 3 + n / 2 ^ 18 + n ^ 2 / 2 ^ 37) * e - dist3 p p' - 2 * fairTol u B ≤ dist3 p' Y :=
  hq.clear (fairTol_nonneg S) (C85_device_point_kept H S G hs hL hop hh hN hlen hd hdo hnan h hcl hc hg hx h1 h2) hY

end

end VGT
