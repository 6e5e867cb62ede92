import Verif.Props.CameraDouble

/-!
C74 in `double` for sensors anywhere, when a voxelization has a result, and concrete cases.
-/
set_option autoImplicit false

namespace VGT
open VGT.EDT VGT.Spec VGT.Par

/-! ### `double` -/

section
variable {sqrt : Fl → Fl} {s n N B : ℚ} {g : RayGrid Fl} {K : Type}

/-- Grids of up to `2^21` cells along an axis, and a reach of `n / 8` cells. -/
theorem DoubleGrid.preciseWide (G : DoubleGrid s N B g) (hs : IeeeSqrt sqrt) (hn : 8 * N ≤ n) (hn' : n ≤ 2 ^ 40) :
    CamPrecise (fun q => saturate ((2 - 1 / 2 ^ 52) * 2 ^ 1023) (roundDouble q)) sqrt (1 / 2 ^ 53) (1 / 2 ^ 1075)
      ((2 - 1 / 2 ^ 52) * 2 ^ 1023) s n N (1 / 2 ^ 53 * N ^ 2 * s / 2 + 3 * (1 / 2 ^ 53 * n * s)) B g where
  ray := rayScale_double_wide G.s_ge G.s_le G.n_ge G.n_le (by linarith [G.n_ge]) hn'
  cam := camScale_double G.s_ge G.B_ge G.B_le
  rounds := rounds_double
  sign := keepsSign_saturate 53 (-1074) _
  one := keepsOne_saturate 53 (-1074) (by norm_num) (by norm_num) _
  root := sqrtRounds_ieee hs
  grid := gridWith_double G.s_ge G.s_le G.cell G.inv G.dims

/-- The tolerance in `double` with sensors up to `n / 8` cells from the origin of the grid. -/
def doubleReachTol (s N n B : ℚ) : ℚ := (33 * (N ^ 2 / 2 + 3 * n) * s + 300 * B) / 2 ^ 53

theorem camTol_double_wide (s N n B : ℚ) :
    camTol (1 / 2 ^ 53) (1 / 2 ^ 53 * N ^ 2 * s / 2 + 3 * (1 / 2 ^ 53 * n * s)) B = doubleReachTol s N n B := by
  unfold camTol doubleReachTol; ring

/-- The same with the share of the absolute constants `1e-10` of the code. -/
def doubleWideTol (s N n B : ℚ) : ℚ := (33 * (N ^ 2 / 2 + 3 * n) * s + 900 * B) / 2 ^ 53 + (1 + B) / 10 ^ 8

theorem wideTol_double (s N n B : ℚ) :
    wideTol (1 / 2 ^ 53) (1 / 2 ^ 53 * N ^ 2 * s / 2 + 3 * (1 / 2 ^ 53 * n * s)) B = doubleWideTol s N n B := by
  unfold wideTol camTol doubleWideTol; ring

theorem DoubleGrid.toWide (G : DoubleGrid s N B g) (hn : 8 * N ≤ n) (hn' : n ≤ 2 ^ 40)
    (hsize : ∀ a, ∃ z, g.size a = .fin z ∧ |z - axisCells g.dims a * s| ≤ n * s / 2 ^ 53) :
    Wide (1 / 2 ^ 53) (1 / 2 ^ 1075) ((2 - 1 / 2 ^ 52) * 2 ^ 1023) s n N (1 / 2 ^ 53 * N ^ 2 * s / 2 + 3 * (1 / 2 ^ 53 * n * s)) g := by
  refine ⟨entryScale_double G.s_ge G.s_le G.n_ge G.n_le hn hn', fun a => by linarith [G.dims a], fun a => ?_⟩
  obtain ⟨z, h1, h2⟩ := hsize a
  exact ⟨z, h1, by linarith⟩

/-- C74: on the CPU, obstacles are kept wherever the sensor is, up to `(33 (N² / 2 + 3 n) s + 900 B) / 2^53 + (1 + B) / 10^8` (`N` the
number of cells along an axis plus two, `n` at least eight times that, and the sensor within `n / 8` cells of the origin of the grid; about a
micrometre for coordinates of up to 100 m). -/
theorem C74_double_obstacle_is_filled (hs : IeeeSqrt sqrt) (G : DoubleGrid s N B g) (hn : 8 * N ≤ n) (hn' : n ≤ 2 ^ 40)
    (hsize : ∀ a, ∃ z, g.size a = .fin z ∧ |z - axisCells g.dims a * s| ≤ n * s / 2 ^ 53) {t k : ℤ} {op : FilterOptions}
    (hop : FilterOptions.make (.fin 1) t k = some op) {cams : List Camera3} (hlen : ∀ c ∈ cams, c.points.length < 2 ^ 31)
    {output output' : VoxMap K} (hd : output.dims = g.dims)
    (h : FlVoxelizeRuns double64 sqrt g op (cams.map Camera3.cloud) output output') {i : IVec} (hi : CellInGrid (axisCells g.dims) i)
    (hocc : (output.data (dataIndex g.dims i)).le (.fin (1 / 2)) = true) {c : Camera3} (hcm : c ∈ cams) (hc : c.Within B)
    (hr : DoubleRange c.range) (hreach : ∀ a, 8 * |c.sensor a| + 264 * B / 2 ^ 53 ≤ n * s)
    (hpts : t ≤ c.howMany fun x =>
      DeepBox (doubleWideTol s N n B) s i (c.place x) ∧ WellWithin (doubleWideTol s N n B) c.range c.sensor (c.place x)) :
    output'.data (dataIndex g.dims i) = .fin 1 := by
  rw [← wideTol_double] at hpts
  exact C74_obstacle_is_filled (G.preciseWide hs hn hn') (G.toWide hn hn' hsize) hop hlen hd h hi hocc hcm hc
    (hr.ok G.B_le) (fun a => by have := hreach a; linarith) hpts

/-- C74: on the CPU, every voxelization from sensors in the grid has a result, if coordinates are at most `2^56` cells. -/
theorem C74_double_has_result (hs : IeeeSqrt sqrt) (G : DoubleGrid s n B g) (hBs : B ≤ 2 ^ 56 * s) {pct : ℚ} {t k : ℤ}
    {op : FilterOptions} (hop : FilterOptions.make (.fin pct) t k = some op) {cams : List Camera3}
    (hlen : ∀ c ∈ cams, c.points.length < 2 ^ 31) (hc : ∀ c ∈ cams, c.Within B) (hr : ∀ c ∈ cams, DoubleRange c.range)
    (hsensor : ∀ c ∈ cams, DeepInGrid (doubleTol s n B) s (axisCells g.dims) c.sensor) {output : VoxMap K} (hd : output.dims = g.dims) :
    ∃ output', FlVoxelizeRuns double64 sqrt g op (cams.map Camera3.cloud) output output' := by
  rw [← camTol_double] at hsensor
  have hs0 : 0 < s := lt_of_lt_of_le (by norm_num) G.s_ge
  have hq : B / s ≤ 2 ^ 56 := by rwa [div_le_iff₀ hs0]
  refine C74_has_result (bits := 64) (G.precise hs) (by norm_num; linarith) (le_trans (by linarith) double_max_ge) hop hlen hc
    (fun c hcm => (hr c hcm).ok G.B_le) hsensor hd

end

/-- The root of a square is exact. -/
theorem ieeeSqrt_sq {sqrt : Fl → Fl} (h : IeeeSqrt sqrt) {m : ℕ} (hm : m ≤ 2 ^ 53) : sqrt (.fin ((m : ℚ) ^ 2)) = .fin m := by
  obtain ⟨y, h1, h2⟩ := h ((m : ℚ) ^ 2) (by positivity)
  rw [h1]
  have e1 : Real.sqrt (((m : ℚ) ^ 2 : ℚ) : ℝ) = (m : ℝ) := by
    push_cast
    exact Real.sqrt_sq (Nat.cast_nonneg m)
  have e2 := rne_exact (K := ℝ) (p := 53) (emin := -1074) (m : ℤ) 0 (by norm_num) (by
    rw [abs_of_nonneg (by positivity)]
    exact_mod_cast hm) (by norm_num)
  have e3 : ((m : ℤ) : ℝ) * 2 ^ (0 : ℤ) = (m : ℝ) := by simp
  rw [e3] at e2
  rw [e1, e2] at h2
  congr 1
  exact_mod_cast h2

/-! ### Concrete cases -/

/-- A camera that looks along an axis, shifted by `v`. -/
def lookFrom (v : Fin 3 → ℚ) (range : Fl) (points : List (Option (Fin 3 → ℚ))) : Camera3 :=
  ⟨fun k => if k = 0 ∨ k = 5 ∨ k = 10 then 1 else if k = 12 then v 0 else if k = 13 then v 1 else if k = 14 then v 2 else 0, range, points⟩

theorem lookFrom_sensor (v : Fin 3 → ℚ) (range : Fl) (points : List (Option (Fin 3 → ℚ))) : (lookFrom v range points).sensor = v := by
  funext a
  fin_cases a <;> rfl

theorem lookFrom_place (v : Fin 3 → ℚ) (range : Fl) (points : List (Option (Fin 3 → ℚ))) (x : Fin 3 → ℚ) :
    (lookFrom v range points).place x = fun a => x a + v a := by
  funext a
  fin_cases a <;> simp [lookFrom, Camera3.place]

theorem lookFrom_within {v : Fin 3 → ℚ} {range : Fl} {points : List (Option (Fin 3 → ℚ))} {B : ℚ} (hv : ∀ a, |v a| ≤ B)
    (hp : ∀ x, some x ∈ points → ∀ a, |x a| ≤ B) : (lookFrom v range points).Within B where
  turn := by intro a; fin_cases a <;> simp [lookFrom]
  shift := fun a => by
    have : (lookFrom v range points).pose (12 + a) = v a := congrFun (lookFrom_sensor v range points) a
    rw [this]
    exact hv a
  points := hp

theorem grid4_double {n : ℚ} (h0 : 6 ≤ n) (h1 : n ≤ 2 ^ 21) : DoubleGrid 1 n 8 grid4 where
  s_ge := by norm_num
  s_le := by norm_num
  cell := rfl
  inv := by decide +kernel
  dims := by intro a; fin_cases a <;> norm_num [grid4, axisCells] <;> linarith
  n_ge := by linarith
  n_le := h1
  B_ge := by norm_num
  B_le := by norm_num

/-- The map of the examples: nothing known. -/
def dark4 : VoxMap ℚ := ⟨true, ⟨4, 4, 4⟩, 1, fun _ => .fin (1 / 2)⟩

/-- A camera in the grid that measures one point askew, and another that fails. -/
def askew : Camera3 := lookFrom (fun _ => 1 / 2) .pinf [some ![2, 1, 0], none]

theorem askew_within : askew.Within 8 := lookFrom_within (by intro a; norm_num) (by
  intro x hx
  simp only [List.mem_cons, Option.some.injEq, reduceCtorEq, List.not_mem_nil, or_false] at hx
  subst hx
  intro a
  fin_cases a <;> norm_num)

open Classical in
/-- The hypotheses of the theorems for sensors in the grid are met: there is a run (`C74_double_has_result`), the cell with the
point becomes filled (`C74_double_obstacle_is_filled_partial`) and a cell on the way free (`C74_double_seen_is_free_partial`). -/
theorem askew_run {sqrt : Fl → Fl} (hs : IeeeSqrt sqrt) : ∃ output', FlVoxelizeRuns double64 sqrt grid4 ⟨.fin 1, 1, 1⟩ [askew.cloud] dark4 output' ∧
    output'.data (dataIndex grid4.dims ![2, 1, 0]) = .fin 1 ∧ output'.data (dataIndex grid4.dims ![1, 0, 0]) = .fin 0 := by
  have G := grid4_double (n := 6) (by norm_num) (by norm_num)
  have ho : FilterOptions.make (.fin 1) 1 1 = some ⟨.fin 1, 1, 1⟩ := by decide +kernel
  have hlen : ∀ c ∈ [askew], c.points.length < 2 ^ 31 := by decide
  have hc : ∀ c ∈ [askew], c.Within 8 := by
    intro c hcm
    obtain rfl := List.mem_singleton.1 hcm
    exact askew_within
  have hr : ∀ c ∈ [askew], DoubleRange c.range := by
    intro c hcm
    obtain rfl := List.mem_singleton.1 hcm
    exact ⟨by decide, fun r hr => by cases hr⟩
  have hsensor : DeepInGrid (doubleTol 1 6 8) 1 (axisCells grid4.dims) askew.sensor := by
    unfold askew
    rw [lookFrom_sensor]
    intro a
    fin_cases a <;> norm_num [doubleTol, grid4, axisCells]
  have hsensor' : ∀ c ∈ [askew], DeepInGrid (doubleTol 1 6 8) 1 (axisCells grid4.dims) c.sensor := by
    intro c hcm
    obtain rfl := List.mem_singleton.1 hcm
    exact hsensor
  have hx : some ![2, 1, 0] ∈ askew.points := List.mem_cons_self
  have hplace : askew.place ![2, 1, 0] = ![5 / 2, 3 / 2, 1 / 2] := by
    unfold askew
    rw [lookFrom_place]
    funext a
    fin_cases a <;> norm_num
  obtain ⟨out, hout⟩ := C74_double_has_result hs G (by norm_num) ho hlen hc hr hsensor' (output := dark4) rfl
  refine ⟨out, hout, ?_, ?_⟩
  · refine C74_double_obstacle_is_filled_partial hs G ho hlen (cams := [askew]) rfl hout (by unfold CellInGrid; decide) (by decide +kernel)
      (List.mem_singleton_self _) askew_within (hr _ (List.mem_singleton_self _)) hsensor ?_
    unfold Camera3.howMany
    have : 0 < askew.points.countP fun y => decide (∃ x, y = some x ∧ DeepBox (doubleTol 1 6 8) 1 ![2, 1, 0] (askew.place x) ∧
        WellWithin (doubleTol 1 6 8) askew.range askew.sensor (askew.place x)) := by
      refine List.countP_pos_iff.2 ⟨_, hx, decide_eq_true ⟨_, rfl, ?_, fun r hr => by cases hr⟩⟩
      rw [hplace]
      intro a
      fin_cases a <;> norm_num [doubleTol]
    exact_mod_cast this
  · refine C74_double_seen_is_free_partial hs G ho hlen (cams := [askew]) hc rfl hout (by unfold CellInGrid; decide) (by decide +kernel) ?_ ?_
    · intro c hcm x hxm
      obtain rfl := List.mem_singleton.1 hcm
      have : x = ![2, 1, 0] := by simpa [askew, lookFrom] using hxm
      subst this
      rw [hplace]
      rintro ⟨h1, -⟩
      have := (h1 0).2
      norm_num [doubleTol] at this
    · have : 0 < [askew].countP fun c => decide (DoubleRange c.range ∧ DeepInGrid (doubleTol 1 6 8) 1 (axisCells grid4.dims) c.sensor ∧
          ∃ x, some x ∈ c.points ∧ SeenDeep (doubleTol 1 6 8) 1 c.range c.sensor (c.place x) ![1, 0, 0]) := by
        refine List.countP_pos_iff.2 ⟨_, List.mem_singleton_self _, decide_eq_true ⟨hr _ (List.mem_singleton_self _), hsensor, _, hx,
          3 / 8, by norm_num, by norm_num, ?_, fun r hr => by cases hr⟩⟩
        rw [hplace]
        unfold askew
        rw [lookFrom_sensor]
        intro a
        fin_cases a <;> norm_num [doubleTol, onSeg]
      exact_mod_cast this

/-- A camera before the grid that measures a point in cell (2, 0, 0). -/
def before4 : Camera3 := lookFrom ![-3 / 2, 1 / 2, 1 / 2] (.fin 5) [some ![4, 0, 0]]

theorem before4_point {sqrt : Fl → Fl} (hs : IeeeSqrt sqrt) : cpuPoint double64 sqrt grid4 before4.cloud
    (some ![.fin 4, .fin 0, .fin 0]) = some [.filled ![2, 0, 0], .free ![0, 0, 0], .free ![1, 0, 0]] := by
  have e : flLength double64 sqrt (cpuOrigin double64 before4.cloud.tf) (cpuTransform double64 before4.cloud.tf ![.fin 4, .fin 0, .fin 0]) =
      .fin 4 := by
    unfold flLength
    refine Eq.trans (congrArg sqrt ?_) (ieeeSqrt_sq hs (m := 4) (by norm_num))
    decide +kernel
  unfold cpuPoint
  dsimp only
  rw [e]
  decide +kernel

theorem fin3_map (a b c : ℚ) : (fun i => Fl.fin (![a, b, c] i)) = ![Fl.fin a, Fl.fin b, Fl.fin c] := by
  funext i
  fin_cases i <;> rfl

open Classical in
/-- The hypotheses for sensors outside the grid are met (`C74_double_obstacle_is_filled`). -/
theorem before4_run {sqrt : Fl → Fl} (hs : IeeeSqrt sqrt) : ∃ output', FlVoxelizeRuns double64 sqrt grid4 ⟨.fin 1, 1, 1⟩ [before4.cloud] dark4 output' ∧
    output'.data (dataIndex grid4.dims ![2, 0, 0]) = .fin 1 := by
  have G := grid4_double (n := 6) (by norm_num) (by norm_num)
  have ho : FilterOptions.make (.fin 1) 1 1 = some ⟨.fin 1, 1, 1⟩ := by decide +kernel
  have hlen : ∀ c ∈ [before4], c.points.length < 2 ^ 31 := by decide
  obtain ⟨out, hout⟩ := (C74_defined (A := double64) (sqrt := sqrt) (g := grid4) (clouds := [before4.cloud]) ho
    (clouds_length (cams := [before4]) hlen) (output := dark4) rfl).2 (by
    intro c hc
    obtain rfl := List.mem_singleton.1 hc
    refine ⟨by decide +kernel, ?_⟩
    intro x hx
    have hx' : x = some ![.fin 4, .fin 0, .fin 0] := by
      have : x = some fun i => Fl.fin (![4, 0, 0] i) := by simpa [Camera3.cloud, before4, lookFrom] using hx
      rw [this, fin3_map]
    subst hx'
    rw [before4_point hs]
    rfl)
  refine ⟨out, hout, ?_⟩
  refine C74_double_obstacle_is_filled hs G (n := 48) (by norm_num) (by norm_num)
    (by intro a; exact ⟨4, rfl, by fin_cases a <;> norm_num [grid4, axisCells]⟩) ho hlen (cams := [before4]) rfl hout
    (by unfold CellInGrid; decide) (by decide +kernel) (List.mem_singleton_self _) (c := before4) (lookFrom_within ?_ ?_) ⟨by decide, ?_⟩ ?_ ?_
  · intro a
    fin_cases a <;> norm_num [abs_le]
  · intro x hx a
    have : x = ![4, 0, 0] := by simpa using hx
    subst this
    fin_cases a <;> norm_num
  · intro r hr
    have : r = 5 := by simpa [before4, lookFrom] using hr.symm
    rw [this]
    norm_num
  · unfold before4
    rw [lookFrom_sensor]
    intro a
    fin_cases a <;> norm_num [abs_of_neg, abs_of_pos]
  · unfold Camera3.howMany
    have hplace : before4.place ![4, 0, 0] = ![5 / 2, 1 / 2, 1 / 2] := by
      unfold before4
      rw [lookFrom_place]
      funext a
      fin_cases a <;> norm_num
    have : 0 < before4.points.countP fun y => decide (∃ x, y = some x ∧ DeepBox (doubleWideTol 1 6 48 8) 1 ![2, 0, 0] (before4.place x) ∧
        WellWithin (doubleWideTol 1 6 48 8) before4.range before4.sensor (before4.place x)) := by
      refine List.countP_pos_iff.2 ⟨some ![4, 0, 0], List.mem_singleton_self _, decide_eq_true ⟨_, rfl, ?_, ?_⟩⟩
      · rw [hplace]
        intro a
        fin_cases a <;> norm_num [doubleWideTol]
      · intro r hr
        have : r = 5 := by simpa [before4, lookFrom] using hr.symm
        rw [this, hplace]
        unfold before4
        rw [lookFrom_sensor]
        rw [show distSq ![-3 / 2, 1 / 2, 1 / 2] ![5 / 2, 1 / 2, 1 / 2] = 16 by unfold distSq; decide +kernel]
        norm_num [doubleWideTol]
    exact_mod_cast this

/-! ### Free cells behind an obstacle -/

/-- A camera before the grid that measures a point which is before the grid too. -/
def short4 : Camera3 := lookFrom ![-2, 1 / 2, 1 / 2] .pinf [some ![1, 0, 0]]

theorem short4_point {sqrt : Fl → Fl} (hs : IeeeSqrt sqrt) : cpuPoint double64 sqrt grid4 short4.cloud
    (some ![.fin 1, .fin 0, .fin 0]) = some [.free ![0, 0, 0]] := by
  have e : flLength double64 sqrt (cpuOrigin double64 short4.cloud.tf) (cpuTransform double64 short4.cloud.tf ![.fin 1, .fin 0, .fin 0]) =
      .fin 1 := by
    unfold flLength
    refine Eq.trans (congrArg sqrt ?_) (ieeeSqrt_sq hs (m := 1) (by norm_num))
    decide +kernel
  unfold cpuPoint
  dsimp only
  rw [e]
  decide +kernel

open Classical in
/-- C74, negative: free cells need not have been looked through if the sensor is outside the grid.  On the CPU, a camera two cells before the
grid that measures an obstacle one cell before the grid, and nothing else, makes cell (0, 0, 0) free, which is behind the obstacle: its
line of sight never comes within half a cell of it.  (The slab test of the code never compares the entry with the distance of the point.) -/
theorem C74_free_behind_the_obstacle {sqrt : Fl → Fl} (hs : IeeeSqrt sqrt) :
    (∃ output', FlVoxelizeRuns double64 sqrt grid4 ⟨.fin 1, 1, 1⟩ [short4.cloud] dark4 output' ∧
      output'.data (dataIndex grid4.dims ![0, 0, 0]) = .fin 0) ∧
    ∀ x, some x ∈ short4.points → ¬ SeenNear (1 / 2) 1 short4.range short4.sensor (short4.place x) ![0, 0, 0] := by
  have ho : FilterOptions.make (.fin 1) 1 1 = some ⟨.fin 1, 1, 1⟩ := by decide +kernel
  have hlen : ∀ c ∈ [short4.cloud], c.points.length < 2 ^ 31 := by decide
  have hpts : short4.cloud.points = [some ![.fin 1, .fin 0, .fin 0]] := by
    show [some fun i => Fl.fin (![1, 0, 0] i)] = _
    rw [fin3_map]
  obtain ⟨out, hout⟩ := (C74_defined (A := double64) (sqrt := sqrt) (g := grid4) (clouds := [short4.cloud]) ho hlen (output := dark4) rfl).2 (by
    intro c hc
    obtain rfl := List.mem_singleton.1 hc
    refine ⟨by decide +kernel, ?_⟩
    intro x hx
    rw [hpts, List.mem_singleton] at hx
    subst hx
    rw [short4_point hs]
    rfl)
  constructor
  · refine ⟨out, hout, ?_⟩
    have hputs : ∀ m, CpuPuts double64 sqrt grid4 short4.cloud m (some ![.fin 1, .fin 0, .fin 0]) ↔ m ∈ [Mark.free ![0, 0, 0]] := by
      intro m
      unfold CpuPuts
      rw [short4_point hs]
      simp
    have hcount : ∀ m, cpuCount double64 sqrt grid4 short4.cloud m = if m ∈ [Mark.free ![0, 0, 0]] then 1 else 0 := by
      intro m
      unfold cpuCount
      rw [hpts, List.countP_cons, List.countP_nil]
      simp only [hputs m, decide_eq_true_eq]
      split_ifs <;> rfl
    have := C74_decision ho hlen (g := grid4) rfl hout (i := ![0, 0, 0]) (by unfold CellInGrid; decide) (by decide +kernel)
    simp only [List.map_cons, List.map_nil, hcount] at this
    rw [this, decision_eq_zero]
    refine ⟨?_, ?_⟩
    · rintro ⟨x, hx, hs⟩
      obtain rfl := List.mem_singleton.1 hx
      exact absurd hs.1 (by decide)
    · rw [List.countP_cons, List.countP_nil, if_pos]
      · decide
      · exact decide_eq_true (p := SawFree _ _ _ _) ⟨by decide, .inl (by decide)⟩
  · intro x hx
    have : x = ![1, 0, 0] := by simpa [short4, lookFrom] using hx
    subst this
    rintro ⟨τ, t0, t1, h1, -⟩
    have h2 := (h1 0).1
    unfold short4 at h2
    rw [lookFrom_sensor, lookFrom_place] at h2
    norm_num [onSeg] at h2
    linarith

end VGT
