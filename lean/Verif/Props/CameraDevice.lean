import Verif.Lemmas.CameraDevice
import Verif.Props.DeviceVoxelize

/-!
C76: which cells a device voxelizer fills and frees, in words of the true positions of sensors and points.
-/
set_option autoImplicit false

namespace VGT
open VGT.EDT VGT.Spec VGT.Par

/-- The arithmetic of the device is precise enough for the grid and the coordinates; `s` is the edge of the cells `e` after
conversion. -/
structure DevPrecise (R : ℚ → Fl) (sqrt : Fl → Fl) (u η M e s n N E E' B : ℚ) (g : RayGrid Fl) : Prop where
  cam : CamPrecise R sqrt u η M s n N E B g
  edge : |s - e| ≤ u * e + η
  e_pos : 0 < e
  e_le : e ≤ B
  edge_E : 33 * E + N * (21 / 10 * (u * e)) ≤ 34 * E'

/-- The tolerance. -/
def devTol (u E' B : ℚ) : ℚ := 34 * E' + 310 * (u * B)

section
variable {R : ℚ → Fl} {sqrt : Fl → Fl} {u η M e s n N E E' B : ℚ} {g : RayGrid Fl} {bits : ℕ} {c : Camera3} {x o p : Fin 3 → ℚ} {len : ℚ}

/-- The camera with the range the device uses. -/
def Camera3.conv (R : ℚ → Fl) (c : Camera3) : Camera3 := { c with range := convert R c.range }

theorem conv_within (hc : c.Within B) : (Camera3.conv R c).Within B := ⟨hc.turn, hc.shift, hc.points⟩

/-- The ray of a point on the device. -/
theorem devRay (P : CamPrecise R sqrt u η M s n N E B g) (bits : ℕ) (hc : c.Within B) (ht : c.Turns) (hx : some x ∈ c.points) :
    ∃ o p len, RayFacts R sqrt u B bits (Camera3.conv R c) x o p len ∧
      kernelPoint (ieee R bits) sqrt g (c.dev R) (some fun a => R (x a)) = castRay R bits g (Camera3.conv R c) o p len := by
  obtain ⟨o, ho1, ho2⟩ := device_sensor P.cam P.rounds hc
  have hM : 2 ≤ M := by linarith [P.ray.M_n, P.ray.n_ge]
  obtain ⟨p, hp1, hp2⟩ := device_near P.cam P.rounds P.ray.η_le hM bits hc ht (hc.points x hx)
  obtain ⟨len, F⟩ := rayFacts (c := Camera3.conv R c) P bits (conv_within hc) hx ho2 hp2
  refine ⟨o, p, len, F, ?_⟩
  unfold kernelPoint
  dsimp only
  rw [ho1, hp1, F.length]
  rfl

/-! ### Tolerances -/

/-- What the conversion of the edge costs. -/
theorem edge_cost (P : DevPrecise R sqrt u η M e s n N E E' B g) : ∃ d, |s - e| ≤ d ∧ 0 ≤ camTol u E B ∧ 10 * camTol u E B ≤ 6 * B ∧
    camTol u E B + 8 * (u * B) + N * d ≤ devTol u E' B := by
  obtain ⟨hu, hs, hB, huB, hw, hw2⟩ := P.cam.pos
  have hu1 := P.cam.cam.u_le; have hηs := P.cam.ray.η_le_s; have he := P.e_pos
  have hsm := P.cam.ray.nw_le; have heB := P.e_le; have hE := P.edge_E
  have h1 := P.edge
  have h2 := abs_le.1 h1
  have k1 := mul_le_mul_of_nonneg_right hu1 hs.le
  have k2 := mul_le_mul_of_nonneg_right hu1 he.le
  have hse : s ≤ 1001 / 1000 * e := by linarith
  have k3 := mul_le_mul_of_nonneg_left hse hu.le
  have hd : |s - e| ≤ 21 / 10 * (u * e) := by linarith
  have k7 : 9000 * (u * B) ≤ B := by
    have := mul_le_mul_of_nonneg_right hu1 hB.le
    linarith
  have k8 : 0 ≤ E := by linarith
  refine ⟨_, hd, ?_, ?_, ?_⟩ <;> unfold camTol
  · positivity
  · linarith
  · unfold devTol
    linarith

theorem edge_cells (P : DevPrecise R sqrt u η M e s n N E E' B g) {i : IVec} (hi : CellInGrid (axisCells g.dims) i) (a : Fin 3) :
    0 ≤ i a ∧ (i a : ℚ) + 1 ≤ N := by
  obtain ⟨h1, h2⟩ := hi a
  refine ⟨h1, ?_⟩
  have h3 := P.cam.grid.dims a
  have h4 : (i a : ℚ) + 1 ≤ axisCells g.dims a := by exact_mod_cast h2
  linarith

theorem nearBox_mono {tol tol' s : ℚ} {i : Fin 3 → ℤ} {x : Fin 3 → ℚ} (ht : tol ≤ tol') (h : NearBox tol s i x) : NearBox tol' s i x :=
  fun a => by have := h a; constructor <;> linarith

theorem notBeyond_mono {tol tol' : ℚ} {range : Fl} {o x : Fin 3 → ℚ} (h0 : 0 ≤ tol) (ht : tol ≤ tol') (hr : ∀ r, range = .fin r → 0 ≤ r)
    (h : NotBeyond tol range o x) : NotBeyond tol' range o x := fun r hrr => by
  have := hr r hrr
  exact (h r hrr).trans (pow_le_pow_left₀ (by linarith) (by linarith) 2)

theorem deepInGrid_mono {tol tol' s : ℚ} {m : Fin 3 → ℕ} {x : Fin 3 → ℚ} (ht : tol ≤ tol') (h : DeepInGrid tol' s m x) : DeepInGrid tol s m x :=
  fun a => by have := h a; constructor <;> linarith

/-! ### The ray, in words of the true camera -/

theorem dev_filled_near (P : DevPrecise R sqrt u η M e s n N E E' B g) (hc : c.Within B) (ht : c.Turns) (hr : ∀ r, c.range = .fin r → 0 ≤ r)
    (hx : some x ∈ c.points) (F : RayFacts R sqrt u B bits (Camera3.conv R c) x o p len) {ms : List Mark} {i : IVec}
    (hi : CellInGrid (axisCells g.dims) i) (h : castRay R bits g (Camera3.conv R c) o p len = some ms) (hm : Mark.filled i ∈ ms) :
    NearBox (devTol u E' B) e i (c.place x) ∧ NotBeyond (devTol u E' B) c.range c.sensor (c.place x) := by
  obtain ⟨d, d1, d2, d3, d4⟩ := edge_cost P
  obtain ⟨hu, hs, hB, huB, -, -⟩ := P.cam.pos
  have hn := P.cam.ray.n_ge
  have hnd : 0 ≤ N * d := mul_nonneg (by linarith [P.cam.ray.N_ge]) ((abs_nonneg _).trans d1)
  obtain ⟨h1, h2⟩ := ray_filled_near P.cam F h hm
  refine ⟨nearBox_mono (by linarith) (nearBox_edge d1 (edge_cells P hi) h1), ?_⟩
  exact notBeyond_mono (by linarith) (by linarith) hr
    (notBeyond_convert P.cam.cam P.cam.rounds P.cam.sign hr d2 (place_near hc ht (hc.points x hx)) h2)

/-- Points of the ray are not farther than its end. -/
theorem onSeg_within {o x : Fin 3 → ℚ} {D τ : ℚ} (h : distSq o x ≤ D ^ 2) (h0 : 0 ≤ τ) (h1 : τ ≤ 1) : distSq o (onSeg o x τ) ≤ D ^ 2 := by
  rw [distSq_onSeg]
  have := distSq_nonneg o x
  nlinarith [mul_le_mul_of_nonneg_right (show τ ^ 2 ≤ 1 by nlinarith) this]

theorem dev_sensor (P : DevPrecise R sqrt u η M e s n N E E' B g) (h : DeepInGrid (devTol u E' B) e (axisCells g.dims) c.sensor) :
    DeepInGrid (camTol u E B) s (axisCells g.dims) (Camera3.conv R c).sensor := by
  obtain ⟨d, d1, d2, d3, d4⟩ := edge_cost P
  obtain ⟨hu, hs, hB, huB, -, -⟩ := P.cam.pos
  refine deepInGrid_edge d1 (n := N) (fun a => by have := P.cam.grid.dims a; linarith) (deepInGrid_mono ?_ h)
  linarith

theorem dev_seen_near (P : DevPrecise R sqrt u η M e s n N E E' B g) (hc : c.Within B) (ht : c.Turns) (hr : DevRange η B c.range)
    (hx : some x ∈ c.points) (F : RayFacts R sqrt u B bits (Camera3.conv R c) x o p len)
    (hdeep : DeepInGrid (devTol u E' B) e (axisCells g.dims) c.sensor) {ms : List Mark} {m : Mark}
    (hi : CellInGrid (axisCells g.dims) m.cell) (h : castRay R bits g (Camera3.conv R c) o p len = some ms) (hm : m ∈ ms) :
    SeenNear (devTol u E' B) e c.range c.sensor (c.place x) m.cell := by
  obtain ⟨d, d1, d2, d3, d4⟩ := edge_cost P
  obtain ⟨hu, hs, hB, huB, -, -⟩ := P.cam.pos
  have hn := P.cam.ray.n_ge
  have hnd : 0 ≤ N * d := mul_nonneg (by linarith [P.cam.ray.N_ge]) ((abs_nonneg _).trans d1)
  have hr0 : ∀ r, c.range = .fin r → 0 ≤ r := fun r h => (hr.2 r h).1.le
  obtain ⟨τ, t0, t1, h1, h2⟩ := ray_seen_near P.cam F (hr.ok P.cam.cam P.cam.rounds) (dev_sensor P hdeep) h hm
  refine ⟨τ, t0, t1, nearBox_mono (by linarith) (nearBox_edge d1 (edge_cells P hi) h1), ?_⟩
  exact notBeyond_mono (by linarith) (by linarith) hr0
    (notBeyond_convert P.cam.cam P.cam.rounds P.cam.sign hr0 d2 (onSeg_within (place_near hc ht (hc.points x hx)) t0 t1) h2)

theorem dev_seen_deep (P : DevPrecise R sqrt u η M e s n N E E' B g) (hc : c.Within B) (ht : c.Turns) (hr : DevRange η B c.range)
    (hx : some x ∈ c.points) (F : RayFacts R sqrt u B bits (Camera3.conv R c) x o p len)
    (hdeep : DeepInGrid (devTol u E' B) e (axisCells g.dims) c.sensor) {ms : List Mark}
    (h : castRay R bits g (Camera3.conv R c) o p len = some ms) {i : IVec} (hi : CellInGrid (axisCells g.dims) i)
    (hsee : SeenDeep (devTol u E' B) e c.range c.sensor (c.place x) i) : Mark.free i ∈ ms ∨ Mark.filled i ∈ ms := by
  obtain ⟨d, d1, d2, d3, d4⟩ := edge_cost P
  obtain ⟨hu, hs, hB, huB, -, -⟩ := P.cam.pos
  have hn := P.cam.ray.n_ge
  have hnd : 0 ≤ N * d := mul_nonneg (by linarith [P.cam.ray.N_ge]) ((abs_nonneg _).trans d1)
  obtain ⟨τ, t0, t1, h1, h2⟩ := hsee
  refine ray_seen_deep P.cam F (hr.ok P.cam.cam P.cam.rounds) (dev_sensor P hdeep) h hi ⟨τ, t0, t1, ?_, ?_⟩
  · exact deepBox_edge d1 (edge_cells P hi) (deepBox_mono (by linarith) h1)
  · exact wellWithin_convert P.cam.cam P.cam.rounds d2 (by linarith) (onSeg_within (place_near hc ht (hc.points x hx)) t0 t1)
      (wellWithin_mono (by linarith) h2)

theorem dev_filled_in (P : DevPrecise R sqrt u η M e s n N E E' B g) (hc : c.Within B) (ht : c.Turns) (hr : DevRange η B c.range)
    (hx : some x ∈ c.points) (F : RayFacts R sqrt u B bits (Camera3.conv R c) x o p len)
    (hdeep : DeepInGrid (devTol u E' B) e (axisCells g.dims) c.sensor) {i : IVec} (hi : CellInGrid (axisCells g.dims) i)
    (h1 : DeepBox (devTol u E' B) e i (c.place x)) (h2 : WellWithin (devTol u E' B) c.range c.sensor (c.place x)) {ms : List Mark}
    (h : castRay R bits g (Camera3.conv R c) o p len = some ms) : Mark.filled i ∈ ms := by
  obtain ⟨d, d1, d2, d3, d4⟩ := edge_cost P
  obtain ⟨hu, hs, hB, huB, -, -⟩ := P.cam.pos
  have hn := P.cam.ray.n_ge
  have hnd : 0 ≤ N * d := mul_nonneg (by linarith [P.cam.ray.N_ge]) ((abs_nonneg _).trans d1)
  refine ray_filled_in P.cam F (hr.ok P.cam.cam P.cam.rounds) (dev_sensor P hdeep) hi ?_ ?_ h
  · exact deepBox_edge d1 (edge_cells P hi) (deepBox_mono (by linarith) h1)
  · exact wellWithin_convert P.cam.cam P.cam.rounds d2 (by linarith) (place_near hc ht (hc.points x hx)) (wellWithin_mono (by linarith) h2)

/-- The tolerance for sensors outside the grid: the share of the absolute constants `1e-10` of the code comes on top. -/
def devWideTol (u E' B : ℚ) : ℚ := devTol u E' B + 600 * (u * B) + (1 + B) / 10 ^ 8

theorem dev_filled_wide (P : DevPrecise R sqrt u η M e s n N E E' B g) (W : Wide u η M s n N E g) (hB7 : 1 ≤ 10 ^ 7 * B) (hc : c.Within B) (ht : c.Turns)
    (hr : DevRange η B c.range) (hx : some x ∈ c.points) (F : RayFacts R sqrt u B bits (Camera3.conv R c) x o p len)
    (hreach : ∀ a, 8 * |c.sensor a| + 264 * (u * B) ≤ n * s) {i : IVec} (hi : CellInGrid (axisCells g.dims) i)
    (h1 : DeepBox (devWideTol u E' B) e i (c.place x)) (h2 : WellWithin (devWideTol u E' B) c.range c.sensor (c.place x)) {ms : List Mark}
    (h : castRay R bits g (Camera3.conv R c) o p len = some ms) : Mark.filled i ∈ ms := by
  obtain ⟨d, d1, d2, d3, d4⟩ := edge_cost P
  obtain ⟨hu, hs, hB, huB, -, -⟩ := P.cam.pos
  have hn := P.cam.ray.n_ge
  have hnd : 0 ≤ N * d := mul_nonneg (by linarith [P.cam.ray.N_ge]) ((abs_nonneg _).trans d1)
  have k7 : 9000 * (u * B) ≤ B := by
    have := mul_le_mul_of_nonneg_right P.cam.cam.u_le hB.le
    linarith
  have hw : wideTol u E B = camTol u E B + 600 * (u * B) + (1 + B) / 10 ^ 8 := rfl
  have hw0 : 0 ≤ (1 + B) / 10 ^ 8 := by positivity
  have hw1 : (1 + B) / 10 ^ 8 ≤ 11 / 100 * B := by
    rw [div_le_iff₀ (by norm_num)]
    linarith
  have hdw : devWideTol u E' B = devTol u E' B + 600 * (u * B) + (1 + B) / 10 ^ 8 := rfl
  refine ray_filled_wide P.cam W F (hr.ok P.cam.cam P.cam.rounds) hreach hi ?_ ?_ h
  · exact deepBox_edge d1 (edge_cells P hi) (deepBox_mono (by linarith) h1)
  · exact wellWithin_convert P.cam.cam P.cam.rounds (by linarith) (by linarith) (place_near hc ht (hc.points x hx))
      (wellWithin_mono (by linarith) h2)

/-! ### Counting -/

open Classical in
theorem devHits_le {m : Mark} {Q : (Fin 3 → ℚ) → Prop}
    (h : ∀ x, some x ∈ c.points → DevPuts (ieee R bits) sqrt g (c.dev R) m (some fun a => R (x a)) → Q x) :
    devHits (ieee R bits) sqrt g (c.dev R) m ≤ c.howMany Q := by
  unfold devHits Camera3.howMany Camera3.dev
  rw [List.countP_map]
  refine List.countP_mono_left fun y hy hp => ?_
  rw [Function.comp_apply, decide_eq_true_iff] at hp
  rw [decide_eq_true_iff]
  cases y with
  | none =>
    obtain ⟨ms, h1, h2⟩ := hp
    cases h1
    cases h2
  | some x => exact ⟨x, rfl, h x hy hp⟩

open Classical in
theorem le_devHits {m : Mark} {Q : (Fin 3 → ℚ) → Prop}
    (h : ∀ x, some x ∈ c.points → Q x → DevPuts (ieee R bits) sqrt g (c.dev R) m (some fun a => R (x a))) :
    c.howMany Q ≤ devHits (ieee R bits) sqrt g (c.dev R) m := by
  unfold devHits Camera3.howMany Camera3.dev
  rw [List.countP_map]
  refine List.countP_mono_left fun y hy hp => ?_
  rw [decide_eq_true_iff] at hp
  rw [Function.comp_apply, decide_eq_true_iff]
  obtain ⟨x, rfl, hx⟩ := hp
  exact h x hy hx

open Classical in
theorem devHits_pos {m : Mark} : 0 < devHits (ieee R bits) sqrt g (c.dev R) m ↔
    ∃ x, some x ∈ c.points ∧ DevPuts (ieee R bits) sqrt g (c.dev R) m (some fun a => R (x a)) := by
  unfold devHits Camera3.dev
  rw [List.countP_map, List.countP_pos_iff]
  constructor
  · rintro ⟨y, hy, hp⟩
    rw [Function.comp_apply, decide_eq_true_iff] at hp
    cases y with
    | none =>
      obtain ⟨ms, h1, h2⟩ := hp
      cases h1
      cases h2
    | some x => exact ⟨x, hy, hp⟩
  · rintro ⟨x, hx, hp⟩
    refine ⟨_, hx, ?_⟩
    rw [Function.comp_apply, decide_eq_true_iff]
    exact hp

theorem devs_length {cams : List Camera3} (hlen : ∀ c ∈ cams, c.points.length ≤ 2 ^ 24) :
    ∀ c ∈ cams.map (Camera3.dev R), c.points.length ≤ 2 ^ 24 := by
  intro c hc
  obtain ⟨c', h1, rfl⟩ := List.mem_map.1 hc
  show (c'.points.map _).length ≤ _
  rw [List.length_map]
  exact hlen c' h1

/-- A camera of which at least `t` points mark the cell filled makes it filled if the percentage is 1. -/
theorem dev_filled_of_count {K : Type} {api : DeviceApi} {t k : ℤ} {op : FilterOptions} (hop : FilterOptions.make (.fin 1) t k = some op)
    {clouds : List (DevCloud Fl)} (hh : Helper api clouds) (hN : g.dims.total * 2 * numTrackingGrids clouds < 2 ^ 31)
    (hlen : ∀ c ∈ clouds, c.points.length ≤ 2 ^ 24) {static output output' : VoxMap K} (hd : static.dims = g.dims)
    (h : DeviceVoxelizeRuns api (ieee R bits) sqrt g op clouds static output output') {i : IVec}
    (hi : CellInGrid (axisCells g.dims) i) (hocc : (static.data (dataIndex g.dims i)).le (.fin (1 / 2)) = true)
    {c : DevCloud Fl} (hc : c ∈ clouds) (hcnt : t ≤ devHits (ieee R bits) sqrt g c (.filled i)) :
    output'.data (dataIndex g.dims i) = .fin 1 := by
  rw [C57_device_decision hh hN hop hlen hd h hi hocc, decision_eq_one]
  refine ⟨_, List.mem_map.2 ⟨c, hc, rfl⟩, hcnt, ?_⟩
  have ht : 1 ≤ t := (make_ok hop).2.1
  have hsum := (devMarks_count (A := ieee R bits) (sqrt := sqrt) (c := c) hi).2.2
  have hl := hlen c hc
  have h1 : roundFloat (1 : ℚ) = 1 := by decide +kernel
  simp only [h1]
  by_cases hz : devHits (ieee R bits) sqrt g c (.free i) = 0
  · left; exact_mod_cast hz
  right
  have key := share_exact (p := 24) (emin := -149) (by norm_num) (by norm_num)
    (a := (devHits (ieee R bits) sqrt g c (.free i) : ℤ))
    (n := (devHits (ieee R bits) sqrt g c (.free i) : ℤ) + devHits (ieee R bits) sqrt g c (.filled i))
    (m := 1) (j := 0) (by omega) (by norm_num) (by norm_num) (by omega)
  push_cast at key
  rw [← not_le]
  intro hle
  unfold roundFloat at hle
  have := key.1 (by simpa using hle)
  omega

/-! ### The properties -/

variable {K : Type} {api : DeviceApi} {pct : ℚ} {t k : ℤ} {op : FilterOptions} {cams : List Camera3} {static output output' : VoxMap K}
  {i : IVec}

/-- C76, filled cells are where something is: on a device, with all values converted to its format, a cell that was not filled in the
static environment becomes 1 only if some camera measured at least `threshold` points whose true positions are in the cell
and not beyond the range, up to the tolerance `34 E' + 310 u B` (`u` the precision, `e` the true edge of a cell, `n`
the number of cells along an axis plus two, `B` a bound on coordinates).  Sensors may be anywhere. -/
theorem C76_filled_is_real (P : DevPrecise R sqrt u η M e s n N E E' B g) (hh : Helper api (cams.map (Camera3.dev R)))
    (hN : g.dims.total * 2 * numTrackingGrids (cams.map (Camera3.dev R)) < 2 ^ 31)
    (hop : FilterOptions.make (.fin pct) t k = some op) (hlen : ∀ c ∈ cams, c.points.length ≤ 2 ^ 24)
    (hc : ∀ c ∈ cams, c.Within B) (ht : ∀ c ∈ cams, c.Turns) (hr : ∀ c ∈ cams, ∀ r, c.range = .fin r → 0 ≤ r)
    (hd : static.dims = g.dims) (h : DeviceVoxelizeRuns api (ieee R bits) sqrt g op (cams.map (Camera3.dev R)) static output output')
    (hi : CellInGrid (axisCells g.dims) i)
    (hocc : (static.data (dataIndex g.dims i)).le (.fin (1 / 2)) = true) (hone : output'.data (dataIndex g.dims i) = .fin 1) :
    ∃ c ∈ cams, t ≤ c.howMany fun x =>
      NearBox (devTol u E' B) e i (c.place x) ∧ NotBeyond (devTol u E' B) c.range c.sensor (c.place x) := by
  rw [C57_device_decision hh hN hop (devs_length hlen) hd h hi hocc, decision_eq_one] at hone
  obtain ⟨y, hy, hs1, _⟩ := hone
  unfold devCounts at hy
  rw [List.map_map] at hy
  obtain ⟨c, hcm, rfl⟩ := List.mem_map.1 hy
  refine ⟨c, hcm, hs1.trans ?_⟩
  simp only [Function.comp_apply]
  exact_mod_cast devHits_le fun x hx hp => by
    obtain ⟨o, p, len, F, e⟩ := devRay P.cam bits (hc c hcm) (ht c hcm) hx
    obtain ⟨ms, h1, h2⟩ := hp
    rw [e] at h1
    exact dev_filled_near P (hc c hcm) (ht c hcm) (hr c hcm) hx F hi h1 h2

open Classical in
/-- C76, free cells were looked through: on a device, a cell that was not filled becomes 0 only if, for at least the required number of
cameras, the true segment from the sensor to some measured point passes the cell not beyond the range, up to the tolerance.
Missing for a full statement: sensors outside the grid. -/
theorem C76_free_is_seen_partial (P : DevPrecise R sqrt u η M e s n N E E' B g) (hh : Helper api (cams.map (Camera3.dev R)))
    (hN : g.dims.total * 2 * numTrackingGrids (cams.map (Camera3.dev R)) < 2 ^ 31)
    (hop : FilterOptions.make (.fin pct) t k = some op) (hlen : ∀ c ∈ cams, c.points.length ≤ 2 ^ 24)
    (hc : ∀ c ∈ cams, c.Within B) (ht : ∀ c ∈ cams, c.Turns) (hr : ∀ c ∈ cams, DevRange η B c.range)
    (hsensor : ∀ c ∈ cams, DeepInGrid (devTol u E' B) e (axisCells g.dims) c.sensor)
    (hd : static.dims = g.dims) (h : DeviceVoxelizeRuns api (ieee R bits) sqrt g op (cams.map (Camera3.dev R)) static output output')
    (hi : CellInGrid (axisCells g.dims) i)
    (hocc : (static.data (dataIndex g.dims i)).le (.fin (1 / 2)) = true) (hzero : output'.data (dataIndex g.dims i) = .fin 0) :
    k ≤ cams.countP fun c => decide (∃ x, some x ∈ c.points ∧ SeenNear (devTol u E' B) e c.range c.sensor (c.place x) i) := by
  rw [C57_device_decision hh hN hop (devs_length hlen) hd h hi hocc, decision_eq_zero] at hzero
  obtain ⟨-, hcnt⟩ := hzero
  unfold devCounts at hcnt
  rw [List.map_map, List.countP_map] at hcnt
  refine hcnt.trans ?_
  norm_cast
  refine List.countP_mono_left fun c hcm hp => ?_
  rw [Function.comp_apply, Function.comp_apply, decide_eq_true_iff] at hp
  rw [decide_eq_true_iff]
  have hpos : 0 < devHits (ieee R bits) sqrt g (c.dev R) (.free i) := by
    have h1 := hp.1
    dsimp only at h1
    exact_mod_cast h1
  obtain ⟨x, hx, hput⟩ := devHits_pos.1 hpos
  obtain ⟨o, p, len, F, e⟩ := devRay P.cam bits (hc c hcm) (ht c hcm) hx
  obtain ⟨ms, h1, h2⟩ := hput
  rw [e] at h1
  exact ⟨x, hx, dev_seen_near P (hc c hcm) (ht c hcm) (hr c hcm) hx F (hsensor c hcm) (m := .free i) hi h1 h2⟩

/-- The ray of a point of a defined run is defined. -/
theorem dev_point_defined (hh : Helper api (cams.map (Camera3.dev R)))
    (hN : g.dims.total * 2 * numTrackingGrids (cams.map (Camera3.dev R)) < 2 ^ 31) (hd : static.dims = g.dims)
    (h : DeviceVoxelizeRuns api (ieee R bits) sqrt g op (cams.map (Camera3.dev R)) static output output') (hc : c ∈ cams)
    (hx : some x ∈ c.points) : (kernelPoint (ieee R bits) sqrt g (c.dev R) (some fun a => R (x a))).isSome :=
  ((C57_device_voxelizer hh hN hd).1 h).1 _ (List.mem_map_of_mem hc) _ (List.mem_map.2 ⟨some x, hx, rfl⟩)

/-- C76, obstacles are kept: on a device with percentage 1 (the default), a cell in which one camera in the grid measured at least
`threshold` points, truly deeper in the cell than the tolerance and nearer than the range by more than the tolerance, ends
up filled.
Missing for a full statement: sensors outside the grid. -/
theorem C76_obstacle_is_filled_partial (P : DevPrecise R sqrt u η M e s n N E E' B g) (hh : Helper api (cams.map (Camera3.dev R)))
    (hN : g.dims.total * 2 * numTrackingGrids (cams.map (Camera3.dev R)) < 2 ^ 31)
    (hop : FilterOptions.make (.fin 1) t k = some op) (hlen : ∀ c ∈ cams, c.points.length ≤ 2 ^ 24)
    (hd : static.dims = g.dims) (h : DeviceVoxelizeRuns api (ieee R bits) sqrt g op (cams.map (Camera3.dev R)) static output output')
    (hi : CellInGrid (axisCells g.dims) i) (hocc : (static.data (dataIndex g.dims i)).le (.fin (1 / 2)) = true)
    (hcm : c ∈ cams) (hc : c.Within B) (ht : c.Turns) (hr : DevRange η B c.range)
    (hsensor : DeepInGrid (devTol u E' B) e (axisCells g.dims) c.sensor)
    (hpts : t ≤ c.howMany fun x =>
      DeepBox (devTol u E' B) e i (c.place x) ∧ WellWithin (devTol u E' B) c.range c.sensor (c.place x)) :
    output'.data (dataIndex g.dims i) = .fin 1 := by
  refine dev_filled_of_count hop hh hN (devs_length hlen) hd h hi hocc (List.mem_map_of_mem hcm) (hpts.trans ?_)
  norm_cast
  refine le_devHits fun x hx hxp => ?_
  obtain ⟨ms, hms⟩ := Option.isSome_iff_exists.1 (dev_point_defined hh hN hd h hcm hx)
  refine ⟨ms, hms, ?_⟩
  obtain ⟨o, p, len, F, e⟩ := devRay P.cam bits hc ht hx
  rw [e] at hms
  exact dev_filled_in P hc ht hr hx F hsensor hi hxp.1 hxp.2 hms

/-- C76, obstacles are kept, wherever the sensor is: on a device with percentage 1 (the default), a cell in which one camera measured at
least `threshold` points, truly deeper in the cell than the tolerance and nearer than the range by more than the
tolerance, ends up filled.  The sensor may be up to `n / 8` cells from the origin of the grid. -/
theorem C76_obstacle_is_filled (P : DevPrecise R sqrt u η M e s n N E E' B g) (W : Wide u η M s n N E g) (hB7 : 1 ≤ 10 ^ 7 * B)
    (hh : Helper api (cams.map (Camera3.dev R))) (hN : g.dims.total * 2 * numTrackingGrids (cams.map (Camera3.dev R)) < 2 ^ 31)
    (hop : FilterOptions.make (.fin 1) t k = some op) (hlen : ∀ c ∈ cams, c.points.length ≤ 2 ^ 24)
    (hd : static.dims = g.dims) (h : DeviceVoxelizeRuns api (ieee R bits) sqrt g op (cams.map (Camera3.dev R)) static output output')
    (hi : CellInGrid (axisCells g.dims) i) (hocc : (static.data (dataIndex g.dims i)).le (.fin (1 / 2)) = true)
    (hcm : c ∈ cams) (hc : c.Within B) (ht : c.Turns) (hr : DevRange η B c.range)
    (hreach : ∀ a, 8 * |c.sensor a| + 264 * (u * B) ≤ n * s)
    (hpts : t ≤ c.howMany fun x =>
      DeepBox (devWideTol u E' B) e i (c.place x) ∧ WellWithin (devWideTol u E' B) c.range c.sensor (c.place x)) :
    output'.data (dataIndex g.dims i) = .fin 1 := by
  refine dev_filled_of_count hop hh hN (devs_length hlen) hd h hi hocc (List.mem_map_of_mem hcm) (hpts.trans ?_)
  norm_cast
  refine le_devHits fun x hx hxp => ?_
  obtain ⟨ms, hms⟩ := Option.isSome_iff_exists.1 (dev_point_defined hh hN hd h hcm hx)
  refine ⟨ms, hms, ?_⟩
  obtain ⟨o, p, len, F, e⟩ := devRay P.cam bits hc ht hx
  rw [e] at hms
  exact dev_filled_wide P W hB7 hc ht hr hx F hreach hi hxp.1 hxp.2 hms

open Classical in
/-- C76, what is looked through becomes free: on a device, a cell that was not filled becomes 0 if, for at least the required number of
cameras in the grid, the true segment from the sensor to some measured point passes the cell deeper than the tolerance and
nearer than the range by more than the tolerance, and no camera measured a point within the tolerance of the cell.
Missing for a full statement: sensors outside the grid, for which it does not hold (`C57_device_misses_free_cell`). -/
theorem C76_seen_is_free_partial (P : DevPrecise R sqrt u η M e s n N E E' B g) (hh : Helper api (cams.map (Camera3.dev R)))
    (hN : g.dims.total * 2 * numTrackingGrids (cams.map (Camera3.dev R)) < 2 ^ 31)
    (hop : FilterOptions.make (.fin pct) t k = some op) (hlen : ∀ c ∈ cams, c.points.length ≤ 2 ^ 24)
    (hc : ∀ c ∈ cams, c.Within B) (ht : ∀ c ∈ cams, c.Turns) (hr : ∀ c ∈ cams, ∀ r, c.range = .fin r → 0 ≤ r)
    (hd : static.dims = g.dims) (h : DeviceVoxelizeRuns api (ieee R bits) sqrt g op (cams.map (Camera3.dev R)) static output output')
    (hi : CellInGrid (axisCells g.dims) i) (hocc : (static.data (dataIndex g.dims i)).le (.fin (1 / 2)) = true)
    (hno : ∀ c ∈ cams, ∀ x, some x ∈ c.points →
      ¬ (NearBox (devTol u E' B) e i (c.place x) ∧ NotBeyond (devTol u E' B) c.range c.sensor (c.place x)))
    (hsee : k ≤ cams.countP fun c => decide (DevRange η B c.range ∧ DeepInGrid (devTol u E' B) e (axisCells g.dims) c.sensor ∧
      ∃ x, some x ∈ c.points ∧ SeenDeep (devTol u E' B) e c.range c.sensor (c.place x) i)) :
    output'.data (dataIndex g.dims i) = .fin 0 := by
  have ht1 : 1 ≤ t := (make_ok hop).2.1
  have hfilled : ∀ c ∈ cams, devHits (ieee R bits) sqrt g (c.dev R) (.filled i) = 0 := by
    intro c hcm
    by_contra hne
    obtain ⟨x, hx, hput⟩ := devHits_pos.1 (Nat.pos_of_ne_zero hne)
    obtain ⟨o, p, len, F, e⟩ := devRay P.cam bits (hc c hcm) (ht c hcm) hx
    obtain ⟨ms, h1, h2⟩ := hput
    rw [e] at h1
    exact hno c hcm x hx (dev_filled_near P (hc c hcm) (ht c hcm) (hr c hcm) hx F hi h1 h2)
  rw [C57_device_decision hh hN hop (devs_length hlen) hd h hi hocc, decision_eq_zero]
  unfold devCounts
  constructor
  · rintro ⟨y, hy, hs1, _⟩
    rw [List.map_map] at hy
    obtain ⟨c, hcm, rfl⟩ := List.mem_map.1 hy
    simp only [Function.comp_apply, hfilled c hcm] at hs1
    norm_num at hs1
    omega
  · rw [List.map_map, List.countP_map]
    refine hsee.trans ?_
    norm_cast
    refine List.countP_mono_left fun c hcm hp => ?_
    rw [decide_eq_true_iff] at hp
    obtain ⟨hr, hsensor, x, hx, hdeep⟩ := hp
    rw [Function.comp_apply, Function.comp_apply, decide_eq_true_iff]
    have hpos : 0 < devHits (ieee R bits) sqrt g (c.dev R) (.free i) := by
      obtain ⟨o, p, len, F, e⟩ := devRay P.cam bits (hc c hcm) (ht c hcm) hx
      obtain ⟨ms, hms⟩ := Option.isSome_iff_exists.1 (dev_point_defined hh hN hd h hcm hx)
      rcases dev_seen_deep P (hc c hcm) (ht c hcm) hr hx F hsensor (e ▸ hms) hi hdeep with h1 | h1
      · exact devHits_pos.2 ⟨x, hx, ms, hms, h1⟩
      · exact absurd (devHits_pos.2 ⟨x, hx, ms, hms, h1⟩) (by rw [hfilled c hcm]; exact lt_irrefl 0)
    refine ⟨by simp only; exact_mod_cast hpos, .inl ?_⟩
    simp only [hfilled c hcm]
    norm_num
    omega

/-- C76, there is a result: if sensors are in the grid and coordinates are small enough for the integers, no conversion overflows and
every voxelization on the device has a result. -/
theorem C76_has_result (P : DevPrecise R sqrt u η M e s n N E E' B g) (hI : 64 * (B / s) + 8 ≤ 2 ^ (bits - 1)) (hM : 64 * (B / s) ≤ M)
    (hh : Helper api (cams.map (Camera3.dev R))) (hN : g.dims.total * 2 * numTrackingGrids (cams.map (Camera3.dev R)) < 2 ^ 31)
    (hop : FilterOptions.make (.fin pct) t k = some op) (hlen : ∀ c ∈ cams, c.points.length ≤ 2 ^ 24)
    (hc : ∀ c ∈ cams, c.Within B) (ht : ∀ c ∈ cams, c.Turns) (hr : ∀ c ∈ cams, DevRange η B c.range)
    (hsensor : ∀ c ∈ cams, DeepInGrid (devTol u E' B) e (axisCells g.dims) c.sensor) (hd : static.dims = g.dims) :
    ∃ output', DeviceVoxelizeRuns api (ieee R bits) sqrt g op (cams.map (Camera3.dev R)) static output output' := by
  refine (C57_device_defined hh hN hop (devs_length hlen) hd).2 ?_
  intro cl hcl x hx
  obtain ⟨c, hcm, rfl⟩ := List.mem_map.1 hcl
  obtain ⟨y, hy, rfl⟩ := List.mem_map.1 hx
  cases y with
  | none => rfl
  | some y =>
    obtain ⟨o, p, len, F, e⟩ := devRay P.cam bits (hc c hcm) (ht c hcm) hy
    rw [Option.map_some, e]
    exact ray_defined P.cam hI hM (conv_within (hc c hcm)) ((hr c hcm).ok P.cam.cam P.cam.rounds) (dev_sensor P (hsensor c hcm)) F

end

end VGT
