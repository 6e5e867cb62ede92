import Verif.Lemmas.CameraRound
import Verif.Props.RayEntry

/-!
C74, C76: the ray of a measured point, in words of the true positions of sensor and point.
-/
set_option autoImplicit false

namespace VGT
open VGT.EDT VGT.Spec VGT.Par

/-- The arithmetic is precise enough for the grid and the coordinates. -/
structure CamPrecise (R : ℚ → Fl) (sqrt : Fl → Fl) (u η M s n N E B : ℚ) (g : RayGrid Fl) : Prop where
  ray : RayScale u η M s n N E
  cam : CamScale u η M s B
  rounds : Rounds R u η M
  sign : KeepsSign R
  one : KeepsOne R
  root : SqrtRounds sqrt u η
  grid : GridWith u s N g

/-- The tolerance. -/
def camTol (u E B : ℚ) : ℚ := 33 * E + 300 * (u * B)

/-- The range is a positive number that is not tiny, infinite or no number. -/
def RangeOk (η B : ℚ) (range : Fl) : Prop := range ≠ .ninf ∧ ∀ r, range = .fin r → 0 < r ∧ 28 * (η * B) ≤ r

section
variable {R : ℚ → Fl} {sqrt : Fl → Fl} {u η M s n N E B : ℚ} {g : RayGrid Fl} {bits : ℕ} {c : Camera3} {x o p : Fin 3 → ℚ} {len : ℚ}

/-- Everything known about the computed sensor `o`, point `p` and distance `len` of the measured point `x`. -/
structure RayFacts (R : ℚ → Fl) (sqrt : Fl → Fl) (u B : ℚ) (bits : ℕ) (c : Camera3) (x o p : Fin 3 → ℚ) (len : ℚ) : Prop where
  near_o : ∀ a, |o a - c.sensor a| ≤ 33 * (u * B)
  near_p : ∀ a, |p a - c.place x a| ≤ 33 * (u * B)
  span : ∀ a, |p a - o a| ≤ 7 * B
  length : flLength (ieee R bits) sqrt (fun a => .fin (o a)) (fun a => .fin (p a)) = .fin len
  len_nonneg : 0 ≤ len
  len_le : len ≤ 14 * B
  upper : distSq c.sensor (c.place x) ≤ (len + 223 * (u * B)) ^ 2
  lower : ∀ τ A, 0 ≤ τ → τ ≤ 1 → 0 ≤ A → A ≤ 14 * B → τ ^ 2 * distSq c.sensor (c.place x) ≤ A ^ 2 → τ * len ≤ A + 212 * (u * B)

theorem rayFacts (P : CamPrecise R sqrt u η M s n N E B g) (bits : ℕ) (hc : c.Within B) (hx : some x ∈ c.points)
    (ho : ∀ a, |o a - c.sensor a| ≤ 33 * (u * B)) (hp : ∀ a, |p a - c.place x a| ≤ 33 * (u * B)) :
    ∃ len, RayFacts R sqrt u B bits c x o p len := by
  have hspan := span_le P.cam hc (hc.points x hx) ho hp
  obtain ⟨len, l1, l2, l3, l4, l5⟩ := length_near P.cam P.rounds P.sign bits P.root (fun a => (hspan a).1) (fun a => (hspan a).2)
  exact ⟨len, ho, hp, fun a => (hspan a).2, l1, l2, l3, l4, l5⟩

/-- The ray as it is cast. -/
def castRay (R : ℚ → Fl) (bits : ℕ) (g : RayGrid Fl) (c : Camera3) (o p : Fin 3 → ℚ) (len : ℚ) : Option (List Mark) :=
  flRaycast (ieee R bits) g (fun a => .fin (o a)) (fun a => .fin (p a)) (.fin len) c.range

theorem CamPrecise.pos (P : CamPrecise R sqrt u η M s n N E B g) : 0 < u ∧ 0 < s ∧ 0 < B ∧ 0 < u * B ∧ 0 < u * n * s ∧
    3 * (u * n * s) ≤ E := by
  have hu := P.ray.u_pos; have hB := P.cam.B_pos
  refine ⟨hu, P.ray.s_pos, hB, mul_pos hu hB, P.ray.w_pos, ?_⟩
  exact P.ray.w_nw

/-- Distance along a segment. -/
theorem distSq_onSeg (x y : Fin 3 → ℚ) (τ : ℚ) : distSq x (onSeg x y τ) = τ ^ 2 * distSq x y := by
  unfold distSq onSeg
  ring

theorem distSq_nonneg (x y : Fin 3 → ℚ) : 0 ≤ distSq x y := by unfold distSq; positivity

/-- Points of nearby segments. -/
theorem onSeg_near {o p o' p' : Fin 3 → ℚ} {ε τ : ℚ} (ho : ∀ a, |o a - o' a| ≤ ε) (hp : ∀ a, |p a - p' a| ≤ ε) (h0 : 0 ≤ τ) (h1 : τ ≤ 1)
    (a : Fin 3) : |onSeg o p τ a - onSeg o' p' τ a| ≤ ε := by
  have e : onSeg o p τ a - onSeg o' p' τ a = (1 - τ) * (o a - o' a) + τ * (p a - p' a) := by unfold onSeg; ring
  rw [e]
  have h2 := abs_add_le ((1 - τ) * (o a - o' a)) (τ * (p a - p' a))
  rw [abs_mul, abs_mul, abs_of_nonneg (show 0 ≤ 1 - τ by linarith), abs_of_nonneg h0] at h2
  have h3 := mul_le_mul_of_nonneg_left (ho a) (show 0 ≤ 1 - τ by linarith)
  have h4 := mul_le_mul_of_nonneg_left (hp a) h0
  linarith

/-- The computed cell of something deep in the grid is in the grid. -/
theorem deep_in_grid (P : CamPrecise R sqrt u η M s n N E B g) {o q : Fin 3 → ℚ} (ho : ∀ a, |o a - q a| ≤ 33 * (u * B))
    (hdeep : DeepInGrid (camTol u E B) s (axisCells g.dims) q) {i : IVec}
    (hi : flIndex (ieee R bits) g (fun a => .fin (o a)) = some i) : CellInGrid (axisCells g.dims) i := by
  obtain ⟨v, hv, hv'⟩ := P.grid.inv
  obtain ⟨hu, hs, hB, huB, hw, hw2⟩ := P.pos
  intro a
  have hi' := flIndex_axis hi a
  rw [hv] at hi'
  have hd := (P.grid.dims a).trans P.ray.N_le
  have f0 := index_final P.ray P.rounds bits hv' hi' 0 le_rfl (by have := P.ray.n_ge; push_cast; linarith)
  have f1 := index_final P.ray P.rounds bits hv' hi' (axisCells g.dims a) (by positivity) (by push_cast; linarith)
  have h1 := abs_le.1 (ho a)
  have h2 := hdeep a
  unfold camTol at h2
  push_cast at f0 f1
  constructor
  · by_contra hneg
    have := f0.2 (by omega)
    linarith
  · by_contra hge
    have := f1.1 (by omega)
    linarith

/-- The computed cell of a sensor deep in the grid is in the grid. -/
theorem sensor_in_grid (P : CamPrecise R sqrt u η M s n N E B g) {o : Fin 3 → ℚ} (ho : ∀ a, |o a - c.sensor a| ≤ 33 * (u * B))
    (hdeep : DeepInGrid (camTol u E B) s (axisCells g.dims) c.sensor) {i : IVec}
    (hi : flIndex (ieee R bits) g (fun a => .fin (o a)) = some i) : CellInGrid (axisCells g.dims) i := deep_in_grid P ho hdeep hi

theorem deepInGrid_of_box {tol s : ℚ} (hs : 0 ≤ s) {N : Fin 3 → ℕ} {i : Fin 3 → ℤ} (hi : CellInGrid N i) {x : Fin 3 → ℚ} (h : DeepBox tol s i x) :
    DeepInGrid tol s N x := by
  intro a
  have d1 := h a
  obtain ⟨c0, c1⟩ := hi a
  have c0' : (0 : ℚ) ≤ i a := by exact_mod_cast c0
  have c1' : (i a : ℚ) + 1 ≤ N a := by exact_mod_cast c1
  have d3 := mul_nonneg c0' hs
  have d4 := mul_le_mul_of_nonneg_right c1' hs
  constructor <;> linarith

/-- A point whose computed cell is `i`. -/
theorem point_near (P : CamPrecise R sqrt u η M s n N E B g) {p q : Fin 3 → ℚ} (hp : ∀ a, |p a - q a| ≤ 33 * (u * B)) {i : IVec}
    (hi : flIndex (ieee R bits) g (fun a => .fin (p a)) = some i) (hin : CellInGrid (axisCells g.dims) i) :
    NearBox (camTol u E B) s i q := by
  obtain ⟨v, hv, hv'⟩ := P.grid.inv
  obtain ⟨hu, hs, hB, huB, hw, hw2⟩ := P.pos
  intro a
  have hi' := flIndex_axis hi a
  rw [hv] at hi'
  have hd := (P.grid.dims a).trans P.ray.N_le
  obtain ⟨c0, c1⟩ := hin a
  have c1' : (i a : ℚ) + 1 ≤ axisCells g.dims a := by exact_mod_cast c1
  have f0 := (index_final P.ray P.rounds bits hv' hi' (i a) c0 (by linarith)).1 le_rfl
  have f1 := (index_final P.ray P.rounds bits hv' hi' (i a + 1) (by omega) (by push_cast; linarith)).2 (by omega)
  have h1 := abs_le.1 (hp a)
  unfold camTol
  push_cast at f1
  constructor <;> linarith

/-- The computed cell of a point deep in cell `i`. -/
theorem point_deep (P : CamPrecise R sqrt u η M s n N E B g) {p q : Fin 3 → ℚ} (hp : ∀ a, |p a - q a| ≤ 33 * (u * B)) {i j : IVec}
    (hi : CellInGrid (axisCells g.dims) i) (hdeep : DeepBox (camTol u E B) s i q)
    (hj : flIndex (ieee R bits) g (fun a => .fin (p a)) = some j) : j = i := by
  obtain ⟨v, hv, hv'⟩ := P.grid.inv
  obtain ⟨hu, hs, hB, huB, hw, hw2⟩ := P.pos
  funext a
  have hj' := flIndex_axis hj a
  rw [hv] at hj'
  have hd := (P.grid.dims a).trans P.ray.N_le
  obtain ⟨c0, c1⟩ := hi a
  have c1' : (i a : ℚ) + 1 ≤ axisCells g.dims a := by exact_mod_cast c1
  have f0 := (index_final P.ray P.rounds bits hv' hj' (i a) c0 (by linarith)).2
  have f1 := (index_final P.ray P.rounds bits hv' hj' (i a + 1) (by omega) (by push_cast; linarith)).1
  have h1 := abs_le.1 (hp a)
  have h2 := hdeep a
  unfold camTol at h2
  push_cast at f1
  by_contra hne
  rcases lt_or_gt_of_ne hne with h3 | h3
  · have := f0 h3
    linarith
  · have := f1 (by omega)
    linarith

/-- A filled mark is where the point is. -/
theorem ray_filled_near (P : CamPrecise R sqrt u η M s n N E B g) (F : RayFacts R sqrt u B bits c x o p len) {ms : List Mark} {i : IVec}
    (h : castRay R bits g c o p len = some ms) (hm : Mark.filled i ∈ ms) :
    NearBox (camTol u E B) s i (c.place x) ∧ NotBeyond (camTol u E B) c.range c.sensor (c.place x) := by
  obtain ⟨hu, hs, hB, huB, hw, hw2⟩ := P.pos
  rcases C56_any_arithmetic _ g h with rfl | ⟨_, _, f, _, hf, hm', _⟩
  · cases hm
  obtain ⟨k1, rfl, hin⟩ := (hm'.filled i).1 hm
  have hclip : flClipped (ieee R bits) (.fin len) c.range = false := k1
  unfold flFinalPoint at hf
  rw [if_neg (by simp [hclip])] at hf
  refine ⟨point_near P F.near_p hf hin, ?_⟩
  intro r hr
  have h3 : Fl.lt c.range (.fin len) = false := hclip
  rw [hr] at h3
  have h4 : len ≤ r := by simpa [Fl.lt] using h3
  refine F.upper.trans (pow_le_pow_left₀ (by linarith [F.len_nonneg]) ?_ 2)
  unfold camTol
  linarith

/-- The index of the sensor is defined if something is. -/
theorem sensor_index {o p : Fin 3 → Fl} {len range : Fl} {ms : List Mark} (h : flRaycast (ieee R bits) g o p len range = some ms) :
    ∃ i, flIndex (ieee R bits) g o = some i := by
  unfold flRaycast at h
  dsimp only at h
  cases hi : flIndex (ieee R bits) g o with
  | some i => exact ⟨i, rfl⟩
  | none =>
    unfold flStart at h
    rw [hi] at h
    cases h

/-- Marks are made near the ray and before the range, if the computed cell of the sensor is in the grid. -/
theorem ray_seen_near_in (P : CamPrecise R sqrt u η M s n N E B g) (F : RayFacts R sqrt u B bits c x o p len) (hr : RangeOk η B c.range)
    {i0 : IVec} (hi0 : flIndex (ieee R bits) g (fun a => .fin (o a)) = some i0) (hin : CellInGrid (axisCells g.dims) i0) {ms : List Mark}
    {m : Mark} (h1 : castRay R bits g c o p len = some ms) (h2 : m ∈ ms) :
    SeenNear (camTol u E B) s c.range c.sensor (c.place x) m.cell := by
  obtain ⟨hu, hs, hB, huB, hw, hw2⟩ := P.pos
  unfold castRay at h1
  have hLM : 8 * (7 * B) ≤ M := by linarith [P.cam.M_B]
  have hL : 3 * (η * (7 * B)) ≤ u * s := by linarith [P.cam.reach]
  cases hclip : flClipped (ieee R bits) (.fin len) c.range with
  | false =>
    obtain ⟨τ, t0, t1, t2⟩ := (C72_sensor_in_grid P.ray P.rounds bits P.grid hi0 hin F.span hLM hL hclip h1).1 m h2
    refine ⟨τ, t0, t1, fun a => ?_, fun r hr' => ?_⟩
    · have := abs_le.1 (onSeg_near F.near_o F.near_p t0 t1 a)
      have := t2 a
      unfold camTol
      constructor <;> linarith
    · have h3 : Fl.lt c.range (.fin len) = false := hclip
      rw [hr'] at h3
      have h4 : len ≤ r := by simpa [Fl.lt] using h3
      rw [distSq_onSeg]
      have h5 : τ ^ 2 ≤ 1 := pow_le_one₀ t0 t1
      refine (mul_le_of_le_one_left (distSq_nonneg _ _) h5).trans (F.upper.trans (pow_le_pow_left₀ (by linarith [F.len_nonneg]) ?_ 2))
      unfold camTol
      linarith
  | true =>
    have h3 : Fl.lt c.range (.fin len) = true := hclip
    obtain ⟨r, hr'⟩ : ∃ r, c.range = .fin r := by
      cases hcr : c.range with
      | nan => rw [hcr] at h3; cases h3
      | ninf => exact absurd hcr hr.1
      | fin r => exact ⟨r, rfl⟩
      | pinf => rw [hcr] at h3; cases h3
    rw [hr'] at h3 h1
    have hlt : r < len := by simpa [Fl.lt] using h3
    obtain ⟨r0, r1⟩ := hr.2 r hr'
    have hlen0 : 0 < len := r0.trans hlt
    have hq0 : 0 ≤ r / len := (div_pos r0 hlen0).le
    have hq1 : r / len ≤ 1 := (div_le_one hlen0).2 hlt.le
    have hηlen : 2 * (η * len) ≤ r := by
      have := mul_le_mul_of_nonneg_left F.len_le P.cam.η_nonneg
      linarith
    obtain ⟨τ, t0, t1, t2⟩ := (C72_clipped_ray P.ray P.rounds P.one bits P.grid hi0 hin F.span hLM hL r0 hlt hηlen (X := 7 * B)
      (fun a => (mul_le_of_le_one_right (abs_nonneg _) hq1).trans (F.span a)) h1).1 m h2
    have hτq0 : 0 ≤ τ * (r / len) := mul_nonneg t0 hq0
    have hτq1 : τ * (r / len) ≤ 1 := mul_le_one₀ t1 hq0 hq1
    refine ⟨τ * (r / len), hτq0, hτq1, fun a => ?_, fun r' hr'' => ?_⟩
    · have h5 := abs_le.1 (onSeg_near F.near_o F.near_p hτq0 hτq1 a)
      have h6 := t2 a
      have e : onSeg o (fun a => o a + (p a - o a) * (r / len)) τ a = onSeg o p (τ * (r / len)) a := by unfold onSeg; ring
      rw [e] at h6
      unfold camTol
      constructor <;> linarith
    · rw [hr'] at hr''
      cases hr''
      rw [distSq_onSeg]
      have h5 : (r / len) * (len + 223 * (u * B)) ≤ r + 223 * (u * B) := by
        rw [mul_add, div_mul_cancel₀ _ hlen0.ne']
        have := mul_le_mul_of_nonneg_right hq1 (show 0 ≤ 223 * (u * B) by positivity)
        linarith
      have h6 : τ * (r / len) * (len + 223 * (u * B)) ≤ r + 223 * (u * B) := by
        rw [mul_assoc]
        exact (mul_le_of_le_one_left (by positivity) t1).trans h5
      have h7 := mul_le_mul_of_nonneg_left F.upper (sq_nonneg (τ * (r / len)))
      rw [← mul_pow] at h7
      refine h7.trans (pow_le_pow_left₀ (by positivity) ?_ 2)
      unfold camTol
      nlinarith [sq_nonneg n, mul_nonneg (mul_nonneg hu.le (sq_nonneg n)) hs.le]

/-- Marks are made near the ray and before the range. -/
theorem ray_seen_near (P : CamPrecise R sqrt u η M s n N E B g) (F : RayFacts R sqrt u B bits c x o p len) (hr : RangeOk η B c.range)
    (hdeep : DeepInGrid (camTol u E B) s (axisCells g.dims) c.sensor) {ms : List Mark} {m : Mark}
    (h1 : castRay R bits g c o p len = some ms) (h2 : m ∈ ms) :
    SeenNear (camTol u E B) s c.range c.sensor (c.place x) m.cell := by
  obtain ⟨i0, hi0⟩ := sensor_index h1
  exact ray_seen_near_in P F hr hi0 (sensor_in_grid P F.near_o hdeep hi0) h1 h2

/-- Rays that pass a cell deeply before the range mark it, if the computed cell of the sensor is in the grid. -/
theorem ray_seen_deep_in (P : CamPrecise R sqrt u η M s n N E B g) (F : RayFacts R sqrt u B bits c x o p len) (hr : RangeOk η B c.range)
    {i0 : IVec} (hi0 : flIndex (ieee R bits) g (fun a => .fin (o a)) = some i0) (hin : CellInGrid (axisCells g.dims) i0) {ms : List Mark}
    (h1 : castRay R bits g c o p len = some ms)
    {i : IVec} (hi : CellInGrid (axisCells g.dims) i) (h : SeenDeep (camTol u E B) s c.range c.sensor (c.place x) i) :
    Mark.free i ∈ ms ∨ Mark.filled i ∈ ms := by
  obtain ⟨hu, hs, hB, huB, hw, hw2⟩ := P.pos
  unfold castRay at h1
  have hLM : 8 * (7 * B) ≤ M := by linarith [P.cam.M_B]
  have hL : 3 * (η * (7 * B)) ≤ u * s := by linarith [P.cam.reach]
  obtain ⟨τ, t0, t1, t2, t3⟩ := h
  have t4 : ∀ a, (i a : ℚ) * s + (33 * E + 5 * (u * (7 * B))) ≤ onSeg o p τ a ∧
      onSeg o p τ a ≤ ((i a : ℚ) + 1) * s - (33 * E + 5 * (u * (7 * B))) := by
    intro a
    have h5 := abs_le.1 (onSeg_near F.near_o F.near_p t0 t1 a)
    have h6 := t2 a
    unfold camTol at h6
    constructor <;> linarith
  have hn2 : 0 ≤ E := by linarith
  cases hclip : flClipped (ieee R bits) (.fin len) c.range with
  | false =>
    rcases (C72_sensor_in_grid P.ray P.rounds bits P.grid hi0 hin F.span hLM hL hclip h1).2 i hi
      ⟨τ, t0, t1, fun a => by have := t4 a; constructor <;> linarith⟩ with h3 | ⟨h3, -⟩
    · exact .inl h3
    · exact .inr h3
  | true =>
    have h3 : Fl.lt c.range (.fin len) = true := hclip
    obtain ⟨r, hr'⟩ : ∃ r, c.range = .fin r := by
      cases hcr : c.range with
      | nan => rw [hcr] at h3; cases h3
      | ninf => exact absurd hcr hr.1
      | fin r => exact ⟨r, rfl⟩
      | pinf => rw [hcr] at h3; cases h3
    rw [hr'] at h3 h1
    have hlt : r < len := by simpa [Fl.lt] using h3
    obtain ⟨r0, r1⟩ := hr.2 r hr'
    have hlen0 : 0 < len := r0.trans hlt
    have hq0 : 0 < r / len := div_pos r0 hlen0
    have hq1 : r / len ≤ 1 := (div_le_one hlen0).2 hlt.le
    have hηlen : 2 * (η * len) ≤ r := by
      have := mul_le_mul_of_nonneg_left F.len_le P.cam.η_nonneg
      linarith
    obtain ⟨w1, w2⟩ := t3 r hr'
    rw [distSq_onSeg] at w2
    have htol : 300 * (u * B) ≤ camTol u E B := by unfold camTol; linarith
    have w3 := F.lower τ (r - camTol u E B) t0 t1 (by linarith) (by linarith [F.len_le]) w2
    have w4 : τ * len ≤ r := by linarith
    have w5 : τ ≤ r / len := by rwa [le_div_iff₀ hlen0]
    have hfree := (C72_clipped_ray P.ray P.rounds P.one bits P.grid hi0 hin F.span hLM hL r0 hlt hηlen (X := 7 * B)
      (fun a => (mul_le_of_le_one_right (abs_nonneg _) hq1).trans (F.span a)) h1).2.1 i hi
      ⟨τ / (r / len), div_nonneg t0 hq0.le, (div_le_one hq0).2 w5, fun a => by
        have e : onSeg o (fun a => o a + (p a - o a) * (r / len)) (τ / (r / len)) a = onSeg o p τ a := by
          unfold onSeg
          field_simp
          ring
        rw [e]
        exact t4 a⟩
    exact .inl hfree

/-- Rays that pass a cell deeply before the range mark it. -/
theorem ray_seen_deep (P : CamPrecise R sqrt u η M s n N E B g) (F : RayFacts R sqrt u B bits c x o p len) (hr : RangeOk η B c.range)
    (hdeep : DeepInGrid (camTol u E B) s (axisCells g.dims) c.sensor) {ms : List Mark} (h1 : castRay R bits g c o p len = some ms)
    {i : IVec} (hi : CellInGrid (axisCells g.dims) i) (h : SeenDeep (camTol u E B) s c.range c.sensor (c.place x) i) :
    Mark.free i ∈ ms ∨ Mark.filled i ∈ ms := by
  obtain ⟨i0, hi0⟩ := sensor_index h1
  exact ray_seen_deep_in P F hr hi0 (sensor_in_grid P F.near_o hdeep hi0) h1 hi h

/-- A point well within range is not clipped. -/
theorem ray_unclipped (P : CamPrecise R sqrt u η M s n N E B g) (F : RayFacts R sqrt u B bits c x o p len) (hr : RangeOk η B c.range)
    (h2 : WellWithin (camTol u E B) c.range c.sensor (c.place x)) : flClipped (ieee R bits) (.fin len) c.range = false := by
  obtain ⟨hu, hs, hB, huB, hw, hw2⟩ := P.pos
  show Fl.lt c.range (.fin len) = false
  cases hcr : c.range with
  | nan => rfl
  | ninf => exact absurd hcr hr.1
  | pinf => rfl
  | fin r =>
    obtain ⟨w1, w2⟩ := h2 r hcr
    have htol : 300 * (u * B) ≤ camTol u E B := by unfold camTol; linarith
    have : len ≤ r := by
      by_contra hlt
      push Not at hlt
      have w3 := F.lower 1 (r - camTol u E B) zero_le_one le_rfl (by linarith) (by linarith [F.len_le]) (by rw [one_pow, one_mul]; exact w2)
      linarith
    simpa [Fl.lt] using this

/-- A ray that has a start and ends deep in the grid, well within range, marks the computed cell of its end filled. -/
theorem ray_filled_of_start (P : CamPrecise R sqrt u η M s n N E B g) (F : RayFacts R sqrt u B bits c x o p len) (hr : RangeOk η B c.range)
    (h1 : DeepInGrid (camTol u E B) s (axisCells g.dims) (c.place x))
    (h2 : WellWithin (camTol u E B) c.range c.sensor (c.place x)) {ms : List Mark} (h : castRay R bits g c o p len = some ms)
    {start : Fin 3 → Fl} (hs : flStart (ieee R bits) g (fun a => .fin (o a)) (fun a => (ieee R bits).sub (.fin (p a)) (.fin (o a)))
      (.fin len) c.range = some (some start)) :
    ∃ f, flIndex (ieee R bits) g (fun a => .fin (p a)) = some f ∧ CellInGrid (axisCells g.dims) f ∧ Mark.filled f ∈ ms := by
  have hclip := ray_unclipped P F hr h2
  unfold castRay flRaycast at h
  dsimp only at h
  rw [hs] at h
  obtain ⟨_, f, _, hf, hm'⟩ := flCastFrom_some _ _ h
  have hf' := hf
  unfold flFinalPoint at hf'
  rw [if_neg (by simp [hclip])] at hf'
  have hin := deep_in_grid P F.near_p h1 hf'
  exact ⟨f, hf', hin, (hm'.filled f).2 ⟨hclip, rfl, hin⟩⟩

/-- Points seen from in the grid fill a cell. -/
theorem ray_fills_in (P : CamPrecise R sqrt u η M s n N E B g) (F : RayFacts R sqrt u B bits c x o p len) (hr : RangeOk η B c.range)
    (hdeep : DeepInGrid (camTol u E B) s (axisCells g.dims) c.sensor)
    (h1 : DeepInGrid (camTol u E B) s (axisCells g.dims) (c.place x))
    (h2 : WellWithin (camTol u E B) c.range c.sensor (c.place x)) {ms : List Mark} (h : castRay R bits g c o p len = some ms) :
    ∃ f, flIndex (ieee R bits) g (fun a => .fin (p a)) = some f ∧ CellInGrid (axisCells g.dims) f ∧ Mark.filled f ∈ ms := by
  obtain ⟨i0, hi0⟩ := sensor_index h
  exact ray_filled_of_start P F hr h1 h2 h (flStart_in hi0 (sensor_in_grid P F.near_o hdeep hi0))

/-- Obstacles seen from in the grid. -/
theorem ray_filled_in (P : CamPrecise R sqrt u η M s n N E B g) (F : RayFacts R sqrt u B bits c x o p len) (hr : RangeOk η B c.range)
    (hdeep : DeepInGrid (camTol u E B) s (axisCells g.dims) c.sensor)
    {i : IVec} (hi : CellInGrid (axisCells g.dims) i) (h1 : DeepBox (camTol u E B) s i (c.place x))
    (h2 : WellWithin (camTol u E B) c.range c.sensor (c.place x)) {ms : List Mark} (h : castRay R bits g c o p len = some ms) :
    Mark.filled i ∈ ms := by
  obtain ⟨f, hf, -, hm⟩ := ray_fills_in P F hr hdeep (deepInGrid_of_box P.pos.2.1.le hi h1) h2 h
  rwa [← point_deep P F.near_p hi h1 hf]

end

/-! ### Sensors outside the grid -/

/-- The grid is small enough for sensors outside it, within `n / 8` cells of its origin. -/
structure Wide (u η M s n N E : ℚ) (g : RayGrid Fl) : Prop where
  entry : EntryScale u η M s n N E
  dims : ∀ a, 8 * ((axisCells g.dims a : ℚ) + 2) ≤ n
  size : ∀ a, ∃ z, g.size a = .fin z ∧ |z - axisCells g.dims a * s| ≤ u * n * s

/-- The tolerance for sensors outside the grid: the share of the absolute constants `1e-10` of the code comes on top. -/
def wideTol (u E B : ℚ) : ℚ := camTol u E B + 600 * (u * B) + (1 + B) / 10 ^ 8

theorem deepBox_mono {tol tol' s : ℚ} {i : Fin 3 → ℤ} {x : Fin 3 → ℚ} (ht : tol ≤ tol') (h : DeepBox tol' s i x) : DeepBox tol s i x :=
  fun a => by have := h a; constructor <;> linarith

theorem wellWithin_mono {tol tol' : ℚ} {range : Fl} {o x : Fin 3 → ℚ} (ht : tol ≤ tol') (h : WellWithin tol' range o x) :
    WellWithin tol range o x := by
  intro r hr
  obtain ⟨h1, h2⟩ := h r hr
  exact ⟨by linarith, h2.trans (pow_le_pow_left₀ (by linarith) (by linarith) 2)⟩

theorem abs_le_of_distSq {x y : Fin 3 → ℚ} {d : ℚ} (hd : 0 ≤ d) (h : distSq x y ≤ d ^ 2) (a : Fin 3) : |y a - x a| ≤ d := by
  refine abs_le_of_sq_le_sq ?_ hd
  refine le_trans ?_ h
  unfold distSq
  fin_cases a
  · show (y 0 - x 0) ^ 2 ≤ _
    nlinarith [sq_nonneg (y 1 - x 1), sq_nonneg (y 2 - x 2)]
  · show (y 1 - x 1) ^ 2 ≤ _
    nlinarith [sq_nonneg (y 0 - x 0), sq_nonneg (y 2 - x 2)]
  · show (y 2 - x 2) ^ 2 ≤ _
    nlinarith [sq_nonneg (y 1 - x 1), sq_nonneg (y 0 - x 0)]

section
variable {R : ℚ → Fl} {sqrt : Fl → Fl} {u η M s n N E B : ℚ} {g : RayGrid Fl} {bits : ℕ} {c : Camera3} {x o p : Fin 3 → ℚ} {len : ℚ}

/-- A point deep in the grid ends a ray that marks a cell filled, wherever the sensor is. -/
theorem ray_fills_wide (P : CamPrecise R sqrt u η M s n N E B g) (W : Wide u η M s n N E g) (F : RayFacts R sqrt u B bits c x o p len)
    (hr : RangeOk η B c.range) (hreach : ∀ a, 8 * |c.sensor a| + 264 * (u * B) ≤ n * s)
    (h1 : DeepInGrid (wideTol u E B) s (axisCells g.dims) (c.place x)) (h2 : WellWithin (wideTol u E B) c.range c.sensor (c.place x))
    {ms : List Mark} (hms : castRay R bits g c o p len = some ms) :
    ∃ f, flIndex (ieee R bits) g (fun a => .fin (p a)) = some f ∧ CellInGrid (axisCells g.dims) f ∧ Mark.filled f ∈ ms := by
  obtain ⟨hu, hs, hB, huB, hw, hw2⟩ := P.pos
  have htol : camTol u E B ≤ wideTol u E B := by
    unfold wideTol
    have : 0 ≤ (1 + B) / 10 ^ 8 := by positivity
    linarith
  have h1' : DeepInGrid (camTol u E B) s (axisCells g.dims) (c.place x) := fun a => by
    have := h1 a
    constructor <;> linarith
  have h2' := wellWithin_mono htol h2
  have hclip := ray_unclipped P F hr h2'
  obtain ⟨i0, hi0⟩ := sensor_index hms
  by_cases hin : CellInGrid (axisCells g.dims) i0
  · exact ray_filled_of_start P F hr h1' h2' hms (flStart_in hi0 hin)
  -- distances
  have hlow : ∀ a, |p a - o a| ≤ len + 289 * (u * B) := by
    intro a
    have d1 := abs_le.1 (abs_le_of_distSq (by linarith [F.len_nonneg]) F.upper a)
    have d2 := abs_le.1 (F.near_o a)
    have d3 := abs_le.1 (F.near_p a)
    rw [abs_le]
    constructor <;> linarith
  have hpdeep : ∀ a, 33 * E + 867 * (u * B) + (1 + B) / 10 ^ 8 ≤ p a ∧
      p a ≤ axisCells g.dims a * s - (33 * E + 867 * (u * B) + (1 + B) / 10 ^ 8) := by
    intro a
    have d1 := h1 a
    have d2 := abs_le.1 (F.near_p a)
    unfold wideTol camTol at d1
    constructor <;> linarith
  have hfar : 578 * (u * B) ≤ len := by
    obtain ⟨v, hv, hv'⟩ := P.grid.inv
    have : ∃ a, ¬ (0 ≤ i0 a ∧ i0 a < axisCells g.dims a) := by
      by_contra hcon
      push Not at hcon
      exact hin fun a => by
        have := hcon a
        omega
    obtain ⟨a, ha⟩ := this
    have hi1 := flIndex_axis hi0 a
    rw [hv] at hi1
    have hd := hpdeep a
    have hl := abs_le.1 (hlow a)
    have hB8 : 0 ≤ (1 + B) / 10 ^ 8 := by positivity
    by_cases h0 : 0 ≤ i0 a
    · have h3 : (axisCells g.dims a : ℤ) ≤ i0 a := by
        by_contra hcon
        exact ha ⟨h0, by omega⟩
      have := (index_final P.ray P.rounds bits hv' hi1 (axisCells g.dims a : ℤ) (by omega) (by
        push_cast; linarith [P.grid.dims a, P.ray.N_le])).1 h3
      push_cast at this
      linarith
    · have := (index_final P.ray P.rounds bits hv' hi1 0 le_rfl (by push_cast; linarith [P.ray.n_ge])).2 (by omega)
      push_cast at this
      linarith
  have hlen0 : 0 < len := by linarith
  have hLM : 8 * (7 * B) ≤ M := by linarith [P.cam.M_B]
  have hL : 3 * (η * (7 * B)) ≤ u * s := by linarith [P.cam.reach]
  have hray : ∀ a, ∃ r, Fl.subR R (.fin (p a)) (.fin (o a)) = .fin r ∧ |r - (p a - o a)| ≤ u * |p a - o a| + η := fun a => by
    obtain ⟨r, e1, e2, _⟩ := ray_near P.ray P.rounds hLM hL (F.span a)
    exact ⟨r, e1, e2⟩
  choose r hr0 hr1 using hray
  have ho : ∀ a, 8 * |o a| ≤ n * s := by
    intro a
    have d1 := hreach a
    have d2 := F.near_o a
    have d3 := abs_sub_abs_le_abs_sub (o a) (c.sensor a)
    linarith
  have hul := mul_le_mul_of_nonneg_left F.len_le hu.le
  obtain ⟨T, hT, _⟩ := entry_before W.entry P.rounds bits P.grid W.dims W.size ho hr0 hr1 (range := c.range)
    (fun a => by linarith [hlow a]) hlen0 (by linarith [F.len_le, P.cam.M_B]) hi0 hin (σ := 1)
    (κ := 33 * E + 867 * (u * B) + (1 + B) / 10 ^ 8) zero_le_one le_rfl
    (by linarith [F.len_le])
    (by rw [onSeg_one]; exact hpdeep)
    (by rw [one_mul]; exact beyond_of_unclipped bits le_rfl hclip)
  exact ray_filled_of_start P F hr h1' h2' hms (flStart_out hi0 hin hT)

theorem wideTol_ge (P : CamPrecise R sqrt u η M s n N E B g) : camTol u E B ≤ wideTol u E B := by
  obtain ⟨hu, hs, hB, huB, -, -⟩ := P.pos
  unfold wideTol
  have : 0 ≤ (1 + B) / 10 ^ 8 := by positivity
  linarith

/-- A point deep in a cell ends a ray that marks the cell filled, wherever the sensor is. -/
theorem ray_filled_wide (P : CamPrecise R sqrt u η M s n N E B g) (W : Wide u η M s n N E g) (F : RayFacts R sqrt u B bits c x o p len)
    (hr : RangeOk η B c.range) (hreach : ∀ a, 8 * |c.sensor a| + 264 * (u * B) ≤ n * s)
    {i : IVec} (hi : CellInGrid (axisCells g.dims) i)
    (h1 : DeepBox (wideTol u E B) s i (c.place x)) (h2 : WellWithin (wideTol u E B) c.range c.sensor (c.place x))
    {ms : List Mark} (hms : castRay R bits g c o p len = some ms) : Mark.filled i ∈ ms := by
  obtain ⟨f, hf, -, hm⟩ := ray_fills_wide P W F hr hreach (deepInGrid_of_box P.pos.2.1.le hi h1) h2 hms
  rwa [← point_deep P F.near_p hi (deepBox_mono (wideTol_ge P) h1) hf]

/-! ### Definedness -/

/-- The cell of a point that is not too far away is defined. -/
theorem index_defined (P : CamPrecise R sqrt u η M s n N E B g) (hI : 64 * (B / s) + 8 ≤ 2 ^ (bits - 1)) (hM : 64 * (B / s) ≤ M)
    {x : Fin 3 → ℚ} (hx : ∀ a, |x a| ≤ 20 * B) :
    ∃ i, flIndex (ieee R bits) g (fun a => .fin (x a)) = some i ∧ ∀ a, |(i a : ℚ)| ≤ 24 * (B / s) + 2 := by
  obtain ⟨v, hv, hv'⟩ := P.grid.inv
  obtain ⟨hu, hs, hB, huB, hw, hw2⟩ := P.pos
  have hu1 := P.cam.u_le
  have hBs : 0 < B / s := div_pos hB hs
  have hvs : |v| * s ≤ 11 / 10 := by
    have h1 := abs_sub_abs_le_abs_sub (v * s) 1
    rw [abs_mul, abs_of_pos hs, abs_one] at h1
    linarith
  have hv1 : |v| ≤ 11 / 10 / s := by rwa [le_div_iff₀ hs]
  have hax : ∀ a, ∃ y, (ieee R bits).toInt ((ieee R bits).mul (.fin (x a)) g.inv) = some y ∧ |(y : ℚ)| ≤ 24 * (B / s) + 2 := by
    intro a
    have hprod : |x a * v| ≤ 22 * (B / s) := by
      rw [abs_mul]
      calc |x a| * |v| ≤ 20 * B * (11 / 10 / s) := mul_le_mul (hx a) hv1 (abs_nonneg _) (by positivity)
        _ = 22 * (B / s) := by ring
    obtain ⟨y, e1, e2⟩ := rounds_fin P.rounds (show |x a * v| ≤ M by linarith)
    have h3 := mul_le_mul_of_nonneg_left hprod hu.le
    have h4 := mul_le_mul_of_nonneg_right hu1 hBs.le
    have hη : η ≤ 1 := by linarith [P.ray.η_le]
    have h5 := abs_sub_abs_le_abs_sub y (x a * v)
    have h6 : |y| ≤ 23 * (B / s) + 1 := by linarith
    have h7 := abs_le.1 h6
    have f1 := Int.floor_le y
    have f2 := Int.lt_floor_add_one y
    have e3 : (ieee R bits).mul (.fin (x a)) g.inv = .fin y := by
      rw [hv]
      exact e1
    refine ⟨⌊y⌋, ?_, ?_⟩
    · rw [e3]
      show (if -2 ^ (bits - 1) ≤ ⌊y⌋ ∧ ⌊y⌋ < 2 ^ (bits - 1) then some ⌊y⌋ else none) = some ⌊y⌋
      rw [if_pos]
      constructor
      · have : ((-2 ^ (bits - 1) : ℤ) : ℚ) ≤ ⌊y⌋ := by push_cast; linarith
        exact_mod_cast this
      · have : (⌊y⌋ : ℚ) < ((2 ^ (bits - 1) : ℤ) : ℚ) := by push_cast; linarith
        exact_mod_cast this
    · rw [abs_le]
      constructor <;> linarith
  choose y h1 h2 using hax
  exact ⟨y, axes3_some.2 h1, h2⟩

/-- Rays from in the grid are defined. -/
theorem ray_defined (P : CamPrecise R sqrt u η M s n N E B g) (hI : 64 * (B / s) + 8 ≤ 2 ^ (bits - 1)) (hM : 64 * (B / s) ≤ M)
    (hc : c.Within B) (hr : RangeOk η B c.range) (hdeep : DeepInGrid (camTol u E B) s (axisCells g.dims) c.sensor)
    (F : RayFacts R sqrt u B bits c x o p len) : (castRay R bits g c o p len).isSome := by
  obtain ⟨hu, hs, hB, huB, hw, hw2⟩ := P.pos
  have hu1 := P.cam.u_le; have hη := P.cam.η_nonneg; have hηB := P.cam.η_B
  have huB1 : 9000 * (u * B) ≤ B := by have := mul_le_mul_of_nonneg_right hu1 hB.le; linarith
  have ho : ∀ a, |o a| ≤ 2 * B := fun a => by
    have d1 : |c.sensor a| ≤ B := hc.shift a
    have d2 := F.near_o a
    have d3 := abs_sub_abs_le_abs_sub (o a) (c.sensor a)
    linarith
  have hp : ∀ a, |p a| ≤ 9 * B := fun a => by
    have d1 := ho a
    have d2 := F.span a
    have d3 := abs_sub_abs_le_abs_sub (p a) (o a)
    linarith
  obtain ⟨i, hi, hib⟩ := index_defined (bits := bits) P hI hM (fun a => (ho a).trans (by linarith))
  have hin := sensor_in_grid P F.near_o hdeep hi
  have hfinal : ∃ e : Fin 3 → ℚ, flFinalPoint (ieee R bits) (fun a => .fin (o a)) (fun a => .fin (p a)) (.fin len) c.range =
      (fun a => .fin (e a)) ∧ ∀ a, |e a| ≤ 20 * B := by
    unfold flFinalPoint
    cases hclip : flClipped (ieee R bits) (.fin len) c.range with
    | false => exact ⟨p, by simp, fun a => (hp a).trans (by linarith)⟩
    | true =>
      have h3 : Fl.lt c.range (.fin len) = true := hclip
      obtain ⟨r, hr'⟩ : ∃ r, c.range = .fin r := by
        cases hcr : c.range with
        | nan => rw [hcr] at h3; cases h3
        | ninf => exact absurd hcr hr.1
        | fin r => exact ⟨r, rfl⟩
        | pinf => rw [hcr] at h3; cases h3
      rw [hr'] at h3
      have hlt : r < len := by simpa [Fl.lt] using h3
      obtain ⟨r0, r1⟩ := hr.2 r hr'
      have hηlen : 2 * (η * len) ≤ r := by
        have := mul_le_mul_of_nonneg_left F.len_le P.cam.η_nonneg
        linarith
      obtain ⟨lam, l1, l2, l3, _⟩ := share_near P.ray P.rounds P.one r0 hlt hηlen
      have hLM : 8 * (7 * B) ≤ M := by linarith [P.cam.M_B]
      have hL : 3 * (η * (7 * B)) ≤ u * s := by linarith [P.cam.reach]
      have hax : ∀ a, ∃ e, Fl.addR R (.fin (o a)) (Fl.mulR R (Fl.subR R (.fin (p a)) (.fin (o a))) (Fl.divR R (.fin r) (.fin len))) = .fin e ∧
          |e| ≤ 20 * B := by
        intro a
        obtain ⟨q, q1, q2, q3, q4⟩ := ray_near P.ray P.rounds hLM hL (F.span a)
        have hons : |o a| ≤ n * s := by
          have d1 := hdeep a
          have d2 := abs_le.1 (F.near_o a)
          have d3 := mul_le_mul_of_nonneg_right ((P.grid.dims a).trans P.ray.N_le) hs.le
          unfold camTol at d1
          rw [abs_le]
          constructor <;> linarith
        obtain ⟨y, e, e1, e2, e3, e4⟩ := clip_point P.ray P.rounds hons hLM (by linarith) q3 l2.le l3
        rw [q1, l1]
        refine ⟨e, e1, ?_⟩
        have d1 : |q * lam| ≤ |q| := by
          rw [abs_mul, abs_of_pos l2]
          exact mul_le_of_le_one_right (abs_nonneg _) l3
        have d2 := abs_sub_abs_le_abs_sub e (o a + y)
        have d3 := mul_le_mul_of_nonneg_left (d1.trans q3) hu.le
        have d5 : |o a + y| ≤ 17 * B := by
          have := mul_le_mul_of_nonneg_left hηB hu.le
          have : u * (u * B) ≤ u * B := by nlinarith
          have := ho a
          linarith
        have d6 := mul_le_mul_of_nonneg_left d5 hu.le
        linarith
      choose e h4 h5 using hax
      refine ⟨e, ?_, h5⟩
      rw [hr', if_pos rfl]
      funext a
      exact h4 a
  obtain ⟨e, he, heb⟩ := hfinal
  obtain ⟨f, hf, hfb⟩ := index_defined (bits := bits) P hI hM heb
  have hfit : ∀ a, (ieee R bits).fits (f a - i a) = true := by
    intro a
    have d1 := abs_le.1 (hfb a)
    have d2 := abs_le.1 (hib a)
    have hBs : 0 < B / s := div_pos hB hs
    show decide (-2 ^ (bits - 1) ≤ f a - i a ∧ f a - i a < 2 ^ (bits - 1)) = true
    rw [decide_eq_true_iff]
    constructor
    · have : ((-2 ^ (bits - 1) : ℤ) : ℚ) ≤ ((f a - i a : ℤ) : ℚ) := by push_cast; linarith
      exact_mod_cast this
    · have : ((f a - i a : ℤ) : ℚ) < ((2 ^ (bits - 1) : ℤ) : ℚ) := by push_cast; linarith
      exact_mod_cast this
  rw [← he] at hf
  obtain ⟨ms, h1, _⟩ := C56_sensor_in_grid (ieee R bits) g hi hin hf hfit
  unfold castRay
  rw [h1]
  rfl

end

end VGT
