import Verif.Props.CameraRay
import Verif.Props.RayReaches

/-!
C74, C76: the ray of a measured point, for sensors inside and outside the grid, if the ray does not end before the grid.
-/
set_option autoImplicit false

namespace VGT
open VGT.EDT VGT.Spec VGT.Par

theorem notShort_near {tol tol' ε s : ℚ} {N : Fin 3 → ℕ} {o q o' q' : Fin 3 → ℚ} (hε : 0 ≤ ε) (ht : tol' + 2 * ε ≤ tol) (ho : ∀ a, |o' a - o a| ≤ ε)
    (hq : ∀ a, |q' a - q a| ≤ ε) (h : NotShort tol s N o q) : NotShort tol' s N o' q' := by
  intro a
  obtain ⟨h1, h2⟩ := h a
  have d1 := abs_le.1 (ho a)
  have d2 := abs_le.1 (hq a)
  constructor
  · rcases h1 with h1 | h1 | h1
    · exact .inl (by linarith)
    · exact .inr (.inl (by linarith))
    · exact .inr (.inr (by linarith))
  · rcases h2 with h2 | h2 | h2
    · exact .inl (by linarith)
    · exact .inr (.inl (by linarith))
    · exact .inr (.inr (by linarith))

/-- What starts in the grid does not end before it. -/
theorem notShort_of_deep {tol s : ℚ} {N : Fin 3 → ℕ} {o q : Fin 3 → ℚ} (h : DeepInGrid tol s N o) : NotShort tol s N o q :=
  fun a => ⟨.inl (h a).1, .inl (h a).2⟩

/-- What ends in the grid does not end before it. -/
theorem notShort_of_end {tol s : ℚ} {N : Fin 3 → ℕ} {o q : Fin 3 → ℚ} (h : DeepInGrid tol s N q) : NotShort tol s N o q :=
  fun a => ⟨.inr (.inl (h a).1), .inr (.inl (h a).2)⟩

section
variable {R : ℚ → Fl} {sqrt : Fl → Fl} {u η M s n N E B : ℚ} {g : RayGrid Fl} {bits : ℕ} {c : Camera3} {x o p : Fin 3 → ℚ} {len : ℚ}

/-- From a sensor outside the grid it is far to anything that is not short of the grid. -/
theorem outside_far (P : CamPrecise R sqrt u η M s n N E B g) {i0 : IVec} (hi0 : flIndex (ieee R bits) g (fun a => .fin (o a)) = some i0)
    (hout : ¬ CellInGrid (axisCells g.dims) i0) {κ : ℚ} {q : Fin 3 → ℚ} (hnot : NotShort κ s (axisCells g.dims) o q) (hκ : 5 * (u * n * s) < κ) :
    ∃ a, κ - 5 * (u * n * s) ≤ |q a - o a| := by
  obtain ⟨hu, hs, hB, huB, hw, hw2⟩ := P.pos
  obtain ⟨v, hv, hv'⟩ := P.grid.inv
  have : ∃ a, ¬ (0 ≤ i0 a ∧ i0 a < axisCells g.dims a) := by
    by_contra hc
    push Not at hc
    exact hout fun a => by
      have := hc a
      omega
  obtain ⟨a, ha⟩ := this
  refine ⟨a, ?_⟩
  have hi := flIndex_axis hi0 a
  rw [hv] at hi
  obtain ⟨n1, n2⟩ := hnot a
  have a1 := le_abs_self (q a - o a)
  have a2 := neg_abs_le (q a - o a)
  by_cases h0 : 0 ≤ i0 a
  · have h1 : (axisCells g.dims a : ℤ) ≤ i0 a := by
      by_contra hc
      exact ha ⟨h0, by omega⟩
    have := (index_final P.ray P.rounds bits hv' hi (axisCells g.dims a : ℤ) (by omega) (by
      push_cast; linarith [P.grid.dims a, P.ray.N_le])).1 h1
    push_cast at this
    rcases n2 with n2 | n2 | n2 <;> linarith
  · have := (index_final P.ray P.rounds bits hv' hi 0 le_rfl (by push_cast; linarith [P.ray.n_ge])).2 (by omega)
    push_cast at this
    rcases n1 with n1 | n1 | n1 <;> linarith

/-- A point near one whose computed cell is `i`. -/
theorem index_near_box (P : CamPrecise R sqrt u η M s n N E B g) {e q : Fin 3 → ℚ} {ε : ℚ} (he : ∀ a, |e a - q a| ≤ ε) {i : IVec}
    (hi : flIndex (ieee R bits) g (fun a => .fin (e a)) = some i) (hin : CellInGrid (axisCells g.dims) i) :
    NearBox (5 * (u * n * s) + ε) s i q := by
  obtain ⟨v, hv, hv'⟩ := P.grid.inv
  intro a
  have hi' := flIndex_axis hi a
  rw [hv] at hi'
  have hd := (P.grid.dims a).trans P.ray.N_le
  obtain ⟨c0, c1⟩ := hin a
  have c1' : (i a : ℚ) + 1 ≤ axisCells g.dims a := by exact_mod_cast c1
  have f0 := (index_final P.ray P.rounds bits hv' hi' (i a) c0 (by linarith)).1 le_rfl
  have f1 := (index_final P.ray P.rounds bits hv' hi' (i a + 1) (by omega) (by push_cast; linarith)).2 (by omega)
  have h1 := abs_le.1 (he a)
  push_cast at f1
  constructor <;> linarith

/-- Points of the segment not behind the point are within range, if the ray is not cut. -/
theorem range_unclipped (P : CamPrecise R sqrt u η M s n N E B g) (F : RayFacts R sqrt u B bits c x o p len) {τ : ℚ} (t0 : 0 ≤ τ) (t1 : τ ≤ 1)
    (hclip : flClipped (ieee R bits) (.fin len) c.range = false) :
    NotBeyond (camTol u E B) c.range c.sensor (onSeg c.sensor (c.place x) τ) := by
  obtain ⟨hu, hs, hB, huB, hw, hw2⟩ := P.pos
  intro r hr'
  have h3 : Fl.lt c.range (.fin len) = false := hclip
  rw [hr'] at h3
  have h4 : len ≤ r := by simpa [Fl.lt] using h3
  rw [distSq_onSeg]
  have h5 : τ ^ 2 ≤ 1 := pow_le_one₀ t0 t1
  refine (mul_le_of_le_one_left (distSq_nonneg _ _) h5).trans (F.upper.trans (pow_le_pow_left₀ (by linarith [F.len_nonneg]) ?_ 2))
  unfold camTol
  linarith

/-- Points of the segment not behind the range are within range. -/
theorem range_clipped (P : CamPrecise R sqrt u η M s n N E B g) (F : RayFacts R sqrt u B bits c x o p len) {τ r : ℚ} (hr' : c.range = .fin r)
    (hlen0 : 0 < len) (hr0 : 0 < r) (hlt : r < len) (t0 : 0 ≤ τ) (t1 : τ ≤ r / len) :
    NotBeyond (camTol u E B) c.range c.sensor (onSeg c.sensor (c.place x) τ) := by
  obtain ⟨hu, hs, hB, huB, hw, hw2⟩ := P.pos
  intro r' hr''
  rw [hr'] at hr''
  cases hr''
  rw [distSq_onSeg]
  have hq1 : r / len ≤ 1 := (div_le_one hlen0).2 hlt.le
  have h5 : (r / len) * (len + 223 * (u * B)) ≤ r + 223 * (u * B) := by
    rw [mul_add, div_mul_cancel₀ _ hlen0.ne']
    have := mul_le_mul_of_nonneg_right hq1 (show 0 ≤ 223 * (u * B) by positivity)
    linarith
  have h6 : τ * (len + 223 * (u * B)) ≤ r + 223 * (u * B) :=
    (mul_le_mul_of_nonneg_right t1 (by positivity)).trans h5
  have h7 := mul_le_mul_of_nonneg_left F.upper (sq_nonneg τ)
  rw [← mul_pow] at h7
  refine h7.trans (pow_le_pow_left₀ (by positivity) ?_ 2)
  unfold camTol
  nlinarith [sq_nonneg n, mul_nonneg (mul_nonneg hu.le (sq_nonneg n)) hs.le]

theorem seenNear_of_within {tol ε : ℚ} {e : Fin 3 → ℚ} {i : IVec} (ho : ∀ a, |o a - c.sensor a| ≤ ε) (hp : ∀ a, |p a - c.place x a| ≤ ε) {q : ℚ}
    (hq0 : 0 ≤ q) (hq1 : q ≤ 1) (he : e = onSeg o p q) {tol' : ℚ} (ht : tol + ε ≤ tol')
    (hr : ∀ τ, 0 ≤ τ → τ ≤ q → NotBeyond tol' c.range c.sensor (onSeg c.sensor (c.place x) τ)) (h : PassesWithin tol s o e i) :
    SeenNear tol' s c.range c.sensor (c.place x) i := by
  subst he
  obtain ⟨τ, t0, t1, t2⟩ := h
  have hτ0 : 0 ≤ τ * q := mul_nonneg t0 hq0
  have hτq : τ * q ≤ q := mul_le_of_le_one_left hq0 t1
  refine ⟨τ * q, hτ0, hτq.trans hq1, fun a => ?_, hr _ hτ0 hτq⟩
  have h5 := abs_le.1 (onSeg_near ho hp hτ0 (hτq.trans hq1) a)
  have h6 := t2 a
  have e : onSeg o (onSeg o p q) τ a = onSeg o p (τ * q) a := by unfold onSeg; ring
  rw [e] at h6
  constructor <;> linarith

theorem ray_span (F : RayFacts R sqrt u B bits c x o p len) (a : Fin 3) : |p a - o a| ≤ len + 289 * (u * B) := by
  have d2 := abs_le.1 (F.near_o a)
  have d3 := abs_le.1 (F.near_p a)
  have d1 := abs_le.1 (abs_le_of_distSq (by linarith [F.len_nonneg]) F.upper a)
  rw [abs_le]
  constructor <;> linarith

/-- From a sensor outside the grid, a ray that does not end before the grid is long. -/
theorem ray_far (P : CamPrecise R sqrt u η M s n N E B g) (F : RayFacts R sqrt u B bits c x o p len) {i0 : IVec}
    (hi0 : flIndex (ieee R bits) g (fun a => .fin (o a)) = some i0) (hout : ¬ CellInGrid (axisCells g.dims) i0) {σ : ℚ} (hσ0 : 0 ≤ σ)
    (hσ1 : σ ≤ 1) (hnot : NotShort (33 * E + 834 * (u * B) + (1 + B) / 10 ^ 8) s (axisCells g.dims) o (onSeg o p σ)) :
    545 * (u * B) + (1 + B) / 10 ^ 8 ≤ len := by
  obtain ⟨hu, hs, hB, huB, hw, hw2⟩ := P.pos
  have hB8 : 0 ≤ (1 + B) / 10 ^ 8 := by positivity
  obtain ⟨a, ha⟩ := outside_far P hi0 hout hnot (by linarith)
  have e : onSeg o p σ a - o a = σ * (p a - o a) := by unfold onSeg; ring
  rw [e, abs_mul, abs_of_nonneg hσ0] at ha
  have := mul_le_of_le_one_left (abs_nonneg (p a - o a)) hσ1
  have := ray_span F a
  linarith

/-- Marks are made near the ray and before the range, wherever the sensor is, if the ray does not end before the grid. -/
theorem ray_seen_near_wide (P : CamPrecise R sqrt u η M s n N E B g) (W : Wide u η M s n N E g) (F : RayFacts R sqrt u B bits c x o p len)
    (hr : RangeOk η B c.range) (hreach : ∀ a, 8 * |c.sensor a| + 264 * (u * B) ≤ n * s)
    (h : Reaches (wideTol u E B) s (axisCells g.dims) c.range c.sensor (c.place x)) {ms : List Mark} {m : Mark}
    (hms : castRay R bits g c o p len = some ms) (hm : m ∈ ms) : SeenNear (camTol u E B) s c.range c.sensor (c.place x) m.cell := by
  obtain ⟨i0, hi0⟩ := sensor_index hms
  by_cases hin : CellInGrid (axisCells g.dims) i0
  · exact ray_seen_near_in P F hr hi0 hin hms hm
  obtain ⟨hu, hs, hB, huB, hw, hw2⟩ := P.pos
  obtain ⟨σ, hσ0, hσ1, hσr, hσs⟩ := h
  have hB8 : 0 ≤ (1 + B) / 10 ^ 8 := by positivity
  have hnot : NotShort (33 * E + 834 * (u * B) + (1 + B) / 10 ^ 8) s (axisCells g.dims) o (onSeg o p σ) :=
    notShort_near (by positivity) (by unfold wideTol camTol; linarith) F.near_o (onSeg_near F.near_o F.near_p hσ0 hσ1) hσs
  have hlow := ray_span F
  have hfar : 545 * (u * B) ≤ len := by linarith [ray_far P F hi0 hin hσ0 hσ1 hnot]
  have hlen0 : 0 < len := by linarith
  have hul0 := mul_pos hu hlen0
  have hD : ∀ a, |p a - o a| ≤ 2 * len := fun a => by linarith [hlow a]
  have hLM : 8 * (7 * B) ≤ M := by linarith [P.cam.M_B]
  have hL : 3 * (η * (7 * B)) ≤ u * s := by linarith [P.cam.reach]
  have hηlen : η * len ≤ u * s := by
    have := mul_le_mul_of_nonneg_left F.len_le P.cam.η_nonneg
    have := mul_nonneg P.cam.η_nonneg hB.le
    linarith
  have hη11 : 10 ^ 11 * η ≤ 1 := by
    have := W.entry.η_le; have := W.entry.u_le; have := W.entry.scale.η_nonneg
    linarith
  have ho : ∀ a, 8 * |o a| ≤ n * s := by
    intro a
    have d1 := hreach a
    have d2 := F.near_o a
    have d3 := abs_sub_abs_le_abs_sub (o a) (c.sensor a)
    linarith
  choose r hr0 hr1 hr2 hr3 using fun a => ray_near P.ray P.rounds hLM hL (F.span a)
  have hul := mul_le_mul_of_nonneg_left F.len_le hu.le
  cases hE : flEntry (ieee R bits) g (fun a => .fin (o a)) (fun a => .fin (p a)) (.fin len) c.range with
  | none =>
    exfalso
    unfold castRay flRaycast flStart at hms
    dsimp only at hms
    unfold flEntry at hE
    rw [Option.map_eq_none_iff] at hE
    rw [hi0, Option.map_some, if_neg (by rw [inGrid_iff]; exact hin), hE] at hms
    cases hms
    cases hm
  | some X =>
  obtain ⟨T, rfl, hT0, hTσ⟩ := entry_early W.entry P.rounds bits P.grid W.dims W.size ho hr0 hr1 (range := c.range)
    hD hlen0 (by linarith [F.len_le, P.cam.M_B]) hi0 hin hσ0 hσ1 (by linarith [F.len_le]) hnot hE
  have hTlen : T < len := by
    have := mul_le_of_le_one_left hlen0.le hσ1
    linarith
  have hstart := flStart_out (A := ieee R bits) hi0 hin hE
  have hms' := hms
  unfold castRay flRaycast at hms'
  dsimp only at hms'
  rw [hstart] at hms'
  dsimp only at hms'
  obtain ⟨i, f, hi, hf, hmarks⟩ := flCastFrom_some _ _ hms'
  cases hclip : flClipped (ieee R bits) (.fin len) c.range with
  | false =>
    by_cases hin' : CellInGrid (axisCells g.dims) i
    · have hw' := (C73_sensor_outside_partial P.ray W.entry.n_ge hη11 P.rounds bits P.grid W.dims ho F.span hLM hL hlen0 hηlen hclip hi0 hin hE hTlen
        hstart hi hin' hms).1 m hm
      have hw'' := passesWithin_rest (q := 1) (o := o) (p := p) (div_nonneg hT0 hlen0.le) ((div_le_one hlen0).2 hTlen.le) one_pos (by rw [onSeg_one]; exact hw')
      exact seenNear_of_within F.near_o F.near_p zero_le_one le_rfl rfl (by unfold camTol; linarith)
        (fun τ h0 h1 => range_unclipped P F h0 h1 hclip) hw''
    · obtain ⟨hf', hcell⟩ := cast_out_marks hms' hi hin' hm
      unfold flFinalPoint at hf'
      rw [if_neg (by simp [hclip])] at hf'
      refine ⟨1, zero_le_one, le_rfl, ?_, range_unclipped P F zero_le_one le_rfl hclip⟩
      rw [onSeg_one]
      exact point_near P F.near_p hf' hcell
  | true =>
    have h3 : Fl.lt c.range (.fin len) = true := hclip
    obtain ⟨q, hq⟩ : ∃ q, c.range = .fin q := by
      cases hcr : c.range with
      | nan => rw [hcr] at h3; cases h3
      | ninf => exact absurd hcr hr.1
      | fin q => exact ⟨q, rfl⟩
      | pinf => rw [hcr] at h3; cases h3
    have hlt : q < len := by rw [hq] at h3; simpa [Fl.lt] using h3
    obtain ⟨q0, q1⟩ := hr.2 q hq
    have hs0 : 0 ≤ q / len := (div_pos q0 hlen0).le
    have hs1 : q / len ≤ 1 := (div_le_one hlen0).2 hlt.le
    have hηq : 2 * (η * len) ≤ q := by
      have := mul_le_mul_of_nonneg_left F.len_le P.cam.η_nonneg
      linarith
    have hspan : ∀ a, |p a - o a| * (q / len) ≤ 7 * B := fun a => (mul_le_of_le_one_right (abs_nonneg _) hs1).trans (F.span a)
    by_cases hin' : CellInGrid (axisCells g.dims) i
    · have hσq : σ * len ≤ q := by
        obtain ⟨w1, w2⟩ := hσr q hq
        rw [distSq_onSeg] at w2
        have htol : 300 * (u * B) ≤ wideTol u E B := by unfold wideTol camTol; linarith
        have := F.lower σ (q - wideTol u E B) hσ0 hσ1 (by linarith) (by linarith [F.len_le]) w2
        linarith
      have hTr : T + u * q + η * len < q := by
        have h2 := mul_le_mul_of_nonneg_left hlt.le hu.le
        have h3 := mul_le_mul_of_nonneg_right W.entry.scale.η_le hlen0.le
        linarith
      unfold castRay at hms
      rw [hq] at hms hE hstart
      have hw' := (C73_clipped_partial P.ray W.entry.n_ge hη11 P.rounds P.one bits P.grid W.dims ho F.span hLM hL q0 hlt hηq hηlen hspan hi0 hin hE hTr
        hstart hi hin' hms).1 m hm
      have hw'' := passesWithin_rest (q := q / len) (o := o) (p := p) (div_nonneg hT0 hlen0.le)
        (div_le_div_of_nonneg_right (by nlinarith [P.cam.η_nonneg]) hlen0.le) (div_pos q0 hlen0) hw'
      exact seenNear_of_within F.near_o F.near_p hs0 hs1 rfl (by unfold camTol; linarith)
        (fun τ h0 h1 => range_clipped P F hq hlen0 q0 hlt h0 h1) hw''
    · obtain ⟨hf', hcell⟩ := cast_out_marks hms' hi hin' hm
      unfold flFinalPoint at hf'
      rw [if_pos hclip, hq] at hf'
      obtain ⟨lam, l1, l2, l3, l4⟩ := share_near P.ray P.rounds P.one q0 hlt hηq
      choose e he he1 he2 using fun a => clip_near P.ray P.rounds (show |o a| ≤ n * s by linarith [ho a, abs_nonneg (o a)]) (F.span a) hLM hL (hr1 a) (hr2 a)
        hs0 l4 l2.le l3
      have hend : (fun a => (ieee R bits).add (.fin (o a)) ((ieee R bits).mul ((ieee R bits).sub (.fin (p a)) (.fin (o a)))
          ((ieee R bits).div (.fin q) (.fin len)))) = fun a => .fin (e a) := by
        funext a
        show Fl.addR R (.fin (o a)) (Fl.mulR R (Fl.subR R (.fin (p a)) (.fin (o a))) (Fl.divR R (.fin q) (.fin len))) = _
        rw [l1, hr0 a]
        exact he a
      rw [hend] at hf'
      refine ⟨q / len, hs0, hs1, ?_, range_clipped P F hq hlen0 q0 hlt hs0 le_rfl⟩
      have hnb := index_near_box P (q := onSeg c.sensor (c.place x) (q / len)) (ε := 68 * (u * B) + 3 * (u * n * s)) (fun a => by
        have d1 := abs_le.1 (onSeg_near F.near_o F.near_p hs0 hs1 a)
        have d2 := abs_le.1 (he2 a)
        have d3 := mul_le_mul_of_nonneg_left (hspan a) hu.le
        have e5 : onSeg o p (q / len) a = o a + (p a - o a) * (q / len) := by unfold onSeg; ring
        rw [e5] at d1
        rw [abs_le]
        constructor <;> linarith) hf' hcell
      intro a
      have := hnb a
      unfold camTol
      constructor <;> linarith

/-! ### Steep rays -/

/-- The slope from which on rays from outside the grid are not lost. -/
def steepSlope (u s n : ℚ) : ℚ := 4 * 10 ^ 11 * (u * n * s) + 2 * 10 ^ 10 * u

/-- What is steep stays steep after rounding. -/
theorem steep_computed (P : CamPrecise R sqrt u η M s n N E B g) (F : RayFacts R sqrt u B bits c x o p len) (hu11 : 10 ^ 11 * u ≤ 1)
    (hfar : (1 + B) / 10 ^ 8 ≤ len) {a : Fin 3}
    (h : steepSlope u s n ^ 2 * distSq c.sensor (c.place x) ≤ (c.place x a - c.sensor a) ^ 2) :
    2 * 10 ^ 11 * (u * n * s) * len ≤ |p a - o a| := by
  obtain ⟨hu, hs, hB, huB, hw, hw2⟩ := P.pos
  have hBl : B ≤ 10 ^ 8 * len := by
    rw [div_le_iff₀ (by norm_num)] at hfar
    linarith
  have hlen0 : 0 < len := by linarith
  have hS0 : 0 < steepSlope u s n := by unfold steepSlope; linarith
  have huB8 : u * B ≤ 10 ^ 8 * (u * len) := by
    have := mul_le_mul_of_nonneg_left hBl hu.le
    linarith
  have hul : 10 ^ 11 * (u * len) ≤ len := by
    have := mul_le_mul_of_nonneg_right hu11 hlen0.le
    linarith
  have hA : len ≤ |c.place x a - c.sensor a| / steepSlope u s n + 212 * (u * B) := by
    by_cases h14 : |c.place x a - c.sensor a| / steepSlope u s n ≤ 14 * B
    · have := F.lower 1 _ zero_le_one le_rfl (div_nonneg (abs_nonneg _) hS0.le) h14 (by
        rw [one_pow, one_mul, div_pow, sq_abs, le_div_iff₀ (pow_pos hS0 2)]
        linarith)
      linarith
    · push Not at h14
      linarith [F.len_le]
  have hA2 : steepSlope u s n * len ≤ |c.place x a - c.sensor a| + steepSlope u s n * (212 * (u * B)) := by
    have := mul_le_mul_of_nonneg_left hA hS0.le
    rwa [mul_add, mul_div_cancel₀ _ hS0.ne'] at this
  have hA3 : steepSlope u s n * (212 * (u * B)) ≤ steepSlope u s n * (212 / 1000 * len) :=
    mul_le_mul_of_nonneg_left (by linarith) hS0.le
  have hSl : steepSlope u s n * len = 4 * 10 ^ 11 * (u * n * s * len) + 2 * 10 ^ 10 * (u * len) := by unfold steepSlope; ring
  have hwl := mul_pos hw hlen0
  have hul0 := mul_pos hu hlen0
  have k1 : |c.place x a - c.sensor a| ≤ |p a - o a| + 66 * (u * B) := by
    have d1 := abs_le.1 (F.near_o a)
    have d2 := abs_le.1 (F.near_p a)
    have d3 := le_abs_self (p a - o a)
    have d4 := neg_abs_le (p a - o a)
    rw [abs_le]
    constructor <;> linarith
  linarith

/-- Rays that pass a cell deeply before the range mark it, wherever the sensor is, unless they are almost parallel to a face. -/
theorem ray_seen_deep_wide (P : CamPrecise R sqrt u η M s n N E B g) (W : Wide u η M s n N E g) (F : RayFacts R sqrt u B bits c x o p len)
    (hr : RangeOk η B c.range) (hreach : ∀ a, 8 * |c.sensor a| + 264 * (u * B) ≤ n * s) (hu11 : 10 ^ 11 * u ≤ 1)
    (hB11 : 14 * 10 ^ 11 * (u * B) ≤ 4)
    (hsteep : Steep (wideTol u E B) (steepSlope u s n) s (axisCells g.dims) c.sensor (c.place x)) {ms : List Mark}
    (hms : castRay R bits g c o p len = some ms) {i : IVec} (hi : CellInGrid (axisCells g.dims) i)
    (h : SeenDeep (wideTol u E B) s c.range c.sensor (c.place x) i) : Mark.free i ∈ ms ∨ Mark.filled i ∈ ms := by
  obtain ⟨hu, hs, hB, huB, hw, hw2⟩ := P.pos
  have hB8 : 0 ≤ (1 + B) / 10 ^ 8 := by positivity
  obtain ⟨i0, hi0⟩ := sensor_index hms
  obtain ⟨τ, t0, t1, t2, t3⟩ := h
  have hww : camTol u E B ≤ wideTol u E B := by unfold wideTol; linarith
  by_cases hin : CellInGrid (axisCells g.dims) i0
  · refine ray_seen_deep_in P F hr hi0 hin hms hi ⟨τ, t0, t1, deepBox_mono hww t2, wellWithin_mono hww t3⟩
  have hnot : NotShort (33 * E + 834 * (u * B) + (1 + B) / 10 ^ 8) s (axisCells g.dims) o (onSeg o p τ) :=
    notShort_near (by positivity) (by unfold wideTol camTol; linarith) F.near_o (onSeg_near F.near_o F.near_p t0 t1)
      (notShort_of_end (deepInGrid_of_box hs.le hi t2))
  have hlow := ray_span F
  have hfar := ray_far P F hi0 hin t0 t1 hnot
  have hlen0 : 0 < len := by linarith
  have hD : ∀ a, |p a - o a| ≤ 2 * len := fun a => by linarith [hlow a]
  have hLM : 8 * (7 * B) ≤ M := by linarith [P.cam.M_B]
  have hL : 3 * (η * (7 * B)) ≤ u * s := by linarith [P.cam.reach]
  have hηlen : η * len ≤ u * s := by
    have := mul_le_mul_of_nonneg_left F.len_le P.cam.η_nonneg
    have := mul_nonneg P.cam.η_nonneg hB.le
    linarith
  have ho : ∀ a, 8 * |o a| ≤ n * s := by
    intro a
    have d1 := hreach a
    have d2 := F.near_o a
    have d3 := abs_sub_abs_le_abs_sub (o a) (c.sensor a)
    linarith
  have hul := mul_le_mul_of_nonneg_left F.len_le hu.le
  have hlen4 : 10 ^ 11 * (u * len) ≤ 4 := by linarith
  have hlM : 2 * len ≤ M := by linarith [F.len_le, P.cam.M_B]
  have hst : ∀ a, 2 * 10 ^ 11 * (u * n * s) * len ≤ |p a - o a| ∨
      (6 * (u * n * s) + 8 * (u * len) + 5 / 10 ^ 10 * (1 + len) ≤ o a ∧
        o a ≤ axisCells g.dims a * s - (6 * (u * n * s) + 8 * (u * len) + 5 / 10 ^ 10 * (1 + len))) := by
    intro a
    have d := abs_le.1 (F.near_o a)
    have l := F.len_le
    rcases hsteep a with ⟨h1, h2⟩ | h1
    · right
      unfold wideTol camTol at h1 h2
      constructor <;> linarith
    · exact .inl (steep_computed P F hu11 (by linarith) h1)
  have t4 : ∀ a, (i a : ℚ) * s + (33 * E + 5 * (u * (7 * B)) + 8 * (u * len) + 5 / 10 ^ 10 * (1 + len)) ≤ onSeg o p τ a ∧
      onSeg o p τ a ≤ ((i a : ℚ) + 1) * s - (33 * E + 5 * (u * (7 * B)) + 8 * (u * len) + 5 / 10 ^ 10 * (1 + len)) := by
    intro a
    have h5 := abs_le.1 (onSeg_near F.near_o F.near_p t0 t1 a)
    have h6 := t2 a
    have l := F.len_le
    unfold wideTol camTol at h6
    constructor <;> linarith
  unfold castRay at hms
  cases hclip : flClipped (ieee R bits) (.fin len) c.range with
  | false =>
    rcases C73_steep_partial W.entry P.rounds bits P.grid W.dims W.size ho F.span hLM hL hlen0 hD hlM hlen4 hηlen hclip hi0 hin hst hms hi
      ⟨τ, t0, t1, fun a => by have := t4 a; constructor <;> linarith⟩ with h3 | ⟨h3, -⟩
    · exact .inl h3
    · exact .inr h3
  | true =>
    have h3 : Fl.lt c.range (.fin len) = true := hclip
    obtain ⟨q, hq⟩ : ∃ q, c.range = .fin q := by
      cases hcr : c.range with
      | nan => rw [hcr] at h3; cases h3
      | ninf => exact absurd hcr hr.1
      | fin q => exact ⟨q, rfl⟩
      | pinf => rw [hcr] at h3; cases h3
    rw [hq] at h3 hms
    have hlt : q < len := by simpa [Fl.lt] using h3
    obtain ⟨q0, q1⟩ := hr.2 q hq
    have hq0 : 0 < q / len := div_pos q0 hlen0
    have hq1 : q / len ≤ 1 := (div_le_one hlen0).2 hlt.le
    have hηq : 2 * (η * len) ≤ q := by
      have := mul_le_mul_of_nonneg_left F.len_le P.cam.η_nonneg
      linarith
    obtain ⟨w1, w2⟩ := t3 q hq
    rw [distSq_onSeg] at w2
    have htol : 300 * (u * B) ≤ wideTol u E B := by unfold wideTol camTol; linarith
    have w3 := F.lower τ (q - wideTol u E B) t0 t1 (by linarith) (by linarith [F.len_le]) w2
    have w5 : τ ≤ q / len := by rw [le_div_iff₀ hlen0]; linarith
    refine .inl (C73_steep_clipped_partial W.entry P.rounds P.one bits P.grid W.dims W.size ho F.span hLM hL q0 hlt hηq hD hlM hlen4 hηlen (X := 7 * B)
      (fun a => (mul_le_of_le_one_right (abs_nonneg _) hq1).trans (F.span a)) hi0 hin hst hms hi
      ⟨τ / (q / len), div_nonneg t0 hq0.le, (div_le_one hq0).2 w5, fun a => ?_⟩)
    have e : onSeg o (onSeg o p (q / len)) (τ / (q / len)) a = onSeg o p τ a := by
      unfold onSeg
      field_simp
      ring
    rw [e]
    exact t4 a

end

end VGT
