import Verif.Lemmas.RayRoundCast
import Mathlib.Algebra.Order.Field.Power

/-!
C72, C73: raycasting in machine arithmetic marks the cells the segment passes, up to a tolerance far below the edge of a cell.
C72: sensors in the grid; C73: sensors outside.
-/
set_option autoImplicit false

namespace VGT
open VGT.EDT VGT.Spec

/-! ### Rounding -/

/-- Error of rounding to nearest, for all numbers. -/
theorem rne_error_any {K : Type} [Field K] [LinearOrder K] [IsStrictOrderedRing K] [FloorRing K] (p : ℕ) (emin : ℤ) (x : K) :
    |rne p emin x - x| ≤ 2 ^ (-(p : ℤ)) * |x| + 2 ^ (emin - 1) := by
  rcases eq_or_ne x 0 with rfl | hx
  · rw [rne_zero, sub_zero, abs_zero, mul_zero, zero_add]
    positivity
  rcases le_or_gt ((2 : K) ^ (emin + p - 1)) |x| with h | h
  · have := rne_error h
    have h2 : (0 : K) < 2 ^ (emin - 1) := by positivity
    linarith
  · have he : lastPlace p emin x = emin := by
      have hpos : 0 < |x| := abs_pos.2 hx
      have hlow := Int.zpow_log_le_self (R := K) (b := 2) (by norm_num) hpos
      push_cast at hlow
      have h3 : Int.log 2 |x| < emin + p - 1 := (zpow_lt_zpow_iff_right₀ (by norm_num : (1 : K) < 2)).1 (hlow.trans_lt h)
      unfold lastPlace
      rw [max_eq_right]
      omega
    have h1 : rne p emin x - x = ((roundHalfEven (x / 2 ^ emin) : K) - x / 2 ^ emin) * 2 ^ emin := by
      simp only [rne, sub_mul, he]
      congr 1
      field_simp
    rw [h1, abs_mul, abs_of_pos (a := (2 : K) ^ emin) (by positivity)]
    have h2 : |(roundHalfEven (x / 2 ^ emin) : K) - x / 2 ^ emin| * 2 ^ emin ≤ 1 / 2 * 2 ^ emin := by
      gcongr; exact abs_roundHalfEven_sub _
    have h3 : (1 : K) / 2 * 2 ^ emin = 2 ^ (emin - 1) := by
      rw [zpow_sub₀ (by norm_num), zpow_one]; ring
    have h4 : 0 ≤ (2 : K) ^ (-(p : ℤ)) * |x| := by positivity
    linarith

/-- Rounding to nearest with a largest number. -/
theorem rounds_saturate (p : ℕ) (emin k : ℤ) (hp : 1 ≤ p) (hk : emin ≤ k) {max : ℚ} (hmax : max = ((2 : ℚ) ^ p - 1) * 2 ^ k) :
    Rounds (fun q => saturate max (rne p emin q)) (2 ^ (-(p : ℤ))) (2 ^ (emin - 1)) max := by
  have hrep : rne p emin max = max := by
    have h1 : max = (((2 : ℤ) ^ p - 1 : ℤ) : ℚ) * 2 ^ k := by rw [hmax]; push_cast; rfl
    have h2 : (1 : ℤ) ≤ 2 ^ p := one_le_pow₀ (by norm_num)
    rw [h1]
    exact rne_exact _ _ hp (by rw [abs_of_nonneg (by omega)]; omega) hk
  intro x
  unfold saturate
  dsimp only
  split_ifs with h1 h2
  · refine .inr (.inl ⟨rfl, ?_⟩)
    by_contra hcon
    have := rne_mono (emin := emin) hp (not_lt.1 hcon)
    rw [hrep] at this
    linarith
  · refine .inr (.inr ⟨rfl, ?_⟩)
    by_contra hcon
    have := rne_mono (emin := emin) hp (not_lt.1 hcon)
    rw [rne_neg, hrep] at this
    linarith
  · exact .inl ⟨_, rfl, rne_error_any p emin x⟩

/-- Numbers up to one are not rounded above one. -/
def KeepsOne (R : ℚ → Fl) : Prop := ∀ q y, q ≤ 1 → R q = .fin y → y ≤ 1

theorem keepsOne_saturate (p : ℕ) (emin : ℤ) (hp : 1 ≤ p) (h0 : emin ≤ 0) (max : ℚ) :
    KeepsOne fun q => saturate max (rne p emin q) := by
  intro q y hq h
  have h1 : rne p emin (1 : ℚ) = 1 := by
    have := rne_exact (K := ℚ) (p := p) (emin := emin) 1 0 hp (by simpa using one_le_pow₀ (by norm_num : (1 : ℤ) ≤ 2)) h0
    simpa using this
  have h2 := rne_mono (emin := emin) hp hq
  rw [h1] at h2
  unfold saturate at h
  dsimp only at h
  split_ifs at h
  cases h
  exact h2

theorem rounds_double : Rounds (fun q => saturate ((2 - 1 / 2 ^ 52) * 2 ^ 1023) (roundDouble q)) (1 / 2 ^ 53) (1 / 2 ^ 1075)
    ((2 - 1 / 2 ^ 52) * 2 ^ 1023) := by
  have h := rounds_saturate 53 (-1074) 971 (by norm_num) (by norm_num) (max := (2 - 1 / 2 ^ 52) * 2 ^ 1023) (by
    have e : (2 : ℚ) ^ 1023 = 2 ^ 52 * 2 ^ 971 := by rw [← pow_add]
    have e' : (2 : ℚ) ^ (971 : ℤ) = 2 ^ 971 := zpow_natCast 2 971
    rw [e, e']
    generalize (2 : ℚ) ^ 971 = t
    norm_num
    ring)
  have e1 : (2 : ℚ) ^ (-((53 : ℕ) : ℤ)) = 1 / 2 ^ 53 := by rw [zpow_neg, one_div]; norm_cast
  have e2 : (2 : ℚ) ^ ((-1074 : ℤ) - 1) = 1 / 2 ^ 1075 := by
    rw [show (-1074 : ℤ) - 1 = -(1075 : ℤ) by norm_num, zpow_neg, one_div]; norm_cast
  rw [e1, e2] at h
  exact h

theorem rounds_float : Rounds (fun q => saturate ((2 - 1 / 2 ^ 23) * 2 ^ 127) (roundFloat q)) (1 / 2 ^ 24) (1 / 2 ^ 150)
    ((2 - 1 / 2 ^ 23) * 2 ^ 127) := by
  have h := rounds_saturate 24 (-149) 104 (by norm_num) (by norm_num) (max := (2 - 1 / 2 ^ 23) * 2 ^ 127) (by norm_num)
  have e1 : (2 : ℚ) ^ (-((24 : ℕ) : ℤ)) = 1 / 2 ^ 24 := by rw [zpow_neg, one_div]; norm_cast
  have e2 : (2 : ℚ) ^ ((-149 : ℤ) - 1) = 1 / 2 ^ 150 := by
    rw [show (-149 : ℤ) - 1 = -(150 : ℤ) by norm_num, zpow_neg, one_div]; norm_cast
  rw [e1, e2] at h
  exact h

/-! ### A sensor in the grid -/

/-- Edge, inverse edge and size of the grid, as far as raycasting needs them. -/
structure GridWith (u s n : ℚ) (g : RayGrid Fl) : Prop where
  cell : g.cell = .fin s
  inv : ∃ v, g.inv = .fin v ∧ |v * s - 1| ≤ 5 / 2 * u
  dims : ∀ a, (axisCells g.dims a : ℚ) + 2 ≤ n

section
variable {R : ℚ → Fl} {u η M s n N E : ℚ} {g : RayGrid Fl} {o p : Fin 3 → ℚ} {L : ℚ}

/-- The computed difference of point and sensor. -/
theorem ray_near (h : RayScale u η M s n N E) (hR : Rounds R u η M) (hLM : 8 * L ≤ M) (hL : 3 * (η * L) ≤ u * s) {a : Fin 3}
    (ha : |p a - o a| ≤ L) : ∃ r, Fl.subR R (.fin (p a)) (.fin (o a)) = .fin r ∧ |r - (p a - o a)| ≤ u * |p a - o a| + η ∧
      |r| ≤ 2 * L + η ∧ η * |r| ≤ u * s := by
  have hL0 : 0 ≤ L := (abs_nonneg _).trans ha
  have hu := h.u_pos; have hη := h.η_nonneg; have hM := h.M_pos
  have hu1 : 9000 * u ≤ 1 := by linarith [h.u_le, h.un_le]
  have b := abs_le.1 ha
  rcases hR (p a - o a) with ⟨y, e1, e2⟩ | ⟨-, e⟩ | ⟨-, e⟩
  · refine ⟨y, e1, e2, ?_⟩
    have h1 := abs_sub_abs_le_abs_sub y (p a - o a)
    have h2 := mul_le_mul_of_nonneg_left ha hu.le
    have h3 := mul_le_mul_of_nonneg_right hu1 hL0
    have h4 : |y| ≤ 9001 / 9000 * L + η := by linarith
    refine ⟨by linarith, ?_⟩
    have h5 := mul_le_mul_of_nonneg_left h4 hη
    have h6 := mul_le_mul_of_nonneg_left h.η_le_s hη
    have hus := mul_pos hu h.s_pos
    have h7 : η * (u * s) ≤ 1 / 9000 * (u * s) :=
      mul_le_mul_of_nonneg_right (by linarith [h.η_le]) (mul_nonneg hu.le h.s_pos.le)
    linarith
  · exfalso; linarith
  · exfalso; linarith

theorem flStart_in {A : Arith Fl} {o ray : Fin 3 → Fl} {len range : Fl} {i : IVec} (hi : flIndex A g o = some i)
    (hin : CellInGrid (axisCells g.dims) i) : flStart A g o ray len range = some (some o) := by
  unfold flStart
  rw [hi, Option.map_some, if_pos (inGrid_iff.2 hin)]

/-- C72: a ray from a sensor in the grid to a point within range: whatever the rounding, every cell marked is within
`32 E` of the segment from the sensor to the point, and every cell the segment passes at this depth is marked free, or filled if it is the cell of
the point. -/
theorem C72_sensor_in_grid (h : RayScale u η M s n N E) (hR : Rounds R u η M) (bits : ℕ) (hg : GridWith u s N g) {i : IVec}
    (hi : flIndex (ieee R bits) g (fun a => .fin (o a)) = some i) (hin : CellInGrid (axisCells g.dims) i)
    (hpo : ∀ a, |p a - o a| ≤ L) (hLM : 8 * L ≤ M) (hL : 3 * (η * L) ≤ u * s) {len range : Fl}
    (hclip : flClipped (ieee R bits) len range = false) {ms : List Mark}
    (hms : flRaycast (ieee R bits) g (fun a => .fin (o a)) (fun a => .fin (p a)) len range = some ms) :
    (∀ m ∈ ms, PassesWithin (32 * E) s o p m.cell) ∧
    ∀ c, CellInGrid (axisCells g.dims) c → PassesDeep (32 * E) s o p c →
      Mark.free c ∈ ms ∨ (Mark.filled c ∈ ms ∧ flIndex (ieee R bits) g (fun a => .fin (p a)) = some c) := by
  obtain ⟨v, hv, hv'⟩ := hg.inv
  choose r hr hr1 hr2 hr3 using fun a => ray_near h hR hLM hL (hpo a)
  have hray : (fun a => (ieee R bits).sub (.fin (p a)) (.fin (o a))) = fun a => .fin (r a) := funext hr
  unfold flRaycast at hms
  dsimp only at hms
  rw [flStart_in hi hin, hray] at hms
  dsimp only at hms
  unfold flFinalPoint at hms
  rw [if_neg (by simp [hclip]), hclip] at hms
  obtain ⟨i', f, hi', hf, -⟩ := flCastFrom_some _ _ hms
  have S := setup_of (r := r) (lam := 1) h hR bits hv hv' hg.dims hi hf hin hr3 one_pos le_rfl (by
    intro a
    unfold SpeedOf
    rw [one_mul]
    refine (hr1 a).trans ?_
    have := h.us_le; have := h.η_le_s; have := h.w_pos
    have := mul_nonneg h.u_pos.le (abs_nonneg (p a - o a))
    linarith)
  obtain ⟨h1, h2⟩ := cast_marks S hR bits rfl hg.cell hi hf hms
  have e1 : (fun a => o a + (p a - o a)) = p := by funext a; ring
  rw [e1] at h1 h2
  refine ⟨h1, fun c hc hd => ?_⟩
  rcases h2 c hc hd with h3 | ⟨h3, h4, -⟩
  · exact .inl h3
  · exact .inr ⟨h3, h4 ▸ hf⟩

/-- A segment with a slightly different end. -/
theorem passesWithin_end {tol ε : ℚ} {e e' : Fin 3 → ℚ} {c : IVec} (he : ∀ a, |e a - e' a| ≤ ε) (h : PassesWithin tol s o e c) :
    PassesWithin (tol + ε) s o e' c := by
  obtain ⟨τ, h0, h1, h2⟩ := h
  refine ⟨τ, h0, h1, fun a => ?_⟩
  obtain ⟨h3, h4⟩ := h2 a
  have h5 := abs_le.1 (he a)
  unfold onSeg at *
  constructor <;> nlinarith

theorem passesDeep_end {tol ε : ℚ} {e e' : Fin 3 → ℚ} {c : IVec} (he : ∀ a, |e a - e' a| ≤ ε)
    (h : PassesDeep (tol + ε) s o e' c) : PassesDeep tol s o e c := by
  obtain ⟨τ, h0, h1, h2⟩ := h
  refine ⟨τ, h0, h1, fun a => ?_⟩
  obtain ⟨h3, h4⟩ := h2 a
  have h5 := abs_le.1 (he a)
  unfold onSeg at *
  constructor <;> nlinarith

theorem clip_speed {u η w ax P Q E X : ℚ} (hu : 0 ≤ u) (hu1 : 9000 * u ≤ 1) (hη : 0 ≤ η) (hηw : 3 * η ≤ w) (hP0 : 0 ≤ P)
    (hE0 : 0 ≤ E) (hQ0 : 0 ≤ Q) (hx : u * ax ≤ w) (hE : E ≤ (u * Q + η) + (u * X + η)) (hQ : Q ≤ P + E)
    (hX : X ≤ ax + (Q + (u * Q + η))) : E ≤ 3 * (u * P) + 2 * w := by
  have h1 := mul_le_mul_of_nonneg_left hX hu
  have h2 := mul_le_mul_of_nonneg_left hQ hu
  have h3 := mul_le_mul_of_nonneg_right hu1 (mul_nonneg hu hQ0)
  have h4 := mul_le_mul_of_nonneg_right hu1 hη
  have h5 := mul_le_mul_of_nonneg_right hu1 hE0
  have h6 := mul_nonneg hu hP0
  linarith

theorem clip_end {u η w ax Z Q K X T Dl ηD ηl : ℚ} (hu : 0 ≤ u) (hu1 : 9000 * u ≤ 1) (hη : 0 ≤ η) (hηw : 3 * η ≤ w) (hZ0 : 0 ≤ Z)
    (hQ0 : 0 ≤ Q) (hx : u * ax ≤ w) (hT : T ≤ (u * X + η) + ((u * Q + η) + K)) (hQ : Q ≤ Z + K)
    (hX : X ≤ ax + (Q + (u * Q + η))) (hK0 : 0 ≤ K) (hK : K ≤ u * Dl + ηl + (u * Z + ηD)) (hDl : Dl ≤ Z + (u * Z + ηD)) (hηl : ηl ≤ η)
    (hηD0 : 0 ≤ ηD) (hηD : 9 * ηD ≤ w) : T ≤ 5 * (u * Z) + 3 * w := by
  have h1 := mul_le_mul_of_nonneg_left hX hu
  have h2 := mul_le_mul_of_nonneg_left hQ hu
  have h3 := mul_le_mul_of_nonneg_right hu1 (mul_nonneg hu hQ0)
  have h4 := mul_le_mul_of_nonneg_right hu1 hη
  have h5 := mul_le_mul_of_nonneg_right hu1 hK0
  have h6 := mul_nonneg hu hZ0
  have h7 := mul_le_mul_of_nonneg_left hDl hu
  have h8 := mul_le_mul_of_nonneg_right hu1 h6
  have h9 := mul_le_mul_of_nonneg_right hu1 hηD0
  linarith

/-- The computed range-limited end along an axis. -/
theorem clip_point (h : RayScale u η M s n N E) (hR : Rounds R u η M) {x r lam : ℚ} (hx : |x| ≤ n * s)
    (hLM : 8 * L ≤ M) (hL0 : 0 ≤ L) (hr2 : |r| ≤ 2 * L + η) (hl0 : 0 ≤ lam) (hl1 : lam ≤ 1) :
    ∃ y e, Fl.addR R (.fin x) (Fl.mulR R (.fin r) (.fin lam)) = .fin e ∧ |y - r * lam| ≤ u * |r * lam| + η ∧
      |e - (x + y)| ≤ u * |x + y| + η ∧ |x + y| ≤ |x| + (|r * lam| + (u * |r * lam| + η)) := by
  have hu := h.u_pos; have hη := h.η_nonneg
  have hu1 : 9000 * u ≤ 1 := by linarith [h.u_le, h.un_le]
  have hηu := h.η_le
  have hMs := h.M_s; have hMn := h.M_n; have hn3 := h.n_ge
  have hrl : |r * lam| = lam * |r| := by rw [abs_mul, abs_of_nonneg hl0, mul_comm]
  have hrl1 : |r * lam| ≤ |r| := by rw [hrl]; nlinarith [abs_nonneg r]
  obtain ⟨y1, e1, b1⟩ : ∃ y, R (r * lam) = .fin y ∧ |y - r * lam| ≤ u * |r * lam| + η := by
    have b := abs_le.1 (hrl1.trans hr2)
    rcases hR (r * lam) with h1 | ⟨-, h1⟩ | ⟨-, h1⟩
    · exact h1
    · exfalso; linarith
    · exfalso; linarith
  have hy1 : |y1| ≤ |r * lam| + (u * |r * lam| + η) := by
    have := abs_sub_abs_le_abs_sub y1 (r * lam)
    linarith
  have hurl := mul_le_mul_of_nonneg_right hu1 (abs_nonneg (r * lam))
  have hxy : |x + y1| ≤ |x| + |y1| := abs_add_le _ _
  obtain ⟨e, e2, b2⟩ : ∃ y, R (x + y1) = .fin y ∧ |y - (x + y1)| ≤ u * |x + y1| + η := by
    have hb : |x + y1| ≤ M := by linarith
    have b := abs_le.1 hb
    rcases hR (x + y1) with h1 | ⟨-, h1⟩ | ⟨-, h1⟩
    · exact h1
    · exfalso; linarith
    · exfalso; linarith
  refine ⟨y1, e, ?_, b1, b2, by linarith⟩
  show Fl.addR R (.fin x) (R (r * lam)) = _
  rw [e1]
  exact e2

/-- The computed range-limited end along an axis, and the speed that belongs to it. -/
theorem clip_near (h : RayScale u η M s n N E) (hR : Rounds R u η M) {x D r q lam : ℚ} (hx : |x| ≤ n * s)
    (hD : |D| ≤ L) (hLM : 8 * L ≤ M) (hL : 3 * (η * L) ≤ u * s)
    (hr : |r - D| ≤ u * |D| + η) (hr2 : |r| ≤ 2 * L + η) (hq0 : 0 ≤ q) (hlam : |lam - q| ≤ u * q + η) (hl0 : 0 ≤ lam)
    (hl1 : lam ≤ 1) :
    ∃ e, Fl.addR R (.fin x) (Fl.mulR R (.fin r) (.fin lam)) = .fin e ∧ |lam * r - (e - x)| ≤ 3 * (u * |e - x|) + 2 * (u * n * s) ∧
      |e - (x + D * q)| ≤ 5 * (u * (|D| * q)) + 3 * (u * n * s) := by
  have hu := h.u_pos; have hη := h.η_nonneg
  have hu1 : 9000 * u ≤ 1 := by linarith [h.u_le, h.un_le]
  have husw := h.us_le
  have hηw : 3 * η ≤ u * n * s := by linarith [h.η_le_s]
  have hux : u * |x| ≤ u * n * s := by
    have := mul_le_mul_of_nonneg_left hx hu.le
    linarith
  obtain ⟨y, e, he, b1, b2, b3⟩ := clip_point h hR hx hLM ((abs_nonneg _).trans hD) hr2 hl0 hl1
  refine ⟨e, he, ?_, ?_⟩
  · refine clip_speed hu.le hu1 hη hηw (abs_nonneg _) (abs_nonneg _) (abs_nonneg (r * lam)) hux (X := |x + y|) ?_ ?_ b3
    · have e3 : lam * r - (e - x) = -(y - r * lam) + -(e - (x + y)) := by ring
      rw [e3]
      refine (abs_add_le _ _).trans ?_
      rw [abs_neg, abs_neg]
      exact add_le_add b1 b2
    · have e3 : r * lam = (e - x) + (lam * r - (e - x)) := by ring
      conv_lhs => rw [e3]
      exact abs_add_le _ _
  · have h1 : |(r - D) * lam| ≤ (u * |D| + η) * lam := by
      rw [abs_mul, abs_of_nonneg hl0]
      exact mul_le_mul_of_nonneg_right hr hl0
    have h2 : |D * (lam - q)| ≤ |D| * (u * q + η) := by
      rw [abs_mul]
      exact mul_le_mul_of_nonneg_left hlam (abs_nonneg _)
    have hlq : lam ≤ q + (u * q + η) := by linarith [(abs_le.1 hlam).2]
    have hηD : η * |D| ≤ 1 / 3 * (u * s) := by
      have := mul_le_mul_of_nonneg_left hD hη
      linarith
    refine clip_end (K := (u * |D| + η) * lam + |D| * (u * q + η)) (Dl := |D| * lam) (ηD := η * |D|) (ηl := η * lam) hu.le hu1 hη
      hηw (mul_nonneg (abs_nonneg _) hq0) (abs_nonneg (r * lam)) hux (X := |x + y|) ?_ ?_ b3 (by positivity) (le_of_eq (by ring)) ?_ ?_
      (mul_nonneg hη (abs_nonneg _)) (by linarith)
    · have e3 : e - (x + D * q) = (e - (x + y)) + ((y - r * lam) + ((r - D) * lam + D * (lam - q))) := by ring
      rw [e3]
      exact (abs_add_le _ _).trans (add_le_add b2 ((abs_add_le _ _).trans (add_le_add b1 ((abs_add_le _ _).trans (add_le_add h1 h2)))))
    · have e4 : r * lam = D * q + ((r - D) * lam + D * (lam - q)) := by ring
      rw [e4]
      refine (abs_add_le _ _).trans (add_le_add ?_ ((abs_add_le _ _).trans (add_le_add h1 h2)))
      rw [abs_mul, abs_of_nonneg hq0]
    · have := mul_le_mul_of_nonneg_left hlq (abs_nonneg D)
      linarith
    · nlinarith

/-- The computed share of the ray within range. -/
theorem share_near (h : RayScale u η M s n N E) (hR : Rounds R u η M) (h1 : KeepsOne R) {range len : ℚ} (hr : 0 < range) (hlt : range < len)
    (hη : 2 * (η * len) ≤ range) : ∃ lam, Fl.divR R (.fin range) (.fin len) = .fin lam ∧ 0 < lam ∧ lam ≤ 1 ∧
      |lam - range / len| ≤ u * (range / len) + η := by
  have hlen : 0 < len := hr.trans hlt
  have hq : range / len < 1 := (div_lt_one hlen).2 hlt
  have hq0 : 0 < range / len := div_pos hr hlen
  have hq2 : 2 * η ≤ range / len := by rw [le_div_iff₀ hlen]; linarith
  have hu1 : 9000 * u ≤ 1 := by linarith [h.u_le, h.un_le]
  have hdiv : Fl.divR R (.fin range) (.fin len) = R (range / len) := by
    show (if len = 0 then _ else _) = _
    rw [if_neg hlen.ne']
  rcases hR (range / len) with ⟨y, e1, e2⟩ | ⟨-, e⟩ | ⟨-, e⟩
  · rw [abs_of_pos hq0] at e2
    refine ⟨y, hdiv.trans e1, ?_, h1 _ _ hq.le e1, e2⟩
    have := (abs_le.1 e2).1
    have := mul_le_mul_of_nonneg_right hu1 hq0.le
    linarith
  · have := h.M_n; have := h.n_ge
    exfalso; linarith
  · have := h.M_n; have := h.n_ge
    exfalso; linarith

/-- C72: a ray from a sensor in the grid that is cut at the range: the same for the segment from the sensor to the point at
the share `range / len` of the way, with `5 u` times the length of the segment more tolerance. -/
theorem C72_clipped_ray (h : RayScale u η M s n N E) (hR : Rounds R u η M) (h1 : KeepsOne R) (bits : ℕ) (hg : GridWith u s N g) {i : IVec}
    (hi : flIndex (ieee R bits) g (fun a => .fin (o a)) = some i) (hin : CellInGrid (axisCells g.dims) i)
    (hpo : ∀ a, |p a - o a| ≤ L) (hLM : 8 * L ≤ M) (hL : 3 * (η * L) ≤ u * s) {len range : ℚ} (hr : 0 < range) (hlt : range < len)
    (hη : 2 * (η * len) ≤ range) {X : ℚ} (hX : ∀ a, |p a - o a| * (range / len) ≤ X) {ms : List Mark}
    (hms : flRaycast (ieee R bits) g (fun a => .fin (o a)) (fun a => .fin (p a)) (.fin len) (.fin range) = some ms) :
    (∀ m ∈ ms, PassesWithin (33 * E + 5 * (u * X)) s o (fun a => o a + (p a - o a) * (range / len)) m.cell) ∧
    (∀ c, CellInGrid (axisCells g.dims) c →
      PassesDeep (33 * E + 5 * (u * X)) s o (fun a => o a + (p a - o a) * (range / len)) c → Mark.free c ∈ ms) ∧
    ∀ c, Mark.filled c ∉ ms := by
  obtain ⟨v, hv, hv'⟩ := hg.inv
  choose r hr0 hr1 hr2 hr3 using fun a => ray_near h hR hLM hL (hpo a)
  obtain ⟨lam, hl, hl0, hl1, hl2⟩ := share_near h hR h1 hr hlt hη
  have hq0 : 0 ≤ range / len := (div_pos hr (hr.trans hlt)).le
  have hus := mul_pos h.u_pos h.s_pos
  have ho : ∀ a, |o a| ≤ n * s := by
    intro a
    obtain ⟨h1, h2⟩ := hin a
    have h3 : (i a : ℚ) + 1 ≤ axisCells g.dims a := by exact_mod_cast h2
    have h4 := hg.dims a
    have hi' := flIndex_axis hi a
    rw [hv] at hi'
    obtain ⟨n1, n2⟩ := index_nearCell h hR bits hv' hi' h1 (by linarith [h.N_le])
    have h5 : (0 : ℚ) ≤ i a := by exact_mod_cast h1
    have h6 := mul_le_mul_of_nonneg_right (show (i a : ℚ) + 1 ≤ n - 2 by linarith [h.N_le]) h.s_pos.le
    have h7 := mul_nonneg h5 h.s_pos.le
    have := h.w_le; have := h.s_pos; have := h.s_ns
    rw [abs_le]
    constructor <;> linarith
  choose e he he1 he2 using fun a => clip_near h hR (ho a) (hpo a) hLM hL (hr1 a) (hr2 a) hq0 hl2 hl0.le hl1
  have hray : (fun a => (ieee R bits).sub (.fin (p a)) (.fin (o a))) = fun a => .fin (r a) := funext hr0
  have hclip : flClipped (ieee R bits) (.fin len) (.fin range) = true := by
    show Fl.lt (.fin range) (.fin len) = true
    simpa [Fl.lt] using hlt
  unfold flRaycast at hms
  dsimp only at hms
  rw [flStart_in hi hin, hray] at hms
  dsimp only at hms
  unfold flFinalPoint at hms
  rw [if_pos hclip, hclip] at hms
  have hend : (fun a => (ieee R bits).add (.fin (o a)) ((ieee R bits).mul ((ieee R bits).sub (.fin (p a)) (.fin (o a)))
      ((ieee R bits).div (.fin range) (.fin len)))) = fun a => .fin (e a) := by
    funext a
    show Fl.addR R (.fin (o a)) (Fl.mulR R (Fl.subR R (.fin (p a)) (.fin (o a))) (Fl.divR R (.fin range) (.fin len))) = _
    rw [hl, hr0 a]
    exact he a
  rw [hend] at hms
  obtain ⟨i', f, hi', hf, hmarks⟩ := flCastFrom_some _ _ hms
  have S := setup_of (r := r) (lam := lam) h hR bits hv hv' hg.dims hi hf hin hr3 hl0 hl1 (by
    intro a
    unfold SpeedOf
    refine (he1 a).trans ?_
    have := h.w_pos
    have := mul_nonneg h.u_pos.le (abs_nonneg (e a - o a))
    linarith)
  obtain ⟨g1, g2⟩ := cast_marks S hR bits rfl hg.cell hi hf hms
  have e1 : (fun a => o a + (e a - o a)) = e := by funext a; ring
  rw [e1] at g1 g2
  have hend' : ∀ a, |e a - (o a + (p a - o a) * (range / len))| ≤ E + 5 * (u * X) := by
    intro a
    have := mul_le_mul_of_nonneg_left (hX a) h.u_pos.le
    have := he2 a
    have := h.w_nw
    linarith
  have e4 : 33 * E + 5 * (u * X) = 32 * E + (E + 5 * (u * X)) := by ring
  rw [e4]
  refine ⟨fun m hm => passesWithin_end hend' (g1 m hm), fun c hc hd => ?_, fun c hc => ?_⟩
  · rcases g2 c hc (passesDeep_end hend' hd) with h3 | ⟨-, -, h4⟩
    · exact h3
    · cases h4
  · have := ((hmarks.filled c).1 hc).1
    cases this

/-! ### A sensor outside the grid -/

/-- A segment with slightly different ends. -/
theorem passesWithin_ends {tol ε : ℚ} {x x' e e' : Fin 3 → ℚ} {c : IVec} (hx : ∀ a, |x a - x' a| ≤ ε) (he : ∀ a, |e a - e' a| ≤ ε)
    (h : PassesWithin tol s x e c) : PassesWithin (tol + ε) s x' e' c := by
  obtain ⟨τ, h0, h1, h2⟩ := h
  refine ⟨τ, h0, h1, fun a => ?_⟩
  obtain ⟨h3, h4⟩ := h2 a
  have h5 := abs_le.1 (he a)
  have h6 := abs_le.1 (hx a)
  unfold onSeg at *
  constructor <;> nlinarith

theorem passesDeep_ends {tol ε : ℚ} {x x' e e' : Fin 3 → ℚ} {c : IVec} (hx : ∀ a, |x a - x' a| ≤ ε) (he : ∀ a, |e a - e' a| ≤ ε)
    (h : PassesDeep (tol + ε) s x' e' c) : PassesDeep tol s x e c := by
  obtain ⟨τ, h0, h1, h2⟩ := h
  refine ⟨τ, h0, h1, fun a => ?_⟩
  obtain ⟨h3, h4⟩ := h2 a
  have h5 := abs_le.1 (he a)
  have h6 := abs_le.1 (hx a)
  unfold onSeg at *
  constructor <;> nlinarith

theorem entry_speed {u η w G T ηT ax Q dT X E : ℚ} (hu : 0 ≤ u) (hu1 : 9000 * u ≤ 1) (hη : 0 ≤ η) (hηw : 24 * η ≤ w) (hηT0 : 0 ≤ ηT)
    (hηT : 24 * ηT ≤ w) (hG : 8 * (u * G) = w) (hE0 : 0 ≤ E) (hQ0 : 0 ≤ Q) (hX0 : 0 ≤ X) (hax : ax ≤ 2 * G) (hXG : X ≤ G + (u * X + η))
    (hdT : dT ≤ Q + (u * Q + ηT)) (hE : E ≤ (u * Q + ηT) + ((u * dT + η) + (u * X + η))) (hQ : Q ≤ ax + E) : E ≤ w := by
  have h1 := mul_le_mul_of_nonneg_left hdT hu
  have h2 := mul_le_mul_of_nonneg_left hQ hu
  have h3 := mul_le_mul_of_nonneg_right hu1 (mul_nonneg hu hQ0)
  have h4 := mul_le_mul_of_nonneg_right hu1 hη
  have h5 := mul_le_mul_of_nonneg_right hu1 hE0
  have h6 := mul_le_mul_of_nonneg_left hXG hu
  have h7 := mul_le_mul_of_nonneg_right hu1 (mul_nonneg hu hX0)
  have h8 := mul_le_mul_of_nonneg_left hax hu
  have h9 := mul_le_mul_of_nonneg_right hu1 hηT0
  linarith

theorem Rounds.fin (hR : Rounds R u η M) {x y : ℚ} (h : R x = .fin y) : |y - x| ≤ u * |x| + η := by
  rcases hR x with ⟨z, e1, e2⟩ | ⟨e1, -⟩ | ⟨e1, -⟩
  · rw [h] at e1; cases e1; exact e2
  · rw [h] at e1; cases e1
  · rw [h] at e1; cases e1

theorem addR_fin {x : ℚ} {y : Fl} {z : ℚ} (h : Fl.addR R (.fin x) y = .fin z) : ∃ q, y = .fin q ∧ R (x + q) = .fin z := by
  cases y with
  | fin q => exact ⟨q, rfl, h⟩
  | nan => cases h
  | pinf => cases h
  | ninf => cases h

theorem mulR_fin {x y : Fl} {z : ℚ} (h : Fl.mulR R x y = .fin z) : ∃ a b, x = .fin a ∧ y = .fin b ∧ R (a * b) = .fin z := by
  cases x <;> cases y
  case fin.fin a b => exact ⟨a, b, rfl, rfl, h⟩
  all_goals
    exfalso
    simp only [Fl.mulR] at h
    try split_ifs at h
    try cases h

/-- A computed point that has an index is finite. -/
theorem finite_of_index (bits : ℕ) {z : Fl} {v : ℚ} {i : ℤ} (h : (ieee R bits).toInt ((ieee R bits).mul z (.fin v)) = some i) :
    ∃ x, z = .fin x := by
  have h' : Fl.floorInt bits (Fl.mulR R z (.fin v)) = some i := h
  rcases hm : Fl.mulR R z (.fin v) with _ | _ | q | _
  case fin => exact ⟨_, (mulR_fin hm).choose_spec.choose_spec.1⟩
  all_goals
    rw [hm] at h'
    simp [Fl.floorInt] at h'

/-- The computed entry point along an axis. -/
theorem entry_point (hR : Rounds R u η M) {o r len x : ℚ} {T' : Fl} (hlen : 0 < len)
    (h : Fl.addR R (.fin o) (Fl.mulR R (Fl.divR R (.fin r) (.fin len)) T') = .fin x) :
    ∃ T d y, T' = .fin T ∧ |d - r / len| ≤ u * |r / len| + η ∧ |y - d * T| ≤ u * |d * T| + η ∧ |x - (o + y)| ≤ u * |o + y| + η := by
  obtain ⟨y, hy, hx⟩ := addR_fin h
  obtain ⟨d, T, hd, hT, hy'⟩ := mulR_fin hy
  have hdiv : Fl.divR R (.fin r) (.fin len) = R (r / len) := by
    show (if len = 0 then _ else _) = _
    rw [if_neg hlen.ne']
  rw [hdiv] at hd
  exact ⟨T, d, y, hT, hR.fin hd, hR.fin hy', hR.fin hx⟩

/-- The entry point is where the speed leads in the entry time. -/
theorem entry_near (h : RayScale u η M s n N E) {o r len x T d y : ℚ} (hn : 24 ≤ n) (hlen : 0 < len) (hT0 : 0 ≤ T) (hηT : η * T ≤ u * s)
    (hd : |d - r / len| ≤ u * |r / len| + η) (hy : |y - d * T| ≤ u * |d * T| + η) (hx : |x - (o + y)| ≤ u * |o + y| + η)
    (ho : 8 * |o| ≤ n * s) (hx8 : 8 * |x| ≤ n * s) : |T / len * r - (x - o)| ≤ u * n * s := by
  have hu := h.u_pos; have hη := h.η_nonneg
  have hu1 : 9000 * u ≤ 1 := by linarith [h.u_le, h.un_le]
  have hus := mul_pos hu h.s_pos
  have h24 : 24 * (u * s) ≤ u * n * s := by
    have := mul_le_mul_of_nonneg_right hn hus.le
    linarith
  have hQ : |T / len * r| = T * |r / len| := by
    rw [show T / len * r = T * (r / len) by ring, abs_mul, abs_of_nonneg hT0]
  have hdd : |d * T - T / len * r| ≤ u * |T / len * r| + η * T := by
    rw [hQ, show d * T - T / len * r = (d - r / len) * T by ring, abs_mul, abs_of_nonneg hT0]
    have := mul_le_mul_of_nonneg_right hd hT0
    linarith
  refine entry_speed (G := n * s / 8) (ηT := η * T) (T := T) (ax := |x - o|) (Q := |T / len * r|) (dT := |d * T|) (X := |o + y|) hu.le hu1 hη
    (by linarith [h.η_le_s]) (mul_nonneg hη hT0) (by linarith) (by ring) (abs_nonneg _) (abs_nonneg _) (abs_nonneg _) ?_ ?_ ?_ ?_ ?_
  · have := abs_sub x o
    linarith
  · have := abs_sub_abs_le_abs_sub (o + y) x
    rw [abs_sub_comm] at this
    linarith
  · have := abs_sub_abs_le_abs_sub (d * T) (T / len * r)
    linarith
  · have e : T / len * r - (x - o) = -(d * T - T / len * r) + (-(y - d * T) + -(x - (o + y))) := by ring
    rw [e]
    refine (abs_add_le _ _).trans (add_le_add (by rw [abs_neg]; exact hdd) ((abs_add_le _ _).trans ?_))
    rw [abs_neg, abs_neg]
    exact add_le_add hy hx
  · have e : T / len * r = (x - o) + (T / len * r - (x - o)) := by ring
    conv_lhs => rw [e]
    exact abs_add_le _ _

/-- The computed distance from the sensor, outside the grid, at which the ray is taken to enter it: `tmin + nudge`
(cpu_pointcloud_voxelization.cpp:288-289, cuda_voxelization_helpers.cu:219-225, opencl_voxelization_helpers.cc:195-201). -/
def flEntry {F : Type} (A : Arith F) (g : RayGrid F) (o p : Fin 3 → F) (len range : F) : Option F :=
  (flSlabs A g o (fun a => A.div (A.sub (p a) (o a)) len) range).map fun tmin => A.add tmin A.tiny

theorem flStart_out {A : Arith Fl} {o p : Fin 3 → Fl} {len range T : Fl} {i : IVec} (hi : flIndex A g o = some i)
    (hout : ¬ CellInGrid (axisCells g.dims) i) (hT : flEntry A g o p len range = some T) :
    flStart A g o (fun a => A.sub (p a) (o a)) len range =
      some (some fun a => A.add (o a) (A.mul (A.div (A.sub (p a) (o a)) len) T)) := by
  unfold flEntry at hT
  obtain ⟨tmin, h1, rfl⟩ := Option.map_eq_some_iff.1 hT
  unfold flStart
  rw [hi, Option.map_some, if_neg (by rw [inGrid_iff]; exact hout), h1]
  rfl

/-- Not negative. -/
def FlNonneg : Fl → Prop
  | .fin q => 0 ≤ q
  | .pinf => True
  | _ => False

theorem slabAxis_nonneg (bits : ℕ) {o dir size : Fl} {st st' : Fl × Fl} (h : flSlabAxis (ieee R bits) o dir size st = some st')
    (h0 : FlNonneg st.1) : FlNonneg st'.1 := by
  have key : ∀ t, FlNonneg (if (ieee R bits).lt st.1 t then t else st.1) := by
    intro t
    split_ifs with hlt
    · have hlt' : Fl.lt st.1 t = true := hlt
      cases hs : st.1 <;> rw [hs] at h0 hlt' <;> cases t <;> simp_all [FlNonneg, Fl.lt]
      linarith
    · exact h0
  unfold flSlabAxis at h
  dsimp only at h
  by_cases h1 : (ieee R bits).lt ((ieee R bits).abs dir) (ieee R bits).tiny = true
  · rw [if_pos h1] at h
    split_ifs at h
    cases h
    exact h0
  · rw [if_neg h1] at h
    rw [Option.ite_none_left_eq_some] at h
    obtain ⟨-, h⟩ := h
    cases h
    exact key _

theorem slabs_nonneg (bits : ℕ) {o dir : Fin 3 → Fl} {range t : Fl} (h : flSlabs (ieee R bits) g o dir range = some t) : FlNonneg t := by
  unfold flSlabs at h
  obtain ⟨st0, h1, h⟩ := Option.bind_eq_some_iff.1 h
  obtain ⟨st1, h2, h⟩ := Option.bind_eq_some_iff.1 h
  obtain ⟨st2, h3, rfl⟩ := Option.map_eq_some_iff.1 h
  exact slabAxis_nonneg bits h3 (slabAxis_nonneg bits h2 (slabAxis_nonneg bits h1 (show (0 : ℚ) ≤ 0 from le_rfl)))

/-- The entry distance is not negative. -/
theorem entry_nonneg (h : RayScale u η M s n N E) (hR : Rounds R u η M) (hη : 10 ^ 11 * η ≤ 1) (bits : ℕ) {o p : Fin 3 → Fl} {len range : Fl}
    {T : ℚ} (hT : flEntry (ieee R bits) g o p len range = some (.fin T)) : 0 ≤ T := by
  unfold flEntry at hT
  obtain ⟨t, h1, h2⟩ := Option.map_eq_some_iff.1 hT
  have h3 := slabs_nonneg bits h1
  have hu1 : 9000 * u ≤ 1 := by linarith [h.u_le, h.un_le]
  have hu := h.u_pos
  have h2' : Fl.addR R t (R (1 / 10 ^ 10)) = .fin T := h2
  rcases t with _ | _ | q | _
  case fin =>
    obtain ⟨y, hy, hT'⟩ := addR_fin h2'
    have b1 := (abs_le.1 (hR.fin hy)).1
    have b2 := (abs_le.1 (hR.fin hT')).1
    have hq : (0 : ℚ) ≤ q := h3
    rw [abs_of_pos (by norm_num)] at b1
    have h4 : u * (1 / 10 ^ 10 : ℚ) ≤ 1 / 10 ^ 11 := by linarith
    have hy0 : (8 / 10 ^ 11 : ℚ) ≤ y := by linarith
    rw [abs_of_nonneg (by linarith)] at b2
    have h5 := mul_le_mul_of_nonneg_right hu1 (show 0 ≤ q + y by linarith)
    linarith
  all_goals
    exfalso
    cases hy : R (1 / 10 ^ 10) <;> rw [hy] at h2' <;> first | cases h2' | exact h3

/-- The marks of a ray that enters the grid. -/
theorem outside_marks (h : RayScale u η M s n N E) (hn : 24 ≤ n) (hR : Rounds R u η M) (bits : ℕ) (hg : GridWith u s N g)
    (hdims : ∀ a, 8 * ((axisCells g.dims a : ℚ) + 2) ≤ n) (ho : ∀ a, 8 * |o a| ≤ n * s)
    {r e : Fin 3 → ℚ} (hr1 : ∀ a, |r a - (p a - o a)| ≤ u * |p a - o a| + η) (hr3 : ∀ a, η * |r a| ≤ u * s) {len T lam : ℚ} (hlen : 0 < len)
    (hT0 : 0 ≤ T) (hTl : T < lam * len) (hl1 : lam ≤ 1) (hηlen : η * len ≤ u * s)
    (he : ∀ a, |lam * r a - (e a - o a)| ≤ 3 * (u * |e a - o a|) + 1 / 4 * (u * n * s)) {i f : IVec} {clip : Bool} {ms : List Mark}
    (hi : flIndex (ieee R bits) g (fun a => Fl.addR R (.fin (o a)) (Fl.mulR R (Fl.divR R (.fin (r a)) (.fin len)) (.fin T))) = some i)
    (hin : CellInGrid (axisCells g.dims) i)
    (hf : flIndex (ieee R bits) g (fun a => .fin (e a)) = some f)
    (hms : flCastFrom (ieee R bits) g (fun a => Fl.addR R (.fin (o a)) (Fl.mulR R (Fl.divR R (.fin (r a)) (.fin len)) (.fin T)))
      (fun a => .fin (e a)) (fun a => .fin (r a)) clip = some ms) :
    ∃ x : Fin 3 → ℚ, (∀ a, |x a - onSeg o p (T / len) a| ≤ 2 * (u * n * s)) ∧
      (∀ m ∈ ms, PassesWithin (32 * E) s x e m.cell) ∧
      ∀ c, CellInGrid (axisCells g.dims) c → PassesDeep (32 * E) s x e c →
        Mark.free c ∈ ms ∨ (Mark.filled c ∈ ms ∧ c = f ∧ clip = false) := by
  obtain ⟨v, hv, hv'⟩ := hg.inv
  have hu := h.u_pos; have hη := h.η_nonneg; have hs := h.s_pos
  have hu1 : 9000 * u ≤ 1 := by linarith [h.u_le, h.un_le]
  have hus := mul_pos hu hs
  have hw := h.w_pos
  have h24 : 24 * (u * s) ≤ u * n * s := by
    have := mul_le_mul_of_nonneg_right hn hus.le
    linarith
  have hθ : T / len < lam := by rwa [div_lt_iff₀ hlen]
  have hθ0 : 0 ≤ T / len := div_nonneg hT0 hlen.le
  have hTlen : T ≤ len := by nlinarith
  have hηT : η * T ≤ u * s := (mul_le_mul_of_nonneg_left hTlen hη).trans hηlen
  have hfin : ∀ a, ∃ x, Fl.addR R (.fin (o a)) (Fl.mulR R (Fl.divR R (.fin (r a)) (.fin len)) (.fin T)) = .fin x := by
    intro a
    have := flIndex_axis hi a
    rw [hv] at this
    exact finite_of_index bits this
  choose x hx using hfin
  have hx' : (fun a => Fl.addR R (.fin (o a)) (Fl.mulR R (Fl.divR R (.fin (r a)) (.fin len)) (.fin T))) = fun a => .fin (x a) := funext hx
  rw [hx'] at hi hms
  have hxn : ∀ a, 8 * |x a| ≤ n * s := by
    intro a
    obtain ⟨h1, h2⟩ := hin a
    have h3 : (i a : ℚ) + 1 ≤ axisCells g.dims a := by exact_mod_cast h2
    have h4 := hdims a
    have hi' := flIndex_axis hi a
    rw [hv] at hi'
    have h5 : (0 : ℚ) ≤ i a := by exact_mod_cast h1
    obtain ⟨n1, n2⟩ := index_nearCell h hR bits hv' hi' h1 (by linarith [h.N_le])
    have h6 := mul_le_mul_of_nonneg_right (show 8 * ((i a : ℚ) + 1) ≤ n - 16 by linarith) hs.le
    have h7 := mul_nonneg h5 hs.le
    have := h.w_le; have := h.s_ns
    have : |x a| ≤ n * s / 8 := by
      rw [abs_le]
      constructor <;> linarith
    linarith
  have hE : ∀ a, |T / len * r a - (x a - o a)| ≤ u * n * s := by
    intro a
    obtain ⟨T', d, y, hT', hd, hy, hxx⟩ := entry_point hR hlen (hx a)
    cases hT'
    exact entry_near h hn hlen hT0 hηT hd hy hxx (ho a) (hxn a)
  have hxo : ∀ a, |x a - o a| ≤ n * s / 4 := by
    intro a
    have := abs_sub (x a) (o a)
    linarith [hxn a, ho a]
  have S := setup_of (r := r) (lam := lam - T / len) h hR bits hv hv' hg.dims hi hf hin hr3 (by linarith) (by linarith) (by
    intro a
    unfold SpeedOf
    have e1 : (lam - T / len) * r a - (e a - x a) = (lam * r a - (e a - o a)) + -(T / len * r a - (x a - o a)) := by ring
    have e2 : |e a - o a| ≤ |e a - x a| + |x a - o a| := by
      have := abs_add_le (e a - x a) (x a - o a)
      rwa [sub_add_sub_cancel] at this
    rw [e1]
    refine (abs_add_le _ _).trans ?_
    rw [abs_neg]
    have h1 := mul_le_mul_of_nonneg_left (e2.trans (add_le_add_right (hxo a) _)) hu.le
    have h2 := mul_nonneg hu.le (abs_nonneg (e a - x a))
    have := he a
    have := hE a
    linarith)
  obtain ⟨g1, g2⟩ := cast_marks S hR bits rfl hg.cell hi hf hms
  have e1 : (fun a => x a + (e a - x a)) = e := by funext a; ring
  rw [e1] at g1 g2
  refine ⟨x, fun a => ?_, g1, g2⟩
  -- the entry point and the exact line
  have e3 : x a - onSeg o p (T / len) a = -(T / len * r a - (x a - o a)) + T / len * (r a - (p a - o a)) := by unfold onSeg; ring
  have h1 : |T / len * (r a - (p a - o a))| ≤ T / len * (u * |p a - o a| + η) := by
    rw [abs_mul, abs_of_nonneg hθ0]
    exact mul_le_mul_of_nonneg_left (hr1 a) hθ0
  have h2 : T / len * |p a - o a| ≤ n * s / 4 + u * n * s + T / len * (u * |p a - o a| + η) := by
    have e4 : T / len * (p a - o a) = (x a - o a) + (T / len * r a - (x a - o a)) + -(T / len * (r a - (p a - o a))) := by ring
    have e5 : T / len * |p a - o a| = |T / len * (p a - o a)| := by rw [abs_mul, abs_of_nonneg hθ0]
    rw [e5, e4]
    refine (abs_add_le _ _).trans (add_le_add ((abs_add_le _ _).trans (add_le_add (hxo a) (hE a))) ?_)
    rw [abs_neg]
    exact h1
  have h3 : T / len * η ≤ η := by nlinarith
  have hP : 0 ≤ T / len * |p a - o a| := mul_nonneg hθ0 (abs_nonneg _)
  have e6 : T / len * (u * |p a - o a| + η) = u * (T / len * |p a - o a|) + T / len * η := by ring
  rw [e6] at h1 h2
  rw [e3]
  refine (abs_add_le _ _).trans ?_
  rw [abs_neg]
  have h8 := hE a
  have h9 := h.η_le_s
  generalize T / len * |p a - o a| = P at *
  have h4 := mul_le_mul_of_nonneg_right hu1 (mul_nonneg hu.le hP)
  have h5 := mul_le_mul_of_nonneg_left h2 hu.le
  have h6 := mul_le_mul_of_nonneg_left h3 hu.le
  have h7 := mul_le_mul_of_nonneg_right hu1 hw.le
  have h10 := mul_le_mul_of_nonneg_right hu1 hη
  linarith

/-- C73: a ray from a sensor outside the grid to a point within range, entered at distance `T` from the sensor: the same for
the part of the segment behind the entry point, provided the entry cell is in the grid.  `n` is at least eight times
the number of cells along an axis plus two, and `n s` at least eight times the coordinates of the sensor. -/
theorem C73_sensor_outside_partial (h : RayScale u η M s n N E) (hn : 24 ≤ n) (hη11 : 10 ^ 11 * η ≤ 1) (hR : Rounds R u η M) (bits : ℕ)
    (hg : GridWith u s N g) (hdims : ∀ a, 8 * ((axisCells g.dims a : ℚ) + 2) ≤ n) (ho : ∀ a, 8 * |o a| ≤ n * s)
    (hpo : ∀ a, |p a - o a| ≤ L) (hLM : 8 * L ≤ M) (hL : 3 * (η * L) ≤ u * s) {len : ℚ} {range : Fl} (hlen : 0 < len)
    (hηlen : η * len ≤ u * s) (hclip : flClipped (ieee R bits) (.fin len) range = false) {i0 i : IVec}
    (hi0 : flIndex (ieee R bits) g (fun a => .fin (o a)) = some i0) (hout : ¬ CellInGrid (axisCells g.dims) i0) {T : ℚ}
    (hT : flEntry (ieee R bits) g (fun a => .fin (o a)) (fun a => .fin (p a)) (.fin len) range = some (.fin T)) (hTlen : T < len)
    {start : Fin 3 → Fl}
    (hstart : flStart (ieee R bits) g (fun a => .fin (o a)) (fun a => (ieee R bits).sub (.fin (p a)) (.fin (o a))) (.fin len) range =
      some (some start)) (hi : flIndex (ieee R bits) g start = some i) (hin : CellInGrid (axisCells g.dims) i) {ms : List Mark}
    (hms : flRaycast (ieee R bits) g (fun a => .fin (o a)) (fun a => .fin (p a)) (.fin len) range = some ms) :
    (∀ m ∈ ms, PassesWithin (33 * E) s (onSeg o p (T / len)) p m.cell) ∧
    ∀ c, CellInGrid (axisCells g.dims) c → PassesDeep (33 * E) s (onSeg o p (T / len)) p c →
      Mark.free c ∈ ms ∨ (Mark.filled c ∈ ms ∧ flIndex (ieee R bits) g (fun a => .fin (p a)) = some c) := by
  choose r hr0 hr1 hr2 hr3 using fun a => ray_near h hR hLM hL (hpo a)
  have hT0 := entry_nonneg h hR hη11 bits hT
  have hstart' := flStart_out (A := ieee R bits) hi0 hout hT
  rw [hstart] at hstart'
  cases hstart'
  have hst : (fun a => (ieee R bits).add (.fin (o a)) ((ieee R bits).mul ((ieee R bits).div ((ieee R bits).sub (.fin (p a)) (.fin (o a)))
      (.fin len)) (.fin T))) = fun a => Fl.addR R (.fin (o a)) (Fl.mulR R (Fl.divR R (.fin (r a)) (.fin len)) (.fin T)) := by
    funext a
    show Fl.addR R (.fin (o a)) (Fl.mulR R (Fl.divR R (Fl.subR R (.fin (p a)) (.fin (o a))) (.fin len)) (.fin T)) = _
    rw [hr0 a]
  have hray : (fun a => (ieee R bits).sub (.fin (p a)) (.fin (o a))) = fun a => .fin (r a) := funext hr0
  unfold flRaycast at hms
  dsimp only at hms
  rw [hstart] at hms
  dsimp only at hms
  unfold flFinalPoint at hms
  rw [if_neg (by simp [hclip]), hclip, hst, hray] at hms
  rw [hst] at hi
  obtain ⟨i', f, hi', hf, -⟩ := flCastFrom_some _ _ hms
  have hus := mul_pos h.u_pos h.s_pos
  have h24 : 24 * (u * s) ≤ u * n * s := by
    have := mul_le_mul_of_nonneg_right hn hus.le
    linarith
  obtain ⟨x, hx, g1, g2⟩ := outside_marks h hn hR bits hg hdims ho hr1 hr3 (lam := 1) (e := p) hlen hT0 (by linarith) le_rfl hηlen (by
    intro a
    rw [one_mul]
    refine (hr1 a).trans ?_
    have := h.η_le_s
    have := mul_nonneg h.u_pos.le (abs_nonneg (p a - o a))
    linarith) hi hin hf hms
  have hw := h.w_pos; have := h.w_nw
  have hx' : ∀ a, |x a - onSeg o p (T / len) a| ≤ E := fun a => (hx a).trans (by linarith)
  have hp : ∀ a, |p a - p a| ≤ E := fun a => by rw [sub_self, abs_zero]; linarith
  have e4 : 33 * E = 32 * E + E := by ring
  rw [e4]
  refine ⟨fun m hm => passesWithin_ends hx' hp (g1 m hm), fun c hc hd => ?_⟩
  rcases g2 c hc (passesDeep_ends hx' hp hd) with h3 | ⟨h3, h4, -⟩
  · exact .inl h3
  · exact .inr ⟨h3, h4 ▸ hf⟩

/-- C73: the same for a ray that is cut at the range. -/
theorem C73_clipped_partial (h : RayScale u η M s n N E) (hn : 24 ≤ n) (hη11 : 10 ^ 11 * η ≤ 1) (hR : Rounds R u η M) (h1 : KeepsOne R)
    (bits : ℕ) (hg : GridWith u s N g) (hdims : ∀ a, 8 * ((axisCells g.dims a : ℚ) + 2) ≤ n) (ho : ∀ a, 8 * |o a| ≤ n * s)
    (hpo : ∀ a, |p a - o a| ≤ L) (hLM : 8 * L ≤ M) (hL : 3 * (η * L) ≤ u * s) {len range : ℚ} (hr : 0 < range) (hlt : range < len)
    (hη : 2 * (η * len) ≤ range) (hηlen : η * len ≤ u * s) {X : ℚ} (hX : ∀ a, |p a - o a| * (range / len) ≤ X) {i0 i : IVec}
    (hi0 : flIndex (ieee R bits) g (fun a => .fin (o a)) = some i0) (hout : ¬ CellInGrid (axisCells g.dims) i0) {T : ℚ}
    (hT : flEntry (ieee R bits) g (fun a => .fin (o a)) (fun a => .fin (p a)) (.fin len) (.fin range) = some (.fin T))
    (hTr : T + u * range + η * len < range) {start : Fin 3 → Fl}
    (hstart : flStart (ieee R bits) g (fun a => .fin (o a)) (fun a => (ieee R bits).sub (.fin (p a)) (.fin (o a))) (.fin len) (.fin range) =
      some (some start)) (hi : flIndex (ieee R bits) g start = some i) (hin : CellInGrid (axisCells g.dims) i) {ms : List Mark}
    (hms : flRaycast (ieee R bits) g (fun a => .fin (o a)) (fun a => .fin (p a)) (.fin len) (.fin range) = some ms) :
    (∀ m ∈ ms, PassesWithin (33 * E + 5 * (u * X)) s (onSeg o p (T / len)) (onSeg o p (range / len)) m.cell) ∧
    (∀ c, CellInGrid (axisCells g.dims) c →
      PassesDeep (33 * E + 5 * (u * X)) s (onSeg o p (T / len)) (onSeg o p (range / len)) c → Mark.free c ∈ ms) ∧
    ∀ c, Mark.filled c ∉ ms := by
  choose r hr0 hr1 hr2 hr3 using fun a => ray_near h hR hLM hL (hpo a)
  obtain ⟨lam, hl, hl0, hl1, hl2⟩ := share_near h hR h1 hr hlt hη
  have hlen : 0 < len := hr.trans hlt
  have hq0 : 0 ≤ range / len := (div_pos hr hlen).le
  have hT0 := entry_nonneg h hR hη11 bits hT
  have hstart' := flStart_out (A := ieee R bits) hi0 hout hT
  rw [hstart] at hstart'
  cases hstart'
  have hst : (fun a => (ieee R bits).add (.fin (o a)) ((ieee R bits).mul ((ieee R bits).div ((ieee R bits).sub (.fin (p a)) (.fin (o a)))
      (.fin len)) (.fin T))) = fun a => Fl.addR R (.fin (o a)) (Fl.mulR R (Fl.divR R (.fin (r a)) (.fin len)) (.fin T)) := by
    funext a
    show Fl.addR R (.fin (o a)) (Fl.mulR R (Fl.divR R (Fl.subR R (.fin (p a)) (.fin (o a))) (.fin len)) (.fin T)) = _
    rw [hr0 a]
  have hray : (fun a => (ieee R bits).sub (.fin (p a)) (.fin (o a))) = fun a => .fin (r a) := funext hr0
  have hus := mul_pos h.u_pos h.s_pos
  have hu1 : 9000 * u ≤ 1 := by linarith [h.u_le, h.un_le]
  have h24 : 24 * (u * s) ≤ u * n * s := by
    have := mul_le_mul_of_nonneg_right hn hus.le
    linarith
  have hns : ∀ a, |o a| ≤ n * s := by
    intro a
    have := ho a; have := abs_nonneg (o a)
    linarith
  choose e he he1 he2 using fun a => clip_near h hR (hns a) (hpo a) hLM hL (hr1 a) (hr2 a) hq0 hl2 hl0.le hl1
  have hspeed : ∀ a, |lam * r a - (e a - o a)| ≤ 3 * (u * |e a - o a|) + 1 / 4 * (u * n * s) := by
    intro a
    obtain ⟨y, e', he', b1, b2, b3⟩ := clip_point h hR (hns a) hLM ((abs_nonneg _).trans (hpo a)) (hr2 a) hl0.le hl1
    rw [he a] at he'
    cases he'
    have hw8 : 3 * η ≤ 1 / 8 * (u * n * s) := by linarith [h.η_le_s]
    have hux : u * |o a| ≤ 1 / 8 * (u * n * s) := by
      have := mul_le_mul_of_nonneg_left (ho a) h.u_pos.le
      linarith
    have := clip_speed h.u_pos.le hu1 h.η_nonneg hw8 (abs_nonneg (e a - o a)) (abs_nonneg (lam * r a - (e a - o a))) (abs_nonneg (r a * lam)) hux
      (X := |o a + y|) (by
        have e3 : lam * r a - (e a - o a) = -(y - r a * lam) + -(e a - (o a + y)) := by ring
        rw [e3]
        refine (abs_add_le _ _).trans ?_
        rw [abs_neg, abs_neg]
        exact add_le_add b1 b2) (by
        have e3 : r a * lam = (e a - o a) + (lam * r a - (e a - o a)) := by ring
        conv_lhs => rw [e3]
        exact abs_add_le _ _) b3
    linarith
  have hclip : flClipped (ieee R bits) (.fin len) (.fin range) = true := by
    show Fl.lt (.fin range) (.fin len) = true
    simpa [Fl.lt] using hlt
  have hend : (fun a => (ieee R bits).add (.fin (o a)) ((ieee R bits).mul ((ieee R bits).sub (.fin (p a)) (.fin (o a)))
      ((ieee R bits).div (.fin range) (.fin len)))) = fun a => .fin (e a) := by
    funext a
    show Fl.addR R (.fin (o a)) (Fl.mulR R (Fl.subR R (.fin (p a)) (.fin (o a))) (Fl.divR R (.fin range) (.fin len))) = _
    rw [hl, hr0 a]
    exact he a
  unfold flRaycast at hms
  dsimp only at hms
  rw [hstart] at hms
  dsimp only at hms
  unfold flFinalPoint at hms
  rw [if_pos hclip, hclip, hend, hst, hray] at hms
  rw [hst] at hi
  obtain ⟨i', f, hi', hf, hmarks⟩ := flCastFrom_some _ _ hms
  have hTl : T < lam * len := by
    have h3 := (abs_le.1 hl2).1
    have h4 := mul_le_mul_of_nonneg_right h3 hlen.le
    have h5 : range / len * len = range := div_mul_cancel₀ _ hlen.ne'
    nlinarith
  obtain ⟨x, hx, g1, g2⟩ := outside_marks h hn hR bits hg hdims ho hr1 hr3 hlen hT0 hTl hl1 hηlen hspeed hi hin hf hms
  have hw := h.w_pos; have := h.w_nw
  have hXu : ∀ a, u * (|p a - o a| * (range / len)) ≤ u * X := fun a => mul_le_mul_of_nonneg_left (hX a) h.u_pos.le
  have hX0 : 0 ≤ u * X := le_trans (mul_nonneg h.u_pos.le (mul_nonneg (abs_nonneg (p 0 - o 0)) hq0)) (hXu 0)
  have hx' : ∀ a, |x a - onSeg o p (T / len) a| ≤ E + 5 * (u * X) := fun a => (hx a).trans (by linarith)
  have he' : ∀ a, |e a - onSeg o p (range / len) a| ≤ E + 5 * (u * X) := by
    intro a
    have h6 := he2 a
    have e5 : onSeg o p (range / len) a = o a + (p a - o a) * (range / len) := by unfold onSeg; ring
    rw [e5]
    have := hXu a
    linarith
  have e4 : 33 * E + 5 * (u * X) = 32 * E + (E + 5 * (u * X)) := by ring
  rw [e4]
  refine ⟨fun m hm => passesWithin_ends hx' he' (g1 m hm), fun c hc hd => ?_, fun c hc => ?_⟩
  · rcases g2 c hc (passesDeep_ends hx' he' hd) with h3 | ⟨-, -, h4⟩
    · exact h3
    · cases h4
  · have := ((hmarks.filled c).1 hc).1
    cases this

end

/-! ### `double` and `float` -/

theorem one_div_pow_le {m k : ℕ} (h : m ≤ k) : (1 : ℚ) / 2 ^ k ≤ 1 / 2 ^ m :=
  one_div_le_one_div_of_le (by positivity) (pow_le_pow_right₀ (by norm_num) h)

theorem double_max_ge : (2 : ℚ) ^ 200 ≤ (2 - 1 / 2 ^ 52) * 2 ^ 1023 := by
  have h1 : (2 : ℚ) ^ 200 ≤ 2 ^ 1023 := pow_le_pow_right₀ (by norm_num) (by norm_num)
  have h2 : (0 : ℚ) < 2 ^ 1023 := by positivity
  generalize (2 : ℚ) ^ 1023 = t at *
  have h3 : (1 : ℚ) ≤ 2 - 1 / 2 ^ 52 := by norm_num
  nlinarith

/-- Grids of up to two million cells along an axis are small enough for `double`. -/
theorem rayScale_double {s n : ℚ} (hs : 1 / 2 ^ 60 ≤ s) (hs' : s ≤ 2 ^ 60) (hn : 3 ≤ n) (hn' : n ≤ 2 ^ 21) :
    RayScale (1 / 2 ^ 53) (1 / 2 ^ 1075) ((2 - 1 / 2 ^ 52) * 2 ^ 1023) s n n (1 / 2 ^ 53 * n ^ 2 * s) := by
  have hη := one_div_pow_le (m := 200) (k := 1075) (by norm_num)
  have hη0 : (0 : ℚ) ≤ 1 / 2 ^ 1075 := by positivity
  have hM := double_max_ge
  generalize (1 : ℚ) / 2 ^ 1075 = η at *
  generalize ((2 : ℚ) - 1 / 2 ^ 52) * 2 ^ 1023 = M at *
  have hs0 : 0 < s := lt_of_lt_of_le (by norm_num) hs
  have hns : n * s ≤ 2 ^ 21 * 2 ^ 60 := mul_le_mul hn' hs' hs0.le (by norm_num)
  have hnn : n * n ≤ 2 ^ 21 * 2 ^ 21 := mul_le_mul hn' hn' (by linarith) (by norm_num)
  refine .plain hs0 (by norm_num) hη0 hn ?_ ?_ ?_ ?_ ?_ ?_ ?_
  · have : 60 * (1 / 2 ^ 53 * n * n) = 60 / 2 ^ 53 * (n * n) := by ring
    rw [this]
    calc (60 : ℚ) / 2 ^ 53 * (n * n) ≤ 60 / 2 ^ 53 * (2 ^ 21 * 2 ^ 21) := by gcongr
      _ ≤ 1 := by norm_num
  · calc 3000 * (1 / 2 ^ 53 * n) ≤ 3000 * (1 / 2 ^ 53 * 2 ^ 21) := by gcongr
      _ ≤ 1 := by norm_num
  · exact hη.trans (by norm_num)
  · refine hη.trans ?_
    calc (1 : ℚ) / 2 ^ 200 ≤ 1 / 2 ^ 53 * (1 / 2 ^ 60) := by norm_num
      _ ≤ _ := by gcongr
  · refine le_trans ?_ hM
    calc 4 * n ≤ 4 * 2 ^ 21 := by gcongr
      _ ≤ 2 ^ 200 := by norm_num
  · refine le_trans ?_ hM
    calc 4 * (n * s) ≤ 4 * (2 ^ 21 * 2 ^ 60) := by gcongr
      _ ≤ 2 ^ 200 := by norm_num
  · calc (1 : ℚ) ≤ 1 / 2 ^ 53 * 2 ^ 200 := by norm_num
      _ ≤ _ := by gcongr

/-- Grids of up to 526 cells along an axis are small enough for `float`. -/
theorem rayScale_float {s n : ℚ} (hs : 1 / 2 ^ 30 ≤ s) (hs' : s ≤ 2 ^ 30) (hn : 3 ≤ n) (hn' : n ≤ 528) :
    RayScale (1 / 2 ^ 24) (1 / 2 ^ 150) ((2 - 1 / 2 ^ 23) * 2 ^ 127) s n n (1 / 2 ^ 24 * n ^ 2 * s) := by
  have hs0 : 0 < s := lt_of_lt_of_le (by norm_num) hs
  have hns : n * s ≤ 528 * 2 ^ 30 := mul_le_mul hn' hs' hs0.le (by norm_num)
  have hnn : n * n ≤ 528 * 528 := mul_le_mul hn' hn' (by linarith) (by norm_num)
  refine .plain hs0 (by norm_num) (by norm_num) hn ?_ ?_ (by norm_num) ?_ ?_ ?_ (by norm_num)
  · have : 60 * (1 / 2 ^ 24 * n * n) = 60 / 2 ^ 24 * (n * n) := by ring
    rw [this]
    calc (60 : ℚ) / 2 ^ 24 * (n * n) ≤ 60 / 2 ^ 24 * (528 * 528) := by gcongr
      _ ≤ 1 := by norm_num
  · calc 3000 * (1 / 2 ^ 24 * n) ≤ 3000 * (1 / 2 ^ 24 * 528) := by gcongr
      _ ≤ 1 := by norm_num
  · calc (1 : ℚ) / 2 ^ 150 ≤ 1 / 2 ^ 24 * (1 / 2 ^ 30) := by norm_num
      _ ≤ _ := by gcongr
  · calc 4 * n ≤ 4 * 528 := by gcongr
      _ ≤ _ := by norm_num
  · calc 4 * (n * s) ≤ 4 * (528 * 2 ^ 30) := by gcongr
      _ ≤ _ := by norm_num

/-- `double`, positions within `n` cells. -/
theorem rayScale_double_wide {s n N : ℚ} (hs : 1 / 2 ^ 60 ≤ s) (hs' : s ≤ 2 ^ 60) (hN : 3 ≤ N) (hN' : N ≤ 2 ^ 21) (hNn : N ≤ n)
    (hn' : n ≤ 2 ^ 40) :
    RayScale (1 / 2 ^ 53) (1 / 2 ^ 1075) ((2 - 1 / 2 ^ 52) * 2 ^ 1023) s n N (1 / 2 ^ 53 * N ^ 2 * s / 2 + 3 * (1 / 2 ^ 53 * n * s)) := by
  have hη := one_div_pow_le (m := 200) (k := 1075) (by norm_num)
  have hη0 : (0 : ℚ) ≤ 1 / 2 ^ 1075 := by positivity
  have hM := double_max_ge
  generalize (1 : ℚ) / 2 ^ 1075 = η at *
  generalize ((2 : ℚ) - 1 / 2 ^ 52) * 2 ^ 1023 = M at *
  have hs0 : 0 < s := lt_of_lt_of_le (by norm_num) hs
  have hns : n * s ≤ 2 ^ 40 * 2 ^ 60 := mul_le_mul hn' hs' hs0.le (by norm_num)
  have hnn : N * N ≤ 2 ^ 21 * 2 ^ 21 := mul_le_mul hN' hN' (by linarith) (by norm_num)
  refine .wide hs0 (by norm_num) hη0 hN hNn ?_ ?_ ?_ ?_ ?_ ?_ ?_
  · have : 30 * (1 / 2 ^ 53 * N * N) + 180 * (1 / 2 ^ 53 * n) = 30 / 2 ^ 53 * (N * N) + 180 / 2 ^ 53 * n := by ring
    rw [this]
    calc (30 : ℚ) / 2 ^ 53 * (N * N) + 180 / 2 ^ 53 * n ≤ 30 / 2 ^ 53 * (2 ^ 21 * 2 ^ 21) + 180 / 2 ^ 53 * 2 ^ 40 := by gcongr
      _ ≤ 1 := by norm_num
  · calc 3000 * (1 / 2 ^ 53 * n) ≤ 3000 * (1 / 2 ^ 53 * 2 ^ 40) := by gcongr
      _ ≤ 1 := by norm_num
  · exact hη.trans (by norm_num)
  · refine hη.trans ?_
    calc (1 : ℚ) / 2 ^ 200 ≤ 1 / 2 ^ 53 * (1 / 2 ^ 60) := by norm_num
      _ ≤ _ := by gcongr
  · refine le_trans ?_ hM
    calc 4 * n ≤ 4 * 2 ^ 40 := by gcongr
      _ ≤ 2 ^ 200 := by norm_num
  · refine le_trans ?_ hM
    calc 4 * (n * s) ≤ 4 * (2 ^ 40 * 2 ^ 60) := by gcongr
      _ ≤ 2 ^ 200 := by norm_num
  · calc (1 : ℚ) ≤ 1 / 2 ^ 53 * 2 ^ 200 := by norm_num
      _ ≤ _ := by gcongr

/-- `float`, positions within `n` cells. -/
theorem rayScale_float_wide {s n N : ℚ} (hs : 1 / 2 ^ 30 ≤ s) (hs' : s ≤ 2 ^ 30) (hN : 3 ≤ N) (hN' : N ≤ 700) (hNn : N ≤ n)
    (hn' : n ≤ 5592) :
    RayScale (1 / 2 ^ 24) (1 / 2 ^ 150) ((2 - 1 / 2 ^ 23) * 2 ^ 127) s n N (1 / 2 ^ 24 * N ^ 2 * s / 2 + 3 * (1 / 2 ^ 24 * n * s)) := by
  have hs0 : 0 < s := lt_of_lt_of_le (by norm_num) hs
  have hns : n * s ≤ 5592 * 2 ^ 30 := mul_le_mul hn' hs' hs0.le (by norm_num)
  have hnn : N * N ≤ 700 * 700 := mul_le_mul hN' hN' (by linarith) (by norm_num)
  refine .wide hs0 (by norm_num) (by norm_num) hN hNn ?_ ?_ (by norm_num) ?_ ?_ ?_ (by norm_num)
  · have : 30 * (1 / 2 ^ 24 * N * N) + 180 * (1 / 2 ^ 24 * n) = 30 / 2 ^ 24 * (N * N) + 180 / 2 ^ 24 * n := by ring
    rw [this]
    calc (30 : ℚ) / 2 ^ 24 * (N * N) + 180 / 2 ^ 24 * n ≤ 30 / 2 ^ 24 * (700 * 700) + 180 / 2 ^ 24 * 5592 := by gcongr
      _ ≤ 1 := by norm_num
  · calc 3000 * (1 / 2 ^ 24 * n) ≤ 3000 * (1 / 2 ^ 24 * 5592) := by gcongr
      _ ≤ 1 := by norm_num
  · calc (1 : ℚ) / 2 ^ 150 ≤ 1 / 2 ^ 24 * (1 / 2 ^ 30) := by norm_num
      _ ≤ _ := by gcongr
  · calc 4 * n ≤ 4 * 5592 := by gcongr
      _ ≤ _ := by norm_num
  · calc 4 * (n * s) ≤ 4 * (5592 * 2 ^ 30) := by gcongr
      _ ≤ _ := by norm_num

/-- The grid of the CPU: the stored inverse is the rounded `1 / s` (CRU). -/
theorem gridWith_double {g : RayGrid Fl} {s n : ℚ} (hs : 1 / 2 ^ 60 ≤ s) (hs' : s ≤ 2 ^ 60) (hcell : g.cell = .fin s)
    (hinv : g.inv = double64.div double64.one g.cell) (hd : ∀ a, (axisCells g.dims a : ℚ) + 2 ≤ n) : GridWith (1 / 2 ^ 53) s n g := by
  have hs0 : 0 < s := lt_of_lt_of_le (by norm_num) hs
  refine ⟨hcell, ?_, hd⟩
  rw [hinv, hcell]
  have hdiv : double64.div double64.one (.fin s) = saturate ((2 - 1 / 2 ^ 52) * 2 ^ 1023) (roundDouble (1 / s)) := by
    show (if s = 0 then _ else _) = _
    rw [if_neg hs0.ne']
  have hinv0 : 0 < 1 / s := by positivity
  have hM := double_max_ge
  have hle : 1 / s ≤ 2 ^ 60 := by
    rw [div_le_iff₀ hs0]
    calc (1 : ℚ) = 2 ^ 60 * (1 / 2 ^ 60) := by norm_num
      _ ≤ _ := by gcongr
  rcases rounds_double (1 / s) with ⟨y, e1, e2⟩ | ⟨-, e⟩ | ⟨-, e⟩
  · refine ⟨y, hdiv.trans e1, ?_⟩
    have hη := one_div_pow_le (m := 200) (k := 1075) (by norm_num)
    have hη0 : (0 : ℚ) ≤ 1 / 2 ^ 1075 := by positivity
    generalize (1 : ℚ) / 2 ^ 1075 = η at *
    rw [abs_of_pos hinv0] at e2
    have h1 : |y * s - 1| = |y - 1 / s| * s := by
      rw [← abs_of_pos hs0, ← abs_mul, abs_of_pos hs0, sub_mul, one_div_mul_cancel hs0.ne']
    rw [h1]
    have h2 := mul_le_mul_of_nonneg_right e2 hs0.le
    have h3 : (1 / 2 ^ 53 * (1 / s) + η) * s = 1 / 2 ^ 53 + η * s := by field_simp
    have h4 : η * s ≤ 1 / 2 ^ 200 * 2 ^ 60 := mul_le_mul hη hs' hs0.le (by norm_num)
    have h5 : (1 : ℚ) / 2 ^ 200 * 2 ^ 60 ≤ 3 / 2 * (1 / 2 ^ 53) := by norm_num
    linarith
  · exfalso
    have : (2 : ℚ) ^ 60 ≤ 2 ^ 200 := by norm_num
    exact absurd (e.trans_le (hle.trans (this.trans hM))) (lt_irrefl _)
  · exfalso
    have : (0 : ℚ) ≤ 2 ^ 200 := by norm_num
    exact absurd (e.trans_le (neg_nonpos.2 (this.trans hM))) (not_lt.2 hinv0.le)

/-- C72: on the CPU (`double`, 64-bit indices).  For every grid of up to two million cells along an axis, with edges and
coordinates between 2^-60 and 2^60, a ray from a sensor in the grid to a point within range marks only cells within
`32 n² s / 2^53` of the segment (one part in 10^8 of the edge for grids of a thousand cells along an axis) and all cells
that the segment passes at this depth. -/
theorem C72_double {g : RayGrid Fl} {s n : ℚ} (hs : 1 / 2 ^ 60 ≤ s) (hs' : s ≤ 2 ^ 60) (hcell : g.cell = .fin s)
    (hinv : g.inv = double64.div double64.one g.cell) (hd : ∀ a, (axisCells g.dims a : ℚ) + 2 ≤ n) (hn : 3 ≤ n) (hn' : n ≤ 2 ^ 21)
    {o p : Fin 3 → ℚ} (hpo : ∀ a, |p a - o a| ≤ 2 ^ 60) {i : IVec} (hi : flIndex double64 g (fun a => .fin (o a)) = some i)
    (hin : CellInGrid (axisCells g.dims) i) {len range : Fl} (hclip : double64.lt range len = false) {ms : List Mark}
    (hms : flRaycast double64 g (fun a => .fin (o a)) (fun a => .fin (p a)) len range = some ms) :
    (∀ m ∈ ms, PassesWithin (32 * (n ^ 2 * s / 2 ^ 53)) s o p m.cell) ∧
    ∀ c, CellInGrid (axisCells g.dims) c → PassesDeep (32 * (n ^ 2 * s / 2 ^ 53)) s o p c →
      Mark.free c ∈ ms ∨ (Mark.filled c ∈ ms ∧ flIndex double64 g (fun a => .fin (p a)) = some c) := by
  have hη := one_div_pow_le (m := 200) (k := 1075) (by norm_num)
  have e : n ^ 2 * s / 2 ^ 53 = 1 / 2 ^ 53 * n ^ 2 * s := by ring
  rw [e]
  refine C72_sensor_in_grid (L := 2 ^ 60) (rayScale_double hs hs' hn hn') rounds_double 64 (gridWith_double hs hs' hcell hinv hd) hi hin hpo ?_ ?_ hclip hms
  · exact le_trans (by norm_num) double_max_ge
  · generalize (1 : ℚ) / 2 ^ 1075 = η at *
    calc 3 * (η * 2 ^ 60) ≤ 3 * (1 / 2 ^ 200 * 2 ^ 60) := by gcongr
      _ ≤ 1 / 2 ^ 53 * (1 / 2 ^ 60) := by norm_num
      _ ≤ _ := by gcongr

theorem double_reach {s L : ℚ} (hs : 1 / 2 ^ 60 ≤ s) (hL : L ≤ 2 ^ 60) : 3 * (1 / 2 ^ 1075 * L) ≤ 1 / 2 ^ 53 * s := by
  have hη := one_div_pow_le (m := 200) (k := 1075) (by norm_num)
  have hη0 : (0 : ℚ) ≤ 1 / 2 ^ 1075 := by positivity
  generalize (1 : ℚ) / 2 ^ 1075 = η at *
  calc 3 * (η * L) ≤ 3 * (η * 2 ^ 60) := by gcongr
    _ ≤ 3 * (1 / 2 ^ 200 * 2 ^ 60) := by gcongr
    _ ≤ 1 / 2 ^ 53 * (1 / 2 ^ 60) := by norm_num
    _ ≤ _ := by gcongr

/-- C72: on the CPU, rays cut at the range. -/
theorem C72_double_clipped {g : RayGrid Fl} {s n : ℚ} (hs : 1 / 2 ^ 60 ≤ s) (hs' : s ≤ 2 ^ 60) (hcell : g.cell = .fin s)
    (hinv : g.inv = double64.div double64.one g.cell) (hd : ∀ a, (axisCells g.dims a : ℚ) + 2 ≤ n) (hn : 3 ≤ n) (hn' : n ≤ 2 ^ 21)
    {o p : Fin 3 → ℚ} (hpo : ∀ a, |p a - o a| ≤ 2 ^ 60) {i : IVec} (hi : flIndex double64 g (fun a => .fin (o a)) = some i)
    (hin : CellInGrid (axisCells g.dims) i) {len range : ℚ} (hr : 1 / 2 ^ 60 ≤ range) (hlt : range < len) (hlen : len ≤ 2 ^ 60) {X : ℚ}
    (hX : ∀ a, |p a - o a| * (range / len) ≤ X) {ms : List Mark}
    (hms : flRaycast double64 g (fun a => .fin (o a)) (fun a => .fin (p a)) (.fin len) (.fin range) = some ms) :
    (∀ m ∈ ms, PassesWithin (33 * (n ^ 2 * s / 2 ^ 53) + 5 * (X / 2 ^ 53)) s o (onSeg o p (range / len)) m.cell) ∧
    (∀ c, CellInGrid (axisCells g.dims) c →
      PassesDeep (33 * (n ^ 2 * s / 2 ^ 53) + 5 * (X / 2 ^ 53)) s o (onSeg o p (range / len)) c → Mark.free c ∈ ms) ∧
    ∀ c, Mark.filled c ∉ ms := by
  have e1 : n ^ 2 * s / 2 ^ 53 = 1 / 2 ^ 53 * n ^ 2 * s := by ring
  have e2 : X / 2 ^ 53 = 1 / 2 ^ 53 * X := by ring
  have e3 : onSeg o p (range / len) = fun a => o a + (p a - o a) * (range / len) := by funext a; unfold onSeg; ring
  have hη := double_reach hr hlen
  rw [e1, e2, e3]
  refine C72_clipped_ray (L := 2 ^ 60) (rayScale_double hs hs' hn hn') rounds_double
    (keepsOne_saturate 53 (-1074) (by norm_num) (by norm_num) _) 64 (gridWith_double hs hs' hcell hinv hd) hi hin hpo
    (le_trans (by norm_num) double_max_ge) (double_reach hs le_rfl) (lt_of_lt_of_le (by norm_num) hr) hlt ?_ hX hms
  have h0 : (0 : ℚ) ≤ 1 / 2 ^ 1075 * len := mul_nonneg (by positivity) (by linarith [show (0 : ℚ) ≤ 1 / 2 ^ 60 by norm_num])
  have h1 : 1 / 2 ^ 53 * range ≤ range := by
    have : (0 : ℚ) ≤ range := le_trans (by norm_num) hr
    linarith
  linarith

/-- C73: on the CPU: `N` at least the number of cells along an axis plus two, `n` eight times that, and `n s` at least eight
times the coordinates of the sensor. -/
theorem C73_double_partial {g : RayGrid Fl} {s n N : ℚ} (hs : 1 / 2 ^ 60 ≤ s) (hs' : s ≤ 2 ^ 60) (hcell : g.cell = .fin s)
    (hinv : g.inv = double64.div double64.one g.cell) (hd : ∀ a, (axisCells g.dims a : ℚ) + 2 ≤ N) (hN : 3 ≤ N) (hN' : N ≤ 2 ^ 21)
    (hn : 8 * N ≤ n) (hn' : n ≤ 2 ^ 40)
    {o p : Fin 3 → ℚ} (ho : ∀ a, 8 * |o a| ≤ n * s) (hpo : ∀ a, |p a - o a| ≤ 2 ^ 60) {i0 i : IVec}
    (hi0 : flIndex double64 g (fun a => .fin (o a)) = some i0) (hout : ¬ CellInGrid (axisCells g.dims) i0) {len : ℚ} {range : Fl}
    (hlen0 : 0 < len) (hlen : len ≤ 2 ^ 60) (hclip : double64.lt range (.fin len) = false) {T : ℚ}
    (hT : flEntry double64 g (fun a => .fin (o a)) (fun a => .fin (p a)) (.fin len) range = some (.fin T)) (hTlen : T < len)
    {start : Fin 3 → Fl}
    (hstart : flStart double64 g (fun a => .fin (o a)) (fun a => double64.sub (.fin (p a)) (.fin (o a))) (.fin len) range =
      some (some start)) (hi : flIndex double64 g start = some i) (hin : CellInGrid (axisCells g.dims) i) {ms : List Mark}
    (hms : flRaycast double64 g (fun a => .fin (o a)) (fun a => .fin (p a)) (.fin len) range = some ms) :
    (∀ m ∈ ms, PassesWithin (33 * ((N ^ 2 / 2 + 3 * n) * s / 2 ^ 53)) s (onSeg o p (T / len)) p m.cell) ∧
    ∀ c, CellInGrid (axisCells g.dims) c → PassesDeep (33 * ((N ^ 2 / 2 + 3 * n) * s / 2 ^ 53)) s (onSeg o p (T / len)) p c →
      Mark.free c ∈ ms ∨ (Mark.filled c ∈ ms ∧ flIndex double64 g (fun a => .fin (p a)) = some c) := by
  have e1 : (N ^ 2 / 2 + 3 * n) * s / 2 ^ 53 = 1 / 2 ^ 53 * N ^ 2 * s / 2 + 3 * (1 / 2 ^ 53 * n * s) := by ring
  rw [e1]
  refine C73_sensor_outside_partial (L := 2 ^ 60) (rayScale_double_wide hs hs' hN hN' (by linarith) hn') (by linarith) ?_ rounds_double 64
    (gridWith_double hs hs' hcell hinv hd) (fun a => by linarith [hd a]) ho hpo
    (le_trans (by norm_num) double_max_ge) (double_reach hs le_rfl) hlen0 ?_ hclip hi0 hout hT hTlen hstart hi hin hms
  · have hη := one_div_pow_le (m := 200) (k := 1075) (by norm_num)
    generalize (1 : ℚ) / 2 ^ 1075 = η at *
    calc 10 ^ 11 * η ≤ 10 ^ 11 * (1 / 2 ^ 200) := by gcongr
      _ ≤ 1 := by norm_num
  · have := double_reach hs hlen
    have h0 : (0 : ℚ) ≤ 1 / 2 ^ 1075 * len := mul_nonneg (by positivity) hlen0.le
    linarith

/-- C72: on a device (`float`, 32-bit indices), for grids of up to 526 cells along an axis: within `32 n² s / 2^24`. -/
theorem C72_float {g : RayGrid Fl} {s n : ℚ} (hs : 1 / 2 ^ 30 ≤ s) (hs' : s ≤ 2 ^ 30) (hg : GridWith (1 / 2 ^ 24) s n g)
    (hn : 3 ≤ n) (hn' : n ≤ 528) {o p : Fin 3 → ℚ} (hpo : ∀ a, |p a - o a| ≤ 2 ^ 40) {i : IVec}
    (hi : flIndex float32 g (fun a => .fin (o a)) = some i)
    (hin : CellInGrid (axisCells g.dims) i) {len range : Fl} (hclip : float32.lt range len = false) {ms : List Mark}
    (hms : flRaycast float32 g (fun a => .fin (o a)) (fun a => .fin (p a)) len range = some ms) :
    (∀ m ∈ ms, PassesWithin (32 * (n ^ 2 * s / 2 ^ 24)) s o p m.cell) ∧
    ∀ c, CellInGrid (axisCells g.dims) c → PassesDeep (32 * (n ^ 2 * s / 2 ^ 24)) s o p c →
      Mark.free c ∈ ms ∨ (Mark.filled c ∈ ms ∧ flIndex float32 g (fun a => .fin (p a)) = some c) := by
  have e : n ^ 2 * s / 2 ^ 24 = 1 / 2 ^ 24 * n ^ 2 * s := by ring
  rw [e]
  refine C72_sensor_in_grid (L := 2 ^ 40) (rayScale_float hs hs' hn hn') rounds_float 32 hg hi hin hpo ?_ ?_ hclip hms
  · norm_num
  · calc (3 : ℚ) * (1 / 2 ^ 150 * 2 ^ 40) ≤ 1 / 2 ^ 24 * (1 / 2 ^ 30) := by norm_num
      _ ≤ _ := by gcongr

/-- The grid of a device: edge and inverse edge are both converted from `double`
(device_pointcloud_voxelization.cpp:95-97). -/
theorem gridWith_device {g : RayGrid Fl} {S s n : ℚ} (hS : 1 / 2 ^ 29 ≤ S) (hS' : S ≤ 2 ^ 29) (hcell : g.cell = .fin s)
    (hs : s = roundFloat S) (hinv : g.inv = .fin (roundFloat (roundDouble (1 / S)))) (hd : ∀ a, (axisCells g.dims a : ℚ) + 2 ≤ n) :
    GridWith (1 / 2 ^ 24) s n g := by
  refine ⟨hcell, ⟨_, hinv, ?_⟩, hd⟩
  have hS0 : 0 < S := lt_of_lt_of_le (by norm_num) hS
  have e24 : (2 : ℚ) ^ (-((24 : ℕ) : ℤ)) = 1 / 2 ^ 24 := by rw [zpow_neg, one_div]; norm_cast
  have e53 : (2 : ℚ) ^ (-((53 : ℕ) : ℤ)) = 1 / 2 ^ 53 := by rw [zpow_neg, one_div]; norm_cast
  have hlow : (1 : ℚ) / 2 ^ 29 ≤ 1 / S := one_div_le_one_div_of_le hS0 hS'
  have hQ0 : 0 < 1 / S := by positivity
  have b1 : |roundFloat S - S| ≤ 1 / 2 ^ 24 * S := by
    have := rne_error (p := 24) (emin := -149) (x := S) (by
      rw [abs_of_pos hS0]; refine le_trans ?_ hS; norm_num)
    rwa [e24, abs_of_pos hS0] at this
  have b2 : |roundDouble (1 / S) - 1 / S| ≤ 1 / 2 ^ 53 * (1 / S) := by
    have := rne_error (p := 53) (emin := -1074) (x := 1 / S) (by
      rw [abs_of_pos hQ0]
      refine le_trans ?_ hlow
      rw [show (1 : ℚ) / 2 ^ 29 = 2 ^ (-29 : ℤ) by norm_num]
      exact zpow_le_zpow_right₀ (by norm_num) (by norm_num))
    rwa [e53, abs_of_pos hQ0] at this
  have b2' := abs_le.1 b2
  have hq : (1 : ℚ) / 2 ^ 30 ≤ roundDouble (1 / S) := by
    have : (1 : ℚ) / 2 ^ 30 ≤ 1 / S - 1 / 2 ^ 53 * (1 / S) := by
      calc (1 : ℚ) / 2 ^ 30 ≤ (1 - 1 / 2 ^ 53) * (1 / 2 ^ 29) := by norm_num
        _ ≤ (1 - 1 / 2 ^ 53) * (1 / S) := by gcongr
        _ = _ := by ring
    linarith
  have hq0 : 0 < roundDouble (1 / S) := lt_of_lt_of_le (by norm_num) hq
  have b3 : |roundFloat (roundDouble (1 / S)) - roundDouble (1 / S)| ≤ 1 / 2 ^ 24 * roundDouble (1 / S) := by
    have := rne_error (p := 24) (emin := -149) (x := roundDouble (1 / S)) (by
      rw [abs_of_pos hq0]; refine le_trans ?_ hq; norm_num)
    rwa [e24, abs_of_pos hq0] at this
  rw [hs]
  generalize roundFloat (roundDouble (1 / S)) = v at *
  generalize roundDouble (1 / S) = q at *
  generalize roundFloat S = s' at *
  -- relative errors
  have c1 : |q * S - 1| ≤ 1 / 2 ^ 53 := by
    have : |q * S - 1| = |q - 1 / S| * S := by
      rw [← abs_of_pos hS0, ← abs_mul, abs_of_pos hS0, sub_mul, one_div_mul_cancel hS0.ne']
    rw [this]
    calc |q - 1 / S| * S ≤ 1 / 2 ^ 53 * (1 / S) * S := by gcongr
      _ = 1 / 2 ^ 53 := by rw [mul_assoc, one_div_mul_cancel hS0.ne', mul_one]
  have c1' := abs_le.1 c1
  have c2 : |v * S - q * S| ≤ 1 / 2 ^ 24 * (q * S) := by
    rw [← sub_mul, abs_mul, abs_of_pos hS0]
    calc |v - q| * S ≤ 1 / 2 ^ 24 * q * S := by gcongr
      _ = _ := by ring
  have c2' := abs_le.1 c2
  have c3 : |v * s' - v * S| ≤ 1 / 2 ^ 24 * |v * S| := by
    rw [← mul_sub, abs_mul, abs_mul, abs_of_pos hS0]
    calc |v| * |s' - S| ≤ |v| * (1 / 2 ^ 24 * S) := by gcongr
      _ = _ := by ring
  have hvS : |v * S| ≤ 1 + 1 / 2 ^ 20 := by
    rw [abs_le]
    constructor <;> linarith
  have c3' := abs_le.1 (c3.trans (mul_le_mul_of_nonneg_left hvS (by norm_num)))
  rw [abs_le]
  constructor <;> linarith

/-! ### Concrete rays -/

/-- A grid of 4 x 4 x 4 cells with edge 1. -/
def grid4 : RayGrid Fl := ⟨⟨4, 4, 4⟩, .fin 1, .fin 1, fun _ => .fin 4⟩

/-- A slanted ray in the grid, as the CPU casts it. -/
example : flRaycast double64 grid4 ![.fin (1 / 2), .fin (1 / 2), .fin (1 / 2)] ![.fin (5 / 2), .fin (3 / 2), .fin (1 / 2)] (.fin (9 / 4)) .pinf =
    some [.filled ![2, 1, 0], .free ![0, 0, 0], .free ![1, 0, 0], .free ![1, 1, 0]] := by decide +kernel

/-- It meets the hypotheses of `C72_double`. -/
example (ms : List Mark) (h : flRaycast double64 grid4 (fun a => .fin ((![1 / 2, 1 / 2, 1 / 2] : Fin 3 → ℚ) a))
    (fun a => .fin ((![5 / 2, 3 / 2, 1 / 2] : Fin 3 → ℚ) a)) (.fin (9 / 4)) .pinf = some ms) :
    ∀ m ∈ ms, PassesWithin (32 * (6 ^ 2 * 1 / 2 ^ 53) : ℚ) 1 ![1 / 2, 1 / 2, 1 / 2] ![5 / 2, 3 / 2, 1 / 2] m.cell :=
  (C72_double (i := ![0, 0, 0]) (n := 6) (by norm_num) (by norm_num) rfl (by decide +kernel) (by intro a; fin_cases a <;> norm_num [grid4, axisCells])
    (by norm_num) (by norm_num) (by intro a; fin_cases a <;> norm_num [abs_le]) (by decide +kernel)
    (by intro a; fin_cases a <;> simp [grid4, axisCells]) (by decide +kernel) h).1

/-- C73: the condition on the entry cell is needed, also in `double`: a ray that enters through an upper face at a small
angle is nudged by less than the spacing of numbers there; its start lies on the face, counts as outside the grid, and
no cell is marked free, although the ray passes the cells along the face at a depth far above the tolerance. -/
theorem C73_grazing_ray_lost :
    flRaycast double64 grid4 (fun a => .fin ((![4 + 1 / 2 ^ 20, 1 / 2, 1 / 2] : Fin 3 → ℚ) a))
      (fun a => .fin ((![4 - 1 / 2 ^ 20, 7 / 2, 1 / 2] : Fin 3 → ℚ) a)) (.fin 3) .pinf = some [.filled ![3, 3, 0]] ∧
    PassesDeep (1 / 2 ^ 22 : ℚ) 1 ![4 + 1 / 2 ^ 20, 1 / 2, 1 / 2] ![4 - 1 / 2 ^ 20, 7 / 2, 1 / 2] ![3, 2, 0] := by
  refine ⟨by decide +kernel, 3 / 4, by norm_num, by norm_num, fun a => ?_⟩
  fin_cases a <;> norm_num [onSeg]

/-- A ray cut at the range meets the hypotheses of `C72_double_clipped`. -/
example (ms : List Mark) (h : flRaycast double64 grid4 (fun a => .fin ((![1 / 2, 1 / 2, 1 / 2] : Fin 3 → ℚ) a))
    (fun a => .fin ((![5 / 2, 3 / 2, 1 / 2] : Fin 3 → ℚ) a)) (.fin (9 / 4)) (.fin 2) = some ms) : ∀ c, Mark.filled c ∉ ms :=
  (C72_double_clipped (i := ![0, 0, 0]) (n := 6) (X := 2) (by norm_num) (by norm_num) rfl (by decide +kernel)
    (by intro a; fin_cases a <;> norm_num [grid4, axisCells])
    (by norm_num) (by norm_num) (by intro a; fin_cases a <;> norm_num [abs_le]) (by decide +kernel)
    (by intro a; fin_cases a <;> simp [grid4, axisCells]) (by norm_num) (by norm_num) (by norm_num)
    (by intro a; fin_cases a <;> norm_num [abs_of_pos]) h).2.2

/-- A sensor outside the grid. -/
example : flRaycast double64 grid4 (fun a => .fin ((![-1, 1 / 2, 1 / 2] : Fin 3 → ℚ) a)) (fun a => .fin ((![5 / 2, 3 / 2, 1 / 2] : Fin 3 → ℚ) a))
    (.fin 4) .pinf = some [.filled ![2, 1, 0], .free ![0, 0, 0], .free ![0, 1, 0], .free ![1, 1, 0]] := by decide +kernel

/-- It meets the hypotheses of `C73_double_partial`. -/
example (ms : List Mark) (h : flRaycast double64 grid4 (fun a => .fin ((![-1, 1 / 2, 1 / 2] : Fin 3 → ℚ) a))
    (fun a => .fin ((![5 / 2, 3 / 2, 1 / 2] : Fin 3 → ℚ) a)) (.fin 4) .pinf = some ms) :
    ∀ m ∈ ms, PassesWithin (33 * ((6 ^ 2 / 2 + 3 * 48) * 1 / 2 ^ 53) : ℚ) 1
      (onSeg ![-1, 1 / 2, 1 / 2] ![5 / 2, 3 / 2, 1 / 2] (2573485501579749 / 2251799813685248 / 4)) ![5 / 2, 3 / 2, 1 / 2] m.cell :=
  (C73_double_partial (i0 := ![-1, 0, 0]) (i := ![0, 0, 0]) (N := 6) (n := 48)
    (start := ![.fin (394065 / 4503599627370496), .fin (7077085128950245 / 9007199254740992), .fin (1 / 2)]) (by norm_num) (by norm_num) rfl
    (by decide +kernel) (by intro a; fin_cases a <;> norm_num [grid4, axisCells]) (by norm_num) (by norm_num) (by norm_num) (by norm_num)
    (by intro a; fin_cases a <;> norm_num [abs_of_pos]) (by intro a; fin_cases a <;> norm_num [abs_le]) (by decide +kernel)
    (fun hc => absurd (hc 0).1 (by decide)) (by norm_num) (by norm_num) (by decide +kernel) (by decide +kernel) (by norm_num)
    (by
      have : flStart double64 grid4 (fun a => .fin ((![-1, 1 / 2, 1 / 2] : Fin 3 → ℚ) a))
        (fun a => double64.sub (.fin ((![5 / 2, 3 / 2, 1 / 2] : Fin 3 → ℚ) a)) (.fin ((![-1, 1 / 2, 1 / 2] : Fin 3 → ℚ) a))) (.fin 4) .pinf =
        some (some ![.fin (394065 / 4503599627370496), .fin (7077085128950245 / 9007199254740992), .fin (1 / 2)]) := by decide +kernel
      exact this)
    (by decide +kernel) (by intro a; fin_cases a <;> simp [grid4, axisCells]) h).1

end VGT
