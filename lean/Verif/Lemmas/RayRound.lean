import Verif.Model.RaycastFloat
import Verif.Spec.RayRound
import Mathlib.Tactic.Linarith
import Mathlib.Tactic.Ring
import Mathlib.Tactic.FieldSimp
import Mathlib.Tactic.Positivity
import Mathlib.Tactic.LinearCombination
import Mathlib.Tactic.FinCases

/-!
Raycasting with rounding: the computed crossing times belong, up to a small error in length, to the boundaries of the cells.
-/
set_option autoImplicit false

namespace VGT
open VGT.EDT VGT.Spec

/-- `R` rounds: the result is within a share `u` of the magnitude plus `η` of the exact number; only numbers above `M` in
magnitude may become infinite. -/
def Rounds (R : ℚ → Fl) (u η M : ℚ) : Prop :=
  ∀ x, (∃ y, R x = .fin y ∧ |y - x| ≤ u * |x| + η) ∨ (R x = .pinf ∧ M < x) ∨ (R x = .ninf ∧ x < -M)

/-- The grid is small enough for the precision: `N` is at least the number of cells along an axis plus two, all positions are
within `n` cells, `E` bounds the error of the walk through the grid. -/
structure RayScale (u η M s n N E : ℚ) : Prop where
  s_pos : 0 < s
  u_pos : 0 < u
  η_nonneg : 0 ≤ η
  N_ge : 3 ≤ N
  N_le : N ≤ n
  walk : (N - 2) * (u * N * s) + 5 * (u * n * s) ≤ 2 * E
  w_nw : 3 * (u * n * s) ≤ E
  nw_le : 60 * E ≤ s
  fine : 3000 * (u * n) ≤ 1
  η_le : η ≤ u
  η_le_s : η ≤ u * s
  M_n : 4 * n ≤ M
  M_s : 4 * (n * s) ≤ M
  M_u : 1 ≤ u * M

section
variable {R : ℚ → Fl} {u η M s n N E : ℚ}

/-- One number for both. -/
theorem RayScale.plain (hs : 0 < s) (hu : 0 < u) (hη : 0 ≤ η) (hn : 3 ≤ n) (hsmall : 60 * (u * n * n) ≤ 1) (hfine : 3000 * (u * n) ≤ 1)
    (hηu : η ≤ u) (hηs : η ≤ u * s) (hMn : 4 * n ≤ M) (hMs : 4 * (n * s) ≤ M) (hMu : 1 ≤ u * M) :
    RayScale u η M s n n (u * n ^ 2 * s) := by
  have hw : 0 ≤ u * n * s * (n - 3) := by
    have : 0 ≤ n - 3 := by linarith
    have : 0 ≤ n := by linarith
    positivity
  refine ⟨hs, hu, hη, hn, le_rfl, ?_, ?_, ?_, hfine, hηu, hηs, hMn, hMs, hMu⟩
  · linarith
  · linarith
  · have := mul_le_mul_of_nonneg_right hsmall hs.le
    linarith

/-- Fewer cells than the reach of the positions. -/
theorem RayScale.wide (hs : 0 < s) (hu : 0 < u) (hη : 0 ≤ η) (hN : 3 ≤ N) (hNn : N ≤ n) (hsmall : 30 * (u * N * N) + 180 * (u * n) ≤ 1)
    (hfine : 3000 * (u * n) ≤ 1) (hηu : η ≤ u) (hηs : η ≤ u * s) (hMn : 4 * n ≤ M) (hMs : 4 * (n * s) ≤ M) (hMu : 1 ≤ u * M) :
    RayScale u η M s n N (u * N ^ 2 * s / 2 + 3 * (u * n * s)) := by
  have hw : 0 ≤ u * n * s := by
    have : 0 ≤ n := by linarith
    positivity
  have hw' : 0 ≤ u * N * s := by
    have : 0 ≤ N := by linarith
    positivity
  refine ⟨hs, hu, hη, hN, hNn, ?_, ?_, ?_, hfine, hηu, hηs, hMn, hMs, hMu⟩
  · linarith
  · have := mul_nonneg hw' (show 0 ≤ N by linarith)
    linarith
  · have := mul_le_mul_of_nonneg_right hsmall hs.le
    linarith

namespace RayScale
variable (h : RayScale u η M s n N E)
include h

theorem n_ge : 3 ≤ n := h.N_ge.trans h.N_le
theorem us_le : 3 * (u * s) ≤ u * n * s := by
  have := mul_nonneg (mul_nonneg h.u_pos.le h.s_pos.le) (sub_nonneg.2 h.n_ge)
  nlinarith
theorem un_le : 3000 * (u * n) ≤ 1 := h.fine
theorem u_le : 3 * u ≤ u * n := by nlinarith [h.u_pos, h.n_ge]
theorem w_le : 3000 * (u * n * s) ≤ s := by
  have := mul_le_mul_of_nonneg_right h.un_le h.s_pos.le
  linarith
theorem w_pos : 0 < u * n * s := by
  have := h.u_pos; have := h.s_pos; have : 0 < n := by linarith [h.n_ge]
  positivity
theorem v_pos : 0 < u * N * s := by
  have := h.u_pos; have := h.s_pos; have : 0 < N := by linarith [h.N_ge]
  positivity
theorem us_le' : 3 * (u * s) ≤ u * N * s := by
  have := mul_nonneg (mul_nonneg h.u_pos.le h.s_pos.le) (sub_nonneg.2 h.N_ge)
  nlinarith
theorem v_le : u * N * s ≤ u * n * s :=
  mul_le_mul_of_nonneg_right (mul_le_mul_of_nonneg_left h.N_le h.u_pos.le) h.s_pos.le
theorem s_ns : 3 * s ≤ n * s := mul_le_mul_of_nonneg_right h.n_ge h.s_pos.le
theorem s_Ns : 3 * s ≤ N * s := mul_le_mul_of_nonneg_right h.N_ge h.s_pos.le
theorem Ns_le : N * s ≤ n * s := mul_le_mul_of_nonneg_right h.N_le h.s_pos.le
theorem M_pos : 0 < M := by linarith [h.M_n, h.n_ge]
end RayScale

theorem Rounds.near (hR : Rounds R u η M) (hu : 0 ≤ u) {x B : ℚ} (hx : |x| ≤ B) (hB : B ≤ M) :
    ∃ y, R x = .fin y ∧ |y - x| ≤ u * B + η := by
  have hx' := abs_le.1 hx
  rcases hR x with ⟨y, h1, h2⟩ | ⟨-, h2⟩ | ⟨-, h2⟩
  · exact ⟨y, h1, h2.trans (by linarith [mul_le_mul_of_nonneg_left hx hu])⟩
  · linarith
  · linarith

/-- The computed centre of a cell along an axis. -/
theorem centre_near (h : RayScale u η M s n N E) (hR : Rounds R u η M) (bits : ℕ) {i : ℤ} (hi : 0 ≤ i) (hin : (i : ℚ) + 2 ≤ n) :
    ∃ c, (ieee R bits).mul ((ieee R bits).add ((ieee R bits).ofInt i) (ieee R bits).half) (.fin s) = .fin c ∧
      |c - ((i : ℚ) + 1 / 2) * s| ≤ 3 * (u * n * s) := by
  have hi' : (0 : ℚ) ≤ i := by exact_mod_cast hi
  have hu := h.u_pos
  have hs := h.s_pos
  have := h.un_le; have := h.u_le; have := h.η_le; have := h.M_n; have := h.M_s; have := h.n_ge; have := h.η_le_s
  obtain ⟨y1, e1, b1⟩ := hR.near hu.le (x := (i : ℚ)) (B := n - 2) (by rw [abs_of_nonneg hi']; linarith) (by linarith)
  have b1' := abs_le.1 b1
  have un : u * (n - 2) = u * n - 2 * u := by ring
  obtain ⟨y2, e2, b2⟩ := hR.near hu.le (x := y1 + 1 / 2) (B := n - 1) (by rw [abs_le]; constructor <;> linarith) (by linarith)
  have b2' := abs_le.1 b2
  have un2 : u * (n - 1) = u * n - u := by ring
  have hy2 : |y2 - (i + 1 / 2)| ≤ 2 * (u * n) := by rw [abs_le]; constructor <;> linarith
  have hy2' := abs_le.1 hy2
  have hy2s : |y2 * s| ≤ (n - 1) * s := by
    rw [abs_mul, abs_of_pos hs]
    exact mul_le_mul_of_nonneg_right (by rw [abs_le]; constructor <;> linarith) hs.le
  obtain ⟨y3, e3, b3⟩ := hR.near hu.le hy2s (by nlinarith)
  refine ⟨y3, ?_, ?_⟩
  · show Fl.mulR R (Fl.addR R (R i) (.fin (1 / 2))) (.fin s) = _
    rw [e1]
    show Fl.mulR R (R (y1 + 1 / 2)) (.fin s) = _
    rw [e2]
    exact e3
  · have e : y3 - ((i : ℚ) + 1 / 2) * s = (y3 - y2 * s) + (y2 - (i + 1 / 2)) * s := by ring
    rw [e]
    refine (abs_add_le _ _).trans ?_
    rw [abs_mul, abs_of_pos hs]
    have := mul_le_mul_of_nonneg_right hy2 hs.le
    have e' : u * ((n - 1) * s) = u * n * s - u * s := by ring
    linarith

/-- The computed upper boundary of a cell along an axis. -/
theorem hi_near (h : RayScale u η M s n N E) (hR : Rounds R u η M) (bits : ℕ) {i : ℤ} (hi : 0 ≤ i) (hin : (i : ℚ) + 2 ≤ n) :
    ∃ c, (ieee R bits).add
        ((ieee R bits).mul ((ieee R bits).add ((ieee R bits).ofInt i) (ieee R bits).half) (.fin s))
        ((ieee R bits).mul (.fin s) (ieee R bits).half) = .fin c ∧
      |c - ((i : ℚ) + 1) * s| ≤ 6 * (u * n * s) := by
  obtain ⟨c, e1, b1⟩ := centre_near h hR bits hi hin
  have hi' : (0 : ℚ) ≤ i := by exact_mod_cast hi
  have hu := h.u_pos
  have hs := h.s_pos
  have := h.M_s; have := h.η_le_s; have := h.us_le; have := h.w_le; have := h.s_ns; have hw := h.w_pos
  obtain ⟨y2, e2, b2⟩ := hR.near hu.le (x := s * (1 / 2)) (B := s) (by rw [abs_of_pos (by positivity)]; linarith) (by linarith)
  have b1' := abs_le.1 b1
  have b2' := abs_le.1 b2
  have his : (i : ℚ) * s ≤ (n - 2) * s := mul_le_mul_of_nonneg_right (by linarith) hs.le
  have his0 : 0 ≤ (i : ℚ) * s := by positivity
  obtain ⟨y3, e3, b3⟩ := hR.near hu.le (x := c + y2) (B := n * s) (by rw [abs_le]; constructor <;> linarith) (by linarith)
  have b3' := abs_le.1 b3
  refine ⟨y3, ?_, ?_⟩
  · rw [e1]
    show Fl.addR R (.fin c) (R (s * (1 / 2))) = _
    rw [e2]
    exact e3
  · rw [abs_le]
    have e' : u * (n * s) = u * n * s := by ring
    constructor <;> linarith

/-- The computed lower boundary of a cell along an axis. -/
theorem lo_near (h : RayScale u η M s n N E) (hR : Rounds R u η M) (bits : ℕ) {i : ℤ} (hi : 0 ≤ i) (hin : (i : ℚ) + 2 ≤ n) :
    ∃ c, (ieee R bits).sub
        ((ieee R bits).mul ((ieee R bits).add ((ieee R bits).ofInt i) (ieee R bits).half) (.fin s))
        ((ieee R bits).mul (.fin s) (ieee R bits).half) = .fin c ∧
      |c - (i : ℚ) * s| ≤ 6 * (u * n * s) := by
  obtain ⟨c, e1, b1⟩ := centre_near h hR bits hi hin
  have hi' : (0 : ℚ) ≤ i := by exact_mod_cast hi
  have hu := h.u_pos
  have hs := h.s_pos
  have := h.M_s; have := h.η_le_s; have := h.us_le; have := h.w_le; have := h.s_ns; have hw := h.w_pos
  obtain ⟨y2, e2, b2⟩ := hR.near hu.le (x := s * (1 / 2)) (B := s) (by rw [abs_of_pos (by positivity)]; linarith) (by linarith)
  have b1' := abs_le.1 b1
  have b2' := abs_le.1 b2
  have his : (i : ℚ) * s ≤ (n - 2) * s := mul_le_mul_of_nonneg_right (by linarith) hs.le
  have his0 : 0 ≤ (i : ℚ) * s := by positivity
  obtain ⟨y3, e3, b3⟩ := hR.near hu.le (x := c - y2) (B := n * s) (by rw [abs_le]; constructor <;> linarith) (by linarith)
  have b3' := abs_le.1 b3
  refine ⟨y3, ?_, ?_⟩
  · rw [e1]
    show Fl.subR R (.fin c) (R (s * (1 / 2))) = _
    rw [e2]
    exact e3
  · rw [abs_le]
    have e' : u * (n * s) = u * n * s := by ring
    constructor <;> linarith

/-- A position near cell `i` along an axis. -/
def NearCell (u s n : ℚ) (i : ℤ) (x : ℚ) : Prop :=
  (i : ℚ) * s - 4 * (u * n * s) ≤ x ∧ x ≤ ((i : ℚ) + 1) * s + 4 * (u * n * s)

/-- Distance along an axis from `x` in cell `i` to the `k`-th boundary ahead, in the direction of `r`. -/
def ahead (s : ℚ) (i : ℤ) (x r : ℚ) (k : ℕ) : ℚ := (if 0 < r then ((i : ℚ) + 1) * s - x else x - (i : ℚ) * s) + k * s

/-- The computed time `t` belongs to the boundary at distance `D`, up to `e` in length; infinite only if the speed is tiny. -/
def TimeAt (M s n r D e : ℚ) (t : Fl) : Prop :=
  (∃ q, t = .fin q ∧ 0 ≤ q ∧ |q * (|r|) - D| ≤ e) ∨ (t = .pinf ∧ M * |r| ≤ 2 * (n * s))

/-- Error of the `k`-th time. -/
def timeErr (u s n N : ℚ) (k : ℕ) : ℚ := 20 * (u * n * s) + 4 * k * (u * N * s)

theorem ahead_bounds (h : RayScale u η M s n N E) {i : ℤ} {x r : ℚ} (hx : NearCell u s n i x) (k : ℕ) :
    k * s - 4 * (u * n * s) ≤ ahead s i x r k ∧ ahead s i x r k ≤ (k + 1) * s + 4 * (u * n * s) := by
  unfold ahead
  obtain ⟨h1, h2⟩ := hx
  split_ifs <;> constructor <;> linarith

/-- Division by the speed. -/
theorem quotient_time (h : RayScale u η M s n N E) (hR : Rounds R u η M) {y r D B e : ℚ} (hr : r ≠ 0) (hη : η * |r| ≤ u * s)
    (hy : |(|y|) - D| ≤ e) (hB : |y| ≤ B) (hBn : B ≤ n * s) : TimeAt M s n r D (e + u * B + u * s) (Fl.absF (R (y / r))) := by
  have hr0 : 0 < |r| := abs_pos.2 hr
  have hdiv : |y / r| * |r| = |y| := by rw [abs_div, div_mul_cancel₀ _ hr0.ne']
  have hM : ∀ z : ℚ, M < z → z ≤ |y / r| → M * |r| ≤ 2 * (n * s) := by
    intro z hz hz'
    have h1 : M * |r| ≤ |y / r| * |r| := mul_le_mul_of_nonneg_right (by linarith) hr0.le
    rw [hdiv] at h1
    have := mul_pos (lt_of_lt_of_le (by norm_num : (0 : ℚ) < 3) h.n_ge) h.s_pos
    linarith
  rcases hR (y / r) with ⟨q, e1, b1⟩ | ⟨e1, b1⟩ | ⟨e1, b1⟩
  · left
    rw [e1]
    refine ⟨|q|, rfl, abs_nonneg _, ?_⟩
    have h2 : |(|q|) * (|r|) - (|y|)| ≤ u * |y| + η * |r| := by
      have e2 : |q| * |r| - |y| = (|q| - |y / r|) * |r| := by rw [← hdiv]; ring
      rw [e2, abs_mul, abs_abs]
      have h3 := mul_le_mul_of_nonneg_right ((abs_abs_sub_abs_le q (y / r)).trans b1) hr0.le
      have e3 : (u * |y / r| + η) * |r| = u * |y| + η * |r| := by rw [← hdiv]; ring
      linarith
    have e4 : |q| * |r| - D = (|q| * |r| - |y|) + (|y| - D) := by ring
    rw [e4]
    refine (abs_add_le _ _).trans ?_
    have := mul_le_mul_of_nonneg_left hB h.u_pos.le
    linarith
  · right
    rw [e1]
    exact ⟨rfl, hM _ b1 (le_abs_self _)⟩
  · right
    rw [e1]
    exact ⟨rfl, hM (-(y / r)) (by linarith) (neg_le_abs _)⟩

/-- The first crossing time of an axis. -/
theorem first_time (h : RayScale u η M s n N E) (hR : Rounds R u η M) (bits : ℕ) {i : ℤ} (hi : 0 ≤ i) (hin : (i : ℚ) + 2 ≤ n)
    {x r : ℚ} (hx : NearCell u s n i x) (hη : η * |r| ≤ u * s) :
    TimeAt M s n r (ahead s i x r 0) (timeErr u s n N 0)
      (flAxisT (ieee R bits) (.fin x) (.fin r)
        ((ieee R bits).sub
          ((ieee R bits).mul ((ieee R bits).add ((ieee R bits).ofInt i) (ieee R bits).half) (.fin s))
          ((ieee R bits).mul (.fin s) (ieee R bits).half))
        ((ieee R bits).add
          ((ieee R bits).mul ((ieee R bits).add ((ieee R bits).ofInt i) (ieee R bits).half) (.fin s))
          ((ieee R bits).mul (.fin s) (ieee R bits).half))) := by
  obtain ⟨lo, e1, b1⟩ := lo_near h hR bits hi hin
  obtain ⟨hi', e2, b2⟩ := hi_near h hR bits hi hin
  rw [e1, e2]
  have hu := h.u_pos
  have hs := h.s_pos
  have := h.M_s; have := h.η_le_s; have := h.us_le; have := h.w_le; have := h.s_ns; have hw := h.w_pos
  obtain ⟨x1, x2⟩ := hx
  have b1' := abs_le.1 b1
  have b2' := abs_le.1 b2
  have key : ∀ d D : ℚ, |d - D| ≤ 6 * (u * n * s) → -(4 * (u * n * s)) ≤ D → D ≤ s + 4 * (u * n * s) → r ≠ 0 →
      ∃ y, R d = .fin y ∧ TimeAt M s n r D (timeErr u s n N 0) (Fl.absF (R (y / r))) := by
    intro d D hd hD1 hD2 hr
    have hd' := abs_le.1 hd
    obtain ⟨y, e3, b3⟩ := hR.near hu.le (x := d) (B := 2 * s) (by rw [abs_le]; constructor <;> linarith) (by linarith)
    have b3' := abs_le.1 b3
    refine ⟨y, e3, ?_⟩
    have hyD : |(|y|) - D| ≤ 15 * (u * n * s) := by
      rw [abs_le]
      rcases abs_cases y with ⟨ey, _⟩ | ⟨ey, _⟩ <;> rw [ey] <;> constructor <;> linarith
    have := quotient_time h hR (B := 2 * s) hr hη hyD (by rw [abs_le]; constructor <;> linarith) (by linarith)
    unfold TimeAt at this ⊢
    refine this.imp ?_ id
    rintro ⟨q, hq, hq0, hq1⟩
    refine ⟨q, hq, hq0, hq1.trans ?_⟩
    unfold timeErr
    push_cast
    linarith
  unfold flAxisT ahead
  show TimeAt M s n r _ _ (if decide (0 < r) = true then Fl.absF (Fl.divR R (R (hi' - x)) (.fin r)) else
    if decide (r < 0) = true then Fl.absF (Fl.divR R (R (x - lo)) (.fin r)) else Fl.pinf)
  simp only [decide_eq_true_eq, Nat.cast_zero, zero_mul, add_zero]
  rcases lt_trichotomy 0 r with hr | hr | hr
  · rw [if_pos hr, if_pos hr]
    obtain ⟨y, e3, b3⟩ := key (hi' - x) (((i : ℚ) + 1) * s - x) (by rw [abs_le]; constructor <;> linarith) (by linarith) (by linarith)
      hr.ne'
    rw [e3]
    simp only [Fl.divR, hr.ne', if_false]
    exact b3
  · subst hr
    simp only [lt_irrefl, if_false]
    right
    refine ⟨rfl, ?_⟩
    rw [abs_zero, mul_zero]
    linarith
  · rw [if_neg (not_lt.2 hr.le), if_pos hr, if_neg (not_lt.2 hr.le)]
    obtain ⟨y, e3, b3⟩ := key (x - lo) (x - (i : ℚ) * s) (by rw [abs_le]; constructor <;> linarith) (by linarith) (by linarith)
      hr.ne
    rw [e3]
    simp only [Fl.divR, hr.ne, if_false]
    exact b3

theorem timeErr_le (h : RayScale u η M s n N E) {k : ℕ} (hk : (k : ℚ) + 2 ≤ N) : timeErr u s n N k ≤ 8 * E := by
  unfold timeErr
  have h1 := mul_le_mul_of_nonneg_right hk h.v_pos.le
  linarith [h.walk]

/-- The next crossing time of an axis. -/
theorem next_time (h : RayScale u η M s n N E) (hR : Rounds R u η M) {i : ℤ} {x r : ℚ} (hx : NearCell u s n i x)
    (hη : η * |r| ≤ u * s) {k : ℕ} (hk : (k : ℚ) + 2 ≤ N) {t : Fl}
    (ht : TimeAt M s n r (ahead s i x r k) (timeErr u s n N k) t) :
    TimeAt M s n r (ahead s i x r (k + 1)) (timeErr u s n N (k + 1))
      (Fl.addR R t (Fl.absF (Fl.divR R (.fin s) (.fin r)))) := by
  have hu := h.u_pos
  have hs := h.s_pos
  have := h.M_s; have := h.η_le_s; have hus := h.us_le; have := h.w_le; have := h.s_ns; have hw := h.w_pos
  have hv := h.v_pos; have := h.v_le; have hus' := h.us_le'; have := h.s_Ns; have := h.Ns_le
  have hnw := h.nw_le
  have hb := ahead_bounds h (r := r) hx k
  have he := timeErr_le h hk
  have hks : ((k : ℚ) + 2) * s ≤ N * s := mul_le_mul_of_nonneg_right hk hs.le
  have hahead : ahead s i x r (k + 1) = ahead s i x r k + s := by unfold ahead; push_cast; ring
  have herr : timeErr u s n N (k + 1) = timeErr u s n N k + 4 * (u * N * s) := by unfold timeErr; push_cast; ring
  by_cases hr : r = 0
  · subst hr
    right
    refine ⟨?_, by rw [abs_zero, mul_zero]; linarith⟩
    have hdiv : Fl.absF (Fl.divR R (.fin s) (.fin 0)) = .pinf := by
      simp [Fl.divR, Fl.div, hs, Fl.absF]
    rw [hdiv]
    rcases ht with ⟨q, rfl, -, -⟩ | ⟨rfl, -⟩ <;> rfl
  · have hr0 : 0 < |r| := abs_pos.2 hr
    have hd : TimeAt M s n r s (2 * (u * s)) (Fl.absF (R (s / r))) := by
      have := quotient_time h hR (y := s) (D := s) (B := s) (e := 0) hr hη (by rw [abs_of_pos hs]; simp)
        (by rw [abs_of_pos hs]) (by linarith)
      have e : 0 + u * s + u * s = 2 * (u * s) := by ring
      rwa [e] at this
    have hdiv : Fl.divR R (.fin s) (.fin r) = R (s / r) := by simp [Fl.divR, hr]
    rw [hdiv]
    rcases ht with ⟨q, rfl, hq0, hq⟩ | ⟨rfl, hinf⟩
    · rcases hd with ⟨p, hp, hp0, hp1⟩ | ⟨hp, hp1⟩
      · rw [hp]
        show TimeAt M s n r _ _ (R (q + p))
        have hq' := abs_le.1 hq
        have hp' := abs_le.1 hp1
        have hsum : (q + p) * |r| ≤ 2 * (N * s) := by
          rw [add_mul]; linarith
        rcases hR (q + p) with ⟨y, e1, b1⟩ | ⟨e1, b1⟩ | ⟨e1, b1⟩
        · -- the sum is finite
          have hy : |y * (|r|) - (q + p) * (|r|)| ≤ 2 * (u * N * s) + u * s := by
            rw [← sub_mul, abs_mul, abs_abs]
            have h1 := mul_le_mul_of_nonneg_right b1 hr0.le
            rw [abs_of_nonneg (by linarith : 0 ≤ q + p)] at h1
            have h2 := mul_le_mul_of_nonneg_left hsum hu.le
            linarith
          have hy' := abs_le.1 hy
          by_cases hy0 : 0 ≤ y
          · left
            refine ⟨y, e1, hy0, ?_⟩
            rw [hahead, herr, abs_le]
            rw [add_mul] at hy'
            constructor <;> linarith
          · exfalso
            -- a sum of at least half a cell does not become negative
            have h1 : y * |r| < 0 := by nlinarith
            have h2 : (q + p) * |r| = q * |r| + p * |r| := add_mul _ _ _
            have h3 : 0 ≤ q * |r| := by positivity
            linarith
        · right
          refine ⟨e1, ?_⟩
          have := mul_le_mul_of_nonneg_right b1.le hr0.le
          linarith
        · exfalso
          have := h.M_pos
          linarith
      · rw [hp]
        exact .inr ⟨rfl, hp1⟩
    · right
      refine ⟨?_, hinf⟩
      rcases hd with ⟨p, hp, -, -⟩ | ⟨hp, -⟩ <;> rw [hp] <;> rfl

/-! ### Comparing times -/

/-- The speed `r`, scaled by `lam`, is the displacement `ρ` up to rounding. -/
def SpeedOf (u s n lam r ρ : ℚ) : Prop := |lam * r - ρ| ≤ 4 * (u * |ρ|) + 4 * (u * n * s)

theorem SpeedOf.abs {lam r ρ : ℚ} (hl : 0 < lam) (ha : SpeedOf u s n lam r ρ) :
    lam * |r| ≤ |ρ| + (4 * (u * |ρ|) + 4 * (u * n * s)) ∧ |ρ| ≤ lam * |r| + (4 * (u * |ρ|) + 4 * (u * n * s)) := by
  have h1 : |lam * r| = lam * |r| := by rw [abs_mul, abs_of_pos hl]
  have h2 := abs_sub_abs_le_abs_sub (lam * r) ρ
  have h3 := abs_sub_abs_le_abs_sub ρ (lam * r)
  rw [abs_sub_comm] at h3
  unfold SpeedOf at ha
  rw [h1] at h2 h3
  constructor <;> linarith

/-- A boundary well ahead of the position at fraction `τ` is crossed later. -/
theorem time_late (h : RayScale u η M s n N E) {r ρ D e lam τ q : ℚ} (ht : TimeAt M s n r D e (.fin q))
    (he : e ≤ 8 * E) (hD : D ≤ n * s) (hl : 0 < lam) (ha : SpeedOf u s n lam r ρ) (h0 : 0 ≤ τ) (h1 : τ ≤ 1)
    (hlate : τ * |ρ| ≤ D - 16 * E) : τ * lam < q := by
  rcases ht with ⟨q', hq, hq0, hq1⟩ | ⟨hq, -⟩
  swap
  · cases hq
  cases hq
  by_contra hcon
  rw [not_lt] at hcon
  have hw := h.w_pos
  have hw3 := h.w_nw
  have h2 := mul_le_mul_of_nonneg_right hcon (abs_nonneg r)
  have h3 := mul_le_mul_of_nonneg_left (ha.abs hl).1 h0
  have h4 : τ * (4 * (u * n * s)) ≤ 4 * (u * n * s) := by nlinarith
  have h5 : u * (τ * |ρ|) ≤ u * (n * s) := mul_le_mul_of_nonneg_left (by linarith) h.u_pos.le
  have e1 : τ * lam * |r| = τ * (lam * |r|) := by ring
  have e2 : τ * (|ρ| + (4 * (u * |ρ|) + 4 * (u * n * s))) = τ * |ρ| + 4 * (u * (τ * |ρ|)) + τ * (4 * (u * n * s)) := by ring
  have e3 : u * (n * s) = u * n * s := by ring
  have := (abs_le.1 hq1).1
  linarith

/-- A speed whose times overflow is tiny. -/
theorem tiny_speed (h : RayScale u η M s n N E) {r ρ lam : ℚ} (hM : M * |r| ≤ 2 * (n * s)) (hl : 0 < lam) (hl1 : lam ≤ 1)
    (ha : SpeedOf u s n lam r ρ) : |ρ| ≤ 7 * (u * n * s) := by
  have hw := h.w_pos
  have h1 : |r| ≤ 2 * (u * n * s) := by
    have h2 := mul_le_mul_of_nonneg_left hM h.u_pos.le
    have h3 := mul_le_mul_of_nonneg_right h.M_u (abs_nonneg r)
    have e : u * (M * |r|) = u * M * |r| := by ring
    have e' : u * (2 * (n * s)) = 2 * (u * n * s) := by ring
    linarith
  have h2 : lam * |r| ≤ 2 * (u * n * s) := by nlinarith [abs_nonneg r]
  have h3 := (ha.abs hl).2
  have h4 := mul_le_mul_of_nonneg_right (show 9000 * u ≤ 1 by linarith [h.u_le, h.un_le]) (abs_nonneg ρ)
  nlinarith [abs_nonneg ρ]

/-- A boundary well behind the position at fraction `τ` is crossed earlier. -/
theorem time_early (h : RayScale u η M s n N E) {r ρ D e lam τ : ℚ} {t : Fl} (ht : TimeAt M s n r D e t)
    (he : e ≤ 8 * E) (hD0 : -(4 * (u * n * s)) ≤ D) (hD : D ≤ n * s) (hl : 0 < lam) (hl1 : lam ≤ 1)
    (ha : SpeedOf u s n lam r ρ) (h0 : 0 ≤ τ) (h1 : τ ≤ 1)
    (hearly : D + 32 * E ≤ τ * |ρ|) : ∃ q, t = .fin q ∧ q < τ * lam := by
  have hw := h.w_pos
  have hw3 := h.w_nw
  rcases ht with ⟨q, hq, hq0, hq1⟩ | ⟨-, hM⟩
  · refine ⟨q, hq, ?_⟩
    by_contra hcon
    rw [not_lt] at hcon
    have h2 := mul_le_mul_of_nonneg_right hcon (abs_nonneg r)
    have h3 := mul_le_mul_of_nonneg_left (ha.abs hl).2 h0
    have h4 : τ * (4 * (u * n * s)) ≤ 4 * (u * n * s) := by nlinarith
    have e1 : τ * lam * |r| = τ * (lam * |r|) := by ring
    have e2 : τ * (lam * |r| + (4 * (u * |ρ|) + 4 * (u * n * s)))
        = τ * (lam * |r|) + 4 * u * (τ * |ρ|) + τ * (4 * (u * n * s)) := by ring
    have h5 := (abs_le.1 hq1).2
    have h6 : (1 - 4 * u) * (D + 32 * E) ≤ (1 - 4 * u) * (τ * |ρ|) :=
      mul_le_mul_of_nonneg_left hearly (by linarith [h.u_le, h.un_le, h.u_pos])
    have h7 : u * (D + 32 * E) ≤ u * (2 * (n * s)) :=
      mul_le_mul_of_nonneg_left (by linarith [h.nw_le, h.s_ns, h.s_pos]) h.u_pos.le
    have e3 : u * (2 * (n * s)) = 2 * (u * n * s) := by ring
    nlinarith
  · exfalso
    have h2 := tiny_speed h hM hl hl1 ha
    have h3 : τ * |ρ| ≤ |ρ| := by nlinarith [abs_nonneg ρ]
    linarith

/-- The fraction of the way that belongs to a computed time. -/
def frac (lam : ℚ) : Fl → ℚ
  | .fin q => min 1 (q / lam)
  | _ => 1

theorem frac_lower (h : RayScale u η M s n N E) {r ρ D e lam : ℚ} {t : Fl} (ht : TimeAt M s n r D e t)
    (he : e ≤ 8 * E) (hD : D ≤ n * s) (hl : 0 < lam)
    (ha : SpeedOf u s n lam r ρ) (hend : D - 16 * (u * n * s) ≤ |ρ|) : D - 32 * E ≤ frac lam t * |ρ| := by
  have hw := h.w_pos
  have hw3 := h.w_nw
  rcases ht with ⟨q, rfl, hq0, hq1⟩ | ⟨rfl, hM⟩
  · show _ ≤ min 1 (q / lam) * |ρ|
    rcases le_total 1 (q / lam) with h1 | h1
    · rw [min_eq_left h1]
      linarith
    · rw [min_eq_right h1]
      set σ := q / lam with hσ
      have hqs : q = σ * lam := by rw [hσ]; field_simp
      have hσ0 : 0 ≤ σ := by rw [hσ]; positivity
      have h2 := abs_le.1 hq1
      rw [hqs] at h2
      have h3 := mul_le_mul_of_nonneg_left (ha.abs hl).1 hσ0
      have h3' := mul_le_mul_of_nonneg_left (ha.abs hl).2 hσ0
      have h4 : σ * (4 * (u * n * s)) ≤ 4 * (u * n * s) := by nlinarith
      have e1 : σ * lam * |r| = σ * (lam * |r|) := by ring
      have e2 : σ * (|ρ| + (4 * (u * |ρ|) + 4 * (u * n * s))) = σ * |ρ| + 4 * (u * (σ * |ρ|)) + σ * (4 * (u * n * s)) := by ring
      have e2' : σ * (lam * |r| + (4 * (u * |ρ|) + 4 * (u * n * s)))
        = σ * (lam * |r|) + 4 * (u * (σ * |ρ|)) + σ * (4 * (u * n * s)) := by ring
      have h5 : σ * |ρ| ≤ 3 * (n * s) := by
        have h6 : 9000 * (u * (σ * |ρ|)) ≤ σ * |ρ| := by
          have := mul_le_mul_of_nonneg_right (show 9000 * u ≤ 1 by linarith [h.u_le, h.un_le])
            (mul_nonneg hσ0 (abs_nonneg ρ))
          linarith
        have := h.nw_le; have := h.s_ns; have := h.s_pos
        have : 0 ≤ σ * |ρ| := mul_nonneg hσ0 (abs_nonneg ρ)
        linarith
      have h6 : u * (σ * |ρ|) ≤ u * (3 * (n * s)) := mul_le_mul_of_nonneg_left h5 h.u_pos.le
      have e3 : u * (3 * (n * s)) = 3 * (u * n * s) := by ring
      linarith
  · show _ ≤ 1 * |ρ|
    linarith

theorem frac_upper (h : RayScale u η M s n N E) {r ρ D e lam σ : ℚ} {t : Fl} (ht : TimeAt M s n r D e t)
    (he : e ≤ 8 * E) (hD0 : -(4 * (u * n * s)) ≤ D) (hD : D ≤ n * s) (hl : 0 < lam) (hl1 : lam ≤ 1)
    (ha : SpeedOf u s n lam r ρ) (h0 : 0 ≤ σ) (hσ : σ ≤ frac lam t) : σ * |ρ| ≤ D + 32 * E := by
  have hw := h.w_pos
  have hw3 := h.w_nw
  rcases ht with ⟨q, rfl, hq0, hq1⟩ | ⟨rfl, hM⟩
  · have h1 : σ ≤ 1 := hσ.trans (min_le_left _ _)
    have h2 : σ ≤ q / lam := hσ.trans (min_le_right _ _)
    rw [le_div_iff₀ hl] at h2
    by_contra hcon
    obtain ⟨q', hq', hlt⟩ := time_early h (.inl ⟨q, rfl, hq0, hq1⟩) he hD0 hD hl hl1 ha h0 h1 (not_le.1 hcon).le
    cases hq'
    linarith
  · have h2 := tiny_speed h hM hl hl1 ha
    have h1 : σ ≤ 1 := hσ
    have h3 : σ * |ρ| ≤ |ρ| := by nlinarith [abs_nonneg ρ]
    linarith

theorem TimeAt.frac_nonneg {r D e lam : ℚ} {t : Fl} (ht : TimeAt M s n r D e t) (hl : 0 < lam) : 0 ≤ frac lam t := by
  rcases ht with ⟨q, rfl, hq0, -⟩ | ⟨rfl, -⟩
  · exact le_min zero_le_one (by positivity)
  · exact zero_le_one

theorem frac_le_one (lam : ℚ) (t : Fl) : frac lam t ≤ 1 := by
  cases t <;> first | exact le_rfl | exact min_le_left _ _

theorem frac_mono {r D e r' D' e' lam : ℚ} {t t' : Fl} (ht : TimeAt M s n r D e t) (ht' : TimeAt M s n r' D' e' t')
    (hl : 0 < lam) (hle : Fl.le t t' = true) : frac lam t ≤ frac lam t' := by
  rcases ht' with ⟨q', rfl, hq0', -⟩ | ⟨rfl, -⟩
  · rcases ht with ⟨q, rfl, hq0, -⟩ | ⟨rfl, -⟩
    · have : q ≤ q' := by simpa [Fl.le] using hle
      exact min_le_min le_rfl (by gcongr)
    · simp [Fl.le] at hle
  · exact frac_le_one _ _

/-- The chosen axis has the least time. -/
theorem chosen_least {r D e : Fin 3 → ℚ} {t : Fin 3 → Fl} {bits : ℕ} (ht : ∀ a, TimeAt M s n (r a) (D a) (e a) (t a)) (b : Fin 3) :
    Fl.le (t (flChooseAxis (ieee R bits) t)) (t b) = true := by
  have hrefl : ∀ a, Fl.le (t a) (t a) = true := by
    intro a
    rcases ht a with ⟨q, h1, -, -⟩ | ⟨h1, -⟩ <;> rw [h1] <;> simp [Fl.le]
  have htot : ∀ a b, Fl.le (t a) (t b) = true ∨ Fl.le (t b) (t a) = true := by
    intro a b
    rcases ht a with ⟨q, h1, -, -⟩ | ⟨h1, -⟩ <;> rcases ht b with ⟨q', h2, -, -⟩ | ⟨h2, -⟩ <;> rw [h1, h2] <;>
      simp [Fl.le, le_total]
  have htrans : ∀ a b c, Fl.le (t a) (t b) = true → Fl.le (t b) (t c) = true → Fl.le (t a) (t c) = true := by
    intro a b c
    rcases ht a with ⟨q, h1, -, -⟩ | ⟨h1, -⟩ <;> rcases ht b with ⟨q', h2, -, -⟩ | ⟨h2, -⟩ <;>
      rcases ht c with ⟨q'', h3, -, -⟩ | ⟨h3, -⟩ <;> rw [h1, h2, h3] <;> simp [Fl.le]
    exact fun x y => x.trans y
  unfold flChooseAxis
  show Fl.le (t (if (Fl.le (t 0) (t 1) && Fl.le (t 0) (t 2)) = true then 0 else
    if (Fl.le (t 1) (t 0) && Fl.le (t 1) (t 2)) = true then 1 else 2)) (t b) = true
  simp only [Bool.and_eq_true]
  split_ifs with c1 c2
  · fin_cases b
    · exact hrefl 0
    · exact c1.1
    · exact c1.2
  · fin_cases b
    · exact c2.1
    · exact hrefl 1
    · exact c2.2
  · have h20 : Fl.le (t 2) (t 0) = true := by
      by_contra h
      have h02 := (htot 0 2).resolve_right h
      have h01 : ¬ Fl.le (t 0) (t 1) = true := fun h01 => c1 ⟨h01, h02⟩
      have h10 := (htot 0 1).resolve_left h01
      exact c2 ⟨h10, htrans 1 0 2 h10 h02⟩
    have h21 : Fl.le (t 2) (t 1) = true := by
      by_contra h
      have h12 := (htot 1 2).resolve_right h
      have h10 : ¬ Fl.le (t 1) (t 0) = true := fun h10 => c2 ⟨h10, h12⟩
      have h01 := (htot 0 1).resolve_right h10
      exact c1 ⟨h01, htrans 0 1 2 h01 h12⟩
    fin_cases b
    · exact h20
    · exact h21
    · exact hrefl 2

end
end VGT
