import Verif.Lemmas.Accurate
import Verif.Lemmas.RayRoundCast
import Verif.Spec.FairWalk

/-!
C89: the walk through the grid in an arithmetic that is right up to a small error.
-/
set_option autoImplicit false

namespace VGT
open VGT.EDT VGT.Spec

section
variable {F : Type} {A : Arith F} {sqrt : F → F} {val kept : F → Fl} {u U η M s n N E : ℚ}

/-! ### Single operations -/

theorem fair_add_near (H : AccurateArith A sqrt val kept u η M) (hU : u ≤ U) {x y : F} {a b C : ℚ} (hx : val x = .fin a) (hy : val y = .fin b)
    (hu : 0 ≤ u) (h : |a| + |b| ≤ C) (hC : C ≤ M) : ∃ z, val (A.add x y) = .fin z ∧ |z - (a + b)| ≤ U * C + η := by
  obtain ⟨z, h1, h2, -⟩ := H.add x y a b hx hy (h.trans hC)
  have h0 := add_nonneg (abs_nonneg a) (abs_nonneg b)
  exact ⟨z, h1, h2.trans (by have := mul_le_mul hU h h0 (hu.trans hU); linarith)⟩

theorem fair_sub_near (H : AccurateArith A sqrt val kept u η M) (hU : u ≤ U) {x y : F} {a b C : ℚ} (hx : val x = .fin a) (hy : val y = .fin b)
    (hu : 0 ≤ u) (h : |a| + |b| ≤ C) (hC : C ≤ M) : ∃ z, val (A.sub x y) = .fin z ∧ |z - (a - b)| ≤ U * C + η := by
  obtain ⟨z, h1, h2⟩ := H.sub x y a b hx hy (h.trans hC)
  have h0 := add_nonneg (abs_nonneg a) (abs_nonneg b)
  exact ⟨z, h1, h2.trans (by have := mul_le_mul hU h h0 (hu.trans hU); linarith)⟩

theorem fair_mul_near (H : AccurateArith A sqrt val kept u η M) (hU : u ≤ U) {x y : F} {a b C : ℚ} (hx : val x = .fin a) (hy : val y = .fin b)
    (hu : 0 ≤ u) (ha : |a| ≤ M) (hb : |b| ≤ M) (h : |a * b| ≤ C) (hC : C ≤ M) : ∃ z, val (A.mul x y) = .fin z ∧ |z - a * b| ≤ U * C + η := by
  obtain ⟨z, h1, h2, -⟩ := H.mul x y a b hx hy ha hb (h.trans hC)
  exact ⟨z, h1, h2.trans (by have := mul_le_mul hU h (abs_nonneg _) (hu.trans hU); linarith)⟩

/-! ### Boundaries of a cell -/

/-- The computed centre of a cell along an axis. -/
theorem centre_fair (H : AccurateArith A sqrt val kept u η M) (W : FairWalk A sqrt val kept u η M) (hu : 0 ≤ u) (hU : u ≤ U)
    (h : RayScale U η M s n N E) {C : F} (hC : val C = .fin s) {i : ℤ} (hi : 0 ≤ i) (hin : (i : ℚ) + 2 ≤ n) :
    ∃ c, val (A.mul (A.add (A.ofInt i) A.half) C) = .fin c ∧ |c - ((i : ℚ) + 1 / 2) * s| ≤ 3 * (U * n * s) := by
  have hi' : (0 : ℚ) ≤ i := by exact_mod_cast hi
  have hs := h.s_pos
  have hU0 := h.u_pos
  have := h.un_le; have := h.u_le; have := h.η_le; have := h.M_n; have hMs := h.M_s; have := h.n_ge; have := h.η_le_s; have hns := h.s_ns
  obtain ⟨y1, e1, b1⟩ := W.ofInt i (by rw [abs_of_nonneg hi']; linarith)
  have b1u : |y1 - i| ≤ U * (n - 2) + η := b1.trans (by
    rw [abs_of_nonneg hi']
    have := mul_le_mul hU (show (i : ℚ) ≤ n - 2 by linarith) hi' hU0.le
    linarith)
  have b1' := abs_le.1 b1u
  have un : U * (n - 2) = U * n - 2 * U := by ring
  obtain ⟨y2, e2, b2⟩ := fair_add_near H hU (C := n - 1) e1 W.half hu (by
    rw [abs_of_pos (by norm_num : (0 : ℚ) < 1 / 2)]
    have : |y1| ≤ n - 2 + (U * (n - 2) + η) := by rw [abs_le]; constructor <;> linarith
    linarith) (by linarith)
  have b2' := abs_le.1 b2
  have un2 : U * (n - 1) = U * n - U := by ring
  have hy2 : |y2 - (i + 1 / 2)| ≤ 2 * (U * n) := by rw [abs_le]; constructor <;> linarith
  have hy2' := abs_le.1 hy2
  have hy2a : |y2| ≤ n - 1 := by rw [abs_le]; constructor <;> linarith
  have hy2s : |y2 * s| ≤ (n - 1) * s := by
    rw [abs_mul, abs_of_pos hs]
    exact mul_le_mul_of_nonneg_right hy2a hs.le
  obtain ⟨y3, e3, b3⟩ := fair_mul_near H hU e2 hC hu (by linarith) (by rw [abs_of_pos hs]; linarith) hy2s (by linarith)
  refine ⟨y3, e3, ?_⟩
  have e : y3 - ((i : ℚ) + 1 / 2) * s = (y3 - y2 * s) + (y2 - (i + 1 / 2)) * s := by ring
  rw [e]
  refine (abs_add_le _ _).trans ?_
  rw [abs_mul, abs_of_pos hs]
  have := mul_le_mul_of_nonneg_right hy2 hs.le
  have e' : U * ((n - 1) * s) = U * n * s - U * s := by ring
  linarith

theorem half_edge_fair (H : AccurateArith A sqrt val kept u η M) (W : FairWalk A sqrt val kept u η M) (hu : 0 ≤ u) (hU : u ≤ U)
    (h : RayScale U η M s n N E) {C : F} (hC : val C = .fin s) : ∃ y, val (A.mul C A.half) = .fin y ∧ |y - s * (1 / 2)| ≤ U * s + η := by
  have hs := h.s_pos
  have := h.M_s; have := h.s_ns; have := h.M_n; have := h.n_ge
  refine fair_mul_near H hU hC W.half hu (by rw [abs_of_pos hs]; linarith) (by rw [abs_of_pos (by norm_num)]; linarith) ?_ (by linarith)
  rw [abs_of_pos (by positivity)]
  linarith

/-- The computed upper boundary of a cell along an axis. -/
theorem hi_fair (H : AccurateArith A sqrt val kept u η M) (W : FairWalk A sqrt val kept u η M) (hu : 0 ≤ u) (hU : u ≤ U)
    (h : RayScale U η M s n N E) {C : F} (hC : val C = .fin s) {i : ℤ} (hi : 0 ≤ i) (hin : (i : ℚ) + 2 ≤ n) :
    ∃ c, val (A.add (A.mul (A.add (A.ofInt i) A.half) C) (A.mul C A.half)) = .fin c ∧ |c - ((i : ℚ) + 1) * s| ≤ 6 * (U * n * s) := by
  obtain ⟨c, e1, b1⟩ := centre_fair H W hu hU h hC hi hin
  obtain ⟨y2, e2, b2⟩ := half_edge_fair H W hu hU h hC
  have hi' : (0 : ℚ) ≤ i := by exact_mod_cast hi
  have hs := h.s_pos
  have := h.M_s; have := h.η_le_s; have := h.us_le; have := h.w_le; have := h.s_ns; have hw := h.w_pos
  have b1' := abs_le.1 b1
  have b2' := abs_le.1 b2
  have his : (i : ℚ) * s ≤ (n - 2) * s := mul_le_mul_of_nonneg_right (by linarith) hs.le
  have his0 : 0 ≤ (i : ℚ) * s := by positivity
  obtain ⟨y3, e3, b3⟩ := fair_add_near H hU (C := n * s) e1 e2 hu (by
    rw [abs_of_pos (by linarith : 0 < c), abs_of_pos (by linarith : 0 < y2)]; linarith) (by linarith)
  have b3' := abs_le.1 b3
  refine ⟨y3, e3, ?_⟩
  rw [abs_le]
  have e' : U * (n * s) = U * n * s := by ring
  constructor <;> linarith

/-- The computed lower boundary of a cell along an axis. -/
theorem lo_fair (H : AccurateArith A sqrt val kept u η M) (W : FairWalk A sqrt val kept u η M) (hu : 0 ≤ u) (hU : u ≤ U)
    (h : RayScale U η M s n N E) {C : F} (hC : val C = .fin s) {i : ℤ} (hi : 0 ≤ i) (hin : (i : ℚ) + 2 ≤ n) :
    ∃ c, val (A.sub (A.mul (A.add (A.ofInt i) A.half) C) (A.mul C A.half)) = .fin c ∧ |c - (i : ℚ) * s| ≤ 6 * (U * n * s) := by
  obtain ⟨c, e1, b1⟩ := centre_fair H W hu hU h hC hi hin
  obtain ⟨y2, e2, b2⟩ := half_edge_fair H W hu hU h hC
  have hi' : (0 : ℚ) ≤ i := by exact_mod_cast hi
  have hs := h.s_pos
  have := h.M_s; have := h.η_le_s; have := h.us_le; have := h.w_le; have := h.s_ns; have hw := h.w_pos
  have b1' := abs_le.1 b1
  have b2' := abs_le.1 b2
  have his : (i : ℚ) * s ≤ (n - 2) * s := mul_le_mul_of_nonneg_right (by linarith) hs.le
  have his0 : 0 ≤ (i : ℚ) * s := by positivity
  obtain ⟨y3, e3, b3⟩ := fair_sub_near H hU (C := n * s) e1 e2 hu (by
    rw [abs_of_pos (by linarith : 0 < c), abs_of_pos (by linarith : 0 < y2)]; linarith) (by linarith)
  have b3' := abs_le.1 b3
  refine ⟨y3, e3, ?_⟩
  rw [abs_le]
  have e' : U * (n * s) = U * n * s := by ring
  constructor <;> linarith

/-! ### Times -/

/-- Division by the speed. -/
theorem quotient_fair (H : AccurateArith A sqrt val kept u η M) (W : FairWalk A sqrt val kept u η M) (hU : u ≤ U)
    (h : RayScale U η M s n N E) {Y R : F} {y r D B e : ℚ} (hY : val Y = .fin y) (hR : val R = .fin r) (hr : r ≠ 0) (hrM : |r| ≤ M)
    (hη : η * |r| ≤ U * s) (hy : |(|y|) - D| ≤ e) (hB : |y| ≤ B) (hBn : B ≤ n * s) :
    TimeAt M s n r D (e + U * B + U * s) (kept (A.abs (A.div Y R))) := by
  have hr0 : 0 < |r| := abs_pos.2 hr
  have hns : 0 < n * s := mul_pos (lt_of_lt_of_le (by norm_num : (0 : ℚ) < 3) h.n_ge) h.s_pos
  have hdiv : |y / r| * |r| = |y| := by rw [abs_div, div_mul_cancel₀ _ hr0.ne']
  have hq : (∃ z, val (A.div Y R) = .fin z ∧ |z - y / r| ≤ u * |y / r| + η) ∨
      ((val (A.div Y R) = .pinf ∨ val (A.div Y R) = .ninf) ∧ M < |y / r|) := by
    rcases le_or_gt |y / r| M with h1 | h1
    · exact .inl (H.div Y R y r hY hR hr (by linarith [h.M_s]) hrM h1)
    · rcases W.div_big Y R y r hY hR hr h1 with h2 | h2
      · exact .inl h2
      · exact .inr ⟨h2, h1⟩
  rcases hq with ⟨q, e1, b1⟩ | ⟨e1, b1⟩
  · left
    have k1 := H.abs (A.div Y R) q ((W.quotient Y R).trans e1)
    refine ⟨|q|, k1, abs_nonneg _, ?_⟩
    have h2 : |(|q|) * (|r|) - (|y|)| ≤ U * |y| + η * |r| := by
      have e2 : |q| * |r| - |y| = (|q| - |y / r|) * |r| := by rw [← hdiv]; ring
      rw [e2, abs_mul, abs_abs]
      have h3 := mul_le_mul_of_nonneg_right ((abs_abs_sub_abs_le q (y / r)).trans b1) hr0.le
      have e3 : (u * |y / r| + η) * |r| = u * |y| + η * |r| := by rw [← hdiv]; ring
      have h4 := mul_le_mul_of_nonneg_right hU (abs_nonneg y)
      linarith
    have e4 : |q| * |r| - D = (|q| * |r| - |y|) + (|y| - D) := by ring
    rw [e4]
    refine (abs_add_le _ _).trans ?_
    have := mul_le_mul_of_nonneg_left hB h.u_pos.le
    linarith
  · right
    refine ⟨W.abs_inf _ (by rw [W.quotient]; exact e1), ?_⟩
    have h1 : M * |r| ≤ |y / r| * |r| := mul_le_mul_of_nonneg_right b1.le hr0.le
    rw [hdiv] at h1
    linarith

/-- The first crossing time of an axis. -/
theorem first_time_fair (H : AccurateArith A sqrt val kept u η M) (W : FairWalk A sqrt val kept u η M) (hu : 0 ≤ u) (hU3 : 3 * u ≤ U)
    (h : RayScale U η M s n N E) {C X R : F} (hC : val C = .fin s) {i : ℤ} (hi : 0 ≤ i) (hin : (i : ℚ) + 2 ≤ n) {x r : ℚ}
    (hX : val X = .fin x) (hR : val R = .fin r) (hR' : kept R = .fin r) (hrM : |r| ≤ M) (hx : NearCell U s n i x) (hη : η * |r| ≤ U * s) :
    TimeAt M s n r (ahead s i x r 0) (timeErr U s n N 0)
      (kept (flAxisT A X R (A.sub (A.mul (A.add (A.ofInt i) A.half) C) (A.mul C A.half))
        (A.add (A.mul (A.add (A.ofInt i) A.half) C) (A.mul C A.half)))) := by
  have hU : u ≤ U := by linarith
  obtain ⟨lo, e1, b1⟩ := lo_fair H W hu hU h hC hi hin
  obtain ⟨hi', e2, b2⟩ := hi_fair H W hu hU h hC hi hin
  have hi0 : (0 : ℚ) ≤ i := by exact_mod_cast hi
  have hs := h.s_pos
  have := h.M_s; have := h.η_le_s; have := h.us_le; have := h.w_le; have hsns := h.s_ns; have hw := h.w_pos
  have his : (i : ℚ) * s ≤ (n - 2) * s := mul_le_mul_of_nonneg_right (by linarith) hs.le
  have his0 : 0 ≤ (i : ℚ) * s := by positivity
  obtain ⟨x1, x2⟩ := hx
  have b1' := abs_le.1 b1
  have b2' := abs_le.1 b2
  have hxa : |x| ≤ n * s := by rw [abs_le]; constructor <;> linarith
  have hwu : u * (2 * (n * s)) ≤ 2 / 3 * (U * n * s) := by
    have := mul_le_mul_of_nonneg_right hU3 (show 0 ≤ n * s by linarith)
    linarith
  have key : ∀ (P Q : F) (p q D : ℚ), val P = .fin p → val Q = .fin q → |p| ≤ n * s → |q| ≤ n * s → |p - q - D| ≤ 6 * (U * n * s) →
      -(4 * (U * n * s)) ≤ D → D ≤ s + 4 * (U * n * s) → r ≠ 0 →
      TimeAt M s n r D (timeErr U s n N 0) (kept (A.abs (A.div (A.sub P Q) R))) := by
    intro P Q p q D hP hQ hp hq hd hD1 hD2 hr
    have hd' := abs_le.1 hd
    obtain ⟨y, e3, b3⟩ := fair_sub_near H le_rfl (C := 2 * (n * s)) hP hQ hu (by linarith) (by linarith)
    have b3' := abs_le.1 b3
    have hyD : |(|y|) - D| ≤ 46 / 3 * (U * n * s) := by
      rw [abs_le]
      rcases abs_cases y with ⟨ey, _⟩ | ⟨ey, _⟩ <;> rw [ey] <;> constructor <;> linarith
    have := quotient_fair H W hU h (B := 2 * s) e3 hR hr hrM hη hyD (by rw [abs_le]; constructor <;> linarith) (by linarith)
    unfold TimeAt at this ⊢
    refine this.imp ?_ id
    rintro ⟨q, hq, hq0, hq1⟩
    refine ⟨q, hq, hq0, hq1.trans ?_⟩
    unfold timeErr
    push_cast
    linarith
  unfold flAxisT ahead
  rw [H.lt, H.lt, H.zero.2, hR']
  simp only [Fl.lt, decide_eq_true_eq, Nat.cast_zero, zero_mul, add_zero]
  rcases lt_trichotomy 0 r with hr | hr | hr
  · rw [if_pos hr, if_pos hr]
    exact key _ _ _ _ _ e2 hX (by rw [abs_le]; constructor <;> linarith) hxa (by rw [abs_le]; constructor <;> linarith) (by linarith) (by linarith) hr.ne'
  · subst hr
    simp only [lt_irrefl, if_false]
    right
    refine ⟨W.inf.2, ?_⟩
    rw [abs_zero, mul_zero]
    linarith
  · rw [if_neg (not_lt.2 hr.le), if_pos hr, if_neg (not_lt.2 hr.le)]
    exact key _ _ _ _ _ hX e1 hxa (by rw [abs_le]; constructor <;> linarith) (by rw [abs_le]; constructor <;> linarith) (by linarith) (by linarith) hr.ne

/-- The next crossing time of an axis. -/
theorem next_time_fair (H : AccurateArith A sqrt val kept u η M) (W : FairWalk A sqrt val kept u η M) (hU : u ≤ U)
    (h : RayScale U η M s n N E) {g : RayGrid F} {R T : F} (hC : val g.cell = .fin s) {i : ℤ} {x r : ℚ} (hR : val R = .fin r) (hrM : |r| ≤ M)
    (hx : NearCell U s n i x) (hη : η * |r| ≤ U * s) {k : ℕ} (hk : (k : ℚ) + 2 ≤ N) (hTv : kept T = val T)
    (ht : TimeAt M s n r (ahead s i x r k) (timeErr U s n N k) (kept T)) :
    TimeAt M s n r (ahead s i x r (k + 1)) (timeErr U s n N (k + 1)) (kept (A.add T (flDeltaT A g R))) := by
  have hu := h.u_pos
  have hs := h.s_pos
  have := h.M_s; have := h.η_le_s; have hus := h.us_le; have := h.w_le; have := h.s_ns; have hw := h.w_pos
  have hv := h.v_pos; have := h.v_le; have hus' := h.us_le'; have := h.s_Ns; have := h.Ns_le
  have hnw := h.nw_le
  have hb := ahead_bounds h (r := r) hx k
  have he := timeErr_le h hk
  have hks : ((k : ℚ) + 2) * s ≤ N * s := mul_le_mul_of_nonneg_right hk hs.le
  have hahead : ahead s i x r (k + 1) = ahead s i x r k + s := by unfold ahead; push_cast; ring
  have herr : timeErr U s n N (k + 1) = timeErr U s n N k + 4 * (U * N * s) := by unfold timeErr; push_cast; ring
  unfold flDeltaT
  rw [W.sum]
  rw [hTv] at ht
  have hdv : val (A.abs (A.div g.cell R)) = kept (A.abs (A.div g.cell R)) := (W.magnitude _).symm
  by_cases hr : r = 0
  · subst hr
    right
    refine ⟨?_, by rw [abs_zero, mul_zero]; linarith⟩
    have hinf : val (A.abs (A.div g.cell R)) = .pinf := by
      rw [hdv]
      exact W.abs_inf _ (by rw [W.quotient]; exact W.div_zero _ _ _ hC hs hR)
    rcases ht with ⟨q, hq, hq0, -⟩ | ⟨hq, -⟩
    · exact W.add_inf _ _ _ hq hq0 hinf
    · exact W.inf_add _ _ hq (.inl hinf)
  · have hr0 : 0 < |r| := abs_pos.2 hr
    have hd : TimeAt M s n r s (2 * (U * s)) (val (A.abs (A.div g.cell R))) := by
      rw [hdv]
      have := quotient_fair H W hU h (D := s) (B := s) (e := 0) hC hR hr hrM hη (by rw [abs_of_pos hs]; simp)
        (by rw [abs_of_pos hs]) (by linarith)
      have e : 0 + U * s + U * s = 2 * (U * s) := by ring
      rwa [e] at this
    rcases ht with ⟨q, hq1, hq0, hq⟩ | ⟨hq1, hinf⟩
    · rcases hd with ⟨p, hp, hp0, hp1⟩ | ⟨hp, hp1⟩
      · have hq' := abs_le.1 hq
        have hp' := abs_le.1 hp1
        have hsum : (q + p) * |r| ≤ 2 * (N * s) := by
          rw [add_mul]; linarith
        have hres : (∃ z, val (A.add T (A.abs (A.div g.cell R))) = .fin z ∧ |z - (q + p)| ≤ U * (q + p) + η) ∨
            (val (A.add T (A.abs (A.div g.cell R))) = .pinf ∧ M < q + p) := by
          have hUq := mul_le_mul_of_nonneg_right hU (add_nonneg hq0 hp0)
          rcases le_or_gt (q + p) M with h1 | h1
          · obtain ⟨z, z1, z2, -⟩ := H.add _ _ _ _ hq1 hp (by rw [abs_of_nonneg hq0, abs_of_nonneg hp0]; exact h1)
            rw [abs_of_nonneg hq0, abs_of_nonneg hp0] at z2
            exact .inl ⟨z, z1, by linarith⟩
          · rcases W.add_big _ _ _ _ hq1 hp hq0 hp0 h1 with ⟨z, z1, z2⟩ | h2
            · exact .inl ⟨z, z1, by linarith⟩
            · exact .inr ⟨h2, h1⟩
        rcases hres with ⟨y, e1, b1⟩ | ⟨e1, b1⟩
        · -- the sum is finite
          have hy : |y * (|r|) - (q + p) * (|r|)| ≤ 2 * (U * N * s) + U * s := by
            rw [← sub_mul, abs_mul, abs_abs]
            have h1 := mul_le_mul_of_nonneg_right b1 hr0.le
            have h2 := mul_le_mul_of_nonneg_left hsum hu.le
            linarith
          have hy' := abs_le.1 hy
          by_cases hy0 : 0 ≤ y
          · left
            refine ⟨y, e1, hy0, ?_⟩
            rw [hahead, herr, abs_le]
            rw [add_mul] at hy'
            constructor <;> linarith
          · exfalso
            -- a sum of at least half a cell does not become negative
            have h1 : y * |r| < 0 := by nlinarith
            have h2 : (q + p) * |r| = q * |r| + p * |r| := add_mul _ _ _
            have h3 : 0 ≤ q * |r| := by positivity
            linarith
        · right
          refine ⟨e1, ?_⟩
          have := mul_le_mul_of_nonneg_right b1.le hr0.le
          linarith
      · exact .inr ⟨W.add_inf _ _ _ hq1 hq0 hp, hp1⟩
    · right
      refine ⟨?_, hinf⟩
      rcases hd with ⟨p, hp, hp0, -⟩ | ⟨hp, -⟩
      · exact W.inf_add _ _ hq1 (.inr ⟨p, hp, hp0⟩)
      · exact W.inf_add _ _ hq1 (.inl hp)

/-- The chosen axis has the least time. -/
theorem chosen_least_fair (H : AccurateArith A sqrt val kept u η M) {r D e : Fin 3 → ℚ} {t : Fin 3 → F}
    (ht : ∀ a, TimeAt M s n (r a) (D a) (e a) (kept (t a))) (b : Fin 3) : Fl.le (kept (t (flChooseAxis A t))) (kept (t b)) = true := by
  have e1 : flChooseAxis A t = flChooseAxis (ieee Fl.fin 64) (fun a => kept (t a)) := by
    unfold flChooseAxis
    simp only [H.le]
    rfl
  rw [e1]
  exact chosen_least (t := fun a => kept (t a)) ht b

end

section
variable {F : Type} {A : Arith F} {sqrt : F → F} {val kept : F → Fl} {u U η M s n N E lam : ℚ} {d : Dims} {i f : IVec} {x ρ r : Fin 3 → ℚ}

/-! ### The loop -/

/-- The times after `k a` steps along each axis; they are stored. -/
def FairTimes (val kept : F → Fl) (u M s n N : ℚ) (i : IVec) (x r : Fin 3 → ℚ) (k : Fin 3 → ℕ) (t : Fin 3 → F) : Prop :=
  TimesAt u M s n N i x r k (fun a => kept (t a)) ∧ ∀ a, kept (t a) = val (t a)

theorem fairTimes_step (H : AccurateArith A sqrt val kept u η M) (W0 : FairWalk A sqrt val kept u η M) (hU : u ≤ U)
    (S : RaySetup U η M s n N E d i f x ρ r lam) (hrM : ∀ a, |r a| ≤ M) {ray : Fin 3 → F} (hray : ∀ a, val (ray a) = .fin (r a)) {g : RayGrid F}
    (hcell : val g.cell = .fin s) {k : Fin 3 → ℕ} {t : Fin 3 → F} (hT : FairTimes val kept U M s n N i x r k t) {a : Fin 3}
    (hk : (k a : ℚ) + 2 ≤ N) :
    FairTimes val kept U M s n N i x r (fun b => if b = a then k a + 1 else k b)
      (fun b => if b = a then A.add (t a) (flDeltaT A g (ray a)) else t b) := by
  constructor
  · intro b
    by_cases h : b = a
    · subst h
      simp only [if_true]
      exact next_time_fair H W0 hU S.scale hcell (hray b) (hrM b) (S.near b) (S.speed b) hk (hT.2 b) (hT.1 b)
    · simp only [h, if_false]
      exact hT.1 b
  · intro b
    by_cases h : b = a
    · simp only [h, if_true]
      exact W0.sum _ _
    · simp only [h, if_false]
      exact hT.2 b

/-- Cells visited by the loop are near the segment. -/
theorem walk_sound_fair (H : AccurateArith A sqrt val kept u η M) (W0 : FairWalk A sqrt val kept u η M) (hU : u ≤ U)
    (S : RaySetup U η M s n N E d i f x ρ r lam) (hrM : ∀ a, |r a| ≤ M) {ray : Fin 3 → F} (hray : ∀ a, val (ray a) = .fin (r a)) {g : RayGrid F}
    (hcell : val g.cell = .fin s) :
    ∀ (fuel : ℕ) (k : Fin 3 → ℕ) (t : Fin 3 → F) (σ : ℚ) (l : List IVec), FairTimes val kept U M s n N i x r k t →
      WalkInv s E i f x ρ r k σ →
      flWalk A d f (fun a => stepFromDiff (f a - i a)) (fun a => flDeltaT A g (ray a)) fuel
        (after i f k) t = some l →
      ∀ c ∈ l, PassesWithin (32 * E) s x (fun a => x a + ρ a) c := by
  intro fuel
  induction fuel with
  | zero =>
    intro k t σ l hT W h
    unfold flWalk at h
    split_ifs at h
    cases h
    simp
  | succ fuel ih =>
    intro k t σ l hT W h
    unfold flWalk at h
    dsimp only at h
    split_ifs at h with h1 h2 h3
    · cases h; simp
    · cases h
      intro c hc
      rw [List.mem_singleton.1 hc]
      exact walkInv_near S W (inGrid_iff.1 h2)
    · have hgrid := inGrid_iff.1 h2
      obtain ⟨l', hl', rfl⟩ := Option.map_eq_some_iff.1 h
      intro c hc
      rcases List.mem_cons.1 hc with rfl | hc
      · exact walkInv_near S W hgrid
      · set a := flChooseAxis A t with ha
        have hka := S.steps_le W.steps hgrid
        have hle : ∀ b, Fl.le (kept (t a)) (kept (t b)) = true := fun b => chosen_least_fair H hT.1 b
        have hstep := steps_left (W.steps a) h3
        rw [after_step] at hl'
        refine ih _ _ (max σ (frac lam (kept (t a)))) l' (fairTimes_step H W0 hU S hrM hray hcell hT (by linarith [hka a])) ?_ hl' c hc
        have hfr : ∀ b, frac lam (kept (t a)) * |ρ b| ≤ ahead s (i b) (x b) (r b) (k b) + 32 * E := fun b =>
          frac_upper S.scale (hT.1 b) (timeErr_le S.scale (by linarith [hka b])) (S.ahead_ge _ b)
            (S.ahead_le _ b (by linarith [hka b])) S.lam_pos S.lam_le (S.along b) ((hT.1 a).frac_nonneg S.lam_pos)
            (frac_mono (hT.1 a) (hT.1 b) S.lam_pos (hle b))
        have hmax : ∀ b, max σ (frac lam (kept (t a))) * |ρ b| ≤ ahead s (i b) (x b) (r b) (k b) + 32 * E := by
          intro b
          rcases max_choice σ (frac lam (kept (t a))) with e | e <;> rw [e]
          · exact W.upper b
          · exact hfr b
        have hs := S.scale.s_pos
        refine ⟨le_max_of_le_left W.σ0, max_le W.σ1 (frac_le_one _ _), ?_, ?_, ?_⟩
        · intro b
          by_cases hb : b = a
          · subst hb
            simpa using hstep
          · simpa [hb] using W.steps b
        · intro b hb0 hdir
          by_cases hb : b = a
          · rw [hb]
            rw [hb] at hdir
            simp only [if_true, Nat.add_sub_cancel]
            have hend : ahead s (i a) (x a) (r a) (k a) - 16 * (U * n * s) ≤ |ρ a| := by
              have hw := S.scale.w_pos
              have hin := S.i_le a
              unfold SameDir at hdir
              unfold ahead
              split_ifs at hdir ⊢ with hr
              · have := S.final_ge a (i a + k a + 1) (by omega) (by
                  have h4 : (after i f k a : ℤ) = i a + k a := by
                    unfold after stepFromDiff; rw [if_pos (by omega), one_mul]
                  have h5 := (hgrid a).2
                  rw [h4] at h5
                  have h6 : ((i a + k a + 1 : ℤ) : ℚ) ≤ axisCells d a := by exact_mod_cast h5
                  linarith [S.dims a]) (by omega)
                push_cast at this
                have := le_abs_self (ρ a)
                linarith
              · have h4 : (after i f k a : ℤ) = i a - k a := by
                  unfold after stepFromDiff; rw [if_neg (by omega), if_pos (by omega)]; ring
                have h5 := (hgrid a).1
                rw [h4] at h5
                have hkq : (0 : ℚ) ≤ k a := Nat.cast_nonneg _
                have := S.final_le a (i a - k a) h5 (by push_cast; linarith) (by omega)
                push_cast at this
                have := neg_abs_le (ρ a)
                linarith
            have := frac_lower S.scale (hT.1 a) (timeErr_le S.scale (by linarith [hka a])) (S.ahead_le _ a (by linarith [hka a]))
              S.lam_pos (S.along a) hend
            exact this.trans (mul_le_mul_of_nonneg_right (le_max_right _ _) (abs_nonneg _))
          · simp only [hb, if_false] at hb0 ⊢
            exact (W.lower b hb0 hdir).trans (mul_le_mul_of_nonneg_right (le_max_left _ _) (abs_nonneg _))
        · intro b
          refine (hmax b).trans ?_
          by_cases hb : b = a
          · subst hb
            simp only [if_true]
            unfold ahead
            push_cast
            linarith
          · simp only [hb, if_false]
            exact le_rfl
    · cases h; simp

/-- The loop visits every cell of the grid that the segment is well inside of. -/
theorem walk_complete_fair (H : AccurateArith A sqrt val kept u η M) (W0 : FairWalk A sqrt val kept u η M) (hU : u ≤ U)
    (S : RaySetup U η M s n N E d i f x ρ r lam) (hrM : ∀ a, |r a| ≤ M) {ray : Fin 3 → F} (hray : ∀ a, val (ray a) = .fin (r a)) {g : RayGrid F}
    (hcell : val g.cell = .fin s) {c : IVec} (hc : CellInGrid (axisCells d) c)
    (hdeep : PassesDeep (32 * E) s x (fun a => x a + ρ a) c) :
    ∀ (fuel : ℕ) (k : Fin 3 → ℕ) (t : Fin 3 → F) (l : List IVec), FairTimes val kept U M s n N i x r k t → (∀ a, k a ≤ stepsTo i c a) →
      flWalk A d f (fun a => stepFromDiff (f a - i a)) (fun a => flDeltaT A g (ray a)) fuel
        (after i f k) t = some l → c = f ∨ c ∈ l := by
  obtain ⟨τ, h0, h1, hτ'⟩ := hdeep
  have hτ : ∀ a, (c a : ℚ) * s + 32 * E ≤ x a + τ * ρ a ∧
      x a + τ * ρ a ≤ ((c a : ℚ) + 1) * s - 32 * E := by
    intro a
    have e : onSeg x (fun a => x a + ρ a) τ a = x a + τ * ρ a := by unfold onSeg; ring
    have := hτ' a
    rwa [e] at this
  obtain ⟨hafter, hto⟩ := after_stepsTo S hc h0 h1 hτ
  have hfin : ∀ k : Fin 3 → ℕ, (∀ a, k a ≤ stepsTo i c a) → after i f k = f → c = f := by
    intro k hk hkf
    rw [← hafter]
    funext a
    have h2 := congrFun hkf a
    have h3 := hk a
    have h4 := hto a
    unfold after stepFromDiff at h2 ⊢
    split_ifs at h2 ⊢ <;> omega
  have hgrid : ∀ k : Fin 3 → ℕ, (∀ a, k a ≤ stepsTo i c a) → CellInGrid (axisCells d) (after i f k) := by
    intro k hk a
    have h2 := congrFun hafter a
    have h3 := hk a
    obtain ⟨h4, h5⟩ := hc a
    obtain ⟨h6, h7⟩ := S.start a
    unfold after stepFromDiff at h2 ⊢
    split_ifs at h2 ⊢ <;> constructor <;> omega
  intro fuel
  induction fuel with
  | zero =>
    intro k t l hT hk h
    unfold flWalk at h
    split_ifs at h with h2
    exact .inl (hfin k hk h2)
  | succ fuel ih =>
    intro k t l hT hk h
    unfold flWalk at h
    dsimp only at h
    by_cases hcur : after i f k = c
    · by_cases hcf : c = f
      · exact .inl hcf
      · right
        rw [if_neg (by rw [hcur]; exact hcf), if_pos (inGrid_iff.2 (hgrid k hk))] at h
        split_ifs at h with h3
        · cases h
          rw [hcur]
          exact List.mem_singleton_self _
        · obtain ⟨l', -, rfl⟩ := Option.map_eq_some_iff.1 h
          rw [hcur]
          exact List.mem_cons_self
    · obtain ⟨b, hb⟩ : ∃ b, k b < stepsTo i c b := by
        by_contra hcon
        push Not at hcon
        exact hcur (by rw [← hafter]; congr 1; funext a; exact le_antisymm (hk a) (hcon a))
      have hne : after i f k ≠ f := by
        intro he
        have := hfin k hk he
        exact hcur (he.trans this.symm)
      rw [if_neg hne, if_pos (inGrid_iff.2 (hgrid k hk))] at h
      have hka := fun a => S.steps_le (k := k) (fun a => (hk a).trans (hto a)) (hgrid k hk) a
      set a := flChooseAxis A t with ha
      have hlt : k a < stepsTo i c a := by
        by_contra hcon
        have hkeq : k a = stepsTo i c a := le_antisymm (hk a) (not_lt.1 hcon)
        have hexit := deep_exit S hc h0 h1 hτ a
        rw [← hkeq] at hexit
        have hentry := deep_entry S hc h0 h1 hτ hb
        have hle : Fl.le (kept (t a)) (kept (t b)) = true := chosen_least_fair H hT.1 b
        obtain ⟨q', hq', hlt'⟩ := time_early S.scale (hT.1 b) (timeErr_le S.scale (by linarith [hka b])) (S.ahead_ge _ b)
          (S.ahead_le _ b (by linarith [hka b])) S.lam_pos S.lam_le (S.along b) h0 h1 hentry
        dsimp only at hq'
        rw [hq'] at hle
        have hTa := hT.1 a
        dsimp only at hTa
        rcases hTa with ⟨q, hq, hq0, hq1⟩ | ⟨hq, -⟩
        · have := time_late S.scale (.inl ⟨q, rfl, hq0, hq1⟩) (timeErr_le S.scale (by linarith [hka a]))
            (S.ahead_le _ a (by linarith [hka a])) S.lam_pos (S.along a) h0 h1 hexit
          rw [hq] at hle
          have hqq : q ≤ q' := by simpa [Fl.le] using hle
          linarith
        · rw [hq] at hle
          simp [Fl.le] at hle
      have hcf : after i f k a ≠ f a := by
        intro he
        have h3 := hto a
        unfold after stepFromDiff at he
        split_ifs at he <;> omega
      rw [if_neg hcf] at h
      obtain ⟨l', hl', rfl⟩ := Option.map_eq_some_iff.1 h
      rw [after_step] at hl'
      refine (ih _ _ l' (fairTimes_step H W0 hU S hrM hray hcell hT (by linarith [hka a])) ?_ hl').imp id fun h => List.mem_cons_of_mem _ h
      intro e
      by_cases he : e = a
      · subst he
        simpa using Nat.succ_le_of_lt hlt
      · simpa [he] using hk e


/-! ### The marks of one ray -/

theorem cast_marks_fair (H : AccurateArith A sqrt val kept u η M) (W0 : FairWalk A sqrt val kept u η M) (hu : 0 ≤ u) (hU : 3 * u ≤ U)
    (S : RaySetup U η M s n N E d i f x ρ r lam) (hrM : ∀ a, |r a| ≤ M) {start final ray : Fin 3 → F} (hx : ∀ a, val (start a) = .fin (x a))
    (hray : ∀ a, val (ray a) = .fin (r a)) (hray' : ∀ a, kept (ray a) = .fin (r a)) {g : RayGrid F}
    (hd : g.dims = d) (hcell : val g.cell = .fin s) {clip : Bool} {ms : List Mark}
    (hi : flIndex A g start = some i) (hf : flIndex A g final = some f)
    (hms : flCastFrom A g start final ray clip = some ms) :
    (∀ m ∈ ms, PassesWithin (32 * E) s x (fun a => x a + ρ a) m.cell) ∧
    ∀ c, CellInGrid (axisCells d) c → PassesDeep (32 * E) s x (fun a => x a + ρ a) c →
      Mark.free c ∈ ms ∨ (Mark.filled c ∈ ms ∧ c = f ∧ clip = false) := by
  have hU1 : u ≤ U := by linarith
  unfold flCastFrom at hms
  rw [hi, Option.bind_some, hf, Option.bind_some] at hms
  rcases hx' : axes3 fun a => A.intSub (f a) (i a) with _ | diff
  · rw [hx'] at hms; cases hms
  have hdiff : diff = fun a => f a - i a := funext fun a => (intSub_axes_some _ hx' a).2
  rw [hx', Option.bind_some, hdiff, hd] at hms
  dsimp only at hms
  obtain ⟨l, hl, rfl⟩ := Option.map_eq_some_iff.1 hms
  have h0 : after i f (fun _ => 0) = i := by funext a; simp [after]
  have hT : FairTimes val kept U M s n N i x r (fun _ => 0) (fun a => flAxisT A (start a) (ray a)
      (A.sub (A.mul (A.add (A.ofInt (i a)) A.half) g.cell) (A.mul g.cell A.half))
      (A.add (A.mul (A.add (A.ofInt (i a)) A.half) g.cell) (A.mul g.cell A.half))) := by
    constructor
    · intro a
      have := S.i_le a
      exact first_time_fair H W0 hu hU S.scale hcell this.1 (by linarith [S.scale.N_le]) (hx a) (hray a) (hray' a) (hrM a) (S.near a) (S.speed a)
    · intro a
      unfold flAxisT
      dsimp only
      split_ifs
      · exact W0.magnitude _
      · exact W0.magnitude _
      · rw [W0.inf.1, W0.inf.2]
  have hw := S.scale.w_pos
  have hnw := S.scale.w_nw
  have W : WalkInv s E i f x ρ r (fun _ => 0) 0 := by
    refine ⟨le_rfl, zero_le_one, fun a => Nat.zero_le _, fun a h => absurd h (lt_irrefl _), fun a => ?_⟩
    have := S.ahead_ge 0 a
    rw [zero_mul]
    linarith
  rw [← h0] at hl
  have hsound := walk_sound_fair H W0 hU1 S hrM hray hcell (walkFuel f (after i f fun _ => 0)) _ _ 0 l hT W (by rw [h0] at hl ⊢; exact hl)
  constructor
  · intro m hm
    rcases List.mem_append.1 hm with hm | hm
    · split_ifs at hm with h1 h2
      all_goals first | (exfalso; simp at hm; done) | skip
      all_goals
        rw [List.mem_singleton.1 hm]
        have hfin := inGrid_iff.1 h1
        refine ⟨1, zero_le_one, le_rfl, fun a => ?_⟩
        have e : onSeg x (fun a => x a + ρ a) 1 a = x a + ρ a := by unfold onSeg; ring
        rw [e]
        show ((f a : ℤ) : ℚ) * s - _ ≤ _ ∧ _ ≤ (((f a : ℤ) : ℚ) + 1) * s + _
        obtain ⟨h3, h4⟩ := hfin a
        have h5 : (f a : ℚ) + 1 ≤ axisCells d a := by exact_mod_cast h4
        have h6 := S.dims a
        have h7 := S.final_ge a (f a) h3 (by linarith) le_rfl
        have h8 := S.final_le a (f a + 1) (by omega) (by push_cast; linarith) (by omega)
        push_cast at h8
        constructor <;> linarith
    · obtain ⟨c, hc, rfl⟩ := List.mem_map.1 hm
      exact hsound c hc
  · intro c hc hdeep
    rcases walk_complete_fair H W0 hU1 S hrM hray hcell hc hdeep (walkFuel f (after i f fun _ => 0)) (fun _ => 0) _ l hT (fun a => Nat.zero_le _)
      (by rw [h0] at hl ⊢; exact hl) with h1 | h1
    · rw [if_pos (inGrid_iff.2 (h1 ▸ hc))]
      rcases hclip : clip with _ | _
      · exact .inr ⟨by simp [h1], h1, rfl⟩
      · exact .inl (by simp [h1])
    · exact .inl (List.mem_append_right _ (List.mem_map_of_mem h1))

end
end VGT
