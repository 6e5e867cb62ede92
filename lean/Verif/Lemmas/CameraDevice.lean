import Verif.Spec.CameraDevice
import Verif.Props.CameraRay

/-!
Rounding errors on the way to the device: conversions, the transformation of points, the range, the edge of the cells.
-/
set_option autoImplicit false

namespace VGT
open VGT.EDT VGT.Spec VGT.Par

/-- A sum of three rounded products and a number. -/
theorem device_error {u η B a0 a1 a2 a3 m0 m1 m2 s1 s2 s3 : ℚ} (hu : 0 ≤ u) (hu1 : 9000 * u ≤ 1) (hB : 0 ≤ B) (hη : η ≤ u * B)
    (h0 : |a0| ≤ 101 / 100 * B) (h1 : |a1| ≤ 101 / 100 * B) (h2 : |a2| ≤ 101 / 100 * B) (h3 : |a3| ≤ 101 / 100 * B)
    (e0 : |m0 - a0| ≤ u * |a0| + η) (e1 : |m1 - a1| ≤ u * |a1| + η) (e2 : |m2 - a2| ≤ u * |a2| + η)
    (f1 : |s1 - (m0 + m1)| ≤ u * |m0 + m1| + η) (f2 : |s2 - (s1 + m2)| ≤ u * |s1 + m2| + η)
    (f3 : |s3 - (s2 + a3)| ≤ u * |s2 + a3| + η) : |s3 - (a0 + a1 + a2 + a3)| ≤ 37 / 2 * (u * B) := by
  have huB : 0 ≤ u * B := mul_nonneg hu hB
  have huu : u * (u * B) ≤ u * B / 9000 := by
    have := mul_le_mul_of_nonneg_right hu1 huB
    linarith
  have k0 := mul_le_mul_of_nonneg_left h0 hu
  have k1 := mul_le_mul_of_nonneg_left h1 hu
  have k2 := mul_le_mul_of_nonneg_left h2 hu
  have d0 : |m0 - a0| ≤ 201 / 100 * (u * B) := by linarith
  have d1 : |m1 - a1| ≤ 201 / 100 * (u * B) := by linarith
  have d2 : |m2 - a2| ≤ 201 / 100 * (u * B) := by linarith
  have b1 : |(m0 + m1) - (a0 + a1)| ≤ 402 / 100 * (u * B) := by
    have := abs_add_le (m0 - a0) (m1 - a1)
    rw [show (m0 - a0) + (m1 - a1) = (m0 + m1) - (a0 + a1) by ring] at this
    linarith
  have c1' := mul_le_mul_of_nonneg_left (near_bound b1 (abs_add_le a0 a1)) hu
  have g1 : |s1 - (a0 + a1)| ≤ 705 / 100 * (u * B) := by
    have := abs_add_le (s1 - (m0 + m1)) ((m0 + m1) - (a0 + a1))
    rw [show (s1 - (m0 + m1)) + ((m0 + m1) - (a0 + a1)) = s1 - (a0 + a1) by ring] at this
    linarith
  have b2 : |(s1 + m2) - (a0 + a1 + a2)| ≤ 906 / 100 * (u * B) := by
    have := abs_add_le (s1 - (a0 + a1)) (m2 - a2)
    rw [show (s1 - (a0 + a1)) + (m2 - a2) = (s1 + m2) - (a0 + a1 + a2) by ring] at this
    linarith
  have z2 : |a0 + a1 + a2| ≤ 303 / 100 * B := by
    have := abs_add_le (a0 + a1) a2
    have := abs_add_le a0 a1
    linarith
  have c2' := mul_le_mul_of_nonneg_left (near_bound b2 z2) hu
  have g2 : |s2 - (a0 + a1 + a2)| ≤ 1311 / 100 * (u * B) := by
    have := abs_add_le (s2 - (s1 + m2)) ((s1 + m2) - (a0 + a1 + a2))
    rw [show (s2 - (s1 + m2)) + ((s1 + m2) - (a0 + a1 + a2)) = s2 - (a0 + a1 + a2) by ring] at this
    linarith
  have b3 : |(s2 + a3) - (a0 + a1 + a2 + a3)| ≤ 1311 / 100 * (u * B) := by
    rwa [show (s2 + a3) - (a0 + a1 + a2 + a3) = s2 - (a0 + a1 + a2) by ring]
  have z3 : |a0 + a1 + a2 + a3| ≤ 404 / 100 * B := by
    have := abs_add_le (a0 + a1 + a2) a3
    linarith
  have c3' := mul_le_mul_of_nonneg_left (near_bound b3 z3) hu
  have := abs_add_le (s3 - (s2 + a3)) ((s2 + a3) - (a0 + a1 + a2 + a3))
  rw [show (s3 - (s2 + a3)) + ((s2 + a3) - (a0 + a1 + a2 + a3)) = s3 - (a0 + a1 + a2 + a3) by ring] at this
  linarith

/-- A product of converted factors. -/
theorem convert_prod {u B t t' x x' : ℚ} (hu : 0 ≤ u) (hu1 : 9000 * u ≤ 1) (hB : 0 ≤ B) (ht : |t| ≤ 1001 / 1000) (hx : |x| ≤ B)
    (ht' : |t' - t| ≤ 21 / 10 * u) (hx' : |x' - x| ≤ 2 * (u * B)) :
    |t' * x' - t * x| ≤ 411 / 100 * (u * B) ∧ |t' * x'| ≤ 101 / 100 * B := by
  have huB : 0 ≤ u * B := mul_nonneg hu hB
  have huB1 : 9000 * (u * B) ≤ B := by
    have := mul_le_mul_of_nonneg_right hu1 hB
    linarith
  have hx2 := near_bound hx' hx
  have h1 : |t' * x' - t * x| ≤ 411 / 100 * (u * B) := by
    rw [show t' * x' - t * x = (t' - t) * x' + t * (x' - x) by ring]
    refine (abs_add_le _ _).trans ?_
    rw [abs_mul, abs_mul]
    have a1 := mul_le_mul ht' hx2 (abs_nonneg _) (by linarith)
    have a2 := mul_le_mul ht hx' (abs_nonneg _) (by norm_num)
    have a3 : 21 / 10 * u * (B + 2 * (u * B)) = 21 / 10 * (u * B) + 42 / 10 * (u * (u * B)) := by ring
    have a4 := mul_le_mul_of_nonneg_right hu1 huB
    linarith
  refine ⟨h1, ?_⟩
  have h2 : |t * x| ≤ 1001 / 1000 * B := by
    rw [abs_mul]
    exact mul_le_mul ht hx (abs_nonneg _) (by norm_num)
  have := near_bound h1 h2
  linarith

section
variable {R : ℚ → Fl} {sqrt : Fl → Fl} {u η M s n B : ℚ} {g : RayGrid Fl} {bits : ℕ} {c : Camera3}

theorem convert_near (S : CamScale u η M s B) (hR : Rounds R u η M) {z : ℚ} (hz : |z| ≤ B) : ∃ y, R z = .fin y ∧ |y - z| ≤ 2 * (u * B) := by
  have hB := S.B_pos; have hMB := S.M_B; have hηB := S.η_B
  obtain ⟨y, h1, h2⟩ := rounds_fin hR (x := z) (by linarith)
  have := mul_le_mul_of_nonneg_left hz S.u_nonneg
  exact ⟨y, h1, by linarith⟩

/-- The position of the sensor on the device. -/
theorem device_sensor (S : CamScale u η M s B) (hR : Rounds R u η M) (hc : c.Within B) :
    ∃ o : Fin 3 → ℚ, kernelOrigin (c.dev R).tf = (fun a => .fin (o a)) ∧ ∀ a, |o a - c.sensor a| ≤ 33 * (u * B) := by
  have key : ∀ a : Fin 3, ∃ o, R (c.pose (12 + a)) = .fin o ∧ |o - c.sensor a| ≤ 33 * (u * B) := by
    intro a
    obtain ⟨y, h1, h2⟩ := convert_near S hR (hc.shift a)
    have := mul_nonneg S.u_nonneg S.B_pos.le
    exact ⟨y, h1, h2.trans (by linarith)⟩
  choose o h1 h2 using key
  exact ⟨o, funext h1, h2⟩

/-- The computed position of a point on the device. -/
theorem device_near (S : CamScale u η M s B) (hR : Rounds R u η M) (hη : η ≤ u) (hM1 : 2 ≤ M) (bits : ℕ) (hc : c.Within B) (ht : c.Turns)
    {x : Fin 3 → ℚ} (hx : ∀ a, |x a| ≤ B) :
    ∃ p : Fin 3 → ℚ, kernelTransform (ieee R bits) (c.dev R).tf (fun a => R (x a)) = (fun a => .fin (p a)) ∧
      ∀ a, |p a - c.place x a| ≤ 33 * (u * B) := by
  have hB := S.B_pos; have hMB := S.M_B; have hηB := S.η_B; have hu := S.u_nonneg; have hu1 := S.u_le
  have huB := mul_nonneg hu hB.le
  have huB1 : 9000 * (u * B) ≤ B := by
    have := mul_le_mul_of_nonneg_right hu1 hB.le
    linarith
  have key : ∀ a : Fin 3, ∃ p : ℚ, kernelTransform (ieee R bits) (c.dev R).tf (fun a => R (x a)) a = .fin p ∧
      |p - c.place x a| ≤ 33 * (u * B) := by
    intro a
    obtain ⟨t0, t1, t2⟩ := ht a
    have one : ∀ t : ℚ, |t| ≤ 1001 / 1000 → ∃ t', R t = .fin t' ∧ |t' - t| ≤ 21 / 10 * u := fun t h => by
      obtain ⟨t', h1, h2⟩ := rounds_fin hR (x := t) (by linarith)
      have := mul_le_mul_of_nonneg_left h hu
      exact ⟨t', h1, by linarith⟩
    obtain ⟨T0, r0, d0⟩ := one _ t0
    obtain ⟨T1, r1, d1⟩ := one _ t1
    obtain ⟨T2, r2, d2⟩ := one _ t2
    obtain ⟨X0, y0, q0⟩ := convert_near S hR (hx 0)
    obtain ⟨X1, y1, q1⟩ := convert_near S hR (hx 1)
    obtain ⟨X2, y2, q2⟩ := convert_near S hR (hx 2)
    obtain ⟨w, rw3, d3⟩ := convert_near S hR (hc.shift a)
    obtain ⟨p0, b0⟩ := convert_prod hu hu1 hB.le t0 (hx 0) d0 q0
    obtain ⟨p1, b1⟩ := convert_prod hu hu1 hB.le t1 (hx 1) d1 q1
    obtain ⟨p2, b2⟩ := convert_prod hu hu1 hB.le t2 (hx 2) d2 q2
    have b3 : |w| ≤ 101 / 100 * B := (near_bound d3 (hc.shift a)).trans (by linarith)
    have k : ∀ z : ℚ, |z| ≤ 101 / 100 * B → u * |z| + η ≤ 3 * (u * B) := fun z hz => by
      have := mul_le_mul_of_nonneg_left hz hu
      linarith
    obtain ⟨m0, s0, e0⟩ := rounds_fin hR (x := T0 * X0) (by linarith)
    obtain ⟨m1, s1, e1⟩ := rounds_fin hR (x := T1 * X1) (by linarith)
    obtain ⟨m2, s2, e2⟩ := rounds_fin hR (x := T2 * X2) (by linarith)
    have n0 := near_bound (e0.trans (k _ b0)) b0
    have n1 := near_bound (e1.trans (k _ b1)) b1
    have n2 := near_bound (e2.trans (k _ b2)) b2
    have v1 : |m0 + m1| ≤ 3 * B := (abs_add_le _ _).trans (by linarith)
    obtain ⟨z1, z1e, f1⟩ := rounds_fin hR (x := m0 + m1) (by linarith)
    have w1 := mul_le_mul_of_nonneg_left v1 hu
    have v1' := near_bound (f1.trans (show _ ≤ B by linarith)) v1
    have v2 : |z1 + m2| ≤ 6 * B := (abs_add_le _ _).trans (by linarith)
    obtain ⟨z2, z2e, f2⟩ := rounds_fin hR (x := z1 + m2) (by linarith)
    have w2 := mul_le_mul_of_nonneg_left v2 hu
    have v2' := near_bound (f2.trans (show _ ≤ B by linarith)) v2
    have v3 : |z2 + w| ≤ 9 * B := (abs_add_le _ _).trans (by linarith)
    obtain ⟨z3, z3e, f3⟩ := rounds_fin hR (x := z2 + w) (by linarith)
    refine ⟨z3, ?_, ?_⟩
    · show Fl.addR R (Fl.addR R (Fl.addR R (Fl.mulR R (R (c.pose a)) (R (x 0))) (Fl.mulR R (R (c.pose (4 + a))) (R (x 1))))
        (Fl.mulR R (R (c.pose (8 + a))) (R (x 2)))) (R (c.pose (12 + a))) = _
      rw [r0, r1, r2, y0, y1, y2, rw3]
      show Fl.addR R (Fl.addR R (Fl.addR R (R (T0 * X0)) (R (T1 * X1))) (R (T2 * X2))) _ = _
      rw [s0, s1, s2]
      show Fl.addR R (Fl.addR R (R (m0 + m1)) _) _ = _
      rw [z1e]
      show Fl.addR R (R (z1 + m2)) _ = _
      rw [z2e]
      exact z3e
    · have h1 := device_error hu hu1 hB.le hηB b0 b1 b2 b3 e0 e1 e2 f1 f2 f3
      have h2 : |(T0 * X0 + T1 * X1 + T2 * X2 + w) - c.place x a| ≤ 1434 / 100 * (u * B) := by
        rw [show (T0 * X0 + T1 * X1 + T2 * X2 + w) - c.place x a = (T0 * X0 - c.pose a * x 0) + (T1 * X1 - c.pose (4 + a) * x 1) +
          (T2 * X2 - c.pose (8 + a) * x 2) + (w - c.pose (12 + a)) by unfold Camera3.place; ring]
        have a1 := abs_add_le ((T0 * X0 - c.pose a * x 0) + (T1 * X1 - c.pose (4 + a) * x 1) + (T2 * X2 - c.pose (8 + a) * x 2))
          (w - c.pose (12 + a))
        have a2 := abs_add_le ((T0 * X0 - c.pose a * x 0) + (T1 * X1 - c.pose (4 + a) * x 1)) (T2 * X2 - c.pose (8 + a) * x 2)
        have a3 := abs_add_le (T0 * X0 - c.pose a * x 0) (T1 * X1 - c.pose (4 + a) * x 1)
        linarith
      have := abs_add_le (z3 - (T0 * X0 + T1 * X1 + T2 * X2 + w)) ((T0 * X0 + T1 * X1 + T2 * X2 + w) - c.place x a)
      rw [show (z3 - (T0 * X0 + T1 * X1 + T2 * X2 + w)) + ((T0 * X0 + T1 * X1 + T2 * X2 + w) - c.place x a) = z3 - c.place x a by ring] at this
      linarith
  choose p h1 h2 using key
  exact ⟨p, funext h1, h2⟩

/-- What the camera measured is not far. -/
theorem place_near (hc : c.Within B) (ht : c.Turns) {x : Fin 3 → ℚ} (hx : ∀ a, |x a| ≤ B) : distSq c.sensor (c.place x) ≤ (6 * B) ^ 2 := by
  have hB : 0 ≤ B := (abs_nonneg _).trans (hx 0)
  have key : ∀ a : Fin 3, (c.place x a - c.sensor a) ^ 2 ≤ (3003 / 1000 * B) ^ 2 := by
    intro a
    obtain ⟨t0, t1, t2⟩ := ht a
    have p : ∀ t y : ℚ, |t| ≤ 1001 / 1000 → |y| ≤ B → |t * y| ≤ 1001 / 1000 * B := fun t y h h' => by
      rw [abs_mul]
      exact mul_le_mul h h' (abs_nonneg _) (by norm_num)
    have b0 := p _ _ t0 (hx 0); have b1 := p _ _ t1 (hx 1); have b2 := p _ _ t2 (hx 2)
    rw [← sq_abs]
    refine pow_le_pow_left₀ (abs_nonneg _) ?_ 2
    rw [show c.place x a - c.sensor a = c.pose a * x 0 + c.pose (4 + a) * x 1 + c.pose (8 + a) * x 2 by
      unfold Camera3.place Camera3.sensor; ring]
    have := abs_add_le (c.pose a * x 0 + c.pose (4 + a) * x 1) (c.pose (8 + a) * x 2)
    have := abs_add_le (c.pose a * x 0) (c.pose (4 + a) * x 1)
    linarith
  have h0 := key 0; have h1 := key 1; have h2 := key 2
  unfold distSq
  nlinarith [sq_nonneg B]

/-! ### The range -/

theorem notBeyond_convert (S : CamScale u η M s B) (hR : Rounds R u η M) (hsign : KeepsSign R) {range : Fl} (hr : ∀ r, range = .fin r → 0 ≤ r)
    {tol : ℚ} (htol : 0 ≤ tol) {o x : Fin 3 → ℚ} (hd : distSq o x ≤ (6 * B) ^ 2) (h : NotBeyond tol (convert R range) o x) :
    NotBeyond (tol + 8 * (u * B)) range o x := by
  have hB := S.B_pos; have hMB := S.M_B; have hηB := S.η_B; have hu := S.u_nonneg
  have huB := mul_nonneg hu hB.le
  rintro r rfl
  have hr0 := hr r rfl
  rcases le_total r (6 * B) with hle | hge
  · rcases hR r with ⟨y, h1, h2⟩ | ⟨h1, h2⟩ | ⟨h1, h2⟩
    · have h3 := h y h1
      refine h3.trans (pow_le_pow_left₀ ?_ ?_ 2)
      · have := hsign r y hr0 h1
        linarith
      · rw [abs_of_nonneg hr0] at h2
        have := mul_le_mul_of_nonneg_left hle hu
        have := (abs_le.1 h2).2
        linarith
    · linarith
    · linarith
  · exact hd.trans (pow_le_pow_left₀ (by linarith) (by linarith) 2)

theorem wellWithin_convert (S : CamScale u η M s B) (hR : Rounds R u η M) {range : Fl} {tol : ℚ} (htol : 0 ≤ tol) (htolB : 10 * tol ≤ 9 * B)
    {o x : Fin 3 → ℚ} (hd : distSq o x ≤ (6 * B) ^ 2) (h : WellWithin (tol + 8 * (u * B)) range o x) : WellWithin tol (convert R range) o x := by
  have hB := S.B_pos; have hMB := S.M_B; have hηB := S.η_B; have hu := S.u_nonneg; have hu1 := S.u_le
  have huB := mul_nonneg hu hB.le
  have huB1 : 9000 * (u * B) ≤ B := by
    have := mul_le_mul_of_nonneg_right hu1 hB.le
    linarith
  intro y hy
  cases range with
  | nan => cases hy
  | pinf => cases hy
  | ninf => cases hy
  | fin r =>
    obtain ⟨h1, h2⟩ := h r rfl
    have hr0 : 0 ≤ r := by linarith
    have h3 : |y - r| ≤ u * r + η := by
      rcases hR r with ⟨y', e1, e2⟩ | ⟨e1, e2⟩ | ⟨e1, e2⟩
      · rw [show convert R (.fin r) = R r from rfl, e1] at hy
        cases hy
        rwa [abs_of_nonneg hr0] at e2
      · rw [show convert R (.fin r) = R r from rfl, e1] at hy
        cases hy
      · rw [show convert R (.fin r) = R r from rfl, e1] at hy
        cases hy
    have h4 := (abs_le.1 h3).1
    rcases le_total r (7 * B) with hle | hge
    · have := mul_le_mul_of_nonneg_left hle hu
      exact ⟨by linarith, h2.trans (pow_le_pow_left₀ (by linarith) (by linarith) 2)⟩
    · have := mul_le_mul_of_nonneg_right hu1 hr0
      exact ⟨by linarith, hd.trans (pow_le_pow_left₀ (by linarith) (by linarith) 2)⟩

/-- The range is a positive number that is not tiny, infinite or no number. -/
def DevRange (η B : ℚ) (range : Fl) : Prop := range ≠ .ninf ∧ ∀ r, range = .fin r → 0 < r ∧ 57 * (η * B) + 2 * η ≤ r

theorem DevRange.ok (S : CamScale u η M s B) (hR : Rounds R u η M) {range : Fl} (h : DevRange η B range) : RangeOk η B (convert R range) := by
  have hB := S.B_pos; have hMB := S.M_B; have hu := S.u_nonneg; have hu1 := S.u_le; have hη := S.η_nonneg
  have hηB := mul_nonneg hη hB.le
  obtain ⟨h1, h2⟩ := h
  cases range with
  | nan => exact ⟨by simp [convert], fun r hr => by cases hr⟩
  | pinf => exact ⟨by simp [convert], fun r hr => by cases hr⟩
  | ninf => exact absurd rfl h1
  | fin r =>
    obtain ⟨h3, h4⟩ := h2 r rfl
    show RangeOk η B (R r)
    rcases hR r with ⟨y, e1, e2⟩ | ⟨e1, e2⟩ | ⟨e1, e2⟩
    · rw [e1]
      refine ⟨by simp, ?_⟩
      rintro y' hy
      cases hy
      rw [abs_of_pos h3] at e2
      have := (abs_le.1 e2).1
      have := mul_le_mul_of_nonneg_right hu1 h3.le
      constructor <;> linarith
    · rw [e1]
      exact ⟨by simp, fun r hr => by cases hr⟩
    · linarith

/-! ### The edge of the cells -/

theorem nearBox_edge {tol s e d : ℚ} {n : ℚ} {i : IVec} {x : Fin 3 → ℚ} (hd : |s - e| ≤ d) (hi : ∀ a, 0 ≤ i a ∧ (i a : ℚ) + 1 ≤ n)
    (h : NearBox tol s i x) : NearBox (tol + n * d) e i x := by
  intro a
  obtain ⟨h1, h2⟩ := h a
  obtain ⟨i0, i1⟩ := hi a
  have i0' : (0 : ℚ) ≤ i a := by exact_mod_cast i0
  have d0 : 0 ≤ d := (abs_nonneg _).trans hd
  obtain ⟨d1, d2⟩ := abs_le.1 hd
  have k1 := mul_le_mul_of_nonneg_left d1 i0'
  have k2 := mul_le_mul_of_nonneg_left d2 (show (0 : ℚ) ≤ i a + 1 by linarith)
  have k3 := mul_le_mul_of_nonneg_right i1 d0
  constructor <;> nlinarith

theorem deepBox_edge {tol s e d : ℚ} {n : ℚ} {i : IVec} {x : Fin 3 → ℚ} (hd : |s - e| ≤ d) (hi : ∀ a, 0 ≤ i a ∧ (i a : ℚ) + 1 ≤ n)
    (h : DeepBox (tol + n * d) e i x) : DeepBox tol s i x := by
  intro a
  obtain ⟨h1, h2⟩ := h a
  obtain ⟨i0, i1⟩ := hi a
  have i0' : (0 : ℚ) ≤ i a := by exact_mod_cast i0
  have d0 : 0 ≤ d := (abs_nonneg _).trans hd
  obtain ⟨d1, d2⟩ := abs_le.1 hd
  have k1 := mul_le_mul_of_nonneg_left d2 i0'
  have k2 := mul_le_mul_of_nonneg_left d1 (show (0 : ℚ) ≤ i a + 1 by linarith)
  have k3 := mul_le_mul_of_nonneg_right i1 d0
  constructor <;> nlinarith

theorem deepInGrid_edge {tol s e d n : ℚ} {m : Fin 3 → ℕ} {x : Fin 3 → ℚ} (hd : |s - e| ≤ d) (hm : ∀ a, (m a : ℚ) ≤ n)
    (h : DeepInGrid (tol + n * d) e m x) : DeepInGrid tol s m x := by
  intro a
  obtain ⟨h1, h2⟩ := h a
  have m0 : (0 : ℚ) ≤ m a := by positivity
  have d0 : 0 ≤ d := (abs_nonneg _).trans hd
  have k1 := mul_le_mul_of_nonneg_left (abs_le.1 hd).1 m0
  have k3 := mul_le_mul_of_nonneg_right (hm a) d0
  have k4 := mul_nonneg m0 d0
  constructor <;> nlinarith

end

end VGT
