import Verif.Spec.Camera
import Verif.Props.RayEntry
import Mathlib.Analysis.Real.Sqrt

/-!
Rounding errors of the transformation of points and of the length of rays.
-/
set_option autoImplicit false

namespace VGT
open VGT.EDT VGT.Spec

/-! ### Plain numbers -/

theorem minkowski {v0 v1 v2 w0 w1 w2 A E : ℚ} (hA : 0 ≤ A) (hE : 0 ≤ E) (hv : v0 ^ 2 + v1 ^ 2 + v2 ^ 2 ≤ A ^ 2)
    (h0 : |w0| ≤ E) (h1 : |w1| ≤ E) (h2 : |w2| ≤ E) : (v0 + w0) ^ 2 + (v1 + w1) ^ 2 + (v2 + w2) ^ 2 ≤ (A + 2 * E) ^ 2 := by
  have hs : |v0| + |v1| + |v2| ≤ 2 * A := by
    refine abs_le_of_sq_le_sq' ?_ (by linarith) |>.2
    have e0 := sq_abs v0; have e1 := sq_abs v1; have e2 := sq_abs v2
    nlinarith [sq_nonneg (|v0| - |v1|), sq_nonneg (|v1| - |v2|), sq_nonneg (|v0| - |v2|), sq_nonneg A]
  have p : ∀ v w : ℚ, |w| ≤ E → v * w ≤ |v| * E := fun v w h => by
    calc v * w ≤ |v * w| := le_abs_self _
      _ = |v| * |w| := abs_mul _ _
      _ ≤ |v| * E := mul_le_mul_of_nonneg_left h (abs_nonneg _)
  have q : ∀ w : ℚ, |w| ≤ E → w ^ 2 ≤ E ^ 2 := fun w h => by
    rw [← sq_abs w]
    exact pow_le_pow_left₀ (abs_nonneg _) h 2
  have p0 := p v0 w0 h0; have p1 := p v1 w1 h1; have p2 := p v2 w2 h2
  have q0 := q w0 h0; have q1 := q w1 h1; have q2 := q w2 h2
  have hsE := mul_le_mul_of_nonneg_right hs hE
  nlinarith [sq_nonneg E]

theorem near_bound {x y δ X : ℚ} (h : |y - x| ≤ δ) (hx : |x| ≤ X) : |y| ≤ X + δ := by
  have := abs_sub_abs_le_abs_sub y x
  linarith

/-- A sum of four rounded products. -/
theorem transform_error {u η B a0 a1 a2 a3 m0 m1 m2 m3 s1 s2 s3 : ℚ} (hu : 0 ≤ u) (hu1 : 9000 * u ≤ 1) (hB : 0 ≤ B) (hη : η ≤ u * B)
    (h0 : |a0| ≤ 2 * B) (h1 : |a1| ≤ 2 * B) (h2 : |a2| ≤ 2 * B) (h3 : |a3| ≤ B)
    (e0 : |m0 - a0| ≤ u * |a0| + η) (e1 : |m1 - a1| ≤ u * |a1| + η) (e2 : |m2 - a2| ≤ u * |a2| + η) (e3 : |m3 - a3| ≤ u * |a3| + η)
    (f1 : |s1 - (m0 + m1)| ≤ u * |m0 + m1| + η) (f2 : |s2 - (s1 + m2)| ≤ u * |s1 + m2| + η)
    (f3 : |s3 - (s2 + m3)| ≤ u * |s2 + m3| + η) : |s3 - (a0 + a1 + a2 + a3)| ≤ 33 * (u * B) := by
  have huB : 0 ≤ u * B := mul_nonneg hu hB
  have huB' := mul_le_mul_of_nonneg_right hu1 hB
  have huu : u * (u * B) ≤ u * B / 9000 := by
    have := mul_le_mul_of_nonneg_right hu1 huB
    linarith
  have k0 := mul_le_mul_of_nonneg_left h0 hu
  have k1 := mul_le_mul_of_nonneg_left h1 hu
  have k2 := mul_le_mul_of_nonneg_left h2 hu
  have k3 := mul_le_mul_of_nonneg_left h3 hu
  have d0 : |m0 - a0| ≤ 3 * (u * B) := by linarith
  have d1 : |m1 - a1| ≤ 3 * (u * B) := by linarith
  have d2 : |m2 - a2| ≤ 3 * (u * B) := by linarith
  have d3 : |m3 - a3| ≤ 2 * (u * B) := by linarith
  have b1 : |(m0 + m1) - (a0 + a1)| ≤ 6 * (u * B) := by
    have := abs_add_le (m0 - a0) (m1 - a1)
    rw [show (m0 - a0) + (m1 - a1) = (m0 + m1) - (a0 + a1) by ring] at this
    linarith
  have c1 := near_bound b1 (abs_add_le a0 a1)
  have c1' := mul_le_mul_of_nonneg_left c1 hu
  have g1 : |s1 - (a0 + a1)| ≤ 12 * (u * B) := by
    have := abs_add_le (s1 - (m0 + m1)) ((m0 + m1) - (a0 + a1))
    rw [show (s1 - (m0 + m1)) + ((m0 + m1) - (a0 + a1)) = s1 - (a0 + a1) by ring] at this
    linarith
  have b2 : |(s1 + m2) - (a0 + a1 + a2)| ≤ 15 * (u * B) := by
    have := abs_add_le (s1 - (a0 + a1)) (m2 - a2)
    rw [show (s1 - (a0 + a1)) + (m2 - a2) = (s1 + m2) - (a0 + a1 + a2) by ring] at this
    linarith
  have z2 : |a0 + a1 + a2| ≤ 6 * B := by
    have := abs_add_le (a0 + a1) a2
    have := abs_add_le a0 a1
    linarith
  have c2' := mul_le_mul_of_nonneg_left (near_bound b2 z2) hu
  have g2 : |s2 - (a0 + a1 + a2)| ≤ 22 * (u * B) + u * B / 100 := by
    have := abs_add_le (s2 - (s1 + m2)) ((s1 + m2) - (a0 + a1 + a2))
    rw [show (s2 - (s1 + m2)) + ((s1 + m2) - (a0 + a1 + a2)) = s2 - (a0 + a1 + a2) by ring] at this
    linarith
  have b3 : |(s2 + m3) - (a0 + a1 + a2 + a3)| ≤ 24 * (u * B) + u * B / 100 := by
    have := abs_add_le (s2 - (a0 + a1 + a2)) (m3 - a3)
    rw [show (s2 - (a0 + a1 + a2)) + (m3 - a3) = (s2 + m3) - (a0 + a1 + a2 + a3) by ring] at this
    linarith
  have z3 : |a0 + a1 + a2 + a3| ≤ 7 * B := by
    have := abs_add_le (a0 + a1 + a2) a3
    linarith
  have c3' := mul_le_mul_of_nonneg_left (near_bound b3 z3) hu
  have := abs_add_le (s3 - (s2 + m3)) ((s2 + m3) - (a0 + a1 + a2 + a3))
  rw [show (s3 - (s2 + m3)) + ((s2 + m3) - (a0 + a1 + a2 + a3)) = s3 - (a0 + a1 + a2 + a3) by ring] at this
  linarith

/-- A sum of three rounded squares and its rounded root. -/
theorem root_error {u η q0 q1 q2 m0 m1 m2 t q y2 : ℚ} (hu : 0 ≤ u) (hu1 : 9000 * u ≤ 1) (hη : 0 ≤ η)
    (h0 : 0 ≤ q0) (h1 : 0 ≤ q1) (h2 : 0 ≤ q2)
    (e0 : |m0 - q0| ≤ u * q0 + η) (e1 : |m1 - q1| ≤ u * q1 + η) (e2 : |m2 - q2| ≤ u * q2 + η)
    (m0n : 0 ≤ m0) (m1n : 0 ≤ m1) (m2n : 0 ≤ m2) (tn : 0 ≤ t)
    (f1 : |t - (m0 + m1)| ≤ u * (m0 + m1) + η) (f2 : |q - (t + m2)| ≤ u * (t + m2) + η) (hy : |y2 - q| ≤ 3 * (u * q) + η) :
    |y2 - (q0 + q1 + q2)| ≤ 8 * (u * (q0 + q1 + q2)) + 10 * η := by
  rw [abs_le] at *
  have k0 := mul_nonneg hu h0; have k1 := mul_nonneg hu h1; have k2 := mul_nonneg hu h2
  have uu : ∀ x, 0 ≤ x → 9000 * (u * x) ≤ x := fun x hx => by
    have := mul_le_mul_of_nonneg_right hu1 hx
    linarith
  have a0 := uu _ k0; have a1 := uu _ k1; have a2 := uu _ k2
  have b := uu _ hη
  -- `u` times the bounds
  have c1 := mul_le_mul_of_nonneg_left e0.2 hu
  have c2 := mul_le_mul_of_nonneg_left e1.2 hu
  have c3 := mul_le_mul_of_nonneg_left e2.2 hu
  have c4 := mul_le_mul_of_nonneg_left f1.2 hu
  have c5 := mul_le_mul_of_nonneg_left f2.2 hu
  have d0 := uu _ m0n; have d1 := uu _ m1n; have d2 := uu _ m2n; have d3 := uu _ tn
  have n0 := mul_nonneg hu m0n; have n1 := mul_nonneg hu m1n; have n2 := mul_nonneg hu m2n; have n3 := mul_nonneg hu tn
  have g0 := uu _ n0; have g1 := uu _ n1; have g2 := uu _ n2; have g3 := uu _ n3
  constructor <;> linarith

/-- From the error of the square to that of the length, upwards. -/
theorem length_upper {u η B S y : ℚ} (hu : 0 ≤ u) (hu1 : 9000 * u ≤ 1) (hη : 0 ≤ η) (hB : 0 ≤ B) (hηB : η ≤ (u * B) ^ 2) (hS : 0 ≤ S) (hy : 0 ≤ y)
    (hyB : y ≤ 14 * B) (h : |y ^ 2 - S| ≤ 8 * (u * S) + 10 * η) : S ≤ (y + 75 * (u * B)) ^ 2 := by
  have h1 := (abs_le.1 h).1
  have huS := mul_nonneg hu hS
  have h2 : S ≤ y ^ 2 + 9 * (u * y ^ 2) + 11 * η := by
    have := mul_le_mul_of_nonneg_left (show S ≤ y ^ 2 + (8 * (u * S) + 10 * η) by linarith) hu
    have k := mul_le_mul_of_nonneg_right hu1 huS
    have k' := mul_le_mul_of_nonneg_right hu1 hη
    linarith
  have huB := mul_nonneg hu hB
  have h3 : u * y ^ 2 ≤ 14 * (u * B) * y := by
    have := mul_le_mul_of_nonneg_left hyB (mul_nonneg hu hy)
    nlinarith
  have h4 := mul_nonneg huB hy
  have h5 := sq_nonneg (u * B)
  nlinarith

/-- Downwards, for the part of the ray up to `A`. -/
theorem length_lower {u η B S y A τ : ℚ} (hu : 0 ≤ u) (hu1 : 9000 * u ≤ 1) (hη : 0 ≤ η) (hB : 0 ≤ B) (hηB : η ≤ (u * B) ^ 2) (hS : 0 ≤ S)
    (hτ0 : 0 ≤ τ) (hτ1 : τ ≤ 1) (hA : 0 ≤ A) (hA1 : A ≤ 15 * B) (hτ : τ ^ 2 * S ≤ A ^ 2)
    (h : |y ^ 2 - S| ≤ 8 * (u * S) + 10 * η) : τ * y ≤ A + 64 * (u * B) := by
  have huB := mul_nonneg hu hB
  have h1 := (abs_le.1 h).2
  have hτ2 : τ ^ 2 ≤ 1 := pow_le_one₀ hτ0 hτ1
  have h2 : τ ^ 2 * y ^ 2 ≤ A ^ 2 + 8 * (u * A ^ 2) + 10 * η := by
    have k := mul_le_mul_of_nonneg_left (show y ^ 2 ≤ S + 8 * (u * S) + 10 * η by linarith) (sq_nonneg τ)
    have k1 := mul_le_mul_of_nonneg_left hτ hu
    have k2 := mul_le_mul_of_nonneg_right hτ2 hη
    nlinarith
  have h3 : u * A ^ 2 ≤ 15 * (u * B) * A := by
    have := mul_le_mul_of_nonneg_left hA1 (mul_nonneg hu hA)
    nlinarith
  refine abs_le_of_sq_le_sq' ?_ (by positivity) |>.2
  have h4 := mul_nonneg huB hA
  have h5 := sq_nonneg (u * B)
  nlinarith

/-! ### Machine numbers -/

/-- Coordinates up to `B` are far from the ends of the range of machine numbers. -/
structure CamScale (u η M s B : ℚ) : Prop where
  u_nonneg : 0 ≤ u
  u_le : 9000 * u ≤ 1
  η_nonneg : 0 ≤ η
  B_pos : 0 < B
  η_B : η ≤ u * B
  η_sq : η ≤ (u * B) ^ 2
  M_B : 200 * B ≤ M
  M_sq : 200 * B ^ 2 ≤ M
  reach : 21 * (η * B) ≤ u * s

/-- Rounding keeps the sign. -/
def KeepsSign (R : ℚ → Fl) : Prop := ∀ q y, 0 ≤ q → R q = .fin y → 0 ≤ y

/-- A square root up to rounding. -/
def SqrtRounds (sqrt : Fl → Fl) (u η : ℚ) : Prop :=
  ∀ q, 0 ≤ q → ∃ y, sqrt (.fin q) = .fin y ∧ 0 ≤ y ∧ |y ^ 2 - q| ≤ 3 * (u * q) + η

section
variable {R : ℚ → Fl} {u η M s n B : ℚ} {g : RayGrid Fl} {c : Camera3}

theorem rounds_fin (hR : Rounds R u η M) {x : ℚ} (hx : |x| ≤ M) : ∃ y, R x = .fin y ∧ |y - x| ≤ u * |x| + η := by
  have := abs_le.1 hx
  rcases hR x with h | ⟨-, h⟩ | ⟨-, h⟩
  · exact h
  · exfalso; linarith
  · exfalso; linarith

theorem prod_le {a b B : ℚ} (ha : |a| ≤ 2) (hb : |b| ≤ B) : |a * b| ≤ 2 * B := by
  rw [abs_mul]
  exact mul_le_mul ha hb (abs_nonneg _) (by norm_num)

/-- The computed position of a point. -/
theorem transform_near (S : CamScale u η M s B) (hR : Rounds R u η M) (bits : ℕ) (hc : c.Within B) {x : Fin 3 → ℚ} (hx : ∀ a, |x a| ≤ B) :
    ∃ p : Fin 3 → ℚ, cpuTransform (ieee R bits) c.cloud.tf (fun a => .fin (x a)) = (fun a => .fin (p a)) ∧
      ∀ a, |p a - c.place x a| ≤ 33 * (u * B) := by
  have key : ∀ a, ∃ p : ℚ, cpuTransform (ieee R bits) c.cloud.tf (fun a => .fin (x a)) a = .fin p ∧ |p - c.place x a| ≤ 33 * (u * B) := by
    intro a
    obtain ⟨t0, t1, t2⟩ := hc.turn a
    have hB := S.B_pos; have hMB := S.M_B; have hηB := S.η_B; have hu := S.u_nonneg; have hu1 := S.u_le
    have huB := mul_nonneg hu hB.le
    have huB1 : 9000 * (u * B) ≤ B := by
      have := mul_le_mul_of_nonneg_right hu1 hB.le
      linarith
    have b0 := prod_le t0 (hx 0); have b1 := prod_le t1 (hx 1); have b2 := prod_le t2 (hx 2)
    have b3 := hc.shift a
    have k : ∀ z : ℚ, |z| ≤ 2 * B → u * |z| + η ≤ 3 * (u * B) := fun z hz => by
      have := mul_le_mul_of_nonneg_left hz hu
      linarith
    obtain ⟨m0, r0, e0⟩ := rounds_fin hR (x := c.pose a * x 0) (by linarith)
    obtain ⟨m1, r1, e1⟩ := rounds_fin hR (x := c.pose (4 + a) * x 1) (by linarith)
    obtain ⟨m2, r2, e2⟩ := rounds_fin hR (x := c.pose (8 + a) * x 2) (by linarith)
    obtain ⟨m3, r3, e3⟩ := rounds_fin hR (x := c.pose (12 + a) * 1) (by rw [mul_one]; linarith)
    rw [mul_one] at e3
    have n0 := near_bound (e0.trans (k _ b0)) b0
    have n1 := near_bound (e1.trans (k _ b1)) b1
    have n2 := near_bound (e2.trans (k _ b2)) b2
    have n3 := near_bound (e3.trans (k _ (by linarith))) b3
    have v1 : |m0 + m1| ≤ 5 * B := (abs_add_le _ _).trans (by linarith)
    obtain ⟨s1, q1, f1⟩ := rounds_fin hR (x := m0 + m1) (by linarith)
    have w1 := mul_le_mul_of_nonneg_left v1 hu
    have v1' := near_bound (f1.trans (show _ ≤ B by linarith)) v1
    have v2 : |s1 + m2| ≤ 9 * B := (abs_add_le _ _).trans (by linarith)
    obtain ⟨s2, q2, f2⟩ := rounds_fin hR (x := s1 + m2) (by linarith)
    have w2 := mul_le_mul_of_nonneg_left v2 hu
    have v2' := near_bound (f2.trans (show _ ≤ B by linarith)) v2
    have v3 : |s2 + m3| ≤ 12 * B := (abs_add_le _ _).trans (by linarith)
    obtain ⟨s3, q3, f3⟩ := rounds_fin hR (x := s2 + m3) (by linarith)
    refine ⟨s3, ?_, transform_error hu hu1 hB.le hηB b0 b1 b2 b3 e0 e1 e2 e3 f1 f2 f3⟩
    show Fl.addR R (Fl.addR R (Fl.addR R (R (c.pose a * x 0)) (R (c.pose (4 + a) * x 1))) (R (c.pose (8 + a) * x 2)))
      (R (c.pose (12 + a) * 1)) = _
    rw [r0, r1, r2, r3]
    show Fl.addR R (Fl.addR R (R (m0 + m1)) _) _ = _
    rw [q1]
    show Fl.addR R (R (s1 + m2)) _ = _
    rw [q2]
    exact q3
  choose p h1 h2 using key
  exact ⟨p, funext h1, h2⟩

theorem place_zero : c.place (fun _ => 0) = c.sensor := by
  funext a
  unfold Camera3.place Camera3.sensor
  ring

/-- The computed position of the sensor. -/
theorem sensor_near (S : CamScale u η M s B) (hR : Rounds R u η M) (bits : ℕ) (hc : c.Within B) :
    ∃ o : Fin 3 → ℚ, cpuOrigin (ieee R bits) c.cloud.tf = (fun a => .fin (o a)) ∧ ∀ a, |o a - c.sensor a| ≤ 33 * (u * B) := by
  have := transform_near S hR bits hc (x := fun _ => 0) (fun a => by rw [abs_zero]; exact S.B_pos.le)
  rw [place_zero] at this
  exact this

/-- How far apart sensor and point are. -/
theorem span_le (S : CamScale u η M s B) (hc : c.Within B) {x o p : Fin 3 → ℚ} (hx : ∀ a, |x a| ≤ B)
    (ho : ∀ a, |o a - c.sensor a| ≤ 33 * (u * B)) (hp : ∀ a, |p a - c.place x a| ≤ 33 * (u * B)) (a : Fin 3) :
    |(p a - o a) - (c.place x a - c.sensor a)| ≤ 66 * (u * B) ∧ |p a - o a| ≤ 7 * B := by
  have hB := S.B_pos; have hu := S.u_nonneg; have hu1 := S.u_le
  have huB1 : 9000 * (u * B) ≤ B := by
    have := mul_le_mul_of_nonneg_right hu1 hB.le
    linarith
  have h1 : |(p a - o a) - (c.place x a - c.sensor a)| ≤ 66 * (u * B) := by
    have := abs_sub (p a - c.place x a) (o a - c.sensor a)
    have := ho a; have := hp a
    rw [show (p a - o a) - (c.place x a - c.sensor a) = (p a - c.place x a) - (o a - c.sensor a) by ring]
    linarith
  refine ⟨h1, ?_⟩
  obtain ⟨t0, t1, t2⟩ := hc.turn a
  have b0 := prod_le t0 (hx 0); have b1 := prod_le t1 (hx 1); have b2 := prod_le t2 (hx 2)
  have h2 : |c.place x a - c.sensor a| ≤ 6 * B := by
    rw [show c.place x a - c.sensor a = c.pose a * x 0 + c.pose (4 + a) * x 1 + c.pose (8 + a) * x 2 by
      unfold Camera3.place Camera3.sensor; ring]
    have := abs_add_le (c.pose a * x 0 + c.pose (4 + a) * x 1) (c.pose (8 + a) * x 2)
    have := abs_add_le (c.pose a * x 0) (c.pose (4 + a) * x 1)
    linarith
  have := near_bound h1 h2
  linarith

/-- The computed length of the ray. -/
theorem length_near (S : CamScale u η M s B) (hR : Rounds R u η M) (hsign : KeepsSign R) (bits : ℕ) {sqrt : Fl → Fl}
    (hsqrt : SqrtRounds sqrt u η) {o p D : Fin 3 → ℚ} (hD : ∀ a, |(p a - o a) - D a| ≤ 66 * (u * B)) (hpo : ∀ a, |p a - o a| ≤ 7 * B) :
    ∃ len, flLength (ieee R bits) sqrt (fun a => .fin (o a)) (fun a => .fin (p a)) = .fin len ∧ 0 ≤ len ∧ len ≤ 14 * B ∧
      (D 0) ^ 2 + (D 1) ^ 2 + (D 2) ^ 2 ≤ (len + 223 * (u * B)) ^ 2 ∧
      ∀ τ A, 0 ≤ τ → τ ≤ 1 → 0 ≤ A → A ≤ 14 * B → τ ^ 2 * ((D 0) ^ 2 + (D 1) ^ 2 + (D 2) ^ 2) ≤ A ^ 2 → τ * len ≤ A + 212 * (u * B) := by
  have hB := S.B_pos; have hu := S.u_nonneg; have hu1 := S.u_le; have hη := S.η_nonneg; have hηB := S.η_B; have hηsq := S.η_sq
  have hMB := S.M_B; have hMsq := S.M_sq
  have huB := mul_nonneg hu hB.le
  have huB1 : 9000 * (u * B) ≤ B := by
    have := mul_le_mul_of_nonneg_right hu1 hB.le
    linarith
  have hr : ∀ a, ∃ r, R (p a - o a) = .fin r ∧ |r - D a| ≤ 74 * (u * B) ∧ |r| ≤ 71 / 10 * B := by
    intro a
    obtain ⟨r, e1, e2⟩ := rounds_fin hR (x := p a - o a) (by linarith [hpo a])
    have e3 := mul_le_mul_of_nonneg_left (hpo a) hu
    have e4 : |r - (p a - o a)| ≤ 8 * (u * B) := by linarith
    refine ⟨r, e1, ?_, (near_bound e4 (hpo a)).trans (by linarith)⟩
    have := abs_add_le (r - (p a - o a)) ((p a - o a) - D a)
    rw [show (r - (p a - o a)) + ((p a - o a) - D a) = r - D a by ring] at this
    linarith [hD a]
  choose r hr1 hr2 hr3 using hr
  have hsq : ∀ a, r a * r a ≤ 5041 / 100 * B ^ 2 := fun a => by
    have := pow_le_pow_left₀ (abs_nonneg _) (hr3 a) 2
    rw [sq_abs] at this
    nlinarith
  have hB2 : 0 ≤ B ^ 2 := sq_nonneg B
  have huu : (u * B) ^ 2 ≤ 1 / 9000 * B ^ 2 := by nlinarith
  have hm : ∀ a, ∃ m, R (r a * r a) = .fin m ∧ 0 ≤ m ∧ |m - r a * r a| ≤ u * (r a * r a) + η ∧ m ≤ 51 * B ^ 2 := by
    intro a
    have h0 := mul_self_nonneg (r a)
    obtain ⟨m, e1, e2⟩ := rounds_fin hR (x := r a * r a) (by rw [abs_of_nonneg h0]; linarith [hsq a])
    rw [abs_of_nonneg h0] at e2
    refine ⟨m, e1, hsign _ _ h0 e1, e2, ?_⟩
    have k := mul_le_mul_of_nonneg_right hu1 h0
    have := (abs_le.1 e2).2
    linarith [hsq a]
  choose m hm1 hm2 hm3 hm4 using hm
  obtain ⟨t, ht1, ht2⟩ := rounds_fin hR (x := m 0 + m 1) (by rw [abs_of_nonneg (add_nonneg (hm2 0) (hm2 1))]; linarith [hm4 0, hm4 1])
  rw [abs_of_nonneg (add_nonneg (hm2 0) (hm2 1))] at ht2
  have ht0 := hsign _ _ (add_nonneg (hm2 0) (hm2 1)) ht1
  have ht3 : t ≤ 103 * B ^ 2 := by
    have k := mul_le_mul_of_nonneg_right hu1 (add_nonneg (hm2 0) (hm2 1))
    have := (abs_le.1 ht2).2
    linarith [hm4 0, hm4 1]
  obtain ⟨q, hq1, hq2⟩ := rounds_fin hR (x := t + m 2) (by rw [abs_of_nonneg (add_nonneg ht0 (hm2 2))]; linarith [hm4 2])
  rw [abs_of_nonneg (add_nonneg ht0 (hm2 2))] at hq2
  have hq0 := hsign _ _ (add_nonneg ht0 (hm2 2)) hq1
  obtain ⟨len, hl1, hl0, hl2⟩ := hsqrt q hq0
  have herr := root_error hu hu1 hη (mul_self_nonneg (r 0)) (mul_self_nonneg (r 1)) (mul_self_nonneg (r 2)) (hm3 0) (hm3 1) (hm3 2)
    (hm2 0) (hm2 1) (hm2 2) ht0 ht2 hq2 hl2
  have hSum0 : 0 ≤ r 0 * r 0 + r 1 * r 1 + r 2 * r 2 := add_nonneg (add_nonneg (mul_self_nonneg _) (mul_self_nonneg _)) (mul_self_nonneg _)
  have hSumB : r 0 * r 0 + r 1 * r 1 + r 2 * r 2 ≤ 152 * B ^ 2 := by linarith [hsq 0, hsq 1, hsq 2]
  have hlen14 : len ≤ 14 * B := by
    refine abs_le_of_sq_le_sq' ?_ (by positivity) |>.2
    have k := mul_le_mul_of_nonneg_right hu1 hSum0
    have := (abs_le.1 herr).2
    nlinarith
  have hup := length_upper hu hu1 hη hB.le hηsq hSum0 hl0 hlen14 herr
  refine ⟨len, ?_, hl0, hlen14, ?_, ?_⟩
  · show sqrt (Fl.addR R (Fl.addR R (Fl.mulR R (R (p 0 - o 0)) (R (p 0 - o 0))) (Fl.mulR R (R (p 1 - o 1)) (R (p 1 - o 1))))
      (Fl.mulR R (R (p 2 - o 2)) (R (p 2 - o 2)))) = _
    rw [hr1 0, hr1 1, hr1 2]
    show sqrt (Fl.addR R (Fl.addR R (R (r 0 * r 0)) (R (r 1 * r 1))) (R (r 2 * r 2))) = _
    rw [hm1 0, hm1 1, hm1 2]
    show sqrt (Fl.addR R (R (m 0 + m 1)) _) = _
    rw [ht1]
    show sqrt (R (t + m 2)) = _
    rw [hq1, hl1]
  · have hw : ∀ a, |D a - r a| ≤ 74 * (u * B) := fun a => by rw [abs_sub_comm]; exact hr2 a
    have := minkowski (v0 := r 0) (v1 := r 1) (v2 := r 2) (A := len + 75 * (u * B)) (by positivity) (by positivity)
      (by rw [sq, sq, sq]; exact hup) (hw 0) (hw 1) (hw 2)
    rw [add_sub_cancel, add_sub_cancel, add_sub_cancel] at this
    rw [show len + 223 * (u * B) = len + 75 * (u * B) + 2 * (74 * (u * B)) by ring]
    exact this
  · intro τ A hτ0 hτ1 hA hA14 hτ
    have hw : ∀ a, |τ * r a - τ * D a| ≤ 74 * (u * B) := fun a => by
      rw [← mul_sub, abs_mul, abs_of_nonneg hτ0]
      have := mul_le_mul_of_nonneg_right hτ1 (abs_nonneg (r a - D a))
      linarith [hr2 a]
    have := minkowski (v0 := τ * D 0) (v1 := τ * D 1) (v2 := τ * D 2) (A := A) hA (by positivity)
      (by rw [mul_pow, mul_pow, mul_pow]; linarith) (hw 0) (hw 1) (hw 2)
    rw [add_sub_cancel, add_sub_cancel, add_sub_cancel] at this
    have := length_lower (A := A + 2 * (74 * (u * B))) hu hu1 hη hB.le hηsq hSum0 hτ0 hτ1 (by positivity) (by linarith)
      (by rw [mul_pow, mul_pow, mul_pow] at this; linarith) herr
    linarith

end

end VGT
