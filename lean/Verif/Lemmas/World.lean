import Verif.Spec.World
import Verif.Spec.Reaches
import Verif.Spec.Pipeline
import Verif.Props.CameraWide
import Verif.Props.CameraDouble

/-!
Changes of cameras: what the rounding of a product of poses does to places, boxes and ranges.
-/
set_option autoImplicit false

namespace VGT
open VGT.EDT VGT.Spec

/-! ### Places that are near each other -/

theorem distSq_shift {o x o' x' : Fin 3 → ℚ} {ε D : ℚ} (hD : 0 ≤ D) (h : ∀ a, |(x' a - o' a) - (x a - o a)| ≤ ε) (hd : distSq o x ≤ D ^ 2) :
    distSq o' x' ≤ (D + 2 * ε) ^ 2 := by
  have hε : 0 ≤ ε := (abs_nonneg _).trans (h 0)
  have key : ∀ a, (x' a - o' a) ^ 2 ≤ (x a - o a) ^ 2 + 2 * ε * |x a - o a| + ε ^ 2 := by
    intro a
    have h1 : |x' a - o' a| ≤ |x a - o a| + ε := by
      have := abs_sub_abs_le_abs_sub (x' a - o' a) (x a - o a)
      linarith [h a]
    have h2 := pow_le_pow_left₀ (abs_nonneg _) h1 2
    rw [sq_abs] at h2
    have h3 : (|x a - o a| + ε) ^ 2 = (x a - o a) ^ 2 + 2 * ε * |x a - o a| + ε ^ 2 := by
      rw [add_sq, sq_abs]; ring
    linarith
  have h0 := key 0; have h1 := key 1; have h2 := key 2
  have hsum : |x 0 - o 0| + |x 1 - o 1| + |x 2 - o 2| ≤ 2 * D := by
    refine abs_le_of_sq_le_sq' ?_ (by linarith) |>.2
    have e0 := sq_abs (x 0 - o 0); have e1 := sq_abs (x 1 - o 1); have e2 := sq_abs (x 2 - o 2)
    unfold distSq at hd
    nlinarith [sq_nonneg (|x 0 - o 0| - |x 1 - o 1|), sq_nonneg (|x 1 - o 1| - |x 2 - o 2|), sq_nonneg (|x 0 - o 0| - |x 2 - o 2|)]
  have hp := mul_le_mul_of_nonneg_left hsum hε
  unfold distSq at hd ⊢
  nlinarith [sq_nonneg ε]

theorem nearBox_shift {tol tol' ε s : ℚ} {i : Fin 3 → ℤ} {x x' : Fin 3 → ℚ} (hx : ∀ a, |x' a - x a| ≤ ε) (ht : tol + ε ≤ tol')
    (h : NearBox tol s i x) : NearBox tol' s i x' := fun a => by
  have h1 := abs_le.1 (hx a)
  obtain ⟨h2, h3⟩ := h a
  constructor <;> linarith

theorem deepBox_shift {tol tol' ε s : ℚ} {i : Fin 3 → ℤ} {x x' : Fin 3 → ℚ} (hx : ∀ a, |x' a - x a| ≤ ε) (ht : tol + ε ≤ tol')
    (h : DeepBox tol' s i x') : DeepBox tol s i x := fun a => by
  have h1 := abs_le.1 (hx a)
  obtain ⟨h2, h3⟩ := h a
  constructor <;> linarith

theorem deepInGrid_shift {tol tol' ε s : ℚ} {n : Fin 3 → ℕ} {x x' : Fin 3 → ℚ} (hx : ∀ a, |x' a - x a| ≤ ε) (ht : tol + ε ≤ tol')
    (h : DeepInGrid tol' s n x') : DeepInGrid tol s n x := fun a => by
  have h1 := abs_le.1 (hx a)
  obtain ⟨h2, h3⟩ := h a
  constructor <;> linarith

theorem notBeyond_shift {tol tol' ε : ℚ} {range : Fl} {o x o' x' : Fin 3 → ℚ} (hr : ∀ r, range = .fin r → 0 ≤ r) (h0 : 0 ≤ tol)
    (hx : ∀ a, |(x' a - o' a) - (x a - o a)| ≤ ε) (ht : tol + 2 * ε ≤ tol') (h : NotBeyond tol range o x) : NotBeyond tol' range o' x' := by
  intro r hrr
  have hr0 := hr r hrr
  have hε : 0 ≤ ε := (abs_nonneg _).trans (hx 0)
  refine (distSq_shift (by linarith) hx (h r hrr)).trans (pow_le_pow_left₀ (by linarith) (by linarith) 2)

theorem wellWithin_shift {tol tol' ε : ℚ} {range : Fl} {o x o' x' : Fin 3 → ℚ} (hx : ∀ a, |(x' a - o' a) - (x a - o a)| ≤ ε)
    (ht : tol + 2 * ε ≤ tol') (h : WellWithin tol' range o' x') : WellWithin tol range o x := by
  intro r hrr
  obtain ⟨h1, h2⟩ := h r hrr
  have hε : 0 ≤ ε := (abs_nonneg _).trans (hx 0)
  refine ⟨by linarith, (distSq_shift (ε := ε) (by linarith) (fun a => ?_) h2).trans (pow_le_pow_left₀ (by linarith) (by linarith) 2)⟩
  rw [abs_sub_comm]
  exact hx a

/-- Two segments that are near each other: ends within `δ`, and the ends relative to the beginnings within `ε`. -/
structure Beside (δ ε : ℚ) (o p o' p' : Fin 3 → ℚ) : Prop where
  start : ∀ a, |o' a - o a| ≤ δ
  stop : ∀ a, |p' a - p a| ≤ δ
  way : ∀ a, |(p' a - o' a) - (p a - o a)| ≤ ε

theorem Beside.onSeg {δ ε τ : ℚ} {o p o' p' : Fin 3 → ℚ} (h : Beside δ ε o p o' p') (h0 : 0 ≤ τ) (h1 : τ ≤ 1) :
    Beside δ ε o (onSeg o p τ) o' (onSeg o' p' τ) where
  start := h.start
  stop := fun a => by
    have e : VGT.Spec.onSeg o' p' τ a - VGT.Spec.onSeg o p τ a = (1 - τ) * (o' a - o a) + τ * (p' a - p a) := by unfold VGT.Spec.onSeg; ring
    rw [e]
    refine (abs_add_le _ _).trans ?_
    rw [abs_mul, abs_mul, abs_of_nonneg h0, abs_of_nonneg (by linarith : (0 : ℚ) ≤ 1 - τ)]
    have k1 := mul_le_mul_of_nonneg_left (h.start a) (by linarith : (0 : ℚ) ≤ 1 - τ)
    have k2 := mul_le_mul_of_nonneg_left (h.stop a) h0
    linarith
  way := fun a => by
    have e : (VGT.Spec.onSeg o' p' τ a - o' a) - (VGT.Spec.onSeg o p τ a - o a) = τ * ((p' a - o' a) - (p a - o a)) := by unfold VGT.Spec.onSeg; ring
    rw [e, abs_mul, abs_of_nonneg h0]
    have := h.way a
    have := abs_nonneg ((p' a - o' a) - (p a - o a))
    nlinarith

section
variable {δ ε tol tol' s : ℚ} {o p o' p' : Fin 3 → ℚ} {range : Fl} {n : Fin 3 → ℕ} {i : Fin 3 → ℤ}

theorem seenNear_shift (H : Beside δ ε o p o' p') (hr : ∀ r, range = .fin r → 0 ≤ r) (h0 : 0 ≤ tol) (h1 : tol + δ ≤ tol')
    (h2 : tol + 2 * ε ≤ tol') (h : SeenNear tol s range o p i) : SeenNear tol' s range o' p' i := by
  obtain ⟨τ, t0, t1, a, b⟩ := h
  have K := H.onSeg t0 t1
  exact ⟨τ, t0, t1, nearBox_shift K.stop h1 a, notBeyond_shift hr h0 K.way h2 b⟩

theorem seenDeep_shift (H : Beside δ ε o p o' p') (h1 : tol + δ ≤ tol') (h2 : tol + 2 * ε ≤ tol')
    (h : SeenDeep tol' s range o' p' i) : SeenDeep tol s range o p i := by
  obtain ⟨τ, t0, t1, a, b⟩ := h
  have K := H.onSeg t0 t1
  exact ⟨τ, t0, t1, deepBox_shift K.stop h1 a, wellWithin_shift K.way h2 b⟩

theorem notShort_shift (H : Beside δ ε o p o' p') (h1 : tol + δ ≤ tol') (h2 : tol + ε ≤ tol') (h : NotShort tol' s n o' p') :
    NotShort tol s n o p := fun a => by
  have k1 := abs_le.1 (H.start a); have k2 := abs_le.1 (H.stop a); have k3 := abs_le.1 (H.way a)
  obtain ⟨a1, a2⟩ := h a
  constructor
  · rcases a1 with a1 | a1 | a1
    · exact .inl (by linarith)
    · exact .inr (.inl (by linarith))
    · exact .inr (.inr (by linarith))
  · rcases a2 with a1 | a1 | a1
    · exact .inl (by linarith)
    · exact .inr (.inl (by linarith))
    · exact .inr (.inr (by linarith))

theorem reaches_shift (H : Beside δ ε o p o' p') (hε : 0 ≤ ε) (h1 : tol + δ ≤ tol') (h2 : tol + 2 * ε ≤ tol')
    (h : Reaches tol' s n range o' p') : Reaches tol s n range o p := by
  obtain ⟨τ, t0, t1, a, b⟩ := h
  have K := H.onSeg t0 t1
  exact ⟨τ, t0, t1, wellWithin_shift K.way h2 a, notShort_shift K h1 (by linarith) b⟩

end

/-! ### The product of two poses -/

/-- The value of a finite number. -/
def Fl.val : Fl → ℚ
  | .fin q => q
  | _ => 0

/-- Rounding of the sum of three products. -/
theorem sum3_near {R : ℚ → Fl} {u η M Y : ℚ} (hR : Rounds R u η M) (bits : ℕ) (hu : 0 ≤ u) (hu1 : 9000 * u ≤ 1) (hY : 0 ≤ Y)
    (hηY : 100 * η ≤ u * Y) (hM : 8 * Y ≤ M) (late : Bool) {x y : Fin 3 → ℚ} (hx : ∀ a, |x a| ≤ 1001 / 1000) (hy : ∀ a, |y a| ≤ Y) :
    ∃ z, sum3 (ieee R bits) late (Fl.mulR R (.fin (x 0)) (.fin (y 0))) (Fl.mulR R (.fin (x 1)) (.fin (y 1)))
        (Fl.mulR R (.fin (x 2)) (.fin (y 2))) = .fin z ∧ |z - (x 0 * y 0 + x 1 * y 1 + x 2 * y 2)| ≤ 9 * (u * Y) := by
  have huY := mul_nonneg hu hY
  have huY1 : 9000 * (u * Y) ≤ Y := by
    have := mul_le_mul_of_nonneg_right hu1 hY
    linarith
  have prod : ∀ a, |x a * y a| ≤ 1001 / 1000 * Y := fun a => by
    rw [abs_mul]
    exact mul_le_mul (hx a) (hy a) (abs_nonneg _) (by norm_num)
  have one : ∀ a, ∃ m, Fl.mulR R (.fin (x a)) (.fin (y a)) = .fin m ∧ |m - x a * y a| ≤ 102 / 100 * (u * Y) ∧ |m| ≤ 1002 / 1000 * Y := fun a => by
    obtain ⟨m, h1, h2⟩ := rounds_fin hR (x := x a * y a) (by linarith [prod a])
    have k := mul_le_mul_of_nonneg_left (prod a) hu
    have h3 : |m - x a * y a| ≤ 102 / 100 * (u * Y) := by linarith
    exact ⟨m, h1, h3, (near_bound h3 (prod a)).trans (by linarith)⟩
  obtain ⟨m0, e0, d0, b0⟩ := one 0
  obtain ⟨m1, e1, d1, b1⟩ := one 1
  obtain ⟨m2, e2, d2, b2⟩ := one 2
  have two : ∀ p q : ℚ, |p| ≤ 1002 / 1000 * Y → |q| ≤ 1002 / 1000 * Y → ∃ z, R (p + q) = .fin z ∧ |z - (p + q)| ≤ 203 / 100 * (u * Y) ∧
      |z| ≤ 201 / 100 * Y := fun p q hp hq => by
    have hpq : |p + q| ≤ 2004 / 1000 * Y := (abs_add_le _ _).trans (by linarith)
    obtain ⟨z, h1, h2⟩ := rounds_fin hR (x := p + q) (by linarith)
    have k := mul_le_mul_of_nonneg_left hpq hu
    have h3 : |z - (p + q)| ≤ 203 / 100 * (u * Y) := by linarith
    exact ⟨z, h1, h3, (near_bound h3 hpq).trans (by linarith)⟩
  have three : ∀ p q : ℚ, |p| ≤ 201 / 100 * Y → |q| ≤ 201 / 100 * Y → ∃ z, R (p + q) = .fin z ∧ |z - (p + q)| ≤ (u * |p + q| + η) := fun p q hp hq => by
    have hpq : |p + q| ≤ 402 / 100 * Y := (abs_add_le _ _).trans (by linarith)
    exact rounds_fin hR (x := p + q) (by linarith)
  rw [e0, e1, e2]
  cases late with
  | false =>
    obtain ⟨z1, f1, g1, g2⟩ := two m0 m1 b0 b1
    obtain ⟨z, f2, g3⟩ := three z1 m2 g2 (by linarith)
    refine ⟨z, ?_, ?_⟩
    · show Fl.addR R (R (m0 + m1)) (.fin m2) = _
      rw [f1]
      exact f2
    · have hz : |z1 + m2| ≤ 302 / 100 * Y := (abs_add_le _ _).trans (by linarith)
      have k := mul_le_mul_of_nonneg_left hz hu
      have a1 := abs_le.1 (g3.trans (show _ ≤ 304 / 100 * (u * Y) by linarith))
      have a2 := abs_le.1 g1; have a3 := abs_le.1 d0; have a4 := abs_le.1 d1; have a5 := abs_le.1 d2
      rw [abs_le]
      constructor <;> linarith
  | true =>
    obtain ⟨z1, f1, g1, g2⟩ := two m1 m2 b1 b2
    obtain ⟨z, f2, g3⟩ := three m0 z1 (by linarith) g2
    refine ⟨z, ?_, ?_⟩
    · show Fl.addR R (.fin m0) (R (m1 + m2)) = _
      rw [f1]
      exact f2
    · have hz : |m0 + z1| ≤ 302 / 100 * Y := (abs_add_le _ _).trans (by linarith)
      have k := mul_le_mul_of_nonneg_left hz hu
      have a1 := abs_le.1 (g3.trans (show _ ≤ 304 / 100 * (u * Y) by linarith))
      have a2 := abs_le.1 g1; have a3 := abs_le.1 d0; have a4 := abs_le.1 d1; have a5 := abs_le.1 d2
      rw [abs_le]
      constructor <;> linarith

theorem abs_le_of_row {x y z : ℚ} (h : x ^ 2 + y ^ 2 + z ^ 2 ≤ 2001 / 2000) :
    |x| ≤ 1001 / 1000 ∧ |y| ≤ 1001 / 1000 ∧ |z| ≤ 1001 / 1000 := by
  have hx := sq_nonneg x; have hy := sq_nonneg y; have hz := sq_nonneg z
  refine ⟨?_, ?_, ?_⟩ <;> refine abs_le_of_sq_le_sq ?_ (by norm_num) <;> norm_num <;> linarith

theorem row_col {x0 x1 x2 y0 y1 y2 : ℚ} (hx : x0 ^ 2 + x1 ^ 2 + x2 ^ 2 ≤ 2001 / 2000) (hy : y0 ^ 2 + y1 ^ 2 + y2 ^ 2 ≤ 2001 / 2000) :
    |x0 * y0 + x1 * y1 + x2 * y2| ≤ 2001 / 2000 := by
  rw [abs_le]
  constructor
  · nlinarith [sq_nonneg (x0 + y0), sq_nonneg (x1 + y1), sq_nonneg (x2 + y2)]
  · nlinarith [sq_nonneg (x0 - y0), sq_nonneg (x1 - y1), sq_nonneg (x2 - y2)]

/-- The camera with the computed pose. -/
def Spec.Camera3.hat (late : ℕ → Bool) (gw : ℕ → ℚ) (c : Camera3) : Camera3 := ⟨fun k => (c.poseIn late gw k).val, c.range, c.points⟩

section
variable {late : ℕ → Bool} {gw : ℕ → ℚ} {B : ℚ} {c : Camera3}

theorem hat_val (k : ℕ) : (c.hat late gw).pose k = (c.poseIn late gw k).val := rfl

theorem eta_small : (100 : ℚ) * (1 / 2 ^ 1075) ≤ 1 / 2 ^ 53 * (1 / 2 ^ 70) := by
  have := one_div_pow_le (m := 200) (k := 1075) (by norm_num)
  exact le_trans (mul_le_mul_of_nonneg_left this (by norm_num)) (by norm_num)

theorem poseRow_near (H : Posed gw B c) (l : Bool) (a : Fin 3) {b : ℕ} {Y : ℚ} (hY : 1 / 2 ^ 70 ≤ Y) (hY' : Y ≤ 2 ^ 70)
    (hy : |c.pose b| ≤ Y ∧ |c.pose (b + 1)| ≤ Y ∧ |c.pose (b + 2)| ≤ Y) :
    ∃ z, poseRow double64 l (fun k => .fin (gw k)) (fun k => .fin (c.pose k)) a b = .fin z ∧
      |z - (gw a * c.pose b + gw (4 + a) * c.pose (b + 1) + gw (8 + a) * c.pose (b + 2))| ≤ 9 * (Y / 2 ^ 53) := by
  have hx := abs_le_of_row (H.rows a)
  obtain ⟨z, h1, h2⟩ := sum3_near rounds_double 64 (by norm_num) (by norm_num) (le_trans (by norm_num) hY)
    (eta_small.trans (mul_le_mul_of_nonneg_left hY (by norm_num)))
    (le_trans (show 8 * Y ≤ 8 * 2 ^ 70 by linarith) (le_trans (by norm_num) double_max_ge)) l (x := ![gw a, gw (4 + a), gw (8 + a)])
    (y := ![c.pose b, c.pose (b + 1), c.pose (b + 2)])
    (by intro a; fin_cases a <;> [exact hx.1; exact hx.2.1; exact hx.2.2])
    (by intro a; fin_cases a <;> [exact hy.1; exact hy.2.1; exact hy.2.2])
  refine ⟨z, h1, ?_⟩
  have e : 9 * (1 / 2 ^ 53 * Y) = 9 * (Y / 2 ^ 53) := by ring
  rw [e] at h2
  exact h2

/-- The computed pose, value by value. -/
theorem hat_pose (H : Posed gw B c) (hB : 1 / 2 ^ 60 ≤ B) (hB' : B ≤ 2 ^ 60) :
    (∀ k, ∃ z, c.poseIn late gw k = .fin z) ∧
    (∀ a b : Fin 3, |(c.hat late gw).pose (4 * b + a) -
      (gw a * c.pose (4 * b) + gw (4 + a) * c.pose (4 * b + 1) + gw (8 + a) * c.pose (4 * b + 2))| ≤ 10 / 2 ^ 53) ∧
    ∀ a : Fin 3, |(c.hat late gw).pose (12 + a) - placeInGrid gw c.sensor a| ≤ 14 * B / 2 ^ 53 := by
  have col : ∀ b : Fin 3, |c.pose (4 * b)| ≤ 1001 / 1000 ∧ |c.pose (4 * b + 1)| ≤ 1001 / 1000 ∧ |c.pose (4 * b + 2)| ≤ 1001 / 1000 :=
    fun b => abs_le_of_row (H.cols b)
  have rot : ∀ a b : Fin 3, ∃ z, c.poseIn late gw (4 * b + a) = .fin z ∧
      |z - (gw a * c.pose (4 * b) + gw (4 + a) * c.pose (4 * b + 1) + gw (8 + a) * c.pose (4 * b + 2))| ≤ 10 / 2 ^ 53 := by
    intro a b
    obtain ⟨z, h1, h2⟩ := poseRow_near H (late (4 * b + a)) a (b := 4 * b) (by norm_num) (by norm_num) (col b)
    refine ⟨z, ?_, h2.trans (by norm_num)⟩
    unfold Camera3.poseIn poseProduct
    have ha := a.2; have hb := b.2
    rw [if_neg (by omega), if_neg (by omega), if_pos (by omega), show (4 * (b : ℕ) + a) % 4 = a by omega,
      show 4 * (b : ℕ) + a - a = 4 * b by omega]
    exact h1
  have shift : ∀ a : Fin 3, ∃ z, c.poseIn late gw (12 + a) = .fin z ∧ |z - placeInGrid gw c.sensor a| ≤ 14 * B / 2 ^ 53 := by
    intro a
    obtain ⟨z, h1, h2⟩ := poseRow_near H (late (12 + a)) a (b := 12) (Y := B) (le_trans (by norm_num) hB) (hB'.trans (by norm_num))
      ⟨H.shift 0, H.shift 1, H.shift 2⟩
    have hB0 : 0 < B := lt_of_lt_of_le (by norm_num) hB
    have hx := abs_le_of_row (H.rows a)
    have p : ∀ t y : ℚ, |t| ≤ 1001 / 1000 → |y| ≤ B → |t * y| ≤ 1001 / 1000 * B := fun t y h h' => by
      rw [abs_mul]
      exact mul_le_mul h h' (abs_nonneg _) (by norm_num)
    have s0 : |c.pose 12| ≤ B := H.shift 0
    have s1 : |c.pose (12 + 1)| ≤ B := H.shift 1
    have s2 : |c.pose (12 + 2)| ≤ B := H.shift 2
    have q0 := abs_le.1 (p _ _ hx.1 s0); have q1 := abs_le.1 (p _ _ hx.2.1 s1); have q2 := abs_le.1 (p _ _ hx.2.2 s2)
    have q3 := abs_le.1 (H.grid a); have h2' := abs_le.1 h2
    have hz : |z + gw (12 + a)| ≤ 41 / 10 * B := by
      rw [abs_le]
      constructor
      · linarith [q0.1, q1.1, q2.1, q3.1, h2'.1]
      · linarith [q0.2, q1.2, q2.2, q3.2, h2'.2]
    obtain ⟨w, h3, h4⟩ := rounds_fin rounds_double (x := z + gw (12 + a))
      (hz.trans (le_trans (show _ ≤ 41 / 10 * 2 ^ 60 by linarith) (le_trans (by norm_num) double_max_ge)))
    refine ⟨w, ?_, ?_⟩
    · unfold Camera3.poseIn poseProduct
      have ha := a.2
      rw [if_neg (by omega), if_neg (by omega), if_neg (by omega), show (12 + (a : ℕ)) % 4 = a by omega, h1]
      exact h3
    · have hη : (1 : ℚ) / 2 ^ 1075 ≤ 1 / 2 ^ 53 * (1 / 2 ^ 70) := by
        refine le_trans ?_ eta_small
        have : (0 : ℚ) ≤ 1 / 2 ^ 1075 := by positivity
        linarith
      have k : (1 : ℚ) / 2 ^ 53 * (1 / 2 ^ 70) ≤ 1 / 2 ^ 53 * (1 / 100 * B) :=
        mul_le_mul_of_nonneg_left (le_trans (by norm_num) (mul_le_mul_of_nonneg_left hB (by norm_num : (0 : ℚ) ≤ 1 / 100))) (by norm_num)
      have h5 := h4.trans (add_le_add (mul_le_mul_of_nonneg_left hz (by norm_num)) (hη.trans k))
      have h6 := abs_le.1 h5
      have e : placeInGrid gw c.sensor a = gw a * c.pose 12 + gw (4 + a) * c.pose (12 + 1) + gw (8 + a) * c.pose (12 + 2) + gw (12 + a) := rfl
      rw [e, abs_le]
      constructor
      · linarith [h6.1, h2'.1]
      · linarith [h6.2, h2'.2]
  refine ⟨fun k => ?_, fun a b => ?_, fun a => ?_⟩
  · rcases Nat.lt_or_ge k 15 with hk | hk
    · rcases Nat.lt_or_ge (k % 4) 3 with h3 | h3
      · rcases Nat.lt_or_ge k 12 with h12 | h12
        · obtain ⟨z, h1, -⟩ := rot ⟨k % 4, h3⟩ ⟨k / 4, by omega⟩
          refine ⟨z, ?_⟩
          rw [← h1]
          congr 1
          dsimp only
          omega
        · obtain ⟨z, h1, -⟩ := shift ⟨k - 12, by omega⟩
          refine ⟨z, ?_⟩
          rw [← h1]
          congr 1
          dsimp only
          omega
      · refine ⟨0, ?_⟩
        unfold Camera3.poseIn poseProduct
        rw [if_neg (by omega), if_pos (by omega)]
        rfl
    · refine ⟨1, ?_⟩
      unfold Camera3.poseIn poseProduct
      rw [if_pos hk]
      rfl
  · obtain ⟨z, h1, h2⟩ := rot a b
    rw [hat_val, h1]
    exact h2
  · obtain ⟨z, h1, h2⟩ := shift a
    rw [hat_val, h1]
    exact h2

theorem hat_fin (H : Posed gw B c) (hB : 1 / 2 ^ 60 ≤ B) (hB' : B ≤ 2 ^ 60) :
    c.poseIn late gw = fun k => .fin ((c.hat late gw).pose k) := by
  funext k
  obtain ⟨z, hz⟩ := (hat_pose (late := late) H hB hB').1 k
  rw [hat_val, hz]
  rfl

theorem hat_cloud (H : Posed gw B c) (hB : 1 / 2 ^ 60 ≤ B) (hB' : B ≤ 2 ^ 60) : c.cloudIn late gw = (c.hat late gw).cloud := by
  unfold Camera3.cloudIn
  rw [hat_fin H hB hB']
  rfl

theorem hat_dev {R : ℚ → Fl} (H : Posed gw B c) (hB : 1 / 2 ^ 60 ≤ B) (hB' : B ≤ 2 ^ 60) : c.devIn R late gw = (c.hat late gw).dev R := by
  unfold Camera3.devIn
  rw [hat_fin H hB hB']
  rfl

/-- The true product of the rotations. -/
def turned (gw : ℕ → ℚ) (c : Camera3) (a b : Fin 3) : ℚ :=
  gw a * c.pose (4 * b) + gw (4 + a) * c.pose (4 * b + 1) + gw (8 + a) * c.pose (4 * b + 2)

theorem placeInGrid_place (gw : ℕ → ℚ) (c : Camera3) (x : Fin 3 → ℚ) (a : Fin 3) : placeInGrid gw (c.place x) a =
    turned gw c a 0 * x 0 + turned gw c a 1 * x 1 + turned gw c a 2 * x 2 + placeInGrid gw c.sensor a := by
  have e : ∀ b : Fin 3, c.place x b = c.pose b * x 0 + c.pose (4 + b) * x 1 + c.pose (8 + b) * x 2 + c.sensor b := fun b => rfl
  unfold placeInGrid
  rw [e 0, e 1, e 2]
  show gw a * (c.pose 0 * x 0 + c.pose 4 * x 1 + c.pose 8 * x 2 + c.sensor 0) + gw (4 + a) * (c.pose 1 * x 0 + c.pose 5 * x 1 + c.pose 9 * x 2 + c.sensor 1) +
    gw (8 + a) * (c.pose 2 * x 0 + c.pose 6 * x 1 + c.pose 10 * x 2 + c.sensor 2) + gw (12 + a) =
    (gw a * c.pose 0 + gw (4 + a) * c.pose 1 + gw (8 + a) * c.pose 2) * x 0 +
    (gw a * c.pose 4 + gw (4 + a) * c.pose 5 + gw (8 + a) * c.pose 6) * x 1 +
    (gw a * c.pose 8 + gw (4 + a) * c.pose 9 + gw (8 + a) * c.pose 10) * x 2 +
    (gw a * c.sensor 0 + gw (4 + a) * c.sensor 1 + gw (8 + a) * c.sensor 2 + gw (12 + a))
  ring

theorem hat_turn (H : Posed gw B c) (hB : 1 / 2 ^ 60 ≤ B) (hB' : B ≤ 2 ^ 60) (a b : Fin 3) :
    |(c.hat late gw).pose (4 * b + a) - turned gw c a b| ≤ 10 / 2 ^ 53 ∧ |(c.hat late gw).pose (4 * b + a)| ≤ 1001 / 1000 := by
  have h := (hat_pose (late := late) H hB hB').2.1 a b
  have h2 := row_col (H.rows a) (H.cols b)
  refine ⟨h, (near_bound h h2).trans (by norm_num)⟩

theorem hat_cols (H : Posed gw B c) (hB : 1 / 2 ^ 60 ≤ B) (hB' : B ≤ 2 ^ 60) (a : Fin 3) :
    |(c.hat late gw).pose a - turned gw c a 0| ≤ 10 / 2 ^ 53 ∧ |(c.hat late gw).pose (4 + a) - turned gw c a 1| ≤ 10 / 2 ^ 53 ∧
    |(c.hat late gw).pose (8 + a) - turned gw c a 2| ≤ 10 / 2 ^ 53 := by
  have h0 := (hat_turn (late := late) H hB hB' a 0).1
  have h1 := (hat_turn (late := late) H hB hB' a 1).1
  have h2 := (hat_turn (late := late) H hB hB' a 2).1
  simp only [Fin.val_zero, Fin.val_one, Fin.val_two, Nat.reduceMul, zero_add] at h0 h1 h2
  exact ⟨h0, h1, h2⟩

theorem hat_turns (H : Posed gw B c) (hB : 1 / 2 ^ 60 ≤ B) (hB' : B ≤ 2 ^ 60) : (c.hat late gw).Turns := by
  intro a
  have h0 := (hat_turn (late := late) H hB hB' a 0).2
  have h1 := (hat_turn (late := late) H hB hB' a 1).2
  have h2 := (hat_turn (late := late) H hB hB' a 2).2
  simp only [Fin.val_zero, Fin.val_one, Fin.val_two, Nat.reduceMul, zero_add] at h0 h1 h2
  exact ⟨h0, h1, h2⟩

theorem hat_shift (H : Posed gw B c) (hB : 1 / 2 ^ 60 ≤ B) (hB' : B ≤ 2 ^ 60) (a : Fin 3) :
    |(c.hat late gw).pose (12 + a)| ≤ 5 * B := by
  have h := (hat_pose (late := late) H hB hB').2.2 a
  have hB0 : 0 < B := lt_of_lt_of_le (by norm_num) hB
  have hx := abs_le_of_row (H.rows a)
  have p : ∀ t y : ℚ, |t| ≤ 1001 / 1000 → |y| ≤ B → |t * y| ≤ 1001 / 1000 * B := fun t y h h' => by
    rw [abs_mul]
    exact mul_le_mul h h' (abs_nonneg _) (by norm_num)
  have q0 := abs_le.1 (p _ _ hx.1 (H.shift 0)); have q1 := abs_le.1 (p _ _ hx.2.1 (H.shift 1)); have q2 := abs_le.1 (p _ _ hx.2.2 (H.shift 2))
  have q3 := abs_le.1 (H.grid a)
  have hg : |placeInGrid gw c.sensor a| ≤ 41 / 10 * B := by
    unfold placeInGrid Camera3.sensor
    rw [abs_le]
    constructor
    · linarith [q0.1, q1.1, q2.1, q3.1]
    · linarith [q0.2, q1.2, q2.2, q3.2]
  exact (near_bound h hg).trans (by linarith)

theorem hat_within (H : Posed gw B c) (hB : 1 / 2 ^ 60 ≤ B) (hB' : B ≤ 2 ^ 60) : (c.hat late gw).Within (5 * B) where
  turn := fun a => by
    obtain ⟨h0, h1, h2⟩ := hat_turns (late := late) H hB hB' a
    exact ⟨h0.trans (by norm_num), h1.trans (by norm_num), h2.trans (by norm_num)⟩
  shift := hat_shift H hB hB'
  points := fun x hx a => by
    have := H.points x hx a
    have hB0 : 0 < B := lt_of_lt_of_le (by norm_num) hB
    linarith

/-- What the rounding of the product does to the ray of a point. -/
theorem hat_beside (H : Posed gw B c) (hB : 1 / 2 ^ 60 ≤ B) (hB' : B ≤ 2 ^ 60) {x : Fin 3 → ℚ} (hx : ∀ a, |x a| ≤ B) :
    Beside (44 * B / 2 ^ 53) (30 * B / 2 ^ 53) (c.hat late gw).sensor ((c.hat late gw).place x) (placeInGrid gw c.sensor)
      (placeInGrid gw (c.place x)) := by
  have hs : ∀ a, |placeInGrid gw c.sensor a - (c.hat late gw).sensor a| ≤ 14 * B / 2 ^ 53 := fun a => by
    rw [abs_sub_comm]
    exact (hat_pose (late := late) H hB hB').2.2 a
  have hB0 : 0 < B := lt_of_lt_of_le (by norm_num) hB
  have hw : ∀ a, |(placeInGrid gw (c.place x) a - placeInGrid gw c.sensor a) - ((c.hat late gw).place x a - (c.hat late gw).sensor a)| ≤
      30 * B / 2 ^ 53 := fun a => by
    obtain ⟨h0, h1, h2⟩ := hat_cols (late := late) H hB hB' a
    have e1 := placeInGrid_place gw c x a
    have e2 : (c.hat late gw).place x a = (c.hat late gw).pose a * x 0 + (c.hat late gw).pose (4 + a) * x 1 +
      (c.hat late gw).pose (8 + a) * x 2 + (c.hat late gw).sensor a := rfl
    rw [e1, e2]
    generalize (c.hat late gw).pose a = P0 at *
    generalize (c.hat late gw).pose (4 + a) = P1 at *
    generalize (c.hat late gw).pose (8 + a) = P2 at *
    generalize turned gw c a 0 = T0 at *
    generalize turned gw c a 1 = T1 at *
    generalize turned gw c a 2 = T2 at *
    have p : ∀ P T y : ℚ, |P - T| ≤ 10 / 2 ^ 53 → |y| ≤ B → |(P - T) * y| ≤ 10 / 2 ^ 53 * B := fun P T y h h' => by
      rw [abs_mul]
      exact mul_le_mul h h' (abs_nonneg _) (by norm_num)
    have q0 := abs_le.1 (p _ _ _ h0 (hx 0)); have q1 := abs_le.1 (p _ _ _ h1 (hx 1)); have q2 := abs_le.1 (p _ _ _ h2 (hx 2))
    rw [abs_le]
    constructor
    · linarith [q0.2, q1.2, q2.2]
    · linarith [q0.1, q1.1, q2.1]
  refine ⟨fun a => (hs a).trans (by linarith), fun a => ?_, hw⟩
  have h1 := abs_le.1 (hs a); have h2 := abs_le.1 (hw a)
  rw [abs_le]
  constructor
  · linarith [h1.1, h2.1]
  · linarith [h1.2, h2.2]

theorem hat_range : (c.hat late gw).range = c.range := rfl

theorem hat_points : (c.hat late gw).points = c.points := rfl

theorem howMany_hat {P Q : (Fin 3 → ℚ) → Prop} (h : ∀ x, some x ∈ c.points → P x → Q x) : (c.hat late gw).howMany P ≤ c.howMany Q := by
  classical
  unfold Camera3.howMany
  rw [hat_points]
  refine List.countP_mono_left fun y hy hp => ?_
  rw [decide_eq_true_iff] at hp ⊢
  obtain ⟨x, rfl, hx⟩ := hp
  exact ⟨x, rfl, h x hy hx⟩

theorem howMany_of_hat {P Q : (Fin 3 → ℚ) → Prop} (h : ∀ x, some x ∈ c.points → P x → Q x) : c.howMany P ≤ (c.hat late gw).howMany Q := by
  classical
  unfold Camera3.howMany
  rw [hat_points]
  refine List.countP_mono_left fun y hy hp => ?_
  rw [decide_eq_true_iff] at hp ⊢
  obtain ⟨x, rfl, hx⟩ := hp
  exact ⟨x, rfl, h x hy hx⟩

end

end VGT
