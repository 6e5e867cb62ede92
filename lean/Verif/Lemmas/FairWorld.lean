import Verif.Spec.FairWorld
import Verif.Lemmas.World
import Verif.Props.PoseRound
import Verif.Props.AccurateAll

/-!
C87: the computed pose of a camera in the frame of the grid, with fused operations.
-/
set_option autoImplicit false

namespace VGT
open VGT.EDT VGT.Spec

variable {gw : ℕ → ℚ} {B : ℚ} {c : Camera3}

theorem inGrid_turn (a b : Fin 3) : (c.inGrid gw).pose (4 * b + a) =
    gw a * c.pose (4 * b) + gw (4 + a) * c.pose (4 * b + 1) + gw (8 + a) * c.pose (4 * b + 2) := by
  have ha := a.2; have hb := b.2
  unfold Camera3.inGrid
  dsimp only
  rw [if_neg (by omega), if_pos (by omega), show (4 * (b : ℕ) + a) % 4 = a by omega, show 4 * (b : ℕ) + a - a = 4 * b by omega]

theorem inGrid_shift (a : Fin 3) : (c.inGrid gw).pose (12 + a) = placeInGrid gw c.sensor a := by
  have ha := a.2
  unfold Camera3.inGrid placeInGrid Camera3.sensor
  dsimp only
  rw [if_neg (by omega), if_neg (by omega), show 12 + (a : ℕ) - 12 = a by omega]
  rfl

theorem inGrid_sensor : (c.inGrid gw).sensor = c.sensorIn gw := funext fun a => inGrid_shift a

theorem inGrid_place (x : Fin 3 → ℚ) : (c.inGrid gw).place x = c.placeIn gw x := by
  funext a
  have h0 := inGrid_turn (gw := gw) (c := c) a 0
  have h1 := inGrid_turn (gw := gw) (c := c) a 1
  have h2 := inGrid_turn (gw := gw) (c := c) a 2
  simp only [Fin.val_zero, Fin.val_one, Fin.val_two] at h0 h1 h2
  norm_num only at h0 h1 h2
  rw [zero_add] at h0
  unfold Camera3.placeIn
  show (c.inGrid gw).pose a * x 0 + (c.inGrid gw).pose (4 + a) * x 1 + (c.inGrid gw).pose (8 + a) * x 2 + (c.inGrid gw).pose (12 + a) = _
  rw [h0, h1, h2, inGrid_shift]
  unfold placeInGrid Camera3.place Camera3.sensor
  simp only [Fin.val_zero, Fin.val_one, Fin.val_two]
  norm_num only
  ring

/-- Size of the true pose. -/
theorem inGrid_within (H : Posed gw B c) (hB : 0 ≤ B) : (c.inGrid gw).Within (5 * B) where
  turn := fun a => by
    have key : ∀ b : Fin 3, |(c.inGrid gw).pose (4 * b + a)| ≤ 2 := fun b => by
      rw [inGrid_turn]
      exact (row_col (H.rows a) (H.cols b)).trans (by norm_num)
    have h0 := key 0; have h1 := key 1; have h2 := key 2
    simp only [Fin.val_zero, Fin.val_one, Fin.val_two] at h0 h1 h2
    norm_num only at h0 h1 h2
    rw [zero_add] at h0
    exact ⟨h0, h1, h2⟩
  shift := fun a => by
    rw [inGrid_shift]
    have hx := abs_le_of_row (H.rows a)
    have p : ∀ t y : ℚ, |t| ≤ 1001 / 1000 → |y| ≤ B → |t * y| ≤ 1001 / 1000 * B := fun t y h h' => by
      rw [abs_mul]
      exact mul_le_mul h h' (abs_nonneg _) (by norm_num)
    have q0 := abs_le.1 (p _ _ hx.1 (H.shift 0)); have q1 := abs_le.1 (p _ _ hx.2.1 (H.shift 1)); have q2 := abs_le.1 (p _ _ hx.2.2 (H.shift 2))
    have q3 := abs_le.1 (H.grid a)
    unfold placeInGrid Camera3.sensor
    rw [abs_le]
    constructor
    · linarith [q0.1, q1.1, q2.1, q3.1]
    · linarith [q0.2, q1.2, q2.2, q3.2]
  points := fun x hx a => (H.points x hx a).trans (by linarith)

theorem dot3_number {p q w η : ℝ} (hp : p ≤ 1003 / 1000) (hq : q ≤ 1003 / 1000) (hw : w ≤ 1003 / 1000) (h0 : 0 ≤ η) (h1 : η ≤ 1 / 2 ^ 53 * (1 / 2 ^ 20)) :
    ((1 + 1 / 2 ^ 53) ^ (1 + 1 + 1) - 1) * (p + (q + w)) + (2 * ((1 + 1 + 1 : ℕ) : ℝ) - 1) * (1 + 1 / 2 ^ 53) ^ (1 + 1 + 1) * η ≤ 14 / 2 ^ 53 := by
  norm_num at h1 ⊢
  linarith

theorem dot4_number {p q w t η B : ℝ} (hp : p ≤ 1001 / 1000 * B) (hq : q ≤ 1001 / 1000 * B) (hw : w ≤ 1001 / 1000 * B) (ht : t ≤ B) (h0 : 0 ≤ η)
    (hB : 0 ≤ B) (h1 : η ≤ 1 / 2 ^ 53 * (1 / 2 ^ 20) * B) :
    ((1 + 1 / 2 ^ 53) ^ (1 + 1 + 1 + 1) - 1) * (p + (q + (w + t))) + (2 * ((1 + 1 + 1 + 1 : ℕ) : ℝ) - 1) * (1 + 1 / 2 ^ 53) ^ (1 + 1 + 1 + 1) * η ≤
      21 * B / 2 ^ 53 := by
  norm_num at h1 ⊢
  linarith

/-- The error of a computed entry of the rotation. -/
theorem turn_error (H : Posed gw B c) {z : ℕ → ℚ} (hz : PoseRuns (roundDouble : ℝ → ℝ) (fun k => gw k) (fun k => c.pose k) (fun k => z k)) (a b : Fin 3) :
    |z (4 * b + a) - (c.inGrid gw).pose (4 * b + a)| ≤ 14 / 2 ^ 53 := by
  have e := ((hz.1 a b).error double_err.1 (by positivity) (by positivity)).2
  have hx := abs_le_of_row (H.rows a)
  have hy := abs_le_of_row (H.cols b)
  have p : ∀ t y : ℚ, |t| ≤ 1001 / 1000 → |y| ≤ 1001 / 1000 → |(t : ℝ) * y| ≤ 1003 / 1000 := fun t y h h' => by
    have h1 : |(t : ℝ)| ≤ 1001 / 1000 := by have : ((|t| : ℚ) : ℝ) ≤ ((1001 / 1000 : ℚ) : ℝ) := Rat.cast_le.2 h; push_cast at this; exact this
    have h2 : |(y : ℝ)| ≤ 1001 / 1000 := by have : ((|y| : ℚ) : ℝ) ≤ ((1001 / 1000 : ℚ) : ℝ) := Rat.cast_le.2 h'; push_cast at this; exact this
    exact (product_bound h1 h2).trans (by norm_num)
  have p0 := p _ _ hx.1 hy.1; have p1 := p _ _ hx.2.1 hy.2.1; have p2 := p _ _ hx.2.2 hy.2.2
  simp only [dotSum, dotSize, List.map_cons, List.map_nil, List.sum_cons, List.sum_nil, List.length_cons, List.length_nil, add_zero, zero_add] at e
  have hη : (2 : ℝ) ^ (-1075 : ℤ) ≤ 2 ^ (-53 : ℤ) * (1 / 2 ^ 20) := by
    refine le_trans (zpow_le_zpow_right₀ (by norm_num) (by norm_num : (-1075 : ℤ) ≤ -73)) (le_of_eq ?_)
    norm_num [zpow_neg]
  have hη0 : (0 : ℝ) < 2 ^ (-1075 : ℤ) := by positivity
  rw [inGrid_turn]
  have goal : |(z (4 * b + a) : ℝ) - ((gw a : ℝ) * c.pose (4 * b) + ((gw (4 + a) : ℝ) * c.pose (4 * b + 1) + (gw (8 + a) : ℝ) * c.pose (4 * b + 2)))| ≤
      14 / 2 ^ 53 := by
    refine e.trans ?_
    have e53 : (2 : ℝ) ^ (-53 : ℤ) = 1 / 2 ^ 53 := by rw [zpow_neg, one_div]; norm_cast
    rw [e53] at hη ⊢
    exact dot3_number p0 p1 p2 hη0.le hη
  have : ((|z (4 * b + a) - (gw a * c.pose (4 * b) + gw (4 + a) * c.pose (4 * b + 1) + gw (8 + a) * c.pose (4 * b + 2))| : ℚ) : ℝ) ≤ ((14 / 2 ^ 53 : ℚ) : ℝ) := by
    push_cast
    rw [add_assoc]
    exact goal
  exact_mod_cast this

/-- The error of the computed position of the sensor. -/
theorem shift_error (H : Posed gw B c) (hB : 1 / 2 ^ 200 ≤ B) {z : ℕ → ℚ}
    (hz : PoseRuns (roundDouble : ℝ → ℝ) (fun k => gw k) (fun k => c.pose k) (fun k => z k)) (a : Fin 3) :
    |z (12 + a) - (c.inGrid gw).pose (12 + a)| ≤ 21 * B / 2 ^ 53 := by
  have e := ((hz.2 a).error double_err.1 (by positivity) (by positivity)).2
  have hx := abs_le_of_row (H.rows a)
  have hB0 : (0 : ℝ) ≤ B := by exact_mod_cast le_trans (by positivity) hB
  have p : ∀ t y : ℚ, |t| ≤ 1001 / 1000 → |y| ≤ B → |(t : ℝ) * y| ≤ 1001 / 1000 * B := fun t y h h' => by
    have h1 : |(t : ℝ)| ≤ 1001 / 1000 := by have : ((|t| : ℚ) : ℝ) ≤ ((1001 / 1000 : ℚ) : ℝ) := Rat.cast_le.2 h; push_cast at this; exact this
    have h2 : |(y : ℝ)| ≤ B := by exact_mod_cast h'
    exact product_bound h1 h2
  have p0 := p _ _ hx.1 (H.shift 0); have p1 := p _ _ hx.2.1 (H.shift 1); have p2 := p _ _ hx.2.2 (H.shift 2)
  have p3 : |(gw (12 + a) : ℝ)| ≤ B := by exact_mod_cast H.grid a
  simp only [dotSum, dotSize, List.map_cons, List.map_nil, List.sum_cons, List.sum_nil, List.length_cons, List.length_nil, add_zero, zero_add, mul_one] at e
  simp only [Fin.val_zero, Fin.val_one, Fin.val_two, add_zero] at p0 p1 p2
  norm_num only at p1 p2
  have hη : (2 : ℝ) ^ (-1075 : ℤ) ≤ 2 ^ (-53 : ℤ) * (1 / 2 ^ 20) * B := by
    have hBr : (2 : ℝ) ^ (-200 : ℤ) ≤ B := by
      have : ((1 / 2 ^ 200 : ℚ) : ℝ) ≤ B := Rat.cast_le.2 hB
      push_cast at this
      rw [zpow_neg, ← one_div]
      exact_mod_cast this
    calc (2 : ℝ) ^ (-1075 : ℤ) ≤ 2 ^ (-73 + -200 : ℤ) := zpow_le_zpow_right₀ (by norm_num) (by norm_num)
      _ = 2 ^ (-73 : ℤ) * 2 ^ (-200 : ℤ) := zpow_add₀ (by norm_num) _ _
      _ ≤ 2 ^ (-73 : ℤ) * B := by gcongr
      _ = _ := by norm_num [zpow_neg]
  have hη0 : (0 : ℝ) < 2 ^ (-1075 : ℤ) := by positivity
  rw [inGrid_shift]
  have goal : |(z (12 + a) : ℝ) - ((gw a : ℝ) * c.pose 12 + ((gw (4 + a) : ℝ) * c.pose 13 + ((gw (8 + a) : ℝ) * c.pose 14 + gw (12 + a))))| ≤
      21 * B / 2 ^ 53 := by
    refine e.trans ?_
    have e53 : (2 : ℝ) ^ (-53 : ℤ) = 1 / 2 ^ 53 := by rw [zpow_neg, one_div]; norm_cast
    rw [e53] at hη ⊢
    exact dot4_number p0 p1 p2 p3 hη0.le hB0 hη
  have : ((|z (12 + a) - placeInGrid gw c.sensor a| : ℚ) : ℝ) ≤ ((21 * B / 2 ^ 53 : ℚ) : ℝ) := by
    unfold placeInGrid Camera3.sensor
    push_cast
    simp only [Fin.val_zero, Fin.val_one, Fin.val_two, add_zero]
    norm_num only
    rw [add_assoc, add_assoc]
    norm_num only at goal
    exact goal
  exact_mod_cast this

/-- What the voxelizer is given is the true pose in the frame of the grid up to a small error. -/
theorem WorldGiven.given {F : Type} {val kept : F → Fl} {u v η : ℚ} {tf : ℕ → F} {range : F} {points : List (Option (Fin 3 → F))}
    (h : WorldGiven val kept v η B gw c tf range points) (H : Posed gw B c) (hB : 1 / 2 ^ 200 ≤ B) (hv : 0 ≤ v) (hv1 : v ≤ 1 / 100) (hη : η ≤ v) (hηB : η ≤ v * B)
    (hu : 15 / 2 ^ 53 + 3 * v ≤ u) : Given val kept u η (5 * B) (c.inGrid gw) tf range points where
  turn := fun k hk => by
    obtain ⟨z, hz, h1, -⟩ := h.pose
    by_cases h3 : k % 4 = 3
    · refine ⟨0, h.bottom k hk h3, ?_⟩
      have : (c.inGrid gw).pose k = 0 := if_pos h3
      rw [this, sub_zero, abs_zero]
      have : (0 : ℚ) ≤ 15 / 2 ^ 53 := by positivity
      linarith
    · obtain ⟨a, b, rfl⟩ : ∃ a b : Fin 3, k = 4 * b + a := ⟨⟨k % 4, by omega⟩, ⟨k / 4, by omega⟩, by dsimp only; omega⟩
      obtain ⟨w, e1, e2⟩ := h1 a b
      refine ⟨w, e1, ?_⟩
      have t := turn_error H hz a b
      have s : |(c.inGrid gw).pose (4 * b + a)| ≤ 2001 / 2000 := by
        rw [inGrid_turn]
        exact row_col (H.rows a) (H.cols b)
      generalize (c.inGrid gw).pose (4 * b + a) = q at *
      generalize z (4 * b + a) = z at *
      have t' := abs_le.1 t; have s' := abs_le.1 s
      have hz' : |z| ≤ 11 / 10 := by
        rw [abs_le]
        constructor <;> linarith [t'.1, t'.2, s'.1, s'.2, show (14 : ℚ) / 2 ^ 53 ≤ 1 / 1000 by norm_num]
      have e3 := e2.trans (add_le_add_left (mul_le_mul_of_nonneg_left hz' hv) η)
      have e4 := abs_le.1 e3
      rw [abs_le]
      constructor <;> linarith [e4.1, e4.2, t'.1, t'.2]
  shift := fun a => by
    obtain ⟨z, hz, -, h1⟩ := h.pose
    obtain ⟨w, e1, e2⟩ := h1 a
    refine ⟨w, e1, ?_⟩
    have hB0 : 0 ≤ B := le_trans (by positivity) hB
    have t := shift_error H hB hz a
    have s := (inGrid_within H hB0).shift a
    generalize (c.inGrid gw).pose (12 + a) = q at *
    generalize z (12 + a) = z at *
    have t' := abs_le.1 t; have s' := abs_le.1 s
    have hz' : |z| ≤ 6 * B := by
      rw [abs_le]
      constructor <;> linarith [t'.1, t'.2, s'.1, s'.2]
    have e3 := e2.trans (add_le_add_left (mul_le_mul_of_nonneg_left hz' hv) η)
    have e4 := abs_le.1 e3
    have hvB := mul_nonneg hv hB0
    have huB := mul_le_mul_of_nonneg_right hu (by linarith : 0 ≤ 5 * B)
    rw [abs_le]
    constructor <;> linarith [e4.1, e4.2, t'.1, t'.2]
  range := by
    rcases h.range with h1 | ⟨r, r', h1, h2, h3, h4, h5⟩
    · exact .inl h1
    · refine .inr ⟨r, r', h1, h2, h3, h4, h5.trans ?_⟩
      have : v ≤ u := by
        have : (0 : ℚ) ≤ 15 / 2 ^ 53 := by positivity
        linarith
      have := mul_le_mul_of_nonneg_right this h3.le
      linarith
  points := by
    refine h.points.imp fun y x hyx => ?_
    cases y with
    | none =>
      cases x with
      | none => exact trivial
      | some x => exact hyx.elim
    | some y =>
      cases x with
      | none => exact hyx.elim
      | some x =>
        intro a
        obtain ⟨z, e1, e2⟩ := hyx a
        refine ⟨z, e1, e2.trans ?_⟩
        have hB0 : 0 ≤ B := le_trans (by positivity) hB
        have hvu : v ≤ u := by
          have : (0 : ℚ) ≤ 15 / 2 ^ 53 := by positivity
          linarith
        have h1 := mul_le_mul_of_nonneg_right hvu hB0
        have h2 := mul_nonneg (hv.trans hvu) hB0
        linarith

/-- A less accurate arithmetic. -/
theorem Spec.AccurateArith.mono {F : Type} {A : Arith F} {sqrt : F → F} {val kept : F → Fl} {u u' η M : ℚ} (H : AccurateArith A sqrt val kept u η M)
    (h : u ≤ u') : AccurateArith A sqrt val kept u' η M where
  store := fun x a h1 h2 => by
    obtain ⟨b, k1, k2⟩ := H.store x a h1 h2
    exact ⟨b, k1, k2.trans (by gcongr)⟩
  lt := H.lt
  le := H.le
  toInt := H.toInt
  zero := H.zero
  one := H.one
  tiny := H.tiny
  abs := H.abs
  add := fun x y a b h1 h2 h3 => by
    obtain ⟨z, k1, k2, k3⟩ := H.add x y a b h1 h2 h3
    exact ⟨z, k1, k2.trans (by gcongr), k3⟩
  sub := fun x y a b h1 h2 h3 => by
    obtain ⟨z, k1, k2⟩ := H.sub x y a b h1 h2 h3
    exact ⟨z, k1, k2.trans (by gcongr)⟩
  mul := fun x y a b h1 h2 h3 h4 h5 => by
    obtain ⟨z, k1, k2, k3⟩ := H.mul x y a b h1 h2 h3 h4 h5
    exact ⟨z, k1, k2.trans (by gcongr), k3⟩
  div := fun x y a b h1 h2 h3 h4 h5 h6 => by
    obtain ⟨z, k1, k2⟩ := H.div x y a b h1 h2 h3 h4 h5 h6
    exact ⟨z, k1, k2.trans (by gcongr)⟩
  root := fun x a h1 h2 h3 => by
    obtain ⟨z, k1, k2, k3⟩ := H.root x a h1 h2 h3
    exact ⟨z, k1, k2, k3.trans (by gcongr)⟩

end VGT
