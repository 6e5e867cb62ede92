import Verif.Lemmas.Interp
import Verif.Spec.Clearance
import Mathlib.Tactic.Positivity

/-!
Interpolation of values that are bounded by distances to a point.
-/
set_option autoImplicit false

namespace VGT
open VGT.EDT VGT.Spec

/-- A mean of two roots is at most the root of the mean. -/
theorem mean_sqrt_le {w X Y : ℝ} (h0 : 0 ≤ w) (h1 : w ≤ 1) (hX : 0 ≤ X) (hY : 0 ≤ Y) :
    (1 - w) * Real.sqrt X + w * Real.sqrt Y ≤ Real.sqrt ((1 - w) * X + w * Y) := by
  apply Real.le_sqrt_of_sq_le
  have e1 := Real.sq_sqrt hX
  have e2 := Real.sq_sqrt hY
  nlinarith [mul_nonneg (mul_nonneg h0 (sub_nonneg.2 h1)) (sq_nonneg (Real.sqrt X - Real.sqrt Y))]

theorem sqrt_add_congr {X Y a b c e : ℝ} (h : X = Y) (h' : a + b = c + e) :
    Real.sqrt X + a + b = Real.sqrt Y + c + e := by
  rw [h, add_assoc, h', add_assoc]

/-- One axis, between the outermost centres. -/
theorem interp1_dist_inner {s q o A δ : ℝ} (hs : 0 < s) {n : ℕ} (h0 : 0 ≤ ⌊q / s⌋) (hn : ⌊q / s⌋ < n) (hA : 0 ≤ A)
    {f : ℤ → ℝ} (hq : n = 1 ∨ (s / 2 ≤ q ∧ q ≤ ((n : ℝ) - 1 / 2) * s))
    (h1 : n = 1 → (s / 2 - o) ^ 2 ≤ (q - o) ^ 2 + s ^ 2 / 4)
    (hf : ∀ k : ℤ, 0 ≤ k → k < n → |((k : ℝ) + 1 / 2) * s - q| ≤ s →
      f k ≤ Real.sqrt (A + (((k : ℝ) + 1 / 2) * s - o) ^ 2) + δ) :
    interp1 s q n f ≤ Real.sqrt (A + ((q - o) ^ 2 + s ^ 2 / 4)) + δ := by
  obtain ⟨b, c, hx, hb, hc, h⟩ := axisIndices_spec s q hs n h0 hn
  unfold interp1
  simp only [hx]
  rcases h with ⟨e1, e2, e3⟩ | ⟨e1, e2, e3⟩
  · subst e2 e3
    rw [sub_self, zero_div, mul_zero, add_zero]
    have hz : ⌊q / s⌋ = 0 := by omega
    rw [Int.floor_eq_iff, le_div_iff₀ hs, div_lt_iff₀ hs] at hz
    push_cast at hz
    refine (hf 0 le_rfl (by omega) (by push_cast; rw [abs_le]; constructor <;> linarith)).trans ?_
    gcongr
    push_cast
    have := h1 e1
    rw [show ((0 : ℝ) + 1 / 2) * s = s / 2 by ring]
    exact this
  · subst e1
    have hq : s / 2 ≤ q ∧ q ≤ ((n : ℝ) - 1 / 2) * s := hq.resolve_left (by omega)
    have hl : ((b : ℝ) + 1 / 2) * s ≤ q := by
      rcases lt_or_ge b 1 with hb1 | hb1
      · have : b = 0 := by omega
        subst this; push_cast; linarith [hq.1]
      · exact e2 hb1
    have hu : q ≤ ((b : ℝ) + 1 + 1 / 2) * s := by
      rcases lt_or_ge (b + 2) n with hb1 | hb1
      · exact e3 hb1
      · have hbn : (n : ℤ) = b + 2 := by omega
        have hbn' : (n : ℝ) = (b : ℝ) + 2 := by exact_mod_cast hbn
        have := hq.2
        rw [hbn'] at this
        linarith
    have f1 := hf b hb (by omega) (by rw [abs_le]; constructor <;> linarith)
    have f2 := hf (b + 1) (by omega) hc (by push_cast; rw [abs_le]; constructor <;> linarith)
    push_cast at f2
    obtain ⟨w, hw⟩ : ∃ w, w = (q - ((b : ℝ) + 1 / 2) * s) / s := ⟨_, rfl⟩
    have hw0 : 0 ≤ w := by rw [hw]; exact div_nonneg (by linarith) hs.le
    have hw1 : w ≤ 1 := by rw [hw, div_le_one hs]; linarith
    have hwq : q = ((b : ℝ) + 1 / 2) * s + w * s := by rw [hw]; field_simp; ring
    have he : f b + (q - ((b : ℝ) + 1 / 2) * s) * ((f (b + 1) - f b) / s) = (1 - w) * f b + w * f (b + 1) := by
      rw [hw]; field_simp; ring
    rw [he]
    have hm := mean_sqrt_le hw0 hw1 (X := A + (((b : ℝ) + 1 / 2) * s - o) ^ 2)
      (Y := A + (((b : ℝ) + 1 + 1 / 2) * s - o) ^ 2) (by positivity) (by positivity)
    have hle : (1 - w) * (A + (((b : ℝ) + 1 / 2) * s - o) ^ 2) + w * (A + (((b : ℝ) + 1 + 1 / 2) * s - o) ^ 2) ≤
        A + ((q - o) ^ 2 + s ^ 2 / 4) := by
      rw [hwq]
      nlinarith [mul_nonneg (sq_nonneg (2 * w - 1)) (sq_nonneg s)]
    have := Real.sqrt_le_sqrt hle
    nlinarith [mul_le_mul_of_nonneg_left f1 (sub_nonneg.2 hw1), mul_le_mul_of_nonneg_left f2 hw0]

/-- One axis, anywhere in the grid: in the outer half of an outer cell the code extrapolates, by at most half a
difference of neighbours. -/
theorem interp1_dist_outer {s q A δ L : ℝ} (hs : 0 < s) {n : ℕ} (h0 : 0 ≤ ⌊q / s⌋) (hn : ⌊q / s⌋ < n) (hA : 0 ≤ A)
    (hL : 0 ≤ L) {j : ℤ} (hj0 : 0 ≤ j) (hjn : j < n) {f : ℤ → ℝ}
    (hf : ∀ k : ℤ, 0 ≤ k → k < n → f k ≤ Real.sqrt (A + (((k : ℝ) + 1 / 2) * s - ((j : ℝ) + 1 / 2) * s) ^ 2) + δ)
    (hfl : ∀ k : ℤ, 0 ≤ k → k + 1 < n → |f (k + 1) - f k| ≤ L) :
    interp1 s q n f ≤ Real.sqrt (A + ((q - ((j : ℝ) + 1 / 2) * s) ^ 2 + s ^ 2 / 4)) + δ + L / 2 := by
  by_cases hq : n = 1 ∨ (s / 2 ≤ q ∧ q ≤ ((n : ℝ) - 1 / 2) * s)
  · have := interp1_dist_inner (o := ((j : ℝ) + 1 / 2) * s) hs h0 hn hA hq (by
      intro h1
      have : j = 0 := by omega
      subst this
      push_cast
      nlinarith [sq_nonneg s, sq_nonneg (q - ((0 : ℝ) + 1 / 2) * s)]) (fun k hk0 hk1 _ => hf k hk0 hk1)
    linarith
  push Not at hq
  obtain ⟨hn1, hq⟩ := hq
  have hfl1 : (⌊q / s⌋ : ℝ) * s ≤ q := (le_div_iff₀ hs).1 (Int.floor_le _)
  have hfl2 : q < ((⌊q / s⌋ : ℝ) + 1) * s := (div_lt_iff₀ hs).1 (Int.lt_floor_add_one _)
  have hq0 : 0 ≤ q := by
    have : (0 : ℝ) ≤ ⌊q / s⌋ := by exact_mod_cast h0
    nlinarith
  have hqn : q < n * s := by
    have : (⌊q / s⌋ : ℝ) + 1 ≤ n := by exact_mod_cast hn
    nlinarith
  obtain ⟨b, c, hx, hb, hc, h⟩ := axisIndices_spec s q hs n h0 hn
  unfold interp1
  simp only [hx]
  rcases h with ⟨e1, _, _⟩ | ⟨e1, e2, e3⟩
  · exact absurd e1 hn1
  subst e1
  have hd := hfl b hb hc
  rw [abs_le] at hd
  have hj0' : (0 : ℝ) ≤ j := by exact_mod_cast hj0
  have hjn' : (j : ℝ) + 1 ≤ n := by exact_mod_cast hjn
  rcases lt_or_ge q (s / 2) with hlow | hlow
  · have hb0 : b = 0 := by
      by_contra hne
      have hb1 : 1 ≤ b := by omega
      have := e2 hb1
      have : (1 : ℝ) ≤ b := by exact_mod_cast hb1
      nlinarith
    subst hb0
    have f0 := hf 0 le_rfl (by omega)
    have hroot : Real.sqrt (A + ((((0 : ℤ) : ℝ) + 1 / 2) * s - ((j : ℝ) + 1 / 2) * s) ^ 2) ≤
        Real.sqrt (A + ((q - ((j : ℝ) + 1 / 2) * s) ^ 2 + s ^ 2 / 4)) := by
      apply Real.sqrt_le_sqrt
      push_cast
      have : 0 ≤ (j : ℝ) * s := by positivity
      nlinarith [sq_nonneg s]
    obtain ⟨w, hw⟩ : ∃ w, w = (s / 2 - q) / s := ⟨_, rfl⟩
    have hw0 : 0 ≤ w := by rw [hw]; exact div_nonneg (by linarith) hs.le
    have hw1 : w ≤ 1 / 2 := by rw [hw, div_le_iff₀ hs]; linarith
    have he : f 0 + (q - (((0 : ℤ) : ℝ) + 1 / 2) * s) * ((f (0 + 1) - f 0) / s) = f 0 + w * (f 0 - f (0 + 1)) := by
      rw [hw]; push_cast; field_simp; ring
    rw [he]
    have f0' := f0.trans (add_le_add_left hroot δ)
    have g1 : w * (f 0 - f (0 + 1)) ≤ w * L := mul_le_mul_of_nonneg_left (by linarith [hd.1]) hw0
    have g2 : w * L ≤ 1 / 2 * L := mul_le_mul_of_nonneg_right hw1 hL
    refine (add_le_add f0' (g1.trans g2)).trans (le_of_eq ?_)
    ring
  · have hhigh := hq hlow
    have hbn : (n : ℤ) = b + 2 := by
      by_contra hne
      have := e3 (by omega)
      have hlt : b + 3 ≤ n := by omega
      have : (b : ℝ) + 3 ≤ n := by exact_mod_cast hlt
      nlinarith
    have hbn' : (n : ℝ) = (b : ℝ) + 2 := by exact_mod_cast hbn
    have f1 := hf (b + 1) (by omega) hc
    have hroot : Real.sqrt (A + ((((b + 1 : ℤ) : ℝ) + 1 / 2) * s - ((j : ℝ) + 1 / 2) * s) ^ 2) ≤
        Real.sqrt (A + ((q - ((j : ℝ) + 1 / 2) * s) ^ 2 + s ^ 2 / 4)) := by
      apply Real.sqrt_le_sqrt
      push_cast
      rw [hbn'] at hhigh hjn'
      have h1 : 0 ≤ ((b : ℝ) + 1 - j) * s := mul_nonneg (by linarith) hs.le
      have h2 : 0 ≤ q - ((b : ℝ) + 1 + 1 / 2) * s := by nlinarith
      nlinarith [sq_nonneg s, mul_nonneg h1 h2]
    obtain ⟨w, hw⟩ : ∃ w, w = (q - ((b : ℝ) + 1 + 1 / 2) * s) / s := ⟨_, rfl⟩
    have hw0 : 0 ≤ w := by
      rw [hw]; apply div_nonneg _ hs.le
      rw [hbn'] at hhigh; nlinarith
    have hw1 : w ≤ 1 / 2 := by
      rw [hw, div_le_iff₀ hs]
      rw [hbn'] at hqn; linarith
    have he : f b + (q - ((b : ℝ) + 1 / 2) * s) * ((f (b + 1) - f b) / s) = f (b + 1) + w * (f (b + 1) - f b) := by
      rw [hw]; field_simp; ring
    rw [he]
    have g1 : w * (f (b + 1) - f b) ≤ w * L := mul_le_mul_of_nonneg_left (by linarith) hw0
    have g2 : w * L ≤ 1 / 2 * L := mul_le_mul_of_nonneg_right hw1 hL
    linarith

/-- Interpolated values are at most twice as large as the values they come from. -/
theorem interp1_abs_le {s q M : ℝ} (hs : 0 < s) {n : ℕ} (h0 : 0 ≤ ⌊q / s⌋) (hn : ⌊q / s⌋ < n) {f : ℤ → ℝ}
    (hf : ∀ k : ℤ, 0 ≤ k → k < n → |f k| ≤ M) : |interp1 s q n f| ≤ 2 * M := by
  have hfl1 : (⌊q / s⌋ : ℝ) * s ≤ q := (le_div_iff₀ hs).1 (Int.floor_le _)
  have hfl2 : q < ((⌊q / s⌋ : ℝ) + 1) * s := (div_lt_iff₀ hs).1 (Int.lt_floor_add_one _)
  have hq0 : 0 ≤ q := by
    have : (0 : ℝ) ≤ ⌊q / s⌋ := by exact_mod_cast h0
    nlinarith
  have hqn : q < n * s := by
    have : (⌊q / s⌋ : ℝ) + 1 ≤ n := by exact_mod_cast hn
    nlinarith
  obtain ⟨b, c, hx, hb, hc, h⟩ := axisIndices_spec s q hs n h0 hn
  unfold interp1
  simp only [hx]
  rcases h with ⟨e1, e2, e3⟩ | ⟨e1, e2, e3⟩
  · subst e2 e3
    rw [sub_self, zero_div, mul_zero, add_zero]
    have := hf 0 le_rfl (by omega)
    have h' := abs_nonneg (f 0)
    linarith
  · subst e1
    have f1 := abs_le.1 (hf b hb (by omega))
    have f2 := abs_le.1 (hf (b + 1) (by omega) hc)
    have hl : ((b : ℝ) + 1 / 2) * s - s / 2 ≤ q := by
      rcases lt_or_ge b 1 with hb1 | hb1
      · have : b = 0 := by omega
        subst this; push_cast; linarith
      · have := e2 hb1; linarith
    have hu : q ≤ ((b : ℝ) + 1 + 1 / 2) * s + s / 2 := by
      rcases lt_or_ge (b + 2) n with hb1 | hb1
      · have := e3 hb1; linarith
      · have hbn : (n : ℤ) = b + 2 := by omega
        have hbn' : (n : ℝ) = (b : ℝ) + 2 := by exact_mod_cast hbn
        rw [hbn'] at hqn
        linarith
    obtain ⟨w, hw⟩ : ∃ w, w = (q - ((b : ℝ) + 1 / 2) * s) / s := ⟨_, rfl⟩
    have hw0 : -(1 / 2) ≤ w := by rw [hw, le_div_iff₀ hs]; linarith
    have hw1 : w ≤ 3 / 2 := by rw [hw, div_le_iff₀ hs]; linarith
    have he : f b + (q - ((b : ℝ) + 1 / 2) * s) * ((f (b + 1) - f b) / s) = (1 - w) * f b + w * f (b + 1) := by
      rw [hw]; field_simp; ring
    rw [he, abs_le]
    have hM : 0 ≤ M := by linarith [f1.1, f1.2]
    rcases le_total 0 w with ha | ha <;> rcases le_total w 1 with hb' | hb' <;> constructor <;> nlinarith

theorem interp1_sub (s q : ℝ) (n : ℕ) (f g : ℤ → ℝ) :
    interp1 s q n f - interp1 s q n g = interp1 s q n fun k => f k - g k := by
  unfold interp1
  ring

theorem interp1_neg (s q : ℝ) (n : ℕ) (f : ℤ → ℝ) : -interp1 s q n f = interp1 s q n fun k => -f k := by
  unfold interp1
  ring

/-- The nested interpolation of `EstimateLocationDistance` (three axes). -/
noncomputable def interp3 (s : ℝ) (q : Fin 3 → ℝ) (d : Dims) (v : ℤ → ℤ → ℤ → ℝ) : ℝ :=
  interp1 s (q 2) d.nz fun z => interp1 s (q 1) d.ny fun y => interp1 s (q 0) d.nx fun x => v x y z

theorem interp3_neg (s : ℝ) (q : Fin 3 → ℝ) (d : Dims) (v : ℤ → ℤ → ℤ → ℝ) :
    -interp3 s q d v = interp3 s q d fun x y z => -v x y z := by
  unfold interp3
  simp only [interp1_neg]

/-- Three axes, between the outermost centres. -/
theorem interp3_inner {s : ℝ} (hs : 0 < s) {d : Dims} {q : Fin 3 → ℝ}
    (hfl : ∀ a, 0 ≤ ⌊q a / s⌋ ∧ ⌊q a / s⌋ < axisCells d a) (hin : BetweenCentres (axisCells d) s q) {o : Fin 3 → ℝ}
    (ho : ∀ a, axisCells d a = 1 → (s / 2 - o a) ^ 2 ≤ (q a - o a) ^ 2 + s ^ 2 / 4) {δ : ℝ} {v : ℤ → ℤ → ℤ → ℝ}
    (hv : ∀ x y z : ℤ, CellInGrid (axisCells d) ![x, y, z] → Around s q ![x, y, z] →
      v x y z ≤ dist3 (cellCentre s ![x, y, z]) o + δ) :
    interp3 s q d v ≤ Real.sqrt (dist3 q o ^ 2 + 3 / 4 * s ^ 2) + δ := by
  have hd2 : dist3 q o ^ 2 = (q 0 - o 0) ^ 2 + (q 1 - o 1) ^ 2 + (q 2 - o 2) ^ 2 := Real.sq_sqrt (by positivity)
  rw [hd2]
  have hz := interp1_dist_inner (s := s) (q := q 2) (o := o 2) (δ := δ) hs (n := d.nz)
    (A := (q 0 - o 0) ^ 2 + s ^ 2 / 4 + ((q 1 - o 1) ^ 2 + s ^ 2 / 4)) (hfl 2).1 (hfl 2).2 (by positivity)
    (f := fun z => interp1 s (q 1) d.ny fun y => interp1 s (q 0) d.nx fun x => v x y z) (hin 2) (ho 2) (by
    intro z hz0 hz1 hza
    have hy := interp1_dist_inner (s := s) (q := q 1) (o := o 1) (δ := δ) hs (n := d.ny)
      (A := (q 0 - o 0) ^ 2 + s ^ 2 / 4 + (((z : ℝ) + 1 / 2) * s - o 2) ^ 2) (hfl 1).1 (hfl 1).2 (by positivity)
      (f := fun y => interp1 s (q 0) d.nx fun x => v x y z) (hin 1) (ho 1) (by
      intro y hy0 hy1 hya
      have hx := interp1_dist_inner (s := s) (q := q 0) (o := o 0) (δ := δ) hs (n := d.nx)
        (A := (((y : ℝ) + 1 / 2) * s - o 1) ^ 2 + (((z : ℝ) + 1 / 2) * s - o 2) ^ 2) (hfl 0).1 (hfl 0).2 (by positivity)
        (f := fun x => v x y z) (hin 0) (ho 0) (by
        intro x hx0 hx1 hxa
        refine (hv x y z ?_ ?_).trans (le_of_eq ?_)
        · intro a; fin_cases a
          · exact ⟨hx0, hx1⟩
          · exact ⟨hy0, hy1⟩
          · exact ⟨hz0, hz1⟩
        · intro a; fin_cases a
          · have : ((x : ℝ) * s + s / 2) = ((x : ℝ) + 1 / 2) * s := by ring
            simpa [cellCentre, this] using hxa
          · have : ((y : ℝ) * s + s / 2) = ((y : ℝ) + 1 / 2) * s := by ring
            simpa [cellCentre, this] using hya
          · have : ((z : ℝ) * s + s / 2) = ((z : ℝ) + 1 / 2) * s := by ring
            simpa [cellCentre, this] using hza
        · unfold dist3 cellCentre
          simp only [Matrix.cons_val_zero, Matrix.cons_val_one, Matrix.cons_val]
          congr 2; ring)
      refine hx.trans (le_of_eq ?_)
      congr 2; ring)
    refine hy.trans (le_of_eq ?_)
    congr 2; ring)
  refine hz.trans (le_of_eq ?_)
  congr 2; ring

/-- Three axes, anywhere in the grid. -/
theorem interp3_outer {s : ℝ} (hs : 0 < s) {d : Dims} {q : Fin 3 → ℝ}
    (hfl : ∀ a, 0 ≤ ⌊q a / s⌋ ∧ ⌊q a / s⌋ < axisCells d a) {o : Fin 3 → ℤ} (ho : CellInGrid (axisCells d) o) {δ : ℝ}
    {v : ℤ → ℤ → ℤ → ℝ}
    (hv : ∀ x y z : ℤ, CellInGrid (axisCells d) ![x, y, z] →
      v x y z ≤ dist3 (cellCentre s ![x, y, z]) (cellCentre s o) + δ)
    (hx : ∀ x y z : ℤ, CellInGrid (axisCells d) ![x, y, z] → CellInGrid (axisCells d) ![x + 1, y, z] →
      |v (x + 1) y z - v x y z| ≤ s)
    (hy : ∀ x y z : ℤ, CellInGrid (axisCells d) ![x, y, z] → CellInGrid (axisCells d) ![x, y + 1, z] →
      |v x (y + 1) z - v x y z| ≤ s)
    (hz : ∀ x y z : ℤ, CellInGrid (axisCells d) ![x, y, z] → CellInGrid (axisCells d) ![x, y, z + 1] →
      |v x y (z + 1) - v x y z| ≤ s) :
    interp3 s q d v ≤ Real.sqrt (dist3 q (cellCentre s o) ^ 2 + 3 / 4 * s ^ 2) + δ + 7 / 2 * s := by
  have hd2 : dist3 q (cellCentre s o) ^ 2 = (q 0 - ((o 0 : ℝ) + 1 / 2) * s) ^ 2 + (q 1 - ((o 1 : ℝ) + 1 / 2) * s) ^ 2 +
      (q 2 - ((o 2 : ℝ) + 1 / 2) * s) ^ 2 := by
    unfold dist3
    rw [Real.sq_sqrt (by positivity)]
    unfold cellCentre
    ring
  rw [hd2]
  have cell : ∀ x y z : ℤ, 0 ≤ x → x < d.nx → 0 ≤ y → y < d.ny → 0 ≤ z → z < d.nz →
      CellInGrid (axisCells d) ![x, y, z] := by
    intro x y z h1 h2 h3 h4 h5 h6 a
    fin_cases a
    · exact ⟨h1, h2⟩
    · exact ⟨h3, h4⟩
    · exact ⟨h5, h6⟩
  have h3 := interp1_dist_outer (s := s) (q := q 2) (δ := δ + s / 2 + s) (L := 4 * s) hs (n := d.nz)
    (A := (q 0 - ((o 0 : ℝ) + 1 / 2) * s) ^ 2 + s ^ 2 / 4 + ((q 1 - ((o 1 : ℝ) + 1 / 2) * s) ^ 2 + s ^ 2 / 4))
    (hfl 2).1 (hfl 2).2 (by positivity) (by positivity) (ho 2).1 (ho 2).2
    (f := fun z => interp1 s (q 1) d.ny fun y => interp1 s (q 0) d.nx fun x => v x y z) (by
    intro z hz0 hz1
    have h2 := interp1_dist_outer (s := s) (q := q 1) (δ := δ + s / 2) (L := 2 * s) hs (n := d.ny)
      (A := (q 0 - ((o 0 : ℝ) + 1 / 2) * s) ^ 2 + s ^ 2 / 4 + (((z : ℝ) + 1 / 2) * s - ((o 2 : ℝ) + 1 / 2) * s) ^ 2)
      (hfl 1).1 (hfl 1).2 (by positivity) (by positivity) (ho 1).1 (ho 1).2
      (f := fun y => interp1 s (q 0) d.nx fun x => v x y z) (by
      intro y hy0 hy1
      have h1 := interp1_dist_outer (s := s) (q := q 0) (δ := δ) (L := s) hs (n := d.nx)
        (A := (((y : ℝ) + 1 / 2) * s - ((o 1 : ℝ) + 1 / 2) * s) ^ 2 + (((z : ℝ) + 1 / 2) * s - ((o 2 : ℝ) + 1 / 2) * s) ^ 2)
        (hfl 0).1 (hfl 0).2 (by positivity) hs.le (ho 0).1 (ho 0).2 (f := fun x => v x y z) (by
        intro x hx0 hx1
        refine (hv x y z (cell x y z hx0 hx1 hy0 hy1 hz0 hz1)).trans (le_of_eq ?_)
        unfold dist3 cellCentre
        simp only [Matrix.cons_val_zero, Matrix.cons_val_one, Matrix.cons_val]
        congr 2; ring) (by
        intro x hx0 hx1
        exact hx x y z (cell x y z hx0 (by omega) hy0 hy1 hz0 hz1) (cell _ y z (by omega) hx1 hy0 hy1 hz0 hz1))
      refine h1.trans (le_of_eq ?_)
      rw [add_assoc]
      congr 2; ring) (by
      intro y hy0 hy1
      show |interp1 s (q 0) d.nx (fun x => v x (y + 1) z) - interp1 s (q 0) d.nx (fun x => v x y z)| ≤ 2 * s
      rw [interp1_sub]
      apply interp1_abs_le hs (hfl 0).1 (hfl 0).2
      intro x hx0 hx1
      exact hy x y z (cell x y z hx0 hx1 hy0 (by omega) hz0 hz1) (cell x _ z hx0 hx1 (by omega) hy1 hz0 hz1))
    refine h2.trans (le_of_eq ?_)
    rw [show 2 * s / 2 = s by ring, add_assoc]
    congr 2; ring) (by
    intro z hz0 hz1
    show |(interp1 s (q 1) d.ny fun y => interp1 s (q 0) d.nx fun x => v x y (z + 1)) -
      interp1 s (q 1) d.ny fun y => interp1 s (q 0) d.nx fun x => v x y z| ≤ 4 * s
    rw [interp1_sub, show 4 * s = 2 * (2 * s) by ring]
    apply interp1_abs_le hs (hfl 1).1 (hfl 1).2
    intro y hy0 hy1
    rw [interp1_sub]
    apply interp1_abs_le hs (hfl 0).1 (hfl 0).2
    intro x hx0 hx1
    exact hz x y z (cell x y z hx0 hx1 hy0 hy1 hz0 (by omega)) (cell x y _ hx0 hx1 hy0 hy1 (by omega) hz1))
  refine h3.trans (le_of_eq ?_)
  exact sqrt_add_congr (by ring) (by ring)

end VGT
