import Verif.Model.SDFQueryFloat
import Verif.Lemmas.Interp

/-!
Rounding errors of the distance estimate.
-/
set_option autoImplicit false

namespace VGT
open VGT.EDT

section
variable {K : Type} [Field K] [LinearOrder K] [IsStrictOrderedRing K] [FloorRing K]

/-- Arithmetic without limits whose operations round with `r` (no infinity; it is not used). -/
def roundedArith (r : K → K) : Arith K where
  add := fun a b => r (a + b)
  sub := fun a b => r (a - b)
  mul := fun a b => r (a * b)
  div := fun a b => r (a / b)
  abs := fun a => |a|
  lt := fun a b => decide (a < b)
  le := fun a b => decide (a ≤ b)
  zero := 0
  one := 1
  half := 1 / 2
  inf := 0
  tiny := r (1 / 10 ^ 10)
  ofInt := fun i => r i
  toInt := fun x => some ⌊x⌋
  fits := fun _ => true

/-- The same with a given norm and interpolation. -/
def roundedQuery (r : K → K) (norm : (Fin 3 → K) → K)
    (interp : (Fin 3 → K) → (Fin 3 → K) → (Bool → Bool → Bool → K) → (Fin 3 → K) → K) : QueryArith K where
  __ := roundedArith r
  neg := fun a => -a
  storedSub := fun a b => r (a - b)
  two := 2
  quarter := 1 / 4
  flatFactor := r (6125 / 100000)
  milli := r (1 / 1000)
  isOne := fun a => decide (a = 1)
  norm := norm
  normalized := fun v a => if 0 < norm v then r (v a / norm v) else v a
  interp := interp

/-- A rounding with relative error `u` and absolute error `η`, precise enough for cells of edge `s` and `N` cells. -/
structure Precise (r : K → K) (u η s N : K) : Prop where
  err : ∀ x, |r x - x| ≤ u * |x| + η
  u0 : 0 ≤ u
  eta0 : 0 ≤ η
  s0 : 0 < s
  one_le : 1 ≤ N
  small : u * N ≤ 1 / 1000
  eta : η ≤ u
  eta_s : η ≤ u * s

namespace Precise
variable {r : K → K} {u η s N : K} (h : Precise r u η s N)
include h

theorem u_le : u ≤ u * N := le_mul_of_one_le_right h.u0 h.one_le
theorem k0 : 0 ≤ u * N := h.u0.trans h.u_le

/-- Rounding a number near `y`. -/
theorem near {x y e : K} (hx : |x - y| ≤ e) : |r x - y| ≤ e + u * (|y| + e) + η := by
  have h1 := h.err x
  have h2 : |x| ≤ |y| + e := by
    have := abs_add_le y (x - y)
    rw [add_sub_cancel] at this
    linarith
  have h3 : |r x - y| ≤ |r x - x| + |x - y| := by
    have := abs_add_le (r x - x) (x - y)
    rwa [sub_add_sub_cancel] at this
  have h4 : u * |x| ≤ u * (|y| + e) := mul_le_mul_of_nonneg_left h2 h.u0
  linarith

/-- The index before the floor. -/
theorem index {q inv : K} (hq : |q| ≤ N * s) (hinv : |inv - 1 / s| ≤ 2 * u / s) : |r (q * inv) - q / s| ≤ 5 * (u * N) := by
  have hs := h.s0
  have h1 : |q * inv - q / s| ≤ 2 * (u * N) := by
    have : q * inv - q / s = q * (inv - 1 / s) := by ring
    rw [this, abs_mul]
    calc |q| * |inv - 1 / s| ≤ (N * s) * (2 * u / s) := mul_le_mul hq hinv (abs_nonneg _) (by nlinarith [h.one_le])
      _ = 2 * (u * N) := by field_simp
  have h2 : |q / s| ≤ N := by
    rw [abs_div, abs_of_pos hs, div_le_iff₀ hs]
    exact hq
  have h3 := h.near h1
  have h4 : u * (|q / s| + 2 * (u * N)) ≤ u * (N + 2 * (1 / 1000)) :=
    mul_le_mul_of_nonneg_left (by linarith [h.small]) h.u0
  have := h.u_le
  have := h.eta
  nlinarith

/-- The computed cell centre. -/
theorem centre {j : ℤ} (hj : |(j : K)| ≤ N) : |r (r (r j + 1 / 2) * s) - ((j : K) + 1 / 2) * s| ≤ 8 * (u * N) * s := by
  have hs := h.s0
  have hk := h.k0
  have hu := h.u_le
  have he := h.eta
  have hsm := h.small
  have u0 := h.u0
  have h1 : |r (j : K) - j| ≤ 2 * (u * N) := by
    have := h.err (j : K)
    have := mul_le_mul_of_nonneg_left hj h.u0
    linarith
  have h2 : |(r (j : K) + 1 / 2) - ((j : K) + 1 / 2)| ≤ 2 * (u * N) := by rwa [add_sub_add_right_eq_sub]
  have hj2 : |(j : K) + 1 / 2| ≤ N + 1 / 2 := by
    have := abs_add_le (j : K) (1 / 2)
    rw [abs_of_pos (by norm_num : (0 : K) < 1 / 2)] at this
    linarith
  have h3 := h.near h2
  have h3' : |r (r (j : K) + 1 / 2) - ((j : K) + 1 / 2)| ≤ 5 * (u * N) := by
    have : u * (|(j : K) + 1 / 2| + 2 * (u * N)) ≤ u * (N + 1 / 2 + 2 * (1 / 1000)) :=
      mul_le_mul_of_nonneg_left (by linarith) u0
    nlinarith
  have h4 : |r (r (j : K) + 1 / 2) * s - ((j : K) + 1 / 2) * s| ≤ 5 * (u * N) * s := by
    rw [← sub_mul, abs_mul, abs_of_pos hs]
    exact mul_le_mul_of_nonneg_right h3' hs.le
  have h5 := h.near h4
  have h6 : |((j : K) + 1 / 2) * s| ≤ (N + 1 / 2) * s := by
    rw [abs_mul, abs_of_pos hs]
    exact mul_le_mul_of_nonneg_right hj2 hs.le
  have h7 : u * (|((j : K) + 1 / 2) * s| + 5 * (u * N) * s) ≤ u * ((N + 1 / 2 + 5 * (1 / 1000)) * s) := by
    refine mul_le_mul_of_nonneg_left ?_ u0
    have : 5 * (u * N) * s ≤ 5 * (1 / 1000) * s := mul_le_mul_of_nonneg_right (by linarith) hs.le
    linarith
  have h8 := h.eta_s
  have h9 : u * s ≤ u * N * s := mul_le_mul_of_nonneg_right hu hs.le
  have h10 : u * ((N + 1 / 2 + 5 * (1 / 1000)) * s) = u * N * s + (1 / 2 + 5 * (1 / 1000)) * (u * s) := by ring
  have h11 : 0 ≤ u * N * s := mul_nonneg hk hs.le
  linarith

/-- The sign of a rounded number that is not negative... -/
theorem sign_up {x : K} (hx : 0 ≤ r x) : -(2 * (u * N) * s) ≤ x := by
  by_contra hc
  push Not at hc
  have hs := h.s0
  have h1 := h.err x
  have hneg : x < 0 := lt_of_lt_of_le hc (by have := h.k0; nlinarith)
  rw [abs_of_neg hneg] at h1
  have h2 := (abs_le.1 h1).2
  have hu : u ≤ 1 / 1000 := h.u_le.trans h.small
  have h3 := h.eta_s
  have h4 : u * s ≤ u * N * s := mul_le_mul_of_nonneg_right h.u_le hs.le
  have h5 : u * -x ≤ 1 / 1000 * -x := mul_le_mul_of_nonneg_right hu (by linarith)
  have h6 : 0 ≤ u * s := mul_nonneg h.u0 hs.le
  linarith

/-- ...and of one that is negative. -/
theorem sign_down {x : K} (hx : r x < 0) : x ≤ 2 * (u * N) * s := by
  by_contra hc
  push Not at hc
  have hs := h.s0
  have h1 := h.err x
  have hpos : 0 < x := lt_of_le_of_lt (by have := h.k0; nlinarith) hc
  rw [abs_of_pos hpos] at h1
  have h2 := (abs_le.1 h1).1
  have hu : u ≤ 1 / 1000 := h.u_le.trans h.small
  have h3 := h.eta_s
  have h4 : u * s ≤ u * N * s := mul_le_mul_of_nonneg_right h.u_le hs.le
  have h5 : u * x ≤ 1 / 1000 * x := mul_le_mul_of_nonneg_right hu (by linarith)
  have h6 : 0 ≤ u * s := mul_nonneg h.u0 hs.le
  linarith

/-- Distance from the lower centre. -/
theorem offset {c q w : K} (hw : |w| ≤ 2) {j : K} (hc : |c - (j + 1 / 2) * s| ≤ 8 * (u * N) * s) (hq : q = (j + 1 / 2 + w) * s) :
    |r (q - c) - w * s| ≤ 12 * (u * N) * s := by
  have hs := h.s0
  have u0 := h.u0
  have h1 : |(q - c) - w * s| ≤ 8 * (u * N) * s := by
    rw [← abs_neg]
    have : -((q - c) - w * s) = c - (j + 1 / 2) * s := by rw [hq]; ring
    rwa [this]
  have h2 := h.near h1
  have h3 : |w * s| ≤ 2 * s := by
    rw [abs_mul, abs_of_pos hs]
    exact mul_le_mul_of_nonneg_right hw hs.le
  have h4 : u * (|w * s| + 8 * (u * N) * s) ≤ u * ((2 + 8 * (1 / 1000)) * s) := by
    refine mul_le_mul_of_nonneg_left ?_ u0
    have : 8 * (u * N) * s ≤ 8 * (1 / 1000) * s := mul_le_mul_of_nonneg_right (by linarith [h.small]) hs.le
    linarith
  have h8 := h.eta_s
  have h9 : u * s ≤ u * N * s := mul_le_mul_of_nonneg_right h.u_le hs.le
  have h10 : 0 ≤ u * s := mul_nonneg u0 hs.le
  linarith

/-- The computed edge of the box. -/
theorem edge {c : K} {j : K} (hj : |j| ≤ N) (hc : |c - (j + 1 / 2) * s| ≤ 8 * (u * N) * s) :
    |r (r (c + s) - c) - s| ≤ 7 * (u * N) * s := by
  have hs := h.s0
  have u0 := h.u0
  have hk := h.k0
  have h9 : u * s ≤ u * N * s := mul_le_mul_of_nonneg_right h.u_le hs.le
  have h10 : 0 ≤ u * s := mul_nonneg u0 hs.le
  have h8 := h.eta_s
  have hks : u * N * s ≤ 1 / 1000 * s := mul_le_mul_of_nonneg_right h.small hs.le
  have hcs : |c + s| ≤ (N + 3 / 2 + 8 * (1 / 1000)) * s := by
    have e1 : |j * s| ≤ N * s := by
      rw [abs_mul, abs_of_pos hs]
      exact mul_le_mul_of_nonneg_right hj hs.le
    rw [abs_le] at e1 hc ⊢
    constructor <;> nlinarith
  have h1 : |r (c + s) - (c + s)| ≤ 4 * (u * N) * s := by
    have := h.err (c + s)
    have h4 : u * |c + s| ≤ u * ((N + 3 / 2 + 8 * (1 / 1000)) * s) := mul_le_mul_of_nonneg_left hcs u0
    have : u * ((N + 3 / 2 + 8 * (1 / 1000)) * s) = u * N * s + (3 / 2 + 8 * (1 / 1000)) * (u * s) := by ring
    linarith
  have h2 : |(r (c + s) - c) - s| ≤ 4 * (u * N) * s := by
    have : (r (c + s) - c) - s = r (c + s) - (c + s) := by ring
    rwa [this]
  have h3 := h.near h2
  rw [abs_of_pos hs] at h3
  have h4 : u * (s + 4 * (u * N) * s) ≤ u * ((1 + 4 * (1 / 1000)) * s) := by
    refine mul_le_mul_of_nonneg_left ?_ u0
    linarith
  linarith

set_option maxHeartbeats 800000 in
/-- One step of interpolation with computed offset `a` and edge `b`. -/
theorem lerp {a b w V vl vh : K} (hw : |w| ≤ 2) (ha : |a - w * s| ≤ 12 * (u * N) * s) (hb : |b - s| ≤ 7 * (u * N) * s)
    (hV : s ≤ V) (hl : |vl| ≤ V) (hh : |vh| ≤ V) :
    |r (vl + r (a * r (r (vh - vl) / b))) - (vl + w * (vh - vl))| ≤ 84 * (u * N) * V := by
  have hs := h.s0
  have u0 := h.u0
  have hk := h.k0
  have hsm := h.small
  have hVpos : 0 < V := lt_of_lt_of_le hs hV
  have hue : η ≤ u * V := h.eta_s.trans (mul_le_mul_of_nonneg_left hV u0)
  have huV : u * V ≤ u * N * V := mul_le_mul_of_nonneg_right h.u_le hVpos.le
  have hkV : u * N * V ≤ 1 / 1000 * V := mul_le_mul_of_nonneg_right hsm hVpos.le
  have hkV0 : 0 ≤ u * N * V := mul_nonneg hk hVpos.le
  have huV0 : 0 ≤ u * V := mul_nonneg u0 hVpos.le
  obtain ⟨D, hD⟩ : ∃ D, D = vh - vl := ⟨_, rfl⟩
  have hDV : |D| ≤ 2 * V := by
    have := abs_sub vh vl
    rw [← hD] at this
    linarith
  rw [← hD]
  -- the difference
  have hd : |r D - D| ≤ 3 * (u * N) * V := by
    have := h.err D
    have := mul_le_mul_of_nonneg_left hDV u0
    linarith
  -- the slope, times s
  have hks : u * N * s ≤ 1 / 1000 * s := mul_le_mul_of_nonneg_right hsm hs.le
  have hbpos : 993 / 1000 * s ≤ b := by
    have := (abs_le.1 hb).1
    linarith
  have hb0 : 0 < b := lt_of_lt_of_le (by linarith) hbpos
  have hsl : |r D / b - D / s| ≤ 18 * (u * N) * V / s := by
    have e : r D / b - D / s = ((r D - D) * s - D * (b - s)) / (b * s) := by field_simp; ring
    rw [e, abs_div, abs_of_pos (mul_pos hb0 hs), div_le_div_iff₀ (mul_pos hb0 hs) hs]
    have e1 : |(r D - D) * s - D * (b - s)| ≤ 17 * (u * N) * V * s := by
      have t1 := abs_sub ((r D - D) * s) (D * (b - s))
      rw [abs_mul, abs_mul, abs_of_pos hs] at t1
      have t2 : |r D - D| * s ≤ 3 * (u * N) * V * s := mul_le_mul_of_nonneg_right hd hs.le
      have t3 : |D| * |b - s| ≤ 2 * V * (7 * (u * N) * s) := mul_le_mul hDV hb (abs_nonneg _) (by linarith)
      linarith
    have e2 : 17 * (u * N) * V * s ≤ 18 * (u * N) * V * b := by
      have : 18 * (u * N * V) * (993 / 1000 * s) ≤ 18 * (u * N * V) * b := mul_le_mul_of_nonneg_left hbpos (by linarith)
      have := mul_nonneg hkV0 hs.le
      linarith
    calc |(r D - D) * s - D * (b - s)| * s ≤ 18 * (u * N) * V * b * s := mul_le_mul_of_nonneg_right (e1.trans e2) hs.le
      _ = 18 * (u * N) * V * (b * s) := by ring
  have hDs : |D / s| ≤ 2 * V / s := by
    rw [abs_div, abs_of_pos hs]
    exact div_le_div_of_nonneg_right hDV hs.le
  have hVs : 1 ≤ V / s := by rwa [le_div_iff₀ hs, one_mul]
  have hVs0 : 0 ≤ V / s := by linarith
  obtain ⟨S, hS⟩ : ∃ S, S = V / s := ⟨_, rfl⟩
  have hsl2 : |r (r D / b) - D / s| ≤ 22 * (u * N) * S := by
    have h3 := h.near hsl
    have e1 : 18 * (u * N) * V / s = 18 * (u * N) * S := by rw [hS]; ring
    have e2 : 2 * V / s = 2 * S := by rw [hS]; ring
    rw [e1] at h3
    rw [e2] at hDs
    rw [← hS] at hVs hVs0
    have h4 : u * (|D / s| + 18 * (u * N) * S) ≤ u * ((2 + 18 * (1 / 1000)) * S) := by
      refine mul_le_mul_of_nonneg_left ?_ u0
      have : u * N * S ≤ 1 / 1000 * S := mul_le_mul_of_nonneg_right hsm hVs0
      linarith
    have h5 : u * S ≤ u * N * S := mul_le_mul_of_nonneg_right h.u_le hVs0
    have h6 : η ≤ u * S := h.eta.trans (le_mul_of_one_le_right u0 hVs)
    have h7 : 0 ≤ u * S := mul_nonneg u0 hVs0
    linarith
  rw [← hS] at hVs hVs0
  have hSs : S * s = V := by rw [hS]; field_simp
  -- the product
  have hp : |a * r (r D / b) - w * D| ≤ 70 * (u * N) * V := by
    have e : a * r (r D / b) - w * D = (a - w * s) * r (r D / b) + (w * s) * (r (r D / b) - D / s) := by
      field_simp; ring
    have t1 := abs_add_le ((a - w * s) * r (r D / b)) ((w * s) * (r (r D / b) - D / s))
    rw [← e, abs_mul, abs_mul] at t1
    have hr : |r (r D / b)| ≤ (2 + 22 * (1 / 1000)) * S := by
      have t := abs_add_le (D / s) (r (r D / b) - D / s)
      rw [add_sub_cancel] at t
      have e2 : 2 * V / s = 2 * S := by rw [hS]; ring
      rw [e2] at hDs
      have : u * N * S ≤ 1 / 1000 * S := mul_le_mul_of_nonneg_right hsm hVs0
      linarith
    have t2 : |a - w * s| * |r (r D / b)| ≤ 12 * (u * N) * s * ((2 + 22 * (1 / 1000)) * S) :=
      mul_le_mul ha hr (abs_nonneg _)
        (mul_nonneg (mul_nonneg (by norm_num) hk) hs.le)
    have hws : |w * s| ≤ 2 * s := by
      rw [abs_mul, abs_of_pos hs]
      exact mul_le_mul_of_nonneg_right hw hs.le
    have t3 : |w * s| * |r (r D / b) - D / s| ≤ 2 * s * (22 * (u * N) * S) := mul_le_mul hws hsl2 (abs_nonneg _) (by linarith)
    have e3 : 12 * (u * N) * s * ((2 + 22 * (1 / 1000)) * S) = 12 * (2 + 22 * (1 / 1000)) * (u * N) * V := by rw [← hSs]; ring
    have e4 : 2 * s * (22 * (u * N) * S) = 44 * (u * N) * V := by rw [← hSs]; ring
    rw [e3] at t2
    rw [e4] at t3
    linarith
  have hwD : |w * D| ≤ 4 * V := by
    rw [abs_mul]
    have := mul_le_mul hw hDV (abs_nonneg _) (by norm_num : (0 : K) ≤ 2)
    linarith
  have hp2 : |r (a * r (r D / b)) - w * D| ≤ 76 * (u * N) * V := by
    have h3 := h.near hp
    have h4 : u * (|w * D| + 70 * (u * N) * V) ≤ u * ((4 + 70 * (1 / 1000)) * V) := by
      refine mul_le_mul_of_nonneg_left ?_ u0
      linarith
    linarith
  -- the sum
  have hsum : |(vl + r (a * r (r D / b))) - (vl + w * D)| ≤ 76 * (u * N) * V := by rwa [add_sub_add_left_eq_sub]
  have h3 := h.near hsum
  have hvD : |vl + w * D| ≤ 5 * V := by
    have := abs_add_le vl (w * D)
    linarith
  have h4 : u * (|vl + w * D| + 76 * (u * N) * V) ≤ u * ((5 + 76 * (1 / 1000)) * V) := by
    refine mul_le_mul_of_nonneg_left ?_ u0
    linarith
  linarith

end Precise

/-! ### The choice of the two cells -/

/-- The line through the values of two cells, at `t` (in cells). -/
def lin (t : K) (lo hi : ℤ) (f : ℤ → K) : K := f lo + (t - ((lo : K) + 1 / 2)) * (f hi - f lo)

/-- The two cells are neighbours around `t`, up to `ε`. -/
def GoodPair (ε t : K) (n : ℕ) (lo hi : ℤ) : Prop :=
  0 ≤ lo ∧ hi < n ∧ ((n = 1 ∧ lo = 0 ∧ hi = 0) ∨
    (hi = lo + 1 ∧ (1 ≤ lo → (lo : K) + 1 / 2 - ε ≤ t) ∧ (lo + 2 < n → t ≤ (lo : K) + 3 / 2 + ε)))

theorem flAxisIndices_good {ε t : K} (hε : 0 ≤ ε) {n : ℕ} {i : ℤ} (h0 : 0 ≤ i) (hn : i < n) {up : Bool} (h1 : (i : K) ≤ t + ε)
    (h2 : t ≤ (i : K) + 1 + ε) (hup : up = true → (i : K) + 1 / 2 - ε ≤ t) (hdn : up = false → t ≤ (i : K) + 1 / 2 + ε) :
    GoodPair ε t n (flAxisIndices i n up).1 (flAxisIndices i n up).2 := by
  unfold flAxisIndices
  cases up
  · have hd := hdn rfl
    rw [if_neg (by decide)]
    split_ifs with ha hb
    · exact ⟨h0, hn, .inl ⟨by omega, by dsimp only; omega, by dsimp only; omega⟩⟩
    · refine ⟨h0, by dsimp only; omega, .inr ⟨rfl, by dsimp only; omega, fun _ => ?_⟩⟩
      dsimp only
      linarith
    · refine ⟨by dsimp only; omega, hn, .inr ⟨by dsimp only; omega, fun _ => ?_, fun _ => ?_⟩⟩
      · dsimp only; push_cast; linarith
      · dsimp only; push_cast; linarith
  · have hu := hup rfl
    rw [if_pos rfl]
    split_ifs with ha hb
    · exact ⟨h0, hn, .inl ⟨by omega, by dsimp only; omega, by dsimp only; omega⟩⟩
    · refine ⟨by dsimp only; omega, hn, .inr ⟨by dsimp only; omega, fun _ => ?_, fun h => ?_⟩⟩
      · dsimp only; push_cast; linarith
      · dsimp only at h; omega
    · refine ⟨h0, by dsimp only; omega, .inr ⟨rfl, fun _ => hu, fun _ => ?_⟩⟩
      dsimp only
      linarith

/-- The weight of the upper cell. -/
theorem GoodPair.weight {ε t : K} {n : ℕ} {lo hi : ℤ} (h : GoodPair ε t n lo hi) (hε : ε ≤ 1 / 4) (h0 : -(1 / 4) ≤ t)
    (hn : t ≤ n + 1 / 4) : -1 ≤ t - ((lo : K) + 1 / 2) ∧ t - ((lo : K) + 1 / 2) ≤ 2 := by
  obtain ⟨hlo, hhi, ⟨h1, rfl, rfl⟩ | ⟨h1, h2, h3⟩⟩ := h
  · subst h1
    push_cast at hn ⊢
    constructor <;> linarith
  · constructor
    · rcases lt_or_ge lo 1 with h | h
      · have : lo = 0 := by omega
        subst this
        push_cast
        linarith
      · have := h2 h
        linarith
    · rcases lt_or_ge (lo + 2) n with h | h
      · have := h3 h
        linarith
      · have hn' : (n : ℤ) = lo + 2 := by omega
        have hn'' : (n : K) = (lo : K) + 2 := by exact_mod_cast hn'
        linarith

theorem lin_le {t : K} {lo hi : ℤ} (hw : -1 ≤ t - ((lo : K) + 1 / 2) ∧ t - ((lo : K) + 1 / 2) ≤ 2) {f g : ℤ → K} {e : K}
    (hl : |f lo - g lo| ≤ e) (hh : |f hi - g hi| ≤ e) : |lin t lo hi f - lin t lo hi g| ≤ 3 * e := by
  unfold lin
  generalize t - ((lo : K) + 1 / 2) = w at hw ⊢
  have he : 0 ≤ e := (abs_nonneg _).trans hl
  have e1 : f lo + w * (f hi - f lo) - (g lo + w * (g hi - g lo)) = (1 - w) * (f lo - g lo) + w * (f hi - g hi) := by ring
  rw [e1]
  have t1 := abs_add_le ((1 - w) * (f lo - g lo)) (w * (f hi - g hi))
  rw [abs_mul, abs_mul] at t1
  have hsum : |1 - w| + |w| ≤ 3 := by
    rcases abs_cases (1 - w) with ⟨h1, _⟩ | ⟨h1, _⟩ <;> rcases abs_cases w with ⟨h2, _⟩ | ⟨h2, _⟩ <;> rw [h1, h2] <;> linarith [hw.1, hw.2]
  have t2 : |1 - w| * |f lo - g lo| ≤ |1 - w| * e := mul_le_mul_of_nonneg_left hl (abs_nonneg _)
  have t3 : |w| * |f hi - g hi| ≤ |w| * e := mul_le_mul_of_nonneg_left hh (abs_nonneg _)
  have t4 : (|1 - w| + |w|) * e ≤ 3 * e := mul_le_mul_of_nonneg_right hsum he
  linarith

theorem lin_bound {t : K} {lo hi : ℤ} (hw : -1 ≤ t - ((lo : K) + 1 / 2) ∧ t - ((lo : K) + 1 / 2) ≤ 2) {f : ℤ → K} {V : K}
    (hl : |f lo| ≤ V) (hh : |f hi| ≤ V) : |lin t lo hi f| ≤ 3 * V := by
  have := lin_le hw (f := f) (g := fun _ => 0) (e := V) (by simpa using hl) (by simpa using hh)
  simpa [lin] using this

/-- Two good pairs give almost the same line. -/
theorem lin_switch {ε t : K} (hε : 0 ≤ ε) (hε4 : ε ≤ 1 / 4) {n : ℕ} {lo hi b c : ℤ} (h : GoodPair ε t n lo hi)
    (h' : GoodPair 0 t n b c) {f : ℤ → K} {V : K} (hf : ∀ k : ℤ, 0 ≤ k → k < n → |f k| ≤ V) :
    |lin t lo hi f - lin t b c f| ≤ 4 * ε * V := by
  obtain ⟨hlo, hhi, h⟩ := h
  obtain ⟨hb, hc, h'⟩ := h'
  have hV : 0 ≤ V := by
    have hn : 0 < n := by rcases h with h | h <;> omega
    exact (abs_nonneg _).trans (hf 0 le_rfl (by omega))
  have h4 : 0 ≤ 4 * ε * V := by positivity
  -- the difference at a shared centre
  have key : ∀ (k : ℤ) (τ : K), 0 ≤ k → k + 2 < n → |τ| ≤ ε → |τ * (2 * f (k + 1) - f k - f (k + 2))| ≤ 4 * ε * V := by
    intro k τ hk hk2 hτ
    have e1 := abs_le.1 (hf k hk (by omega))
    have e2 := abs_le.1 (hf (k + 1) (by omega) (by omega))
    have e3 := abs_le.1 (hf (k + 2) (by omega) (by omega))
    rw [abs_mul]
    have : |2 * f (k + 1) - f k - f (k + 2)| ≤ 4 * V := by
      rw [abs_le]; constructor <;> linarith [e1.1, e1.2, e2.1, e2.2, e3.1, e3.2]
    calc _ ≤ ε * (4 * V) := mul_le_mul hτ this (abs_nonneg _) hε
      _ = 4 * ε * V := by ring
  rcases h with ⟨h1, rfl, rfl⟩ | ⟨rfl, h2, h3⟩
  · rcases h' with ⟨-, rfl, rfl⟩ | ⟨h1', -, -⟩
    · simpa using h4
    · omega
  · rcases h' with ⟨h1', -, -⟩ | ⟨rfl, h2', h3'⟩
    · omega
    · rcases lt_trichotomy lo b with hlt | rfl | hgt
      · have e1 := h3 (by omega)
        have e2 := h2' (by omega)
        have hb1 : b = lo + 1 := by
          by_contra hne
          have hge : lo + 2 ≤ b := by omega
          have hge' : (lo : K) + 2 ≤ b := by exact_mod_cast hge
          linarith
        subst hb1
        push_cast at e2
        have := key lo (t - ((lo : K) + 3 / 2)) hlo (by omega) (by rw [abs_le]; constructor <;> linarith)
        have e3 : lin t lo (lo + 1) f - lin t (lo + 1) (lo + 1 + 1) f = (t - ((lo : K) + 3 / 2)) * (2 * f (lo + 1) - f lo - f (lo + 2)) := by
          unfold lin
          rw [show lo + 1 + 1 = lo + 2 by ring]
          push_cast
          ring
        rwa [e3]
      · simpa using h4
      · have e1 := h2 (by omega)
        have e2 := h3' (by omega)
        have hb1 : lo = b + 1 := by
          by_contra hne
          have hge : b + 2 ≤ lo := by omega
          have hge' : (b : K) + 2 ≤ lo := by exact_mod_cast hge
          linarith
        subst hb1
        push_cast at e1
        have := key b (t - ((b : K) + 3 / 2)) hb (by omega) (by rw [abs_le]; constructor <;> linarith)
        have e3 : lin t (b + 1) (b + 1 + 1) f - lin t b (b + 1) f = -((t - ((b : K) + 3 / 2)) * (2 * f (b + 1) - f b - f (b + 2))) := by
          unfold lin
          rw [show b + 1 + 1 = b + 2 by ring]
          push_cast
          ring
        rwa [e3, abs_neg]

/-- The exact interpolation is a line through a good pair. -/
theorem interp1_lin {s q : K} (hs : 0 < s) {n : ℕ} (h0 : 0 ≤ ⌊q / s⌋) (hn : ⌊q / s⌋ < n) :
    ∃ b c : ℤ, GoodPair 0 (q / s) n b c ∧ ∀ f, interp1 s q n f = lin (q / s) b c f := by
  obtain ⟨b, c, hx, hb, hc, h⟩ := axisIndices_spec s q hs n h0 hn
  refine ⟨b, c, ⟨hb, hc, ?_⟩, ?_⟩
  · rcases h with h | ⟨h1, h2, h3⟩
    · exact .inl h
    · refine .inr ⟨h1, fun h => ?_, fun h => ?_⟩
      · rw [sub_zero, le_div_iff₀ hs]
        exact h2 h
      · rw [add_zero, div_le_iff₀ hs]
        have := h3 h
        linarith
  · intro f
    unfold interp1 lin
    simp only [hx]
    field_simp

/-- Three nested lines through good pairs against the exact interpolation. -/
theorem lin3_interp {ε s : K} (hs : 0 < s) (hε : 0 ≤ ε) (hε4 : ε ≤ 1 / 4) {n : Fin 3 → ℕ} {q : Fin 3 → K}
    (hq : ∀ a, 0 ≤ ⌊q a / s⌋ ∧ ⌊q a / s⌋ < n a) {lo hi : Fin 3 → ℤ} (h : ∀ a, GoodPair ε (q a / s) (n a) (lo a) (hi a))
    {v : ℤ → ℤ → ℤ → K} {V : K}
    (hv : ∀ x y z : ℤ, 0 ≤ x → x < n 0 → 0 ≤ y → y < n 1 → 0 ≤ z → z < n 2 → |v x y z| ≤ V) :
    |lin (q 2 / s) (lo 2) (hi 2) (fun z => lin (q 1 / s) (lo 1) (hi 1) fun y => lin (q 0 / s) (lo 0) (hi 0) fun x => v x y z) -
      interp1 s (q 2) (n 2) (fun z => interp1 s (q 1) (n 1) fun y => interp1 s (q 0) (n 0) fun x => v x y z)| ≤ 108 * ε * V := by
  have ht : ∀ a, 0 ≤ q a / s ∧ q a / s ≤ n a := by
    intro a
    have h1 : (0 : K) ≤ ⌊q a / s⌋ := by exact_mod_cast (hq a).1
    have h2 : (⌊q a / s⌋ : K) + 1 ≤ n a := by exact_mod_cast (hq a).2
    exact ⟨h1.trans (Int.floor_le _), (Int.lt_floor_add_one _).le.trans h2⟩
  obtain ⟨b0, c0, g0, e0⟩ := interp1_lin hs (hq 0).1 (hq 0).2
  obtain ⟨b1, c1, g1, e1⟩ := interp1_lin hs (hq 1).1 (hq 1).2
  obtain ⟨b2, c2, g2, e2⟩ := interp1_lin hs (hq 2).1 (hq 2).2
  simp only [e0, e1, e2]
  have cells : ∀ {ε t : K} {n : ℕ} {lo hi : ℤ}, GoodPair ε t n lo hi → (0 ≤ lo ∧ lo < n) ∧ (0 ≤ hi ∧ hi < n) := by
    intro ε t n lo hi g
    obtain ⟨h1, h2, h3⟩ := g
    rcases h3 with h3 | h3 <;> omega
  have w0 := (h 0).weight hε4 (by linarith [(ht 0).1]) (by linarith [(ht 0).2])
  have w1 := (h 1).weight hε4 (by linarith [(ht 1).1]) (by linarith [(ht 1).2])
  have w2 := (h 2).weight hε4 (by linarith [(ht 2).1]) (by linarith [(ht 2).2])
  have x0 := g0.weight (by norm_num) (by linarith [(ht 0).1]) (by linarith [(ht 0).2])
  have x1 := g1.weight (by norm_num) (by linarith [(ht 1).1]) (by linarith [(ht 1).2])
  -- innermost axis
  have s0 : ∀ y z : ℤ, 0 ≤ y → y < n 1 → 0 ≤ z → z < n 2 →
      |lin (q 0 / s) (lo 0) (hi 0) (fun x => v x y z) - lin (q 0 / s) b0 c0 (fun x => v x y z)| ≤ 4 * ε * V ∧
      |lin (q 0 / s) b0 c0 (fun x => v x y z)| ≤ 3 * V := by
    intro y z hy hy' hz hz'
    have hv' : ∀ k : ℤ, 0 ≤ k → k < n 0 → |v k y z| ≤ V := fun k hk hk' => hv k y z hk hk' hy hy' hz hz'
    refine ⟨lin_switch hε hε4 (h 0) g0 hv', lin_bound x0 ?_ ?_⟩
    · exact hv' _ (cells g0).1.1 (cells g0).1.2
    · exact hv' _ (cells g0).2.1 (cells g0).2.2
  -- middle axis
  have s1 : ∀ z : ℤ, 0 ≤ z → z < n 2 →
      |lin (q 1 / s) (lo 1) (hi 1) (fun y => lin (q 0 / s) (lo 0) (hi 0) fun x => v x y z) -
        lin (q 1 / s) b1 c1 (fun y => lin (q 0 / s) b0 c0 fun x => v x y z)| ≤ 24 * ε * V ∧
      |lin (q 1 / s) b1 c1 (fun y => lin (q 0 / s) b0 c0 fun x => v x y z)| ≤ 9 * V := by
    intro z hz hz'
    have hy := cells (h 1)
    have hy' := cells g1
    have d1 := lin_le w1 (f := fun y => lin (q 0 / s) (lo 0) (hi 0) fun x => v x y z)
      (g := fun y => lin (q 0 / s) b0 c0 fun x => v x y z) (s0 _ z hy.1.1 hy.1.2 hz hz').1 (s0 _ z hy.2.1 hy.2.2 hz hz').1
    have d2 := lin_switch hε hε4 (h 1) g1 (f := fun y => lin (q 0 / s) b0 c0 fun x => v x y z) (V := 3 * V)
      (fun k hk hk' => (s0 k z hk hk' hz hz').2)
    have d3 := abs_add_le (lin (q 1 / s) (lo 1) (hi 1) (fun y => lin (q 0 / s) (lo 0) (hi 0) fun x => v x y z) -
      lin (q 1 / s) (lo 1) (hi 1) (fun y => lin (q 0 / s) b0 c0 fun x => v x y z))
      (lin (q 1 / s) (lo 1) (hi 1) (fun y => lin (q 0 / s) b0 c0 fun x => v x y z) -
      lin (q 1 / s) b1 c1 (fun y => lin (q 0 / s) b0 c0 fun x => v x y z))
    rw [sub_add_sub_cancel] at d3
    refine ⟨by linarith, ?_⟩
    have := lin_bound x1 (f := fun y => lin (q 0 / s) b0 c0 fun x => v x y z) (V := 3 * V)
      (s0 _ z hy'.1.1 hy'.1.2 hz hz').2 (s0 _ z hy'.2.1 hy'.2.2 hz hz').2
    linarith
  -- outermost axis
  have hz := cells (h 2)
  have d1 := lin_le w2 (f := fun z => lin (q 1 / s) (lo 1) (hi 1) fun y => lin (q 0 / s) (lo 0) (hi 0) fun x => v x y z)
    (g := fun z => lin (q 1 / s) b1 c1 fun y => lin (q 0 / s) b0 c0 fun x => v x y z)
    (s1 _ hz.1.1 hz.1.2).1 (s1 _ hz.2.1 hz.2.2).1
  have d2 := lin_switch hε hε4 (h 2) g2 (f := fun z => lin (q 1 / s) b1 c1 fun y => lin (q 0 / s) b0 c0 fun x => v x y z)
    (V := 9 * V) (fun k hk hk' => (s1 k hk hk').2)
  have d3 := abs_add_le
    (lin (q 2 / s) (lo 2) (hi 2) (fun z => lin (q 1 / s) (lo 1) (hi 1) fun y => lin (q 0 / s) (lo 0) (hi 0) fun x => v x y z) -
      lin (q 2 / s) (lo 2) (hi 2) (fun z => lin (q 1 / s) b1 c1 fun y => lin (q 0 / s) b0 c0 fun x => v x y z))
    (lin (q 2 / s) (lo 2) (hi 2) (fun z => lin (q 1 / s) b1 c1 fun y => lin (q 0 / s) b0 c0 fun x => v x y z) -
      lin (q 2 / s) b2 c2 (fun z => lin (q 1 / s) b1 c1 fun y => lin (q 0 / s) b0 c0 fun x => v x y z))
  rw [sub_add_sub_cancel] at d3
  linarith

/-! ### Interpolation in a box -/

/-- Exact trilinear interpolation between the corners of a box with the weights `w` of the upper corners. -/
def triB (w : Fin 3 → K) (v : Bool → Bool → Bool → K) : K :=
  let l (a : Fin 3) (x y : K) : K := x + w a * (y - x)
  l 2 (l 1 (l 0 (v false false false) (v true false false)) (l 0 (v false true false) (v true true false)))
    (l 1 (l 0 (v false false true) (v true false true)) (l 0 (v false true true) (v true true true)))

theorem lerp_le {w x y x' y' e : K} (hw : -1 ≤ w ∧ w ≤ 2) (hx : |x - x'| ≤ e) (hy : |y - y'| ≤ e) :
    |(x + w * (y - x)) - (x' + w * (y' - x'))| ≤ 3 * e := by
  have := lin_le (t := w + 1 / 2) (lo := 0) (hi := 1) (by push_cast; constructor <;> linarith [hw.1, hw.2])
    (f := fun k => if k = 0 then x else y) (g := fun k => if k = 0 then x' else y') (e := e) (by simpa using hx) (by simpa using hy)
  unfold lin at this
  simpa using this

theorem lerp_bound {w x y V : K} (hw : -1 ≤ w ∧ w ≤ 2) (hx : |x| ≤ V) (hy : |y| ≤ V) : |x + w * (y - x)| ≤ 3 * V := by
  have := lerp_le hw (x := x) (y := y) (x' := 0) (y' := 0) (e := V) (by simpa using hx) (by simpa using hy)
  simpa using this

theorem triB_le {w : Fin 3 → K} (hw : ∀ a, -1 ≤ w a ∧ w a ≤ 2) {v v' : Bool → Bool → Bool → K} {e : K}
    (h : ∀ x y z, |v x y z - v' x y z| ≤ e) : |triB w v - triB w v'| ≤ 27 * e := by
  have := lerp_le (hw 2) (lerp_le (hw 1) (lerp_le (hw 0) (h false false false) (h true false false))
      (lerp_le (hw 0) (h false true false) (h true true false)))
    (lerp_le (hw 1) (lerp_le (hw 0) (h false false true) (h true false true))
      (lerp_le (hw 0) (h false true true) (h true true true)))
  unfold triB
  linarith

/-- An interpolation whose error is at most `γ` times the largest value, with the computed corners of the box. -/
def Accurate (interp : (Fin 3 → K) → (Fin 3 → K) → (Bool → Bool → Bool → K) → (Fin 3 → K) → K) (r : K → K) (u s N γ : K) : Prop :=
  ∀ (j c q w : Fin 3 → K) (v : Bool → Bool → Bool → K) (V : K), (∀ a, |j a| ≤ N) →
    (∀ a, |c a - (j a + 1 / 2) * s| ≤ 8 * (u * N) * s) → (∀ a, q a = (j a + 1 / 2 + w a) * s) → (∀ a, -1 ≤ w a ∧ w a ≤ 2) →
    s ≤ V → (∀ x y z, |v x y z| ≤ V) → |interp c (fun a => r (c a + s)) v q - triB w v| ≤ γ * V

/-- The first formula. -/
theorem Precise.accurate_trilinear {r : K → K} {u η s N : K} (h : Precise r u η s N) :
    Accurate (flTrilinear (roundedArith r)) r u s N (3108 * (u * N)) := by
  intro j c q w v V hj hc hq hw hV hv
  have hk := h.k0
  have hsm := h.small
  have hVpos : 0 < V := lt_of_lt_of_le h.s0 hV
  have hkV : u * N * V ≤ 1 / 1000 * V := mul_le_mul_of_nonneg_right hsm hVpos.le
  have hkV0 : 0 ≤ u * N * V := mul_nonneg hk hVpos.le
  have hw2 : ∀ a, |w a| ≤ 2 := fun a => abs_le.2 ⟨by linarith [(hw a).1], (hw a).2⟩
  let L : Fin 3 → K → K → K := fun a x y => r (x + r (r (q a - c a) * r (r (y - x) / r (r (c a + s) - c a))))
  have step : ∀ (a : Fin 3) {V x y : K}, s ≤ V → |x| ≤ V → |y| ≤ V → |L a x y - (x + w a * (y - x))| ≤ 84 * (u * N) * V := by
    intro a V x y hV hx hy
    exact h.lerp (hw2 a) (h.offset (hw2 a) (hc a) (hq a)) (h.edge (hj a) (hc a)) hV hx hy
  have size : ∀ {x y e B : K}, |x - y| ≤ e → |y| ≤ B → |x| ≤ B + e := by
    intro x y e B h1 h2
    have := abs_add_le (x - y) y
    rw [sub_add_cancel] at this
    linarith
  -- first level
  have l0 : ∀ y z, |L 0 (v false y z) (v true y z) - (v false y z + w 0 * (v true y z - v false y z))| ≤ 84 * (u * N) * V ∧
      |L 0 (v false y z) (v true y z)| ≤ 4 * V := by
    intro y z
    have h1 := step 0 hV (hv false y z) (hv true y z)
    have h2 := size h1 (lerp_bound (hw 0) (hv false y z) (hv true y z))
    exact ⟨h1, by linarith⟩
  -- second level
  have l1 : ∀ z, |L 1 (L 0 (v false false z) (v true false z)) (L 0 (v false true z) (v true true z)) -
      ((v false false z + w 0 * (v true false z - v false false z)) + w 1 *
        ((v false true z + w 0 * (v true true z - v false true z)) - (v false false z + w 0 * (v true false z - v false false z))))| ≤
        588 * (u * N) * V ∧
      |L 1 (L 0 (v false false z) (v true false z)) (L 0 (v false true z) (v true true z))| ≤ 16 * V := by
    intro z
    have h1 := step 1 (V := 4 * V) (by linarith) (l0 false z).2 (l0 true z).2
    have h2 := lerp_le (hw 1) (l0 false z).1 (l0 true z).1
    have h3 := size h1 (lerp_bound (hw 1) (l0 false z).2 (l0 true z).2)
    refine ⟨?_, by linarith⟩
    have := abs_add_le _ _ |>.trans (add_le_add h1 h2)
    rw [sub_add_sub_cancel] at this
    linarith
  -- third level
  have h1 := step 2 (V := 16 * V) (by linarith) (l1 false).2 (l1 true).2
  have h2 := lerp_le (hw 2) (l1 false).1 (l1 true).1
  have := abs_add_le _ _ |>.trans (add_le_add h1 h2)
  rw [sub_add_sub_cancel] at this
  have e : flTrilinear (roundedArith r) c (fun a => r (c a + s)) v q =
      L 2 (L 1 (L 0 (v false false false) (v true false false)) (L 0 (v false true false) (v true true false)))
        (L 1 (L 0 (v false false true) (v true false true)) (L 0 (v false true true) (v true true true))) := rfl
  rw [e]
  unfold triB
  linarith

end

end VGT
