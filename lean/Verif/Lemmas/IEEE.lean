import Verif.Model.IEEE
import Mathlib.Algebra.Order.Field.Power
import Mathlib.Tactic.Linarith
import Mathlib.Tactic.Ring
import Mathlib.Tactic.FieldSimp
import Mathlib.Tactic.Positivity
import Mathlib.Tactic.NormNum
import Mathlib.Tactic.Push

set_option autoImplicit false

namespace VGT

variable {K : Type} [Field K] [LinearOrder K] [IsStrictOrderedRing K] [FloorRing K]

theorem roundHalfEven_int (n : ℤ) : roundHalfEven (n : K) = n := by
  simp [roundHalfEven]

theorem roundHalfEven_mono {x y : K} (h : x ≤ y) : roundHalfEven x ≤ roundHalfEven y := by
  have hf := Int.floor_le_floor h
  have hx := Int.floor_le x
  have hy := Int.floor_le y
  rcases eq_or_lt_of_le hf with he | hlt
  · simp only [roundHalfEven, he]
    split_ifs <;> first | omega | (exfalso; linarith) 
  · have h1 : roundHalfEven x ≤ ⌊x⌋ + 1 := by
      unfold roundHalfEven; split_ifs <;> omega
    have h2 : ⌊y⌋ ≤ roundHalfEven y := by
      unfold roundHalfEven; split_ifs <;> omega
    omega

theorem roundHalfEven_neg (x : K) : roundHalfEven (-x) = - roundHalfEven x := by
  by_cases hi : (⌊x⌋ : K) = x
  · rw [← hi, ← Int.cast_neg, roundHalfEven_int, roundHalfEven_int]
  · have hlt : (⌊x⌋ : K) < x := lt_of_le_of_ne (Int.floor_le x) hi
    have hlt2 := Int.lt_floor_add_one x
    have hfl : ⌊-x⌋ = -⌊x⌋ - 1 := by
      rw [Int.floor_eq_iff]
      push_cast
      constructor <;> linarith
    unfold roundHalfEven
    rw [hfl]
    push_cast
    split_ifs <;> first | omega | (exfalso; linarith) 

theorem roundHalfEven_le {x : K} {n : ℤ} (h : x ≤ n) : roundHalfEven x ≤ n := by
  simpa [roundHalfEven_int] using roundHalfEven_mono h

theorem le_roundHalfEven {x : K} {n : ℤ} (h : (n : K) ≤ x) : n ≤ roundHalfEven x := by
  simpa [roundHalfEven_int] using roundHalfEven_mono h

theorem lastPlace_neg (p : ℕ) (emin : ℤ) (x : K) : lastPlace p emin (-x) = lastPlace p emin x := by
  simp [lastPlace]

theorem rne_neg (p : ℕ) (emin : ℤ) (x : K) : rne p emin (-x) = - rne p emin x := by
  simp only [rne, lastPlace_neg, neg_div, roundHalfEven_neg]
  push_cast
  ring

theorem rne_zero (p : ℕ) (emin : ℤ) : rne p emin (0 : K) = 0 := by
  have := roundHalfEven_int (K := K) 0
  simp only [Int.cast_zero] at this
  simp [rne, this]

theorem abs_lt_pow (p : ℕ) (emin : ℤ) (x : K) : |x| < 2 ^ (lastPlace p emin x + p) := by
  have h := Int.lt_zpow_succ_log_self (R := K) (b := 2) (by norm_num) |x|
  refine lt_of_lt_of_le h ?_
  push_cast
  apply zpow_le_zpow_right₀ (by norm_num)
  have : Int.log 2 |x| - ((p : ℤ) - 1) ≤ lastPlace p emin x := le_max_left _ _
  omega

/-- A number with at most `p` bits and exponent at least `emin` is not changed. -/
theorem rne_exact {p : ℕ} {emin : ℤ} (m k : ℤ) (hp : 1 ≤ p) (hm : |m| ≤ 2 ^ p) (hk : emin ≤ k) :
    rne p emin ((m : K) * 2 ^ k) = (m : K) * 2 ^ k := by
  set x : K := (m : K) * 2 ^ k with hx
  suffices hz : ∃ n : ℤ, x / 2 ^ lastPlace p emin x = n by
    obtain ⟨n, hn⟩ := hz
    unfold rne
    rw [hn, roundHalfEven_int, ← hn]
    field_simp
  set e := lastPlace p emin x with he
  by_cases hle : e ≤ k
  · refine ⟨m * 2 ^ (k - e).toNat, ?_⟩
    rw [hx, mul_div_assoc, ← zpow_sub₀ (by norm_num)]
    push_cast
    congr 1
    rw [← zpow_natCast]
    congr 1
    omega
  · push Not at hle
    have he' : e = Int.log 2 |x| - ((p : ℤ) - 1) := by
      rcases max_choice (Int.log 2 |x| - ((p : ℤ) - 1)) emin with h | h
      · rw [he]; exact h
      · exfalso
        have : e = emin := by rw [he]; exact h
        omega
    by_cases hm0 : m = 0
    · exact ⟨0, by simp [hx, hm0]⟩
    have hxpos : 0 < |x| := by
      rw [hx, abs_pos]
      exact mul_ne_zero (by exact_mod_cast hm0) (by positivity)
    have hlow := Int.zpow_log_le_self (R := K) (b := 2) (by norm_num) hxpos
    have habs : |x| = (|m| : ℤ) * 2 ^ k := by
      rw [hx, abs_mul, Int.cast_abs, abs_of_pos (a := (2 : K) ^ k) (by positivity)]
    have h1 : (2 : K) ^ (Int.log 2 |x| - k) ≤ (|m| : ℤ) := by
      rw [zpow_sub₀ (by norm_num), div_le_iff₀ (by positivity), ← habs]
      exact_mod_cast hlow
    have h2 : ((|m| : ℤ) : K) ≤ 2 ^ (p : ℤ) := by
      rw [zpow_natCast]; exact_mod_cast hm
    have h3 : Int.log 2 |x| - k ≤ (p : ℤ) :=
      (zpow_le_zpow_iff_right₀ (by norm_num : (1 : K) < 2)).1 (h1.trans h2)
    have h4 : Int.log 2 |x| - k = (p : ℤ) := by omega
    have h5 : e = k + 1 := by omega
    have hm2 : |m| = 2 ^ p := by
      refine le_antisymm hm ?_
      rw [h4, zpow_natCast] at h1
      exact_mod_cast h1
    obtain ⟨q, rfl⟩ : ∃ q, p = q + 1 := ⟨p - 1, by omega⟩
    have hsgn : m = 2 ^ (q + 1) ∨ m = - 2 ^ (q + 1) := by
      rcases abs_choice m with h | h <;> omega
    rcases hsgn with h | h
    · refine ⟨2 ^ q, ?_⟩
      rw [hx, h, h5, zpow_add₀ (by norm_num)]
      push_cast
      field_simp
      ring
    · refine ⟨- 2 ^ q, ?_⟩
      rw [hx, h, h5, zpow_add₀ (by norm_num)]
      push_cast
      field_simp
      ring

theorem abs_roundHalfEven_le {x : K} {n : ℤ} (h : |x| ≤ n) : |roundHalfEven x| ≤ n := by
  rw [abs_le] at h ⊢
  exact ⟨le_roundHalfEven (by push_cast; exact h.1), roundHalfEven_le h.2⟩

/-- The result has at most `p` bits. -/
theorem rne_repr {p : ℕ} {emin : ℤ} (x : K) : ∃ m k : ℤ, |m| ≤ 2 ^ p ∧ emin ≤ k ∧ rne p emin x = (m : K) * 2 ^ k := by
  refine ⟨roundHalfEven (x / 2 ^ lastPlace p emin x), lastPlace p emin x, ?_, le_max_right _ _, rfl⟩
  apply abs_roundHalfEven_le
  have h := abs_lt_pow p emin x
  rw [abs_div, abs_of_pos (a := (2 : K) ^ lastPlace p emin x) (by positivity), div_le_iff₀ (by positivity)]
  push_cast
  rw [← zpow_natCast, ← zpow_add₀ (by norm_num), add_comm]
  exact h.le

theorem rne_idem {p : ℕ} {emin : ℤ} (hp : 1 ≤ p) (x : K) : rne p emin (rne p emin x) = rne p emin x := by
  obtain ⟨m, k, h1, h2, h3⟩ := rne_repr (p := p) (emin := emin) x
  rw [h3, rne_exact m k hp h1 h2]

theorem rne_nonneg {p : ℕ} {emin : ℤ} {x : K} (h : 0 ≤ x) : 0 ≤ rne p emin x := by
  have : 0 ≤ roundHalfEven (x / 2 ^ lastPlace p emin x) := le_roundHalfEven (by push_cast; positivity)
  unfold rne
  have h2 : (0 : K) ≤ (roundHalfEven (x / 2 ^ lastPlace p emin x) : K) := by exact_mod_cast this
  positivity

theorem rne_mono_pos {p : ℕ} {emin : ℤ} (hp : 1 ≤ p) {x y : K} (hx : 0 < x) (h : x ≤ y) : rne p emin x ≤ rne p emin y := by
  have hy : 0 < y := lt_of_lt_of_le hx h
  have hlog : Int.log 2 |x| ≤ Int.log 2 |y| := by
    rw [abs_of_pos hx, abs_of_pos hy]; exact Int.log_mono_right hx h
  have hle : lastPlace p emin x ≤ lastPlace p emin y := by
    unfold lastPlace; omega
  rcases eq_or_lt_of_le hle with he | hlt
  · unfold rne
    rw [he]
    apply mul_le_mul_of_nonneg_right _ (by positivity)
    have : x / 2 ^ lastPlace p emin y ≤ y / 2 ^ lastPlace p emin y := by gcongr
    exact_mod_cast roundHalfEven_mono this
  · set ex := lastPlace p emin x with hex
    set ey := lastPlace p emin y with hey
    have hey' : ey = Int.log 2 |y| - ((p : ℤ) - 1) := by
      have h1 : ey = max (Int.log 2 |y| - ((p : ℤ) - 1)) emin := hey
      have h2 : emin ≤ ex := le_max_right _ _
      omega
    -- x is below 2 ^ (ex + p), y is at least 2 ^ (ey + p - 1)
    have hx1 : rne p emin x ≤ 2 ^ (ex + p) := by
      have hb := abs_lt_pow p emin x
      rw [abs_of_pos hx, ← hex] at hb
      have h1 : roundHalfEven (x / 2 ^ ex) ≤ 2 ^ p := by
        apply roundHalfEven_le
        rw [div_le_iff₀ (by positivity)]
        push_cast
        rw [← zpow_natCast, ← zpow_add₀ (by norm_num), add_comm]
        exact hb.le
      have h2 : (roundHalfEven (x / 2 ^ ex) : K) ≤ 2 ^ p := by exact_mod_cast h1
      calc rne p emin x = (roundHalfEven (x / 2 ^ ex) : K) * 2 ^ ex := rfl
        _ ≤ 2 ^ p * 2 ^ ex := by gcongr
        _ = 2 ^ (ex + p) := by rw [zpow_add₀ (by norm_num), zpow_natCast, mul_comm]
    have hy1 : (2 : K) ^ (ey + p - 1) ≤ rne p emin y := by
      have hlow := Int.zpow_log_le_self (R := K) (b := 2) (by norm_num) hy
      rw [abs_of_pos hy] at hey'
      have h1 : (2 : ℤ) ^ (p - 1) ≤ roundHalfEven (y / 2 ^ ey) := by
        apply le_roundHalfEven
        rw [le_div_iff₀ (by positivity)]
        push_cast
        rw [← zpow_natCast, ← zpow_add₀ (by norm_num)]
        have : ((p - 1 : ℕ) : ℤ) + ey = Int.log 2 y := by omega
        rw [this]
        exact_mod_cast hlow
      have h2 : (2 : K) ^ (p - 1) ≤ (roundHalfEven (y / 2 ^ ey) : K) := by exact_mod_cast h1
      calc (2 : K) ^ (ey + p - 1) = 2 ^ (p - 1) * 2 ^ ey := by
            rw [← zpow_natCast, ← zpow_add₀ (by norm_num)]; congr 1; omega
        _ ≤ (roundHalfEven (y / 2 ^ ey) : K) * 2 ^ ey := by gcongr
        _ = rne p emin y := rfl
    refine hx1.trans (le_trans ?_ hy1)
    apply zpow_le_zpow_right₀ (by norm_num)
    omega

/-- Rounding is monotone. -/
theorem rne_mono {p : ℕ} {emin : ℤ} (hp : 1 ≤ p) {x y : K} (h : x ≤ y) : rne p emin x ≤ rne p emin y := by
  rcases lt_trichotomy 0 x with hx | hx | hx
  · exact rne_mono_pos hp hx h
  · subst hx; rw [rne_zero]; exact rne_nonneg h
  · rcases lt_or_ge y 0 with hy | hy
    · have := rne_mono_pos (emin := emin) hp (neg_pos.2 hy) (neg_le_neg h)
      rw [rne_neg, rne_neg] at this
      exact neg_le_neg_iff.1 this
    · have h1 : 0 ≤ rne p emin y := rne_nonneg hy
      have h2 : 0 ≤ rne p emin (-x) := rne_nonneg (neg_nonneg.2 hx.le)
      rw [rne_neg] at h2
      linarith

theorem abs_roundHalfEven_sub (x : K) : |(roundHalfEven x : K) - x| ≤ 1 / 2 := by
  have h1 := Int.floor_le x
  have h2 := Int.lt_floor_add_one x
  rw [abs_le]
  unfold roundHalfEven
  split_ifs <;> push_cast <;> constructor <;> linarith

/-- Relative error of rounding a number in the normal range. -/
theorem rne_error {p : ℕ} {emin : ℤ} {x : K} (h : (2 : K) ^ (emin + p - 1) ≤ |x|) :
    |rne p emin x - x| ≤ 2 ^ (-(p : ℤ)) * |x| := by
  have hpos : 0 < |x| := lt_of_lt_of_le (by positivity) h
  have hlog : emin + p - 1 ≤ Int.log 2 |x| := by
    have := Int.log_mono_right (b := 2) (R := K) (by positivity) h
    rwa [show (2 : K) = ((2 : ℕ) : K) by norm_num, Int.log_zpow (by norm_num)] at this
  have he : lastPlace p emin x = Int.log 2 |x| - ((p : ℤ) - 1) := by
    unfold lastPlace; omega
  have hlow := Int.zpow_log_le_self (R := K) (b := 2) (by norm_num) hpos
  push_cast at hlow
  set e := lastPlace p emin x
  have h1 : rne p emin x - x = ((roundHalfEven (x / 2 ^ e) : K) - x / 2 ^ e) * 2 ^ e := by
    simp only [rne, sub_mul]
    congr 1
    field_simp
  rw [h1, abs_mul, abs_of_pos (a := (2 : K) ^ e) (by positivity)]
  calc |(roundHalfEven (x / 2 ^ e) : K) - x / 2 ^ e| * 2 ^ e ≤ 1 / 2 * 2 ^ e := by
        gcongr; exact abs_roundHalfEven_sub _
    _ = 2 ^ (-(p : ℤ)) * 2 ^ (Int.log 2 |x|) := by
        rw [he, ← zpow_add₀ (by norm_num), show (1 / 2 : K) = 2 ^ (-1 : ℤ) by norm_num, ← zpow_add₀ (by norm_num)]
        congr 1; ring
    _ ≤ _ := by gcongr

end VGT
