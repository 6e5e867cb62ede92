import Verif.Model.EDT
import Verif.Spec.Distance
import Mathlib.Tactic.Linarith
import Mathlib.Tactic.Ring
import Mathlib.Tactic.FieldSimp
import Mathlib.Tactic.NormNum
import Mathlib.Tactic.Positivity
import Mathlib.Tactic.Push
import Mathlib.Tactic.Qify

set_option autoImplicit false

namespace VGT
open Spec

/-! ### `Fl` order facts -/
namespace Fl

theorem le_trans' {a b c : Fl} (h1 : le a b = true) (h2 : le b c = true) : le a c = true := by
  cases a <;> cases b <;> cases c <;> simp_all [le]
  exact _root_.le_trans h1 h2

theorem le_total' {a b : Fl} (ha : a ≠ nan) (hb : b ≠ nan) : le a b = true ∨ le b a = true := by
  cases a <;> cases b <;> simp_all [le]
  exact _root_.le_total _ _

theorem le_of_not_le {a b : Fl} (ha : a ≠ nan) (hb : b ≠ nan) (h : ¬ le a b = true) : le b a = true :=
  (le_total' ha hb).resolve_left h

theorem le_of_not_lt {a b : Fl} (ha : a ≠ nan) (hb : b ≠ nan) (h : ¬ lt a b = true) : le b a = true := by
  cases a <;> cases b <;> simp_all [lt, le]

theorem le_of_lt {a b : Fl} (h : lt a b = true) : le a b = true := by
  cases a <;> cases b <;> simp_all [lt, le]
  exact _root_.le_of_lt h

end Fl

namespace EDT

/-- Extended naturals as doubles. -/
def enc : ℕ∞ → Fl
  | none => .pinf
  | some n => .fin n

@[simp] theorem enc_top : enc ⊤ = .pinf := rfl
@[simp] theorem enc_coe (n : ℕ) : enc (n : ℕ∞) = .fin n := rfl

theorem enc_ne_nan (a : ℕ∞) : enc a ≠ .nan := by
  cases a using ENat.recTopCoe <;> simp

theorem enc_lt (a b : ℕ∞) : (Fl.lt (enc a) (enc b) = true) ↔ a < b := by
  cases a using ENat.recTopCoe <;> cases b using ENat.recTopCoe <;> simp [Fl.lt]

theorem enc_inj {a b : ℕ∞} (h : enc a = enc b) : a = b := by
  cases a using ENat.recTopCoe <;> cases b using ENat.recTopCoe <;> simp_all

theorem sqd_cast (a b : ℕ) : ((sqd a b : ℕ) : ℤ) = ((a : ℤ) - b) * ((a : ℤ) - b) := by
  simp [sqd, sq]

theorem sqd_castQ (a b : ℕ) : ((sqd a b : ℕ) : ℚ) = ((a : ℚ) - b) * ((a : ℚ) - b) := by
  have := sqd_cast a b
  exact_mod_cast this

theorem sqd_le {a b n : ℕ} (ha : a < n) (hb : b < n) : sqd a b ≤ n ^ 2 := by
  unfold sqd
  apply Nat.pow_le_pow_left
  omega

/-- Rounding conditions actually used, for a line of `n` cells and finite values up to `M`. -/
structure RoundOK (rnd : ℚ → ℚ) (n : ℕ) : Prop where
  exactInt : ∀ m : ℤ, |m| ≤ 2 ^ 53 → rnd m = m
  leDiv : ∀ (a b : ℤ) (x : ℕ), 0 < b → b ≤ 2 * n → x < n →
    ((x : ℚ) ≤ rnd ((a : ℚ) / b) → (x : ℚ) ≤ (a : ℚ) / b)
  geDiv : ∀ (a b : ℤ) (x : ℕ), 0 < b → b ≤ 2 * n → x < n →
    (rnd ((a : ℚ) / b) ≤ (x : ℚ) → (a : ℚ) / b ≤ (x : ℚ))

theorem roundOK_of_double {rnd : ℚ → ℚ} (h : IsDoubleRounding rnd) {n : ℕ} (hn : n ≤ 2 ^ 26) :
    RoundOK rnd n where
  exactInt := h.exactInt
  leDiv := by
    intro a b x hb hbn hx hle
    by_contra hlt
    push Not at hlt
    -- a / b ≤ x - 1 / 2^27
    have hbq : (0 : ℚ) < b := by exact_mod_cast hb
    have h1 : a < x * b := by
      rw [div_lt_iff₀ hbq] at hlt
      exact_mod_cast hlt
    have h1' : (a : ℚ) ≤ x * b - 1 := by
      have : a ≤ x * b - 1 := by omega
      exact_mod_cast this
    have hb2 : (b : ℚ) ≤ 2 ^ 27 := by
      have : b ≤ 2 ^ 27 := by omega
      exact_mod_cast this
    have h2 : (a : ℚ) / b ≤ (((x : ℤ) * 2 ^ 27 - 1 : ℤ) : ℚ) / 2 ^ 27 := by
      rw [div_le_div_iff₀ hbq (by positivity)]
      push_cast
      nlinarith
    have h3 := h.mono _ _ h2
    rw [h.exactDyadic] at h3
    · have : (((x : ℤ) * 2 ^ 27 - 1 : ℤ) : ℚ) / 2 ^ 27 < x := by
        rw [div_lt_iff₀ (by positivity)]
        push_cast
        linarith
      linarith
    · rw [abs_le]; constructor <;> omega
  geDiv := by
    intro a b x hb hbn hx hle
    by_contra hlt
    push Not at hlt
    have hbq : (0 : ℚ) < b := by exact_mod_cast hb
    have h1 : x * b < a := by
      rw [lt_div_iff₀ hbq] at hlt
      exact_mod_cast hlt
    have h1' : (x : ℚ) * b + 1 ≤ a := by
      have : x * b + 1 ≤ a := by omega
      exact_mod_cast this
    have hb2 : (b : ℚ) ≤ 2 ^ 27 := by
      have : b ≤ 2 ^ 27 := by omega
      exact_mod_cast this
    have h2 : (((x : ℤ) * 2 ^ 27 + 1 : ℤ) : ℚ) / 2 ^ 27 ≤ (a : ℚ) / b := by
      rw [div_le_div_iff₀ (by positivity) hbq]
      push_cast
      nlinarith
    have h3 := h.mono _ _ h2
    rw [h.exactDyadic] at h3
    · have : x < (((x : ℤ) * 2 ^ 27 + 1 : ℤ) : ℚ) / 2 ^ 27 := by
        rw [lt_div_iff₀ (by positivity)]
        push_cast
        linarith
      linarith
    · rw [abs_le]; constructor <;> omega

section
variable {rnd : ℚ → ℚ} {n M : ℕ} {g : ℕ → ℕ∞} {f : ℕ → Fl}

/-- Finite values of a line are at most `M`, and everything fits in 53 bits. -/
structure LineOK (n M : ℕ) (g : ℕ → ℕ∞) : Prop where
  bound : ∀ i, i < n → g i ≠ ⊤ → g i ≤ (M : ℕ∞)
  fits : M + n ^ 2 ≤ 2 ^ 53

theorem LineOK.coe (h : LineOK n M g) {i : ℕ} (hi : i < n) : g i = ⊤ ∨ ∃ a : ℕ, g i = a ∧ a ≤ M := by
  cases hg : g i using ENat.recTopCoe with
  | top => exact Or.inl rfl
  | coe a =>
    have hb := h.bound i hi (by rw [hg]; exact ENat.natCast_ne_top a)
    rw [hg] at hb
    exact Or.inr ⟨a, rfl, by exact_mod_cast hb⟩

theorem square_eq (hr : RoundOK rnd n) (hl : LineOK n M g) {a b : ℕ} (ha : a < n) (hb : b < n) :
    square rnd ((a : ℤ) - (b : ℤ)) = .fin (sqd a b : ℕ) := by
  have h1 := sqd_le ha hb
  have h2 := hl.fits
  have h3 := sqd_cast a b
  unfold square
  rw [hr.exactInt]
  · congr 1
    exact_mod_cast h3.symm
  · rw [← h3, abs_le]; constructor <;> omega

theorem square_eq0 (hr : RoundOK rnd n) (hl : LineOK n M g) {a : ℕ} (ha : a < n) :
    square rnd (a : ℤ) = .fin (sqd a 0 : ℕ) := by
  have := square_eq hr hl ha (b := 0) (by omega)
  simpa using this

theorem add_enc (hr : RoundOK rnd n) (hl : LineOK n M g) {i c : ℕ} (hi : i < n) (hc : c ≤ n ^ 2) :
    Fl.add rnd (.fin (c : ℕ)) (enc (g i)) = enc ((c : ℕ∞) + g i) := by
  rcases hl.coe hi with h | ⟨a, h, ha⟩
  · simp [h, Fl.add]
  · rw [h]
    have : ((c : ℕ∞) + (a : ℕ∞)) = ((c + a : ℕ) : ℕ∞) := by push_cast; rfl
    rw [this]
    simp only [enc_coe, Fl.add]
    have h2 := hl.fits
    have h3 : ((c : ℚ) + a) = (((c + a : ℕ) : ℤ) : ℚ) := by push_cast; rfl
    rw [h3, hr.exactInt]
    · push_cast; rfl
    · rw [abs_le]; constructor <;> omega

theorem add_enc' (hr : RoundOK rnd n) (hl : LineOK n M g) {i c : ℕ} (hi : i < n) (hc : c ≤ n ^ 2) :
    Fl.add rnd (enc (g i)) (.fin (c : ℕ)) = enc ((c : ℕ∞) + g i) := by
  rw [← add_enc hr hl hi hc]
  rcases hl.coe hi with h | ⟨a, h, ha⟩
  · simp [h, Fl.add]
  · simp [h, Fl.add, add_comm]

/-- Value at `x` of the parabola rooted at `v`. -/
noncomputable def par (g : ℕ → ℕ∞) (v x : ℕ) : ℕ∞ := (sqd x v : ℕ∞) + g v

theorem dist_eq (hr : RoundOK rnd n) (hl : LineOK n M g) {q v : ℕ} (hq : q < n) (hv : v < n) :
    Fl.add rnd (square rnd ((q : ℤ) - (v : ℤ))) (enc (g v)) = enc (par g v q) := by
  rw [square_eq hr hl hq hv, add_enc hr hl hv (sqd_le hq hv)]
  rfl

/-! ### Brute force -/

theorem bruteD_eq (hr : RoundOK rnd n) (hl : LineOK n M g) (hf : ∀ i, i < n → f i = enc (g i)) {q : ℕ} (hq : q < n) :
    ∀ m, m ≤ n → bruteD rnd f q m = enc (dt1 m g q)
  | 0, _ => by simp [bruteD, dt1]
  | m + 1, hm => by
    have ih := bruteD_eq hr hl hf hq m (by omega)
    unfold bruteD
    simp only [ih, hf m (by omega), dist_eq hr hl hq (show m < n by omega)]
    have hsucc : dt1 (m + 1) g q = par g m q ⊓ dt1 m g q := by
      unfold dt1 par
      rw [Finset.range_add_one, Finset.inf_insert]
    rw [hsucc]
    by_cases h : par g m q < dt1 m g q
    · rw [if_pos ((enc_lt _ _).2 h), inf_eq_left.2 h.le]
    · rw [if_neg (fun h' => h ((enc_lt _ _).1 h')), inf_eq_right.2 (not_lt.1 h)]

/-! ### Linear transform -/

theorem computeS_cross (hr : RoundOK rnd n) (hl : LineOK n M g) (hf : ∀ i, i < n → f i = enc (g i)) {q v : ℕ} (hq : q < n) (hv : v < q) :
    computeS rnd f q v ≠ .nan ∧
    (∀ x, x < n → Fl.le (.fin x) (computeS rnd f q v) = true →
      par g v x ≤ par g q x) ∧
    (∀ x, x < n → Fl.le (computeS rnd f q v) (.fin x) = true →
      par g q x ≤ par g v x) := by
  have hvn : v < n := by omega
  have hn2 : n ^ 2 ≤ 2 ^ 53 := by have := hl.fits; omega
  have hn : n ≤ 2 ^ 53 := by
    have : n ≤ n ^ 2 := by nlinarith [Nat.zero_le n, Nat.pos_of_ne_zero (show n ≠ 0 by omega)]
    omega
  have hbot : rnd ((2 * (q : ℤ) - 2 * (v : ℤ) : ℤ) : ℚ) = ((2 * (q : ℤ) - 2 * (v : ℤ) : ℤ) : ℚ) := by
    apply hr.exactInt
    have : 2 * (q - v) ≤ 2 ^ 53 := by
      have : 2 * q ≤ n ^ 2 + 1 := by nlinarith
      omega
    rw [abs_le]; constructor <;> omega
  have hpos : (0 : ℚ) < ((2 * (q : ℤ) - 2 * (v : ℤ) : ℤ) : ℚ) := by
    have : (0 : ℤ) < 2 * (q : ℤ) - 2 * (v : ℤ) := by omega
    exact_mod_cast this
  have hq0 : sqd q 0 ≤ n ^ 2 := sqd_le hq (by omega)
  have hv0 : sqd v 0 ≤ n ^ 2 := sqd_le hvn (by omega)
  simp only [computeS, hf q hq, hf v hvn, square_eq0 hr hl hq, square_eq0 hr hl hvn, add_enc' hr hl hq hq0,
    add_enc' hr hl hvn hv0, hbot]
  rcases hl.coe hq with h1 | ⟨a, h1, ha⟩ <;> rcases hl.coe hvn with h2 | ⟨b, h2, hb⟩
  · -- both infinite
    simp [h1, h2, subNoNan, Fl.div, par]
    push_cast at hpos
    exact hpos.ne'
  · -- q infinite
    have e2 : ((sqd v 0 : ℕ∞) + (b : ℕ∞)) = ((sqd v 0 + b : ℕ) : ℕ∞) := by push_cast; rfl
    simp only [h1, h2, e2, subNoNan, par, enc_coe, enc_top, add_top, reduceCtorEq, and_false, ↓reduceIte,
      Fl.div, hpos.le]
    refine ⟨by simp, fun _ _ _ => le_top, ?_⟩
    intro x _ h
    simp [Fl.le] at h
  · -- v infinite
    have e1 : ((sqd q 0 : ℕ∞) + (a : ℕ∞)) = ((sqd q 0 + a : ℕ) : ℕ∞) := by push_cast; rfl
    simp only [h1, h2, e1, subNoNan, par, enc_coe, enc_top, add_top, reduceCtorEq, false_and, ↓reduceIte,
      Fl.div, hpos.le]
    refine ⟨by simp, ?_, fun _ _ _ => le_top⟩
    intro x _ h
    simp [Fl.le] at h
  · -- both finite
    have e1 : ((sqd q 0 : ℕ∞) + (a : ℕ∞)) = ((sqd q 0 + a : ℕ) : ℕ∞) := by push_cast; rfl
    have e2 : ((sqd v 0 : ℕ∞) + (b : ℕ∞)) = ((sqd v 0 + b : ℕ) : ℕ∞) := by push_cast; rfl
    have hfit := hl.fits
    have htop : rnd (((sqd q 0 + a : ℕ) : ℚ) - ((sqd v 0 + b : ℕ) : ℚ))
        = (((sqd q 0 + a : ℕ) : ℤ) - ((sqd v 0 + b : ℕ) : ℤ) : ℤ) := by
      have e : (((sqd q 0 + a : ℕ) : ℚ) - ((sqd v 0 + b : ℕ) : ℚ))
        = (((((sqd q 0 + a : ℕ) : ℤ) - ((sqd v 0 + b : ℕ) : ℤ) : ℤ)) : ℚ) := by push_cast; ring
      rw [e]
      apply hr.exactInt
      rw [abs_le]; constructor <;> omega
    simp only [h1, h2, e1, e2, subNoNan, enc_coe, reduceCtorEq, false_and, ↓reduceIte, Fl.sub,
      htop, Fl.div, hpos.ne']
    have sq0 := sqd_castQ q 0
    have sv0 := sqd_castQ v 0
    refine ⟨by simp, ?_, ?_⟩
    · intro x hx h
      simp only [Fl.le, decide_eq_true_eq] at h
      have h' := hr.leDiv _ _ x (by omega) (by omega) hx h
      rw [le_div_iff₀ hpos] at h'
      have key : (sqd x v + b : ℕ) ≤ sqd x q + a := by
        have s1 := sqd_castQ x v
        have s2 := sqd_castQ x q
        have : ((sqd x v + b : ℕ) : ℚ) ≤ ((sqd x q + a : ℕ) : ℚ) := by
          push_cast at h' sq0 sv0 ⊢
          nlinarith
        exact_mod_cast this
      unfold par
      rw [h1, h2]
      exact_mod_cast key
    · intro x hx h
      simp only [Fl.le, decide_eq_true_eq] at h
      have h' := hr.geDiv _ _ x (by omega) (by omega) hx h
      rw [div_le_iff₀ hpos] at h'
      have key : (sqd x q + a : ℕ) ≤ sqd x v + b := by
        have s1 := sqd_castQ x v
        have s2 := sqd_castQ x q
        have : ((sqd x q + a : ℕ) : ℚ) ≤ ((sqd x v + b : ℕ) : ℚ) := by
          push_cast at h' sq0 sv0 ⊢
          nlinarith
        exact_mod_cast this
      unfold par
      rw [h1, h2]
      exact_mod_cast key

/-- Invariant of phase 1 after processing `q = 0 .. m`. -/
structure SweepInv (n : ℕ) (g : ℕ → ℕ∞) (m : ℕ) (st : Sweep) : Prop where
  k_le : st.k ≤ m
  z0 : st.z 0 = .ninf
  zlast : st.z (st.k + 1) = .pinf
  znan : ∀ i, i ≤ st.k + 1 → st.z i ≠ .nan
  v_le : ∀ i, i ≤ st.k → st.v i ≤ m
  mono : ∀ i, i ≤ st.k → Fl.le (st.z i) (st.z (i + 1)) = true
  cover : ∀ i, i ≤ st.k → ∀ x, x < n → Fl.le (st.z i) (.fin x) = true →
    Fl.le (.fin x) (st.z (i + 1)) = true → ∀ j, j ≤ m → par g (st.v i) x ≤ par g j x

theorem SweepInv.init (n : ℕ) (g : ℕ → ℕ∞) : SweepInv n g 0 sweepInit where
  k_le := by simp [sweepInit]
  z0 := by simp [sweepInit, upd]
  zlast := by simp [sweepInit, upd]
  znan := by
    intro i hi
    simp only [sweepInit] at hi ⊢
    have : i = 0 ∨ i = 1 := by omega
    rcases this with rfl | rfl <;> simp [upd]
  v_le := by simp [sweepInit]
  mono := by
    intro i hi
    simp only [sweepInit] at hi ⊢
    have : i = 0 := by omega
    subst this
    simp [upd, Fl.le]
  cover := by
    intro i hi x hx _ _ j hj
    have : j = 0 := by omega
    subst this
    simp [sweepInit]

theorem SweepInv.mono' {m : ℕ} {st : Sweep} (h : SweepInv n g m st) {i j : ℕ} (hij : i ≤ j)
    (hj : j ≤ st.k + 1) : Fl.le (st.z i) (st.z j) = true := by
  induction j, hij using Nat.le_induction with
  | base =>
    have := h.znan i (by omega)
    cases hz : st.z i <;> simp_all [Fl.le]
  | succ j hij ih => exact Fl.le_trans' (ih (by omega)) (h.mono j (by omega))

theorem popLoop_spec (hr : RoundOK rnd n) (hl : LineOK n M g) (hf : ∀ i, i < n → f i = enc (g i)) {m : ℕ} {st : Sweep}
    (h : SweepInv n g m st) (hm : m + 1 < n) :
    ∀ k s, k ≤ st.k → s = computeS rnd f (m + 1) (st.v k) →
      (∀ x, x < n → Fl.le (st.z (k + 1)) (.fin x) = true → ∀ j, j ≤ m → par g (m + 1) x ≤ par g j x) →
      let r := popLoop rnd f st.v st.z (m + 1) k s
      r.1 ≤ st.k ∧ r.2 = computeS rnd f (m + 1) (st.v r.1) ∧
      (∀ x, x < n → Fl.le (st.z (r.1 + 1)) (.fin x) = true → ∀ j, j ≤ m → par g (m + 1) x ≤ par g j x) ∧
      Fl.le (st.z r.1) r.2 = true
  | 0, s, hk, hs, hA => by
    refine ⟨hk, hs, hA, ?_⟩
    simp only [popLoop]
    rw [h.z0]
    have := (computeS_cross hr hl hf hm (v := st.v 0) (by have := h.v_le 0 hk; omega)).1
    rw [← hs] at this
    cases s <;> simp_all [Fl.le]
  | k + 1, s, hk, hs, hA => by
    have hv := h.v_le (k + 1) hk
    have hc := computeS_cross hr hl hf hm (v := st.v (k + 1)) (by omega)
    rw [← hs] at hc
    by_cases hle : Fl.le s (st.z (k + 1)) = true
    · simp only [popLoop, hle, ↓reduceIte]
      apply popLoop_spec hr hl hf h hm k _ (by omega) rfl
      intro x hx hzx j hj
      by_cases hx2 : Fl.le (.fin x) (st.z (k + 1 + 1)) = true
      · have h1 := h.cover (k + 1) hk x hx hzx hx2 j hj
        have h2 := hc.2.2 x hx (Fl.le_trans' hle hzx)
        exact le_trans h2 h1
      · exact hA x hx (Fl.le_of_not_le (by simp) (h.znan _ (by omega)) hx2) j hj
    · simp only [popLoop, if_neg hle]
      refine ⟨hk, hs, hA, ?_⟩
      exact Fl.le_of_not_le hc.1 (h.znan _ (by omega)) hle

theorem SweepInv.step (hr : RoundOK rnd n) (hl : LineOK n M g) (hf : ∀ i, i < n → f i = enc (g i)) {m : ℕ} {st : Sweep}
    (h : SweepInv n g m st) (hm : m + 1 < n) :
    SweepInv n g (m + 1) (sweepStep rnd f st (m + 1)) := by
  have hp := popLoop_spec hr hl hf h hm st.k _ le_rfl rfl (by
    intro x hx hz
    rw [h.zlast] at hz
    simp [Fl.le] at hz)
  unfold sweepStep
  generalize popLoop rnd f st.v st.z (m + 1) st.k
    (computeS rnd f (m + 1) (st.v st.k)) = r at hp ⊢
  obtain ⟨k, s⟩ := r
  simp only at hp ⊢
  obtain ⟨hk, hs, hA, hle⟩ := hp
  have hc := computeS_cross hr hl hf hm (v := st.v k) (by have := h.v_le k hk; omega)
  rw [← hs] at hc
  have hkm := h.k_le
  have zold : ∀ i, i ≤ k → upd (upd st.z (k + 1) s) (k + 1 + 1) Fl.pinf i = st.z i := by
    intro i hi
    simp only [upd]
    rw [if_neg (by omega), if_neg (by omega)]
  have zk1 : upd (upd st.z (k + 1) s) (k + 1 + 1) Fl.pinf (k + 1) = s := by
    simp [upd]
  have zk2 : upd (upd st.z (k + 1) s) (k + 1 + 1) Fl.pinf (k + 1 + 1) = .pinf := by simp [upd]
  have vold : ∀ i, i ≤ k → upd st.v (k + 1) (m + 1) i = st.v i := by
    intro i hi
    simp only [upd]
    rw [if_neg (by omega)]
  have vnew : upd st.v (k + 1) (m + 1) (k + 1) = m + 1 := by simp [upd]
  constructor
  · simp only; omega
  · simp only; rw [zold 0 (by omega), h.z0]
  · exact zk2
  · intro i hi
    simp only at hi ⊢
    rcases Nat.lt_or_ge k i with hki | hki
    · rcases Nat.lt_or_ge (k + 1) i with h1 | h1
      · have : i = k + 1 + 1 := by omega
        rw [this, zk2]; simp
      · have : i = k + 1 := by omega
        rw [this, zk1]; exact hc.1
    · rw [zold i hki]; exact h.znan i (by omega)
  · intro i hi
    simp only at hi ⊢
    rcases Nat.lt_or_ge k i with hki | hki
    · have : i = k + 1 := by omega
      rw [this, vnew]
    · rw [vold i hki]; have := h.v_le i (by omega); omega
  · intro i hi
    simp only at hi ⊢
    rcases Nat.lt_or_ge k i with hki | hki
    · have : i = k + 1 := by omega
      rw [this, zk1, zk2]
      have := hc.1
      cases s <;> simp_all [Fl.le]
    · rcases Nat.lt_or_ge i k with h1 | h1
      · rw [zold i hki, zold (i + 1) (by omega)]
        exact h.mono i (by omega)
      · have : i = k := by omega
        rw [this, zold k le_rfl, zk1]; exact hle
  · intro i hi x hx hzx hxz j hj
    simp only at hi hzx hxz ⊢
    rcases Nat.lt_or_ge k i with hki | hki
    · have : i = k + 1 := by omega
      subst this
      rw [zk1] at hzx
      rw [vnew]
      rcases Nat.lt_or_ge m j with hjm | hjm
      · have : j = m + 1 := by omega
        rw [this]
      · by_cases h1 : Fl.le (st.z (k + 1)) (.fin x) = true
        · exact hA x hx h1 j hjm
        · have h2 := Fl.le_of_not_le (h.znan _ (by omega)) (by simp) h1
          exact le_trans (hc.2.2 x hx hzx) (h.cover k hk x hx (Fl.le_trans' hle hzx) h2 j hjm)
    · rw [vold i hki]
      rw [zold i hki] at hzx
      rcases Nat.lt_or_ge i k with h1 | h1
      · rw [zold (i + 1) (by omega)] at hxz
        rcases Nat.lt_or_ge m j with hjm | hjm
        · have : j = m + 1 := by omega
          subst this
          have hxs : Fl.le (.fin x) s = true :=
            Fl.le_trans' hxz (Fl.le_trans' (h.mono' (show i + 1 ≤ k by omega) (by omega)) hle)
          exact le_trans (h.cover i (by omega) x hx hzx hxz (st.v k) (h.v_le k hk)) (hc.2.1 x hx hxs)
        · exact h.cover i (by omega) x hx hzx hxz j hjm
      · have : i = k := by omega
        subst this
        rw [zk1] at hxz
        have hvq := hc.2.1 x hx hxz
        rcases Nat.lt_or_ge m j with hjm | hjm
        · have : j = m + 1 := by omega
          rw [this]; exact hvq
        · by_cases h2 : Fl.le (.fin x) (st.z (i + 1)) = true
          · exact h.cover i hk x hx hzx h2 j hjm
          · have h3 := Fl.le_of_not_le (by simp) (h.znan _ (by omega)) h2
            exact le_trans hvq (hA x hx h3 j hjm)

theorem phase1_inv (hr : RoundOK rnd n) (hl : LineOK n M g) (hf : ∀ i, i < n → f i = enc (g i)) :
    ∀ m, m < n → SweepInv n g m (phase1 rnd f m)
  | 0, _ => SweepInv.init n g
  | m + 1, hm => (phase1_inv hr hl hf m (by omega)).step hr hl hf hm

theorem advance_spec {m : ℕ} {st : Sweep} (h : SweepInv n g m st) (q : ℕ) :
    ∀ fuel k, st.k ≤ k + fuel → k ≤ st.k → Fl.le (st.z k) (.fin q) = true →
      ∃ k', advance st.z q fuel k = some k' ∧ k' ≤ st.k ∧ Fl.le (st.z k') (.fin q) = true ∧
        Fl.le (.fin q) (st.z (k' + 1)) = true
  | 0, k, hf, hk, hz => by
    have : k = st.k := by omega
    have hl' : Fl.lt (st.z (k + 1)) (.fin q) = false := by rw [this, h.zlast]; rfl
    refine ⟨k, by simp [advance, hl'], hk, hz, ?_⟩
    rw [this, h.zlast]; rfl
  | fuel + 1, k, hf, hk, hz => by
    by_cases hlt : Fl.lt (st.z (k + 1)) (.fin q) = true
    · have hk1 : k + 1 ≤ st.k := by
        by_contra hc
        have : k = st.k := by omega
        rw [this, h.zlast] at hlt
        simp [Fl.lt] at hlt
      obtain ⟨k', h1, h2⟩ := advance_spec h q fuel (k + 1) (by omega) hk1 (Fl.le_of_lt hlt)
      exact ⟨k', by simp [advance, hlt, h1], h2⟩
    · refine ⟨k, by simp [advance, hlt], hk, hz, ?_⟩
      exact Fl.le_of_not_lt (h.znan _ (by omega)) (by simp) hlt

theorem par_eq_dt1 {v q : ℕ} (hv : v < n) (h : ∀ j, j < n → par g v q ≤ par g j q) :
    par g v q = dt1 n g q := by
  apply le_antisymm
  · unfold dt1
    apply Finset.le_inf
    intro j hj
    exact h j (Finset.mem_range.1 hj)
  · exact Finset.inf_le (f := fun j => (sqd q j : ℕ∞) + g j) (Finset.mem_range.2 hv)

theorem phase2_spec (hr : RoundOK rnd n) (hl : LineOK n M g) (hf : ∀ i, i < n → f i = enc (g i)) {st : Sweep} (hn : 0 < n)
    (h : SweepInv n g (n - 1) st) :
    ∀ m, m ≤ n → ∃ k d, phase2 rnd n f st m = some (k, d) ∧ k ≤ st.k ∧
      (m = 0 ∨ Fl.le (st.z k) (.fin ((m - 1 : ℕ))) = true) ∧ (m = 0 → k = 0) ∧
      ∀ q, q < m → d q = enc (dt1 n g q)
  | 0, _ => ⟨0, fun _ => .fin 0, rfl, by omega, Or.inl rfl, fun _ => rfl, by simp⟩
  | m + 1, hm => by
    obtain ⟨k, d, h1, h2, h3, h0, h4⟩ := phase2_spec hr hl hf hn h m (by omega)
    have hz : Fl.le (st.z k) (.fin m) = true := by
      rcases h3 with h3 | h3
      · rw [h0 h3, h.z0]; rfl
      · refine Fl.le_trans' h3 ?_
        simp [Fl.le]
    have hkle := h.k_le
    obtain ⟨k', ha, hk', hz', hz''⟩ := advance_spec h m (n - 1 - k) k (by omega) h2 hz
    have hv := h.v_le k' hk'
    refine ⟨k', upd d m (enc (par g (st.v k') m)), ?_, hk', Or.inr (by simpa using hz'), by omega, ?_⟩
    · simp only [phase2, h1, ha]
      rw [hf _ (by omega), dist_eq hr hl (by omega) (by omega)]
    · intro q hq
      simp only [upd]
      split
      · next hqm =>
        subst hqm
        rw [par_eq_dt1 (n := n) (by omega)]
        intro j hj
        exact h.cover k' hk' q (by omega) hz' hz'' j (by omega)
      · exact h4 q (by omega)

theorem linear_eq (hr : RoundOK rnd n) (hl : LineOK n M g) (hf : ∀ i, i < n → f i = enc (g i)) (hn : 0 < n) :
    ∃ d, linear rnd n f = some d ∧ ∀ q, q < n → d q = enc (dt1 n g q) := by
  obtain ⟨k, d, h1, _, _, _, h4⟩ := phase2_spec hr hl hf hn (phase1_inv hr hl hf (n - 1) (by omega)) n le_rfl
  exact ⟨d, by simp [linear, h1], h4⟩

theorem transform1_eq (hr : RoundOK rnd n) (hl : LineOK n M g) (hf : ∀ i, i < n → f i = enc (g i)) :
    ∃ d, transform1 rnd n f = some d ∧ ∀ q, q < n → d q = enc (dt1 n g q) := by
  unfold transform1
  split
  · exact linear_eq hr hl hf (by omega)
  · exact ⟨_, rfl, fun q hq => bruteD_eq hr hl hf hq n le_rfl⟩

end
end EDT
end VGT
