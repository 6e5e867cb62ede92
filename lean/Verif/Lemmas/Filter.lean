import Verif.Model.Filter
import Verif.Spec.Filter
import Verif.Lemmas.IEEE
import Mathlib.Tactic.Linarith
import Mathlib.Tactic.Ring
import Mathlib.Tactic.FieldSimp
import Mathlib.Tactic.Positivity
import Mathlib.Tactic.NormNum

set_option autoImplicit false

namespace VGT
open VGT.Spec

/-! ### Folding per-camera decisions -/

/-- The camera loop with an arbitrary per-camera decision. -/
def foldSeen (dec : ℤ × ℤ → Option SeenAs) : List (ℤ × ℤ) → ℤ → ℤ → Option (ℤ × ℤ)
  | [], a, b => some (a, b)
  | c :: cs, a, b =>
    match dec c with
    | none => none
    | some .free => foldSeen dec cs a (b + 1)
    | some .filled => foldSeen dec cs (a + 1) b
    | some .unknown => foldSeen dec cs a b

/-- The per-camera decision in the kernel. -/
def kernelDec (percent : Fl) (threshold : ℤ) (c : ℤ × ℤ) : Option SeenAs :=
  let filtered := if c.2 ≥ threshold then c.2 else 0
  if c.1 > 0 ∧ filtered > 0 then
    (int32 (c.1 + filtered)).map fun (sum : ℤ) =>
      if percent.le (Fl.div roundFloat (.fin (roundFloat (c.1 : ℚ))) (.fin (roundFloat (sum : ℚ)))) then .free else .filled
  else if c.1 > 0 then some .free
  else if filtered > 0 then some .filled
  else some .unknown

theorem seenBy_eq (o : FilterOptions) : ∀ l a b, o.seenBy l a b = foldSeen (fun c => o.countsSeenAs c.1 c.2) l a b
  | [], _, _ => rfl
  | c :: cs, a, b => by
    unfold FilterOptions.seenBy foldSeen
    cases h : o.countsSeenAs c.1 c.2 with
    | none => rfl
    | some r => cases r <;> simp only [seenBy_eq o cs]

theorem kernelSeenBy_eq (percent : Fl) (threshold : ℤ) :
    ∀ l a b, kernelSeenBy percent threshold l a b = foldSeen (kernelDec percent threshold) l a b
  | [], _, _ => rfl
  | c :: cs, a, b => by
    unfold kernelSeenBy foldSeen
    simp only [kernelSeenBy_eq percent threshold cs]
    have hk : kernelDec percent threshold c = (
      if c.1 > 0 ∧ (if c.2 ≥ threshold then c.2 else 0) > 0 then
        (int32 (c.1 + (if c.2 ≥ threshold then c.2 else 0))).map fun (sum : ℤ) =>
          if percent.le (Fl.div roundFloat (.fin (roundFloat (c.1 : ℚ))) (.fin (roundFloat (sum : ℚ)))) then .free else .filled
      else if c.1 > 0 then some .free
      else if (if c.2 ≥ threshold then c.2 else 0) > 0 then some .filled
      else some .unknown) := rfl
    rw [hk]
    generalize (if c.2 ≥ threshold then c.2 else 0) = filtered
    by_cases h1 : c.1 > 0 ∧ filtered > 0
    · rw [if_pos h1, if_pos h1]
      cases int32 (c.1 + filtered) with
      | none => rfl
      | some sum =>
        simp only [Option.map_some]
        by_cases h2 : percent.le (Fl.div roundFloat (.fin (roundFloat (c.1 : ℚ))) (.fin (roundFloat (sum : ℚ)))) = true
        · rw [if_pos h2, if_pos h2]
        · rw [if_neg h2, if_neg h2]
    · rw [if_neg h1, if_neg h1]
      by_cases h2 : c.1 > 0
      · rw [if_pos h2, if_pos h2]
      · rw [if_neg h2, if_neg h2]
        by_cases h3 : filtered > 0
        · rw [if_pos h3, if_pos h3]
        · rw [if_neg h3, if_neg h3]

theorem foldSeen_some {dec : ℤ × ℤ → Option SeenAs} : ∀ {l : List (ℤ × ℤ)} {a b : ℤ}, (∀ c ∈ l, ∃ r, dec c = some r) →
    foldSeen dec l a b = some (a + l.countP (fun c => dec c = some .filled), b + l.countP (fun c => dec c = some .free))
  | [], a, b, _ => by simp [foldSeen]
  | c :: cs, a, b, h => by
    obtain ⟨r, hr⟩ := h c (by simp)
    have ih := fun a b => foldSeen_some (dec := dec) (l := cs) (a := a) (b := b) fun x hx => h x (List.mem_cons_of_mem _ hx)
    unfold foldSeen
    rw [hr]
    cases r <;> simp [ih, List.countP_cons, hr] <;> ring

theorem foldSeen_none {dec : ℤ × ℤ → Option SeenAs} : ∀ {l : List (ℤ × ℤ)} {a b : ℤ}, (∃ c ∈ l, dec c = none) →
    foldSeen dec l a b = none
  | [], _, _, h => by obtain ⟨c, hc, _⟩ := h; cases hc
  | c :: cs, a, b, h => by
    unfold foldSeen
    cases hr : dec c with
    | none => rfl
    | some r =>
      have : ∃ c ∈ cs, dec c = none := by
        obtain ⟨x, hx, hn⟩ := h
        rcases List.mem_cons.1 hx with rfl | hx
        · rw [hr] at hn; cases hn
        · exact ⟨x, hx, hn⟩
      cases r <;> simp only [foldSeen_none (dec := dec) (l := cs) this]

theorem foldSeen_perm {dec : ℤ × ℤ → Option SeenAs} {l l' : List (ℤ × ℤ)} (h : l.Perm l') (a b : ℤ) :
    foldSeen dec l a b = foldSeen dec l' a b := by
  by_cases hn : ∃ c ∈ l, dec c = none
  · rw [foldSeen_none hn, foldSeen_none (by
      obtain ⟨c, hc, h2⟩ := hn
      exact ⟨c, h.mem_iff.1 hc, h2⟩)]
  · have hs : ∀ c ∈ l, ∃ r, dec c = some r := by
      intro c hc
      cases hd : dec c with
      | none => exact absurd ⟨c, hc, hd⟩ hn
      | some r => exact ⟨r, rfl⟩
    rw [foldSeen_some hs, foldSeen_some (fun c hc => hs c (h.mem_iff.2 hc)), h.countP_eq, h.countP_eq]

theorem filterCell_perm (o : FilterOptions) {l l' : List (ℤ × ℤ)} (h : l.Perm l') (occ : Fl) :
    o.filterCell l occ = o.filterCell l' occ := by
  unfold FilterOptions.filterCell
  rw [seenBy_eq, seenBy_eq, foldSeen_perm h]

/-! ### One camera -/

theorem make_ok {percent : Fl} {t n : ℤ} {o : FilterOptions} (h : FilterOptions.make percent t n = some o) :
    o = ⟨percent, t, n⟩ ∧ 1 ≤ t ∧ 1 ≤ n ∧ (percent = .nan ∨ ∃ q : ℚ, percent = .fin q ∧ 0 < q ∧ q ≤ 1) := by
  unfold FilterOptions.make at h
  split_ifs at h with h1 h2 h3
  cases h
  refine ⟨rfl, by omega, by omega, ?_⟩
  cases percent with
  | nan => exact Or.inl rfl
  | ninf => simp [Fl.le] at h1
  | pinf => simp [Fl.le, Fl.lt] at h1
  | fin q =>
    right
    simp [Fl.le, Fl.lt] at h1
    exact ⟨q, rfl, h1.1, h1.2⟩

theorem roundDouble_int {n : ℤ} (h : |n| ≤ 2 ^ 53) : roundDouble (n : ℚ) = n := by
  have := rne_exact (K := ℚ) (p := 53) (emin := -1074) n 0 (by norm_num) h (by norm_num)
  simpa [roundDouble] using this

theorem roundFloat_int {n : ℤ} (h : |n| ≤ 2 ^ 24) : roundFloat (n : ℚ) = n := by
  have := rne_exact (K := ℚ) (p := 24) (emin := -149) n 0 (by norm_num) h (by norm_num)
  simpa [roundFloat] using this

theorem countsSeenAs_some {pct : ℚ} {t n : ℤ} (ht : 1 ≤ t) {c : ℤ × ℤ} (hc : CountsOk c) :
    ∃ r, (FilterOptions.mk (.fin pct) t n).countsSeenAs c.1 c.2 = some r ∧
      (r = .filled ↔ SawFilled roundDouble pct t c) ∧ (r = .free ↔ SawFree roundDouble pct t c) := by
  obtain ⟨h1, h2, h3⟩ := hc
  unfold FilterOptions.countsSeenAs
  simp only
  unfold SawFilled SawFree
  by_cases hth : c.2 ≥ t
  · rw [if_pos hth]
    by_cases hf : c.1 > 0
    · rw [if_pos ⟨hf, by omega⟩]
      have hi : int32 (c.1 + c.2) = some (c.1 + c.2) := by unfold int32; rw [if_pos]; omega
      rw [hi, Option.map_some, roundDouble_int (by rw [abs_le]; omega), roundDouble_int (by rw [abs_le]; omega)]
      have hne : ((c.1 + c.2 : ℤ) : ℚ) ≠ 0 := by
        have : c.1 + c.2 ≠ 0 := by omega
        exact_mod_cast this
      refine ⟨_, rfl, ?_, ?_⟩
      · unfold Fl.div
        simp only [hne, if_false, Fl.le, decide_eq_true_eq]
        push_cast
        split_ifs with hle
        · simp only [reduceCtorEq, false_iff, not_and, not_or, not_lt]
          intro _
          exact ⟨by omega, hle⟩
        · simp only [true_iff]
          exact ⟨hth, Or.inr (not_le.1 hle)⟩
      · unfold Fl.div
        simp only [hne, if_false, Fl.le, decide_eq_true_eq]
        push_cast
        split_ifs with hle
        · simp only [true_iff]
          exact ⟨hf, Or.inr hle⟩
        · simp only [reduceCtorEq, false_iff, not_and, not_or]
          intro _
          exact ⟨by omega, hle⟩
    · have h0 : c.1 = 0 := by omega
      rw [if_neg (by omega), if_neg hf, if_pos (by omega)]
      refine ⟨_, rfl, ?_, ?_⟩
      · simp only [true_iff]; exact ⟨hth, Or.inl h0⟩
      · simp only [reduceCtorEq, false_iff]; rintro ⟨h, _⟩; omega
  · rw [if_neg hth]
    by_cases hf : c.1 > 0
    · rw [if_neg (by omega), if_pos hf]
      refine ⟨_, rfl, ?_, ?_⟩
      · simp only [reduceCtorEq, false_iff]; rintro ⟨h, _⟩; omega
      · simp only [true_iff]; exact ⟨hf, Or.inl (by omega)⟩
    · rw [if_neg (by omega), if_neg hf, if_neg (by omega)]
      refine ⟨_, rfl, ?_, ?_⟩
      · simp only [reduceCtorEq, false_iff]; rintro ⟨h, _⟩; omega
      · simp only [reduceCtorEq, false_iff]; rintro ⟨h, _⟩; omega

/-- Rounding with `p` bits does not change the comparison of a fraction with denominator `n` with `m / 2^j`
if `n * 2^j ≤ 2^p`. -/
theorem share_exact {p : ℕ} {emin : ℤ} (hp : 1 ≤ p) (he : emin ≤ -(p : ℤ)) {a n m : ℤ} {j : ℕ} (hn : 0 < n)
    (hm0 : 0 < m) (hm : m ≤ 2 ^ j) (hnj : n * 2 ^ j ≤ 2 ^ p) :
    ((m : ℚ) / 2 ^ j ≤ rne p emin ((a : ℚ) / n)) ↔ m * n ≤ a * 2 ^ j := by
  have hnq : (0 : ℚ) < n := by exact_mod_cast hn
  have hjq : (0 : ℚ) < 2 ^ j := by positivity
  have h2j : (2 : ℤ) ^ j ≤ 2 ^ p := by
    calc (2 : ℤ) ^ j = 1 * 2 ^ j := by ring
      _ ≤ n * 2 ^ j := by
        apply mul_le_mul_of_nonneg_right (by omega) (by positivity)
      _ ≤ 2 ^ p := hnj
  have hjp : j ≤ p := (Nat.pow_le_pow_iff_right (by norm_num : 1 < 2)).1 (by exact_mod_cast h2j)
  constructor
  · intro h
    by_contra hlt
    push Not at hlt
    -- the largest multiple of 2^-p below m / 2^j
    have hy : rne p emin ((m * 2 ^ (p - j) - 1 : ℤ) * (2 : ℚ) ^ (-(p : ℤ))) = (m * 2 ^ (p - j) - 1 : ℤ) * (2 : ℚ) ^ (-(p : ℤ)) := by
      apply rne_exact _ _ hp _ he
      rw [abs_le]
      have e1 : m * 2 ^ (p - j) ≤ 2 ^ j * 2 ^ (p - j) := mul_le_mul_of_nonneg_right hm (by positivity)
      have e2 : (2 : ℤ) ^ j * 2 ^ (p - j) = 2 ^ p := by rw [← pow_add]; congr 1; omega
      have e3 : 0 < m * 2 ^ (p - j) := by positivity
      have e4 : (0 : ℤ) < 2 ^ p := by positivity
      constructor <;> omega
    have hpp : (2 : ℚ) ^ (-(p : ℤ)) = 1 / 2 ^ p := by rw [zpow_neg, zpow_natCast, one_div]
    have hval : ((m * 2 ^ (p - j) - 1 : ℤ) : ℚ) * (2 : ℚ) ^ (-(p : ℤ)) = (m : ℚ) / 2 ^ j - 1 / 2 ^ p := by
      rw [hpp]
      push_cast
      have e : (2 : ℚ) ^ p = 2 ^ (p - j) * 2 ^ j := by rw [← pow_add]; congr 1; omega
      rw [e]
      field_simp
    have hx : (a : ℚ) / n ≤ (m * 2 ^ (p - j) - 1 : ℤ) * (2 : ℚ) ^ (-(p : ℤ)) := by
      rw [hval, le_sub_iff_add_le, div_add_div _ _ hnq.ne' (by positivity), div_le_div_iff₀ (by positivity) (by positivity)]
      have hlt' : a * 2 ^ j + 1 ≤ m * n := by omega
      have hltq : (a : ℚ) * 2 ^ j + 1 ≤ m * n := by exact_mod_cast hlt'
      have hnjq : (n : ℚ) * 2 ^ j ≤ 2 ^ p := by exact_mod_cast hnj
      have e4 : (0 : ℚ) < 2 ^ p := by positivity
      calc ((a : ℚ) * 2 ^ p + n * 1) * 2 ^ j = a * 2 ^ j * 2 ^ p + n * 2 ^ j := by ring
        _ ≤ a * 2 ^ j * 2 ^ p + 1 * 2 ^ p := by linarith
        _ = (a * 2 ^ j + 1) * 2 ^ p := by ring
        _ ≤ m * n * 2 ^ p := by apply mul_le_mul_of_nonneg_right hltq e4.le
        _ = m * (n * 2 ^ p) := by ring
    have := rne_mono (p := p) (emin := emin) hp hx
    rw [hy, hval] at this
    have e4 : (0 : ℚ) < 1 / 2 ^ p := by positivity
    linarith
  · intro h
    have hrep : rne p emin ((m : ℚ) / 2 ^ j) = (m : ℚ) / 2 ^ j := by
      have := rne_exact (K := ℚ) (p := p) (emin := emin) m (-(j : ℤ)) hp (by rw [abs_of_pos hm0]; exact hm.trans h2j) (by omega)
      rw [zpow_neg, zpow_natCast, ← div_eq_mul_inv] at this
      exact this
    rw [← hrep]
    apply rne_mono hp
    rw [div_le_div_iff₀ hjq hnq]
    exact_mod_cast h

theorem kernelDec_exact {m : ℤ} {j : ℕ} {t : ℤ} {c : ℤ × ℤ} (h1 : 0 ≤ c.1) (h2 : 0 ≤ c.2) (hm0 : 0 < m)
    (hm : m ≤ 2 ^ j) (hj : (c.1 + c.2) * 2 ^ j ≤ 2 ^ 24) {n : ℤ} :
    kernelDec (.fin ((m : ℚ) / 2 ^ j)) t c = (FilterOptions.mk (.fin ((m : ℚ) / 2 ^ j)) t n).countsSeenAs c.1 c.2 := by
  unfold kernelDec FilterOptions.countsSeenAs
  simp only
  by_cases hth : c.2 ≥ t
  · rw [if_pos hth]
    by_cases hp : c.1 > 0 ∧ c.2 > 0
    · rw [if_pos hp, if_pos hp]
      have hpow : (1 : ℤ) ≤ 2 ^ j := one_le_pow₀ (by norm_num)
      have hs : c.1 + c.2 ≤ 2 ^ 24 := by nlinarith
      have hi : int32 (c.1 + c.2) = some (c.1 + c.2) := by unfold int32; rw [if_pos]; omega
      have hne : ((c.1 + c.2 : ℤ) : ℚ) ≠ 0 := by
        have : c.1 + c.2 ≠ 0 := by omega
        exact_mod_cast this
      rw [hi, Option.map_some, Option.map_some, roundDouble_int (by rw [abs_le]; omega),
        roundDouble_int (by rw [abs_le]; omega), roundFloat_int (by rw [abs_le]; omega), roundFloat_int (by rw [abs_le]; omega)]
      simp only [Fl.div, hne, if_false, Fl.le, decide_eq_true_eq]
      have ef := share_exact (p := 24) (emin := -149) (a := c.1) (n := c.1 + c.2) (m := m) (j := j) (by norm_num) (by norm_num)
        (by omega) hm0 hm hj
      have ed := share_exact (p := 53) (emin := -1074) (a := c.1) (n := c.1 + c.2) (m := m) (j := j) (by norm_num) (by norm_num)
        (by omega) hm0 hm (by omega)
      unfold roundFloat roundDouble
      simp only [ef, ed]
    · rw [if_neg hp, if_neg hp]
  · rw [if_neg hth]
    have : ¬ (c.1 > 0 ∧ (0 : ℤ) > 0) := by omega
    rw [if_neg this, if_neg this]

end VGT
