import Verif.Model.Fused
import Verif.Spec.Accurate
import Verif.Lemmas.CameraRound

/-!
C85: IEEE arithmetic, and arithmetic that fuses products with sums and differences, are right up to a small error.
-/
set_option autoImplicit false

namespace VGT
open VGT.EDT VGT.Spec

section
variable {R Rd : ℚ → Fl} {sqrt : Fl → Fl} {u η M : ℚ}

theorem floorInt_some {bits : ℕ} {x : Fl} {i : ℤ} (h : Fl.floorInt bits x = some i) : ∃ q, x = .fin q ∧ ⌊q⌋ = i := by
  unfold Fl.floorInt at h
  cases x with
  | fin q =>
    dsimp only at h
    split_ifs at h
    exact ⟨q, rfl, by simpa using h⟩
  | nan => cases h
  | pinf => cases h
  | ninf => cases h

theorem tiny_round (hR : Rounds R u η M) (hu : 0 ≤ u) (hu' : 200 * u ≤ 1) (hη : 0 ≤ η) (hη' : η ≤ 1 / 10 ^ 13) (hM : 1 ≤ M) :
    ∃ t, R (1 / 10 ^ 10) = .fin t ∧ |t - 1 / 10 ^ 10| ≤ 1 / 10 ^ 12 := by
  obtain ⟨t, h1, h2⟩ := rounds_fin hR (x := 1 / 10 ^ 10) (by rw [abs_of_pos (by norm_num)]; exact le_trans (by norm_num) hM)
  refine ⟨t, h1, h2.trans ?_⟩
  rw [abs_of_pos (by norm_num)]
  linarith

/-- IEEE arithmetic is such an arithmetic. -/
theorem ieee_accurate (hR : Rounds R u η M) (hsign : KeepsSign R) (hsqrt : SqrtRounds sqrt u η) (bits : ℕ) (hu : 0 ≤ u) (hu' : 200 * u ≤ 1)
    (hη : 0 ≤ η) (hη' : η ≤ 1 / 10 ^ 13) (hM : 1 ≤ M) : AccurateArith (ieee R bits) sqrt id id u η M where
  store := fun x a h ha => ⟨a, h, by rw [sub_self, abs_zero]; positivity⟩
  lt := fun _ _ => rfl
  le := fun _ _ => rfl
  toInt := fun x i h => floorInt_some h
  zero := ⟨rfl, rfl⟩
  one := rfl
  tiny := tiny_round hR hu hu' hη hη' hM
  abs := fun x a h => by
    have h : x = .fin a := h
    subst h
    rfl
  add := fun x y a b hx hy hab => by
    have hx : x = .fin a := hx
    have hy : y = .fin b := hy
    subst hx hy
    obtain ⟨z, h1, h2⟩ := rounds_fin hR ((abs_add_le a b).trans hab)
    exact ⟨z, h1, h2.trans (by have := mul_le_mul_of_nonneg_left (abs_add_le a b) hu; linarith), fun ha hb => hsign _ _ (add_nonneg ha hb) h1⟩
  sub := fun x y a b hx hy hab => by
    have hx : x = .fin a := hx
    have hy : y = .fin b := hy
    subst hx hy
    obtain ⟨z, h1, h2⟩ := rounds_fin hR ((abs_sub a b).trans hab)
    exact ⟨z, h1, h2.trans (by have := mul_le_mul_of_nonneg_left (abs_sub a b) hu; linarith)⟩
  mul := fun x y a b hx hy _ _ hab => by
    have hx : x = .fin a := hx
    have hy : y = .fin b := hy
    subst hx hy
    obtain ⟨z, h1, h2⟩ := rounds_fin hR hab
    exact ⟨z, h1, h2, fun h => hsign _ _ h h1⟩
  div := fun x y a b hx hy hb _ _ hab => by
    have hx : x = .fin a := hx
    have hy : y = .fin b := hy
    subst hx hy
    obtain ⟨z, h1, h2⟩ := rounds_fin hR hab
    refine ⟨z, ?_, h2⟩
    show Fl.divR R (.fin a) (.fin b) = _
    unfold Fl.divR
    dsimp only
    rw [if_neg hb]
    exact h1
  root := fun x a hx ha _ => by
    have hx : x = .fin a := hx
    subst hx
    exact hsqrt a ha

theorem fused_kept (hR : Rounds R u η M) (hu : 0 ≤ u) (hη : 0 ≤ η) {x : Fused} {a : ℚ} (h : x.1 = .fin a) (ha : |a| ≤ M) :
    ∃ b, x.kept R = .fin b ∧ |b - a| ≤ u * |a| + η := by
  obtain ⟨v, t⟩ := x
  dsimp only at h
  subst h
  cases t with
  | true => exact rounds_fin hR ha
  | false => exact ⟨a, rfl, by rw [sub_self, abs_zero]; positivity⟩

theorem fused_kept_nonneg (hsign : KeepsSign R) {x : Fused} {a b : ℚ} (h : x.1 = .fin a) (hb : x.kept R = .fin b) (ha : 0 ≤ a) : 0 ≤ b := by
  obtain ⟨v, t⟩ := x
  dsimp only at h
  subst h
  cases t with
  | true => exact hsign _ _ ha hb
  | false =>
    have : a = b := by simpa [Fused.kept] using hb
    rwa [← this]

theorem fused_sum {a b k z : ℚ} (hu : 0 ≤ u) (hu' : 200 * u ≤ 1) (hη : 0 ≤ η) (hk : |k - a| ≤ u * |a| + η)
    (hz : |z - (k + b)| ≤ u * |k + b| + η) : |z - (a + b)| ≤ 3 * u * (|a| + |b|) + 3 * η := by
  have h1 : |z - (a + b)| ≤ |z - (k + b)| + |k - a| := by
    have := abs_add_le (z - (k + b)) (k - a)
    rwa [show z - (k + b) + (k - a) = z - (a + b) by ring] at this
  have h2 : |k + b| ≤ |a| + |b| + (u * |a| + η) := by
    have e1 := abs_add_le (k - a) (a + b)
    rw [show k - a + (a + b) = k + b by ring] at e1
    have e2 := abs_add_le a b
    linarith
  have h3 := mul_le_mul_of_nonneg_left h2 hu
  have ha := abs_nonneg a
  have hb := abs_nonneg b
  have h4 : u * (u * |a| + η) ≤ 1 * (u * |a| + η) := mul_le_mul_of_nonneg_right (by linarith) (by positivity)
  have h5 : 0 ≤ u * |b| := by positivity
  nlinarith

theorem fused_room {a b k : ℚ} (hu' : 200 * u ≤ 1) (hη' : η ≤ 1 / 10 ^ 13) (hM : 1 ≤ M) (hab : |a| + |b| ≤ M / 2)
    (hk : |k - a| ≤ u * |a| + η) : |k + b| ≤ M ∧ |k - b| ≤ M ∧ |b - k| ≤ M := by
  have ha := abs_nonneg a
  have hb := abs_nonneg b
  have h0 : u * |a| ≤ 1 / 200 * |a| := mul_le_mul_of_nonneg_right (by linarith) ha
  have h1 : |k| ≤ |a| + 1 / 200 * |a| + η := by
    have e1 := abs_add_le (k - a) a
    rw [sub_add_cancel] at e1
    linarith
  have h2 : |k| + |b| ≤ M := by linarith
  refine ⟨(abs_add_le _ _).trans h2, (abs_sub _ _).trans h2, (abs_sub _ _).trans (by linarith)⟩

/-- Fused arithmetic is such an arithmetic. -/
theorem fused_accurate (hR : Rounds R u η M) (hsign : KeepsSign R) (hRd : Rounds Rd (3 * u) (3 * η) M) (hsqrt : SqrtRounds sqrt (3 * u) (3 * η))
    (bits : ℕ) (hu : 0 ≤ u) (hu' : 200 * u ≤ 1) (hη : 0 ≤ η) (hη' : η ≤ 1 / 10 ^ 13) (hM : 1 ≤ M) :
    AccurateArith (fusedArith R Rd bits) (fusedSqrt sqrt) Prod.fst (Fused.kept R) (3 * u) (3 * η) (M / 2) where
  store := fun x a h ha => by
    obtain ⟨b, h1, h2⟩ := fused_kept hR hu hη h (ha.trans (by linarith))
    refine ⟨b, h1, h2.trans ?_⟩
    have := mul_nonneg hu (abs_nonneg a)
    linarith
  lt := fun _ _ => rfl
  le := fun _ _ => rfl
  toInt := fun x i h => floorInt_some h
  zero := ⟨rfl, rfl⟩
  one := rfl
  tiny := by
    obtain ⟨t, h1, h2⟩ := tiny_round hR hu hu' hη hη' hM
    refine ⟨t, ?_, h2⟩
    show Fused.kept R (R (1 / 10 ^ 10), false) = _
    rw [h1]
    rfl
  abs := fun x a h => by
    show Fused.kept R (Fl.absF (x.kept R), false) = _
    rw [h]
    rfl
  add := fun x y a b hx hy hab => by
    have hle : |a| ≤ M := by have := abs_nonneg b; linarith [abs_nonneg a]
    obtain ⟨k, h1, h2⟩ := fused_kept hR hu hη hx hle
    obtain ⟨z, h3, h4⟩ := rounds_fin hR (fused_room hu' hη' hM hab h2).1
    refine ⟨z, ?_, fused_sum hu hu' hη h2 h4, fun ha hb => hsign _ _ (add_nonneg (fused_kept_nonneg hsign hx h1 ha) hb) h3⟩
    show Fl.addR R (x.kept R) y.1 = _
    rw [h1, hy]
    exact h3
  sub := fun x y a b hx hy hab => by
    have hle : |b| ≤ M := by have := abs_nonneg a; linarith [abs_nonneg b]
    obtain ⟨k, h1, h2⟩ := fused_kept hR hu hη hy hle
    obtain ⟨z, h3, h4⟩ := rounds_fin hR (fused_room (b := a) hu' hη' hM (by linarith) h2).2.2
    refine ⟨z, ?_, ?_⟩
    · show Fl.subR R x.1 (y.kept R) = _
      rw [h1, hx]
      exact h3
    · have := fused_sum (a := -b) (b := a) (k := -k) (z := z) hu hu' hη (by rw [abs_neg, show -k - -b = -(k - b) by ring, abs_neg]; exact h2)
        (by rw [show -k + a = a - k by ring]; exact h4)
      rw [abs_neg, show -b + a = a - b by ring] at this
      linarith
  mul := fun x y a b hx hy _ _ _ => by
    refine ⟨a * b, ?_, by rw [sub_self, abs_zero]; positivity, id⟩
    show Fl.mulR Fl.fin x.1 y.1 = _
    rw [hx, hy]
    rfl
  div := fun x y a b hx hy hb _ _ hab => by
    obtain ⟨z, h1, h2⟩ := rounds_fin hRd (hab.trans (by linarith))
    refine ⟨z, ?_, h2⟩
    show Fl.divR Rd x.1 y.1 = _
    rw [hx, hy]
    unfold Fl.divR
    dsimp only
    rw [if_neg hb]
    exact h1
  root := fun x a hx ha _ => by
    show ∃ z, sqrt x.1 = _ ∧ _
    rw [hx]
    exact hsqrt a ha

end

end VGT
