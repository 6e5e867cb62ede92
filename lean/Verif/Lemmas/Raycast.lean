import Verif.Model.Raycast
import Mathlib.Tactic.Linarith
import Mathlib.Tactic.Ring
import Mathlib.Tactic.FieldSimp
import Mathlib.Tactic.FinCases
import Mathlib.Tactic.Push
import Mathlib.Tactic.Positivity
import Mathlib.Algebra.Order.Floor.Semifield

set_option autoImplicit false

namespace VGT
open VGT.EDT

theorem fin3_forall {P : Fin 3 → Prop} : (∀ a, P a) ↔ P 0 ∧ P 1 ∧ P 2 :=
  ⟨fun h => ⟨h 0, h 1, h 2⟩, fun h a => by fin_cases a <;> simp_all⟩

theorem inGrid_iff {d : Dims} {i : IVec} : inGrid d i = true ↔ ∀ a, 0 ≤ i a ∧ i a < axisCells d a := by
  simp only [inGrid, decide_eq_true_eq, fin3_forall, axisCells]
  constructor
  · rintro ⟨h1, h2, h3, h4, h5, h6⟩; exact ⟨⟨h1, h2⟩, ⟨h3, h4⟩, h5, h6⟩
  · rintro ⟨⟨h1, h2⟩, ⟨h3, h4⟩, h5, h6⟩; exact ⟨h1, h2, h3, h4, h5, h6⟩

/-- Taxicab distance of two indices. -/
def idist (f c : IVec) : ℕ := (f 0 - c 0).natAbs + (f 1 - c 1).natAbs + (f 2 - c 2).natAbs

/-- The steps lead from `cur` to `final`. -/
def Toward (final step cur : IVec) : Prop :=
  ∀ a, (step a = 1 ∧ cur a ≤ final a) ∨ (step a = -1 ∧ final a ≤ cur a) ∨ (step a = 0 ∧ cur a = final a)

theorem toward_init (final cur : IVec) : Toward final (fun a => stepFromDiff (final a - cur a)) cur := by
  intro a
  simp only [stepFromDiff]
  split_ifs <;> omega

theorem toward_step {final step cur : IVec} (h : Toward final step cur) {a : Fin 3} (ha : cur a ≠ final a) :
    Toward final step (Function.update cur a (cur a + step a)) := by
  intro b
  by_cases hb : b = a
  · subst hb
    simp only [Function.update_self]
    rcases h b with h | h | h <;> omega
  · simp only [Function.update_of_ne hb]; exact h b

theorem idist_step {final step cur : IVec} (h : Toward final step cur) {a : Fin 3} (ha : cur a ≠ final a) :
    idist final (Function.update cur a (cur a + step a)) + 1 = idist final cur := by
  have h' := h a
  unfold idist
  fin_cases a <;> simp [Function.update] at ha h' ⊢ <;> omega

theorem idist_pos {final cur : IVec} (h : cur ≠ final) : 0 < idist final cur := by
  rcases Nat.eq_zero_or_pos (idist final cur) with h0 | h0
  · exfalso
    apply h
    unfold idist at h0
    funext a
    fin_cases a <;> simp <;> omega
  · exact h0

section
variable {K : Type} [Field K] [LinearOrder K] [IsStrictOrderedRing K] [FloorRing K]

theorem chooseAxis_min (t : Fin 3 → WithTop K) (b : Fin 3) : t (chooseAxis t) ≤ t b := by
  unfold chooseAxis
  split_ifs with h1 h2
  · fin_cases b
    · exact le_rfl
    · exact h1.1
    · exact h1.2
  · fin_cases b
    · exact h2.1
    · exact le_rfl
    · exact h2.2
  · rcases le_total (t 0) (t 1) with h | h
    · have h02 : ¬ t 0 ≤ t 2 := fun h' => h1 ⟨h, h'⟩
      push Not at h02
      fin_cases b
      · exact h02.le
      · exact h02.le.trans h
      · exact le_rfl
    · have h12 : ¬ t 1 ≤ t 2 := fun h' => h2 ⟨h, h'⟩
      push Not at h12
      fin_cases b
      · exact h12.le.trans h
      · exact h12.le
      · exact le_rfl

/-- The loop ends, marks at most as many cells as it takes steps, only cells in the grid other than the final
one, and every cell at most once. -/
theorem walk_total (d : Dims) (final step : IVec) (delta : Fin 3 → WithTop K) :
    ∀ (fuel : ℕ) (cur : IVec) (t : Fin 3 → WithTop K), Toward final step cur → idist final cur ≤ fuel →
      ∃ l, walk d final step delta fuel cur t = some l ∧ l.length ≤ idist final cur ∧
        (∀ c ∈ l, inGrid d c = true ∧ c ≠ final ∧ idist final c ≤ idist final cur) ∧ l.Nodup := by
  intro fuel
  induction fuel with
  | zero =>
    intro cur t _ hd
    have : cur = final := by
      by_contra hne
      have := idist_pos hne
      omega
    exact ⟨[], by simp [walk, this], by simp, by simp, by simp⟩
  | succ fuel ih =>
    intro cur t ht hd
    unfold walk
    by_cases hcf : cur = final
    · exact ⟨[], by simp [hcf], by simp, by simp, by simp⟩
    rw [if_neg hcf]
    by_cases hin : inGrid d cur = true
    · rw [if_pos hin]
      have hp := idist_pos hcf
      by_cases ha : cur (chooseAxis t) = final (chooseAxis t)
      · refine ⟨[cur], by simp [ha], by simp only [List.length_singleton]; omega, ?_, by simp⟩
        intro c hc
        rw [List.mem_singleton.1 hc]
        exact ⟨hin, hcf, le_rfl⟩
      · have hs := idist_step ht ha
        obtain ⟨l, h1, h2, h3, h4⟩ := ih (Function.update cur (chooseAxis t) (cur (chooseAxis t) + step (chooseAxis t)))
          (Function.update t (chooseAxis t) (t (chooseAxis t) + delta (chooseAxis t))) (toward_step ht ha) (by omega)
        refine ⟨cur :: l, by simp only [ha, if_false]; rw [h1]; rfl, by simp only [List.length_cons]; omega, ?_, ?_⟩
        · intro c hc
          rcases List.mem_cons.1 hc with rfl | hc
          · exact ⟨hin, hcf, le_rfl⟩
          · have := h3 c hc
            exact ⟨this.1, this.2.1, by omega⟩
        · rw [List.nodup_cons]
          refine ⟨fun hc => ?_, h4⟩
          have := (h3 cur hc).2.2
          omega
    · exact ⟨[], by simp [hin], by simp, by simp, by simp⟩

/-- The point at parameter `τ` is in the closed box of cell `c`. -/
def InBox (s : K) (q ray : Vec K) (c : IVec) (τ : K) : Prop :=
  ∀ a, (c a : K) * s ≤ q a + τ * ray a ∧ q a + τ * ray a ≤ ((c a : K) + 1) * s

/-- Parameter at which the ray leaves the slab of index `i` along one axis. -/
def exitT (s q ray : K) (i : ℤ) : WithTop K :=
  if ray > 0 then (((((i : K) + 1) * s - q) / ray : K) : WithTop K)
  else if ray < 0 then ((((i : K) * s - q) / ray : K) : WithTop K)
  else ⊤

theorem axisT_eq {s q ray : K} {i : ℤ} (h1 : (i : K) * s ≤ q) (h2 : q ≤ ((i : K) + 1) * s) :
    axisT q ray (((i : K) + 1 / 2) * s - s * (1 / 2)) (((i : K) + 1 / 2) * s + s * (1 / 2)) = exitT s q ray i := by
  unfold axisT exitT
  split_ifs with h h'
  · congr 1
    rw [abs_of_nonneg (div_nonneg (by linarith) h.le)]
    congr 1; ring
  · congr 1
    have : (q - (((i : K) + 1 / 2) * s - s * (1 / 2))) / ray ≤ 0 :=
      div_nonpos_of_nonneg_of_nonpos (by linarith) h'.le
    rw [abs_of_nonpos this, ← neg_div]
    congr 1; ring
  · rfl

theorem exitT_step {s q ray : K} (hs : 0 < s) {i step : ℤ} (h : (0 < ray ∧ step = 1) ∨ (ray < 0 ∧ step = -1)) :
    exitT s q ray (i + step) = exitT s q ray i + deltaT s ray := by
  unfold exitT deltaT
  rcases h with ⟨h, rfl⟩ | ⟨h, rfl⟩
  · rw [if_pos h, if_pos h, if_neg h.ne', abs_of_pos (div_pos hs h), ← WithTop.coe_add]
    congr 1
    push_cast
    rw [← add_div]
    congr 1; ring
  · rw [if_neg h.le.not_gt, if_pos h, if_neg h.le.not_gt, if_pos h, if_neg h.ne, abs_of_neg (div_neg_of_pos_of_neg hs h),
      ← WithTop.coe_add]
    congr 1
    push_cast
    rw [← neg_div, ← add_div]
    congr 1; ring

/-- Steps agree with the direction of the ray. -/
def Along (ray : Vec K) (step : IVec) : Prop :=
  ∀ a, (0 < ray a ∧ step a = 1) ∨ (ray a < 0 ∧ step a = -1) ∨ step a = 0

/-- Every cell marked by the loop is touched by the ray between `τ` and `T`. -/
theorem walk_touch {d : Dims} {s T : K} (hs : 0 < s) {q ray : Vec K} {final step : IVec} (hal : Along ray step)
    (hfin : InBox s q ray final T) :
    ∀ (fuel : ℕ) (cur : IVec) (t : Fin 3 → WithTop K) (τ : K), Toward final step cur →
      (∀ a, t a = exitT s (q a) (ray a) (cur a)) → τ ≤ T → InBox s q ray cur τ → ∀ l,
      walk d final step (fun a => deltaT s (ray a)) fuel cur t = some l →
      ∀ c ∈ l, ∃ τ', τ ≤ τ' ∧ τ' ≤ T ∧ InBox s q ray c τ' := by
  intro fuel
  induction fuel with
  | zero =>
    intro cur t τ _ _ _ _ l hl c hc
    unfold walk at hl
    split_ifs at hl
    cases hl
    cases hc
  | succ fuel ih =>
    intro cur t τ ht hte hτ hbox l hl c hc
    unfold walk at hl
    dsimp only at hl
    split_ifs at hl with hcf hin ha
    · cases hl; cases hc
    · cases hl
      rw [List.mem_singleton.1 hc]
      exact ⟨τ, le_rfl, hτ, hbox⟩
    · set a := chooseAxis t with hadef
      simp only [Option.map_eq_some_iff] at hl
      obtain ⟨l', hl', rfl⟩ := hl
      rcases List.mem_cons.1 hc with rfl | hc
      · exact ⟨τ, le_rfl, hτ, hbox⟩
      have hstep : (0 < ray a ∧ step a = 1) ∨ (ray a < 0 ∧ step a = -1) := by
        rcases hal a with h | h | h
        · exact Or.inl h
        · exact Or.inr h
        · exfalso
          rcases ht a with h' | h' | h'
          · omega
          · omega
          · exact ha h'.2
      have htoward := toward_step ht ha
      have hmin : ∀ b, t a ≤ t b := chooseAxis_min t
      -- the new parameter
      obtain ⟨τ', hτ', hττ', hτT, hbox'⟩ : ∃ τ', t a = ((τ' : K) : WithTop K) ∧ τ ≤ τ' ∧ τ' ≤ T ∧
          (((cur a + step a : ℤ) : K) * s ≤ q a + τ' * ray a ∧ q a + τ' * ray a ≤ (((cur a + step a : ℤ) : K) + 1) * s) := by
        rcases hstep with ⟨hr, hst⟩ | ⟨hr, hst⟩
        · refine ⟨(((cur a : K) + 1) * s - q a) / ray a, by rw [hte a, exitT, if_pos hr], ?_, ?_, ?_⟩
          · rw [le_div_iff₀ hr]; linarith [(hbox a).2]
          · rw [div_le_iff₀ hr]
            have h1 := (hfin a).1
            have h2 : cur a + 1 ≤ final a := by
              rcases ht a with h | h | h <;> omega
            have h3 : ((cur a : K) + 1) ≤ (final a : K) := by exact_mod_cast h2
            have h4 := mul_le_mul_of_nonneg_right h3 hs.le
            linarith
          · rw [div_mul_cancel₀ _ hr.ne', hst]
            push_cast
            constructor <;> linarith
        · refine ⟨((cur a : K) * s - q a) / ray a, by rw [hte a, exitT, if_neg hr.le.not_gt, if_pos hr], ?_, ?_, ?_⟩
          · rw [le_div_iff_of_neg hr]; linarith [(hbox a).1]
          · rw [div_le_iff_of_neg hr]
            have h1 := (hfin a).2
            have h2 : final a + 1 ≤ cur a := by
              rcases ht a with h | h | h <;> omega
            have h3 : ((final a : K) + 1) ≤ (cur a : K) := by exact_mod_cast h2
            have h4 := mul_le_mul_of_nonneg_right h3 hs.le
            linarith
          · rw [div_mul_cancel₀ _ hr.ne, hst]
            push_cast
            constructor <;> linarith
      have hnew : InBox s q ray (Function.update cur a (cur a + step a)) τ' := by
        intro b
        by_cases hb : b = a
        · rw [hb, Function.update_self]; exact hbox'
        · rw [Function.update_of_ne hb]
          have hb1 := hbox b
          have hle := hmin b
          rw [hτ', hte b] at hle
          rcases lt_trichotomy (ray b) 0 with hr | hr | hr
          · rw [exitT, if_neg hr.le.not_gt, if_pos hr, WithTop.coe_le_coe, le_div_iff_of_neg hr] at hle
            have := mul_le_mul_of_nonpos_right hττ' hr.le
            constructor <;> linarith
          · rw [hr]
            rw [hr] at hb1
            simpa using hb1
          · rw [exitT, if_pos hr, WithTop.coe_le_coe, le_div_iff₀ hr] at hle
            have := mul_le_mul_of_nonneg_right hττ' hr.le
            constructor <;> linarith
      have htnew : ∀ b, Function.update t a (t a + deltaT s (ray a)) b =
          exitT s (q b) (ray b) (Function.update cur a (cur a + step a) b) := by
        intro b
        by_cases hb : b = a
        · rw [hb, Function.update_self, Function.update_self, hte a, exitT_step hs hstep]
        · rw [Function.update_of_ne hb, Function.update_of_ne hb, hte b]
      obtain ⟨τ'', h1, h2, h3⟩ := ih _ _ τ' htoward htnew hτT hnew l' hl' c hc
      exact ⟨τ'', hττ'.trans h1, h2, h3⟩
    · cases hl; cases hc

/-- `c` lies between `cur` and `final`, in the direction of the steps. -/
def Between (final step cur c : IVec) : Prop :=
  ∀ a, (step a = 1 ∧ cur a ≤ c a ∧ c a ≤ final a) ∨ (step a = -1 ∧ final a ≤ c a ∧ c a ≤ cur a) ∨
    (step a = 0 ∧ c a = cur a ∧ cur a = final a)

/-- The loop marks every cell whose interior the ray meets before the end. -/
theorem walk_cover {d : Dims} {s τ : K} (hs : 0 < s) {q ray : Vec K} {final step c : IVec} (hal : Along ray step)
    (hc : ∀ a, (c a : K) * s < q a + τ * ray a ∧ q a + τ * ray a < ((c a : K) + 1) * s)
    (hcin : inGrid d c = true) (hcf : c ≠ final) :
    ∀ (fuel : ℕ) (cur : IVec) (t : Fin 3 → WithTop K), Between final step cur c → inGrid d cur = true →
      (∀ a, t a = exitT s (q a) (ray a) (cur a)) → ∀ l,
      walk d final step (fun a => deltaT s (ray a)) fuel cur t = some l → c ∈ l := by
  have hbf : ∀ cur, Between final step cur c → cur ≠ final := by
    intro cur hb h
    apply hcf
    funext a
    have := hb a
    rw [h] at this
    omega
  intro fuel
  induction fuel with
  | zero =>
    intro cur t hb hin hte l hl
    unfold walk at hl
    rw [if_neg (hbf cur hb)] at hl
    cases hl
  | succ fuel ih =>
    intro cur t hb hin hte l hl
    unfold walk at hl
    rw [if_neg (hbf cur hb), if_pos hin] at hl
    by_cases hcc : c = cur
    · simp only at hl
      split_ifs at hl
      · cases hl; simp [hcc]
      · simp only [Option.map_eq_some_iff] at hl
        obtain ⟨l', _, rfl⟩ := hl
        simp [hcc]
    set a := chooseAxis t with hadef
    have hmin : ∀ b, t a ≤ t b := chooseAxis_min t
    -- some axis still differs
    obtain ⟨b, hbne⟩ : ∃ b, cur b ≠ c b := by
      by_contra hall
      push Not at hall
      exact hcc (funext fun a => (hall a).symm)
    have htb : t b < ((τ : K) : WithTop K) := by
      rw [hte b]
      rcases hb b with h | h | h
      · have hr : 0 < ray b := by
          rcases hal b with h' | h' | h'
          · exact h'.1
          · omega
          · omega
        rw [exitT, if_pos hr, WithTop.coe_lt_coe, div_lt_iff₀ hr]
        have h3 : ((cur b : K) + 1) ≤ (c b : K) := by exact_mod_cast (by omega : cur b + 1 ≤ c b)
        have h4 := mul_le_mul_of_nonneg_right h3 hs.le
        linarith [(hc b).1]
      · have hr : ray b < 0 := by
          rcases hal b with h' | h' | h'
          · omega
          · exact h'.1
          · omega
        rw [exitT, if_neg hr.le.not_gt, if_pos hr, WithTop.coe_lt_coe, div_lt_iff_of_neg hr]
        have h3 : ((c b : K) + 1) ≤ (cur b : K) := by exact_mod_cast (by omega : c b + 1 ≤ cur b)
        have h4 := mul_le_mul_of_nonneg_right h3 hs.le
        linarith [(hc b).2]
      · exact absurd h.2.1.symm hbne
    have hane : cur a ≠ c a := by
      intro h
      have hta := lt_of_le_of_lt (hmin b) htb
      rw [hte a, h] at hta
      unfold exitT at hta
      split_ifs at hta with h1 h2
      · rw [WithTop.coe_lt_coe, div_lt_iff₀ h1] at hta
        linarith [(hc a).2]
      · rw [WithTop.coe_lt_coe, div_lt_iff_of_neg h2] at hta
        linarith [(hc a).1]
      · exact absurd hta (by simp)
    have haf : cur a ≠ final a := by
      rcases hb a with h | h | h <;> omega
    simp only [haf, if_false, Option.map_eq_some_iff] at hl
    obtain ⟨l', hl', rfl⟩ := hl
    apply List.mem_cons_of_mem
    have hstep : (0 < ray a ∧ step a = 1) ∨ (ray a < 0 ∧ step a = -1) := by
      rcases hal a with h | h | h
      · exact Or.inl h
      · exact Or.inr h
      · exfalso
        rcases hb a with h' | h' | h' <;> omega
    refine ih _ _ ?_ ?_ ?_ l' hl'
    · intro b'
      by_cases hb' : b' = a
      · rw [hb', Function.update_self]
        rcases hb a with h | h | h <;> omega
      · rw [Function.update_of_ne hb']; exact hb b'
    · rw [inGrid_iff] at hin hcin ⊢
      intro b'
      by_cases hb' : b' = a
      · rw [hb', Function.update_self]
        have h1 := hin a
        have h2 := hcin a
        rcases hb a with h | h | h <;> omega
      · rw [Function.update_of_ne hb']; exact hin b'
    · intro b'
      by_cases hb' : b' = a
      · rw [hb', Function.update_self, Function.update_self, hte a, exitT_step hs hstep]
      · rw [Function.update_of_ne hb', Function.update_of_ne hb', hte b']

end

end VGT
