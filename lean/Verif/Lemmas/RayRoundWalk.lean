import Verif.Lemmas.RayRound
import Verif.Lemmas.RayPath
import Mathlib.Tactic.SplitIfs

/-!
Raycasting with rounding: the loop visits cells near the segment, and all cells the segment is well inside of.
-/
set_option autoImplicit false

namespace VGT
open VGT.EDT VGT.Spec

/-- A ray from `x`, in cell `i`, to `x + ρ`, in cell `f` of the computed indices, with the speed `r`. -/
structure RaySetup (u η M s n N E : ℚ) (d : Dims) (i f : IVec) (x ρ r : Fin 3 → ℚ) (lam : ℚ) : Prop where
  scale : RayScale u η M s n N E
  dims : ∀ a, (axisCells d a : ℚ) + 2 ≤ N
  start : CellInGrid (axisCells d) i
  near : ∀ a, NearCell u s n (i a) (x a)
  along : ∀ a, SpeedOf u s n lam (r a) (ρ a)
  lam_pos : 0 < lam
  lam_le : lam ≤ 1
  final_ge : ∀ a (m : ℤ), 0 ≤ m → (m : ℚ) ≤ N → m ≤ f a → m * s - 5 * (u * n * s) ≤ x a + ρ a
  final_le : ∀ a (m : ℤ), 0 ≤ m → (m : ℚ) ≤ N → f a < m → x a + ρ a ≤ m * s + 5 * (u * n * s)
  speed : ∀ a, η * |r a| ≤ u * s

/-- The cell after `k a` steps along each axis `a`. -/
def after (i f : IVec) (k : Fin 3 → ℕ) : IVec := fun a => i a + stepFromDiff (f a - i a) * k a

section
variable {R : ℚ → Fl} {u η M s n N E lam : ℚ} {d : Dims} {i f : IVec} {x ρ r : Fin 3 → ℚ}

namespace RaySetup
variable (S : RaySetup u η M s n N E d i f x ρ r lam)
include S

theorem i_le (a : Fin 3) : 0 ≤ i a ∧ (i a : ℚ) + 3 ≤ N := by
  obtain ⟨h1, h2⟩ := S.start a
  refine ⟨h1, ?_⟩
  have h3 := S.dims a
  have h4 : (i a : ℚ) + 1 ≤ axisCells d a := by exact_mod_cast h2
  linarith

/-- Number of steps while in the grid. -/
theorem steps_le {k : Fin 3 → ℕ} (hk : ∀ a, k a ≤ (f a - i a).natAbs) (hc : CellInGrid (axisCells d) (after i f k)) (a : Fin 3) :
    (k a : ℚ) + 3 ≤ N := by
  obtain ⟨h1, h2⟩ := hc a
  obtain ⟨h3, h4⟩ := S.start a
  have h5 := S.dims a
  have h6 : (k a : ℤ) + 1 ≤ axisCells d a := by
    have := hk a
    unfold after stepFromDiff at h1 h2
    split_ifs at h1 h2 <;> omega
  have h7 : (k a : ℚ) + 1 ≤ axisCells d a := by exact_mod_cast h6
  linarith

theorem ahead_le (k : ℕ) (a : Fin 3) (hk : (k : ℚ) + 2 ≤ N) : ahead s (i a) (x a) (r a) k ≤ n * s := by
  have h1 := (ahead_bounds S.scale (r := r a) (S.near a) k).2
  have h2 := mul_le_mul_of_nonneg_right hk S.scale.s_pos.le
  have := S.scale.w_le; have := S.scale.s_pos; have := S.scale.Ns_le
  linarith

theorem ahead_ge (k : ℕ) (a : Fin 3) : -(4 * (u * n * s)) ≤ ahead s (i a) (x a) (r a) k := by
  have h1 := (ahead_bounds S.scale (r := r a) (S.near a) k).1
  have : 0 ≤ (k : ℚ) * s := mul_nonneg (Nat.cast_nonneg _) S.scale.s_pos.le
  linarith

/-- Speed and displacement of different sign: the displacement is tiny. -/
theorem wrong_sign (a : Fin 3) (h : (0 < r a ∧ ρ a ≤ 0) ∨ (r a ≤ 0 ∧ 0 ≤ ρ a)) : |ρ a| ≤ 5 * (u * n * s) := by
  have h1 := abs_le.1 (S.along a)
  have hw := S.scale.w_pos
  have h4 := mul_le_mul_of_nonneg_right (show 9000 * u ≤ 1 by linarith [S.scale.u_le, S.scale.un_le]) (abs_nonneg (ρ a))
  have hl := S.lam_pos
  rcases h with ⟨h2, h3⟩ | ⟨h2, h3⟩
  · have : 0 < lam * r a := mul_pos hl h2
    rw [abs_of_nonpos h3] at h1 h4 ⊢
    linarith
  · have : lam * r a ≤ 0 := mul_nonpos_of_nonneg_of_nonpos hl.le h2
    rw [abs_of_nonneg h3] at h1 h4 ⊢
    linarith

end RaySetup

/-- Speed and steps have the same direction. -/
def SameDir (i f : IVec) (r : Fin 3 → ℚ) (a : Fin 3) : Prop := if 0 < r a then i a < f a else f a < i a

/-- What is known of the loop after `k a` steps along each axis `a`: the point at fraction `σ` is near the cell. -/
structure WalkInv (s E : ℚ) (i f : IVec) (x ρ r : Fin 3 → ℚ) (k : Fin 3 → ℕ) (σ : ℚ) : Prop where
  σ0 : 0 ≤ σ
  σ1 : σ ≤ 1
  steps : ∀ a, k a ≤ (f a - i a).natAbs
  lower : ∀ a, 0 < k a → SameDir i f r a → ahead s (i a) (x a) (r a) (k a - 1) - 32 * E ≤ σ * |ρ a|
  upper : ∀ a, σ * |ρ a| ≤ ahead s (i a) (x a) (r a) (k a) + 32 * E

theorem walkInv_near (S : RaySetup u η M s n N E d i f x ρ r lam) {k : Fin 3 → ℕ} {σ : ℚ} (W : WalkInv s E i f x ρ r k σ)
    (hc : CellInGrid (axisCells d) (after i f k)) : PassesWithin (32 * E) s x (fun a => x a + ρ a) (after i f k) := by
  refine ⟨σ, W.σ0, W.σ1, fun a => ?_⟩
  have e : onSeg x (fun a => x a + ρ a) σ a = x a + σ * ρ a := by unfold onSeg; ring
  rw [e]
  have hw := S.scale.w_pos
  have hnw := S.scale.w_nw
  obtain ⟨n1, n2⟩ := S.near a
  have hup := W.upper a
  have hlo := W.lower a
  have hst := W.steps a
  have hσ0 := W.σ0
  have hσ1 := W.σ1
  obtain ⟨c1, c2⟩ := hc a
  have hin := S.i_le a
  have hcn : ((after i f k a : ℤ) : ℚ) + 3 ≤ N := by
    have h3 := S.dims a
    have h4 : ((after i f k a : ℤ) : ℚ) + 1 ≤ axisCells d a := by exact_mod_cast c2
    linarith
  -- bounds on a product with the fraction
  have hprod : ∀ y B : ℚ, |y| ≤ B → -B ≤ σ * y ∧ σ * y ≤ B := by
    intro y B hy
    have h1 := abs_le.1 hy
    constructor <;> nlinarith
  have hself : σ * ρ a ≤ σ * |ρ a| := mul_le_mul_of_nonneg_left (le_abs_self _) hσ0
  have hneg : -(σ * |ρ a|) ≤ σ * ρ a := by
    have := mul_le_mul_of_nonneg_left (neg_abs_le (ρ a)) hσ0
    linarith
  rcases Nat.eq_zero_or_pos (k a) with hk | hk
  · have hcur : after i f k a = i a := by unfold after; rw [hk]; simp
    rw [hcur]
    rw [hk] at hup
    unfold ahead at hup
    simp only [Nat.cast_zero, zero_mul, add_zero] at hup
    rcases lt_or_ge 0 (r a) with hr | hr
    · rw [if_pos hr] at hup
      refine ⟨?_, by linarith⟩
      rcases le_total (ρ a) 0 with hρ | hρ
      · have := (hprod _ _ (S.wrong_sign a (.inl ⟨hr, hρ⟩))).1
        linarith
      · have := mul_nonneg hσ0 hρ
        linarith
    · rw [if_neg (not_lt.2 hr)] at hup
      refine ⟨by linarith, ?_⟩
      rcases le_total 0 (ρ a) with hρ | hρ
      · have := (hprod _ _ (S.wrong_sign a (.inr ⟨hr, hρ⟩))).2
        linarith
      · have := mul_nonpos_of_nonneg_of_nonpos hσ0 hρ
        linarith
  · have hk1 : ((k a - 1 : ℕ) : ℚ) = (k a : ℚ) - 1 := by
      rw [Nat.cast_sub hk, Nat.cast_one]
    unfold ahead at hup hlo
    rw [hk1] at hlo
    rcases lt_trichotomy (i a) (f a) with hif | hif | hif
    · have hst1 : stepFromDiff (f a - i a) = 1 := by unfold stepFromDiff; rw [if_pos (by omega)]
      have hcur : after i f k a = i a + k a := by unfold after; rw [hst1, one_mul]
      have hcf : after i f k a ≤ f a := by rw [hcur]; omega
      have hge := S.final_ge a (after i f k a) c1 (by linarith) hcf
      have hcur' : ((after i f k a : ℤ) : ℚ) = (i a : ℚ) + k a := by rw [hcur]; push_cast; ring
      rw [hcur'] at hge ⊢
      have hk0 : (1 : ℚ) ≤ k a := by exact_mod_cast hk
      have hks : s ≤ (k a : ℚ) * s := by nlinarith [S.scale.s_pos]
      rcases lt_or_ge 0 (r a) with hr | hr
      · rw [if_pos hr] at hup hlo
        have hlo' := hlo hk (by unfold SameDir; rw [if_pos hr]; exact hif)
        refine ⟨?_, by linarith⟩
        rcases le_total (ρ a) 0 with hρ | hρ
        · have h1 := S.wrong_sign a (.inl ⟨hr, hρ⟩)
          have := (hprod _ _ h1).1
          have := (abs_le.1 h1).2
          linarith
        · rw [abs_of_nonneg hρ] at hlo'
          linarith
      · -- steps up, speed not positive: tiny displacement
        have hge1 := S.final_ge a (i a + 1) (by omega) (by push_cast; linarith) (by omega)
        push_cast at hge1
        have hρ : |ρ a| ≤ 9 * (u * n * s) := by
          rcases le_total 0 (ρ a) with h0 | h0
          · have := S.wrong_sign a (.inr ⟨hr, h0⟩)
            linarith
          · rw [abs_of_nonpos h0]
            linarith
        have h1 := hprod _ _ hρ
        have h2 := abs_le.1 hρ
        constructor <;> linarith
    · exfalso; rw [hif] at hst; simp at hst; omega
    · have hst1 : stepFromDiff (f a - i a) = -1 := by
        unfold stepFromDiff; rw [if_neg (by omega), if_pos (by omega)]
      have hcur : after i f k a = i a - k a := by unfold after; rw [hst1]; ring
      have hcf : f a < after i f k a + 1 := by rw [hcur]; omega
      have hle := S.final_le a (after i f k a + 1) (by omega) (by push_cast; linarith) hcf
      have hcur' : ((after i f k a : ℤ) : ℚ) = (i a : ℚ) - k a := by rw [hcur]; push_cast; ring
      push_cast at hle
      rw [hcur'] at hle ⊢
      have hk0 : (1 : ℚ) ≤ k a := by exact_mod_cast hk
      have hks : s ≤ (k a : ℚ) * s := by nlinarith [S.scale.s_pos]
      rcases lt_or_ge 0 (r a) with hr | hr
      · have hle1 := S.final_le a (i a) hin.1 (by linarith) hif
        have hρ : |ρ a| ≤ 9 * (u * n * s) := by
          rcases le_total 0 (ρ a) with h0 | h0
          · rw [abs_of_nonneg h0]
            linarith
          · have := S.wrong_sign a (.inl ⟨hr, h0⟩)
            linarith
        have h1 := hprod _ _ hρ
        have h2 := abs_le.1 hρ
        constructor <;> linarith
      · rw [if_neg (not_lt.2 hr)] at hup hlo
        have hlo' := hlo hk (by unfold SameDir; rw [if_neg (not_lt.2 hr)]; exact hif)
        refine ⟨by linarith, ?_⟩
        rcases le_total 0 (ρ a) with hρ | hρ
        · have h1 := S.wrong_sign a (.inr ⟨hr, hρ⟩)
          have := (hprod _ _ h1).2
          have := (abs_le.1 h1).1
          linarith
        · rw [abs_of_nonpos hρ] at hlo'
          linarith

/-- The times after `k a` steps along each axis. -/
def TimesAt (u M s n N : ℚ) (i : IVec) (x r : Fin 3 → ℚ) (k : Fin 3 → ℕ) (t : Fin 3 → Fl) : Prop :=
  ∀ a, TimeAt M s n (r a) (ahead s (i a) (x a) (r a) (k a)) (timeErr u s n N (k a)) (t a)

theorem after_step {k : Fin 3 → ℕ} {a : Fin 3} :
    (fun b => if b = a then after i f k a + stepFromDiff (f a - i a) else after i f k b)
      = after i f (fun b => if b = a then k a + 1 else k b) := by
  funext b
  unfold after
  by_cases h : b = a
  · subst h
    simp only [if_true]
    push_cast
    ring
  · simp only [h, if_false]

theorem steps_left {k : Fin 3 → ℕ} {a : Fin 3} (hk : k a ≤ (f a - i a).natAbs) (hne : after i f k a ≠ f a) :
    k a + 1 ≤ (f a - i a).natAbs := by
  unfold after stepFromDiff at hne
  split_ifs at hne <;> omega

theorem timesAt_step (S : RaySetup u η M s n N E d i f x ρ r lam) (hR : Rounds R u η M) (bits : ℕ) {g : RayGrid Fl} (hcell : g.cell = .fin s)
    {k : Fin 3 → ℕ} {t : Fin 3 → Fl} (hT : TimesAt u M s n N i x r k t) {a : Fin 3} (hk : (k a : ℚ) + 2 ≤ N) :
    TimesAt u M s n N i x r (fun b => if b = a then k a + 1 else k b)
      (fun b => if b = a then (ieee R bits).add (t a) (flDeltaT (ieee R bits) g (.fin (r a))) else t b) := by
  intro b
  by_cases h : b = a
  · subst h
    simp only [if_true]
    have := next_time S.scale hR (S.near b) (S.speed b) hk (hT b)
    unfold flDeltaT
    rw [hcell]
    exact this
  · simp only [h, if_false]
    exact hT b

/-- Cells visited by the loop are near the segment. -/
theorem walk_sound (S : RaySetup u η M s n N E d i f x ρ r lam) (hR : Rounds R u η M) (bits : ℕ) {g : RayGrid Fl}
    (hcell : g.cell = .fin s) :
    ∀ (fuel : ℕ) (k : Fin 3 → ℕ) (t : Fin 3 → Fl) (σ : ℚ) (l : List IVec), TimesAt u M s n N i x r k t →
      WalkInv s E i f x ρ r k σ →
      flWalk (ieee R bits) d f (fun a => stepFromDiff (f a - i a)) (fun a => flDeltaT (ieee R bits) g (.fin (r a))) fuel
        (after i f k) t = some l →
      ∀ c ∈ l, PassesWithin (32 * E) s x (fun a => x a + ρ a) c := by
  intro fuel
  induction fuel with
  | zero =>
    intro k t σ l hT W h
    unfold flWalk at h
    split_ifs at h
    cases h
    simp
  | succ fuel ih =>
    intro k t σ l hT W h
    unfold flWalk at h
    dsimp only at h
    split_ifs at h with h1 h2 h3
    · cases h; simp
    · cases h
      intro c hc
      rw [List.mem_singleton.1 hc]
      exact walkInv_near S W (inGrid_iff.1 h2)
    · have hgrid := inGrid_iff.1 h2
      obtain ⟨l', hl', rfl⟩ := Option.map_eq_some_iff.1 h
      intro c hc
      rcases List.mem_cons.1 hc with rfl | hc
      · exact walkInv_near S W hgrid
      · set a := flChooseAxis (ieee R bits) t with ha
        have hka := S.steps_le W.steps hgrid
        have hle : ∀ b, Fl.le (t a) (t b) = true := fun b => chosen_least hT b
        have hstep := steps_left (W.steps a) h3
        rw [after_step] at hl'
        refine ih _ _ (max σ (frac lam (t a))) l' (timesAt_step S hR bits hcell hT (by linarith [hka a])) ?_ hl' c hc
        have hfr : ∀ b, frac lam (t a) * |ρ b| ≤ ahead s (i b) (x b) (r b) (k b) + 32 * E := fun b =>
          frac_upper S.scale (hT b) (timeErr_le S.scale (by linarith [hka b])) (S.ahead_ge _ b)
            (S.ahead_le _ b (by linarith [hka b])) S.lam_pos S.lam_le (S.along b) ((hT a).frac_nonneg S.lam_pos)
            (frac_mono (hT a) (hT b) S.lam_pos (hle b))
        have hmax : ∀ b, max σ (frac lam (t a)) * |ρ b| ≤ ahead s (i b) (x b) (r b) (k b) + 32 * E := by
          intro b
          rcases max_choice σ (frac lam (t a)) with e | e <;> rw [e]
          · exact W.upper b
          · exact hfr b
        have hs := S.scale.s_pos
        refine ⟨le_max_of_le_left W.σ0, max_le W.σ1 (frac_le_one _ _), ?_, ?_, ?_⟩
        · intro b
          by_cases hb : b = a
          · subst hb
            simpa using hstep
          · simpa [hb] using W.steps b
        · intro b hb0 hdir
          by_cases hb : b = a
          · rw [hb]
            rw [hb] at hdir
            simp only [if_true, Nat.add_sub_cancel]
            have hend : ahead s (i a) (x a) (r a) (k a) - 16 * (u * n * s) ≤ |ρ a| := by
              have hw := S.scale.w_pos
              have hin := S.i_le a
              unfold SameDir at hdir
              unfold ahead
              split_ifs at hdir ⊢ with hr
              · have := S.final_ge a (i a + k a + 1) (by omega) (by
                  have h4 : (after i f k a : ℤ) = i a + k a := by
                    unfold after stepFromDiff; rw [if_pos (by omega), one_mul]
                  have h5 := (hgrid a).2
                  rw [h4] at h5
                  have h6 : ((i a + k a + 1 : ℤ) : ℚ) ≤ axisCells d a := by exact_mod_cast h5
                  linarith [S.dims a]) (by omega)
                push_cast at this
                have := le_abs_self (ρ a)
                linarith
              · have h4 : (after i f k a : ℤ) = i a - k a := by
                  unfold after stepFromDiff; rw [if_neg (by omega), if_pos (by omega)]; ring
                have h5 := (hgrid a).1
                rw [h4] at h5
                have hkq : (0 : ℚ) ≤ k a := Nat.cast_nonneg _
                have := S.final_le a (i a - k a) h5 (by push_cast; linarith) (by omega)
                push_cast at this
                have := neg_abs_le (ρ a)
                linarith
            have := frac_lower S.scale (hT a) (timeErr_le S.scale (by linarith [hka a])) (S.ahead_le _ a (by linarith [hka a]))
              S.lam_pos (S.along a) hend
            exact this.trans (mul_le_mul_of_nonneg_right (le_max_right _ _) (abs_nonneg _))
          · simp only [hb, if_false] at hb0 ⊢
            exact (W.lower b hb0 hdir).trans (mul_le_mul_of_nonneg_right (le_max_left _ _) (abs_nonneg _))
        · intro b
          refine (hmax b).trans ?_
          by_cases hb : b = a
          · subst hb
            simp only [if_true]
            unfold ahead
            push_cast
            linarith
          · simp only [hb, if_false]
            exact le_rfl
    · cases h; simp

/-! ### No cell is missed -/

/-- Steps to cell `c`. -/
def stepsTo (i c : IVec) : Fin 3 → ℕ := fun a => (c a - i a).natAbs

/-- A cell the segment is well inside of lies between the first and the last cell. -/
theorem deep_between (S : RaySetup u η M s n N E d i f x ρ r lam) {c : IVec} (hc : CellInGrid (axisCells d) c) {τ : ℚ} (h0 : 0 ≤ τ)
    (h1 : τ ≤ 1) (hτ : ∀ a, (c a : ℚ) * s + 32 * E ≤ x a + τ * ρ a ∧
      x a + τ * ρ a ≤ ((c a : ℚ) + 1) * s - 32 * E) (a : Fin 3) :
    (i a < c a → c a ≤ f a ∧ 0 < ρ a ∧ 0 < r a) ∧ (c a < i a → f a ≤ c a ∧ ρ a < 0 ∧ r a < 0) := by
  have hw := S.scale.w_pos
  have hnw := S.scale.w_nw
  have hs := S.scale.s_pos
  obtain ⟨n1, n2⟩ := S.near a
  obtain ⟨t1, t2⟩ := hτ a
  have hcn : (c a : ℚ) + 3 ≤ N := by
    have h3 := S.dims a
    have h4 : (c a : ℚ) + 1 ≤ axisCells d a := by exact_mod_cast (hc a).2
    linarith
  constructor
  · intro hic
    have hic' : (i a : ℚ) + 1 ≤ c a := by exact_mod_cast hic
    have h2 := mul_le_mul_of_nonneg_right hic' hs.le
    have h3 : 5 * (u * n * s) < τ * ρ a := by linarith
    have hρ : 0 < ρ a := by
      by_contra hcon
      have := mul_nonpos_of_nonneg_of_nonpos h0 (not_lt.1 hcon)
      linarith
    have h4 : τ * ρ a ≤ ρ a := by nlinarith
    refine ⟨?_, hρ, ?_⟩
    · by_contra hcon
      have := S.final_le a (c a) (hc a).1 (by linarith) (not_le.1 hcon)
      linarith
    · by_contra hcon
      have := S.wrong_sign a (.inr ⟨not_lt.1 hcon, hρ.le⟩)
      rw [abs_of_pos hρ] at this
      linarith
  · intro hic
    have hic' : (c a : ℚ) + 1 ≤ i a := by exact_mod_cast hic
    have h2 := mul_le_mul_of_nonneg_right hic' hs.le
    have h3 : τ * ρ a < -(5 * (u * n * s)) := by linarith
    have hρ : ρ a < 0 := by
      by_contra hcon
      have := mul_nonneg h0 (not_lt.1 hcon)
      linarith
    have h4 : ρ a ≤ τ * ρ a := by nlinarith
    refine ⟨?_, hρ, ?_⟩
    · by_contra hcon
      have := S.final_ge a (c a + 1) (by have := (hc a).1; omega) (by push_cast; linarith) (by omega)
      push_cast at this
      linarith
    · -- the speed is not positive, and not zero either
      by_contra hcon
      rcases (not_lt.1 hcon).lt_or_eq with hr | hr
      · have := S.wrong_sign a (.inl ⟨hr, hρ.le⟩)
        rw [abs_of_neg hρ] at this
        linarith
      · have h5 := abs_le.1 (S.along a)
        rw [← hr, mul_zero, zero_sub, abs_of_neg hρ] at h5
        have h6 := mul_le_mul_of_nonneg_right (show 9000 * u ≤ 1 by linarith [S.scale.u_le, S.scale.un_le]) (neg_pos.2 hρ).le
        linarith

theorem after_stepsTo (S : RaySetup u η M s n N E d i f x ρ r lam) {c : IVec} (hc : CellInGrid (axisCells d) c) {τ : ℚ} (h0 : 0 ≤ τ)
    (h1 : τ ≤ 1) (hτ : ∀ a, (c a : ℚ) * s + 32 * E ≤ x a + τ * ρ a ∧
      x a + τ * ρ a ≤ ((c a : ℚ) + 1) * s - 32 * E) :
    after i f (stepsTo i c) = c ∧ ∀ a, stepsTo i c a ≤ (f a - i a).natAbs := by
  have key : ∀ a, after i f (stepsTo i c) a = c a ∧ stepsTo i c a ≤ (f a - i a).natAbs := by
    intro a
    obtain ⟨h2, h3⟩ := deep_between S hc h0 h1 hτ a
    unfold after stepsTo stepFromDiff
    rcases lt_trichotomy (i a) (c a) with h | h | h
    · have := (h2 h).1
      rw [if_pos (by omega)]
      omega
    · rw [← h]
      simp
    · have := (h3 h).1
      rw [if_neg (by omega), if_pos (by omega)]
      omega
  exact ⟨funext fun a => (key a).1, fun a => (key a).2⟩

theorem deep_exit (S : RaySetup u η M s n N E d i f x ρ r lam) {c : IVec} (hc : CellInGrid (axisCells d) c) {τ : ℚ} (h0 : 0 ≤ τ)
    (h1 : τ ≤ 1) (hτ : ∀ a, (c a : ℚ) * s + 32 * E ≤ x a + τ * ρ a ∧
      x a + τ * ρ a ≤ ((c a : ℚ) + 1) * s - 32 * E) (a : Fin 3) :
    τ * |ρ a| ≤ ahead s (i a) (x a) (r a) (stepsTo i c a) - 16 * E := by
  have hw := S.scale.w_pos
  have hnw := S.scale.w_nw
  have hs := S.scale.s_pos
  obtain ⟨t1, t2⟩ := hτ a
  obtain ⟨h2, h3⟩ := deep_between S hc h0 h1 hτ a
  have htiny : |ρ a| ≤ 5 * (u * n * s) → -(5 * (u * n * s)) ≤ τ * ρ a ∧ τ * ρ a ≤ 5 * (u * n * s) ∧
      τ * |ρ a| ≤ 5 * (u * n * s) := by
    intro hy
    have := abs_le.1 hy
    refine ⟨by nlinarith, by nlinarith, by nlinarith [abs_nonneg (ρ a)]⟩
  unfold ahead
  rcases lt_trichotomy (i a) (c a) with h | h | h
  · obtain ⟨-, hρ, hr⟩ := h2 h
    have e : ((stepsTo i c a : ℕ) : ℚ) = (c a : ℚ) - i a := by
      have : ((stepsTo i c a : ℕ) : ℤ) = c a - i a := by unfold stepsTo; omega
      exact_mod_cast this
    rw [if_pos hr, e, abs_of_pos hρ]
    linarith
  · have e : ((stepsTo i c a : ℕ) : ℚ) = 0 := by unfold stepsTo; rw [h]; simp
    rw [e, h]
    rcases lt_or_ge 0 (r a) with hr | hr
    · rw [if_pos hr]
      rcases le_total (ρ a) 0 with hρ | hρ
      · have := htiny (S.wrong_sign a (.inl ⟨hr, hρ⟩))
        linarith
      · rw [abs_of_nonneg hρ]
        linarith
    · rw [if_neg (not_lt.2 hr)]
      rcases le_total 0 (ρ a) with hρ | hρ
      · have := htiny (S.wrong_sign a (.inr ⟨hr, hρ⟩))
        linarith
      · rw [abs_of_nonpos hρ]
        linarith
  · obtain ⟨-, hρ, hr⟩ := h3 h
    have e : ((stepsTo i c a : ℕ) : ℚ) = (i a : ℚ) - c a := by
      have : ((stepsTo i c a : ℕ) : ℤ) = i a - c a := by unfold stepsTo; omega
      exact_mod_cast this
    rw [if_neg (not_lt.2 hr.le), e, abs_of_neg hρ]
    linarith

theorem deep_entry (S : RaySetup u η M s n N E d i f x ρ r lam) {c : IVec} (hc : CellInGrid (axisCells d) c) {τ : ℚ} (h0 : 0 ≤ τ)
    (h1 : τ ≤ 1) (hτ : ∀ a, (c a : ℚ) * s + 32 * E ≤ x a + τ * ρ a ∧
      x a + τ * ρ a ≤ ((c a : ℚ) + 1) * s - 32 * E) {a : Fin 3} {k : ℕ} (hk : k < stepsTo i c a) :
    ahead s (i a) (x a) (r a) k + 32 * E ≤ τ * |ρ a| := by
  have hs := S.scale.s_pos
  obtain ⟨t1, t2⟩ := hτ a
  obtain ⟨h2, h3⟩ := deep_between S hc h0 h1 hτ a
  have hk' : (k : ℚ) + 1 ≤ stepsTo i c a := by exact_mod_cast hk
  have hks := mul_le_mul_of_nonneg_right hk' hs.le
  unfold ahead
  rcases lt_trichotomy (i a) (c a) with h | h | h
  · obtain ⟨-, hρ, hr⟩ := h2 h
    have e : ((stepsTo i c a : ℕ) : ℚ) = (c a : ℚ) - i a := by
      have : ((stepsTo i c a : ℕ) : ℤ) = c a - i a := by unfold stepsTo; omega
      exact_mod_cast this
    rw [e] at hks
    rw [if_pos hr, abs_of_pos hρ]
    linarith
  · exfalso
    unfold stepsTo at hk
    rw [h] at hk
    simp at hk
  · obtain ⟨-, hρ, hr⟩ := h3 h
    have e : ((stepsTo i c a : ℕ) : ℚ) = (i a : ℚ) - c a := by
      have : ((stepsTo i c a : ℕ) : ℤ) = i a - c a := by unfold stepsTo; omega
      exact_mod_cast this
    rw [e] at hks
    rw [if_neg (not_lt.2 hr.le), abs_of_neg hρ]
    linarith

/-- The loop visits every cell of the grid that the segment is well inside of. -/
theorem walk_complete (S : RaySetup u η M s n N E d i f x ρ r lam) (hR : Rounds R u η M) (bits : ℕ) {g : RayGrid Fl}
    (hcell : g.cell = .fin s) {c : IVec} (hc : CellInGrid (axisCells d) c)
    (hdeep : PassesDeep (32 * E) s x (fun a => x a + ρ a) c) :
    ∀ (fuel : ℕ) (k : Fin 3 → ℕ) (t : Fin 3 → Fl) (l : List IVec), TimesAt u M s n N i x r k t → (∀ a, k a ≤ stepsTo i c a) →
      flWalk (ieee R bits) d f (fun a => stepFromDiff (f a - i a)) (fun a => flDeltaT (ieee R bits) g (.fin (r a))) fuel
        (after i f k) t = some l → c = f ∨ c ∈ l := by
  obtain ⟨τ, h0, h1, hτ'⟩ := hdeep
  have hτ : ∀ a, (c a : ℚ) * s + 32 * E ≤ x a + τ * ρ a ∧
      x a + τ * ρ a ≤ ((c a : ℚ) + 1) * s - 32 * E := by
    intro a
    have e : onSeg x (fun a => x a + ρ a) τ a = x a + τ * ρ a := by unfold onSeg; ring
    have := hτ' a
    rwa [e] at this
  obtain ⟨hafter, hto⟩ := after_stepsTo S hc h0 h1 hτ
  have hfin : ∀ k : Fin 3 → ℕ, (∀ a, k a ≤ stepsTo i c a) → after i f k = f → c = f := by
    intro k hk hkf
    rw [← hafter]
    funext a
    have h2 := congrFun hkf a
    have h3 := hk a
    have h4 := hto a
    unfold after stepFromDiff at h2 ⊢
    split_ifs at h2 ⊢ <;> omega
  have hgrid : ∀ k : Fin 3 → ℕ, (∀ a, k a ≤ stepsTo i c a) → CellInGrid (axisCells d) (after i f k) := by
    intro k hk a
    have h2 := congrFun hafter a
    have h3 := hk a
    obtain ⟨h4, h5⟩ := hc a
    obtain ⟨h6, h7⟩ := S.start a
    unfold after stepFromDiff at h2 ⊢
    split_ifs at h2 ⊢ <;> constructor <;> omega
  intro fuel
  induction fuel with
  | zero =>
    intro k t l hT hk h
    unfold flWalk at h
    split_ifs at h with h2
    exact .inl (hfin k hk h2)
  | succ fuel ih =>
    intro k t l hT hk h
    unfold flWalk at h
    dsimp only at h
    by_cases hcur : after i f k = c
    · by_cases hcf : c = f
      · exact .inl hcf
      · right
        rw [if_neg (by rw [hcur]; exact hcf), if_pos (inGrid_iff.2 (hgrid k hk))] at h
        split_ifs at h with h3
        · cases h
          rw [hcur]
          exact List.mem_singleton_self _
        · obtain ⟨l', -, rfl⟩ := Option.map_eq_some_iff.1 h
          rw [hcur]
          exact List.mem_cons_self
    · obtain ⟨b, hb⟩ : ∃ b, k b < stepsTo i c b := by
        by_contra hcon
        push Not at hcon
        exact hcur (by rw [← hafter]; congr 1; funext a; exact le_antisymm (hk a) (hcon a))
      have hne : after i f k ≠ f := by
        intro he
        have := hfin k hk he
        exact hcur (he.trans this.symm)
      rw [if_neg hne, if_pos (inGrid_iff.2 (hgrid k hk))] at h
      have hka := fun a => S.steps_le (k := k) (fun a => (hk a).trans (hto a)) (hgrid k hk) a
      set a := flChooseAxis (ieee R bits) t with ha
      have hlt : k a < stepsTo i c a := by
        by_contra hcon
        have hkeq : k a = stepsTo i c a := le_antisymm (hk a) (not_lt.1 hcon)
        have hexit := deep_exit S hc h0 h1 hτ a
        rw [← hkeq] at hexit
        have hentry := deep_entry S hc h0 h1 hτ hb
        have hle : Fl.le (t a) (t b) = true := chosen_least hT b
        obtain ⟨q', hq', hlt'⟩ := time_early S.scale (hT b) (timeErr_le S.scale (by linarith [hka b])) (S.ahead_ge _ b)
          (S.ahead_le _ b (by linarith [hka b])) S.lam_pos S.lam_le (S.along b) h0 h1 hentry
        rw [hq'] at hle
        have hTa := hT a
        rcases hTa with ⟨q, hq, hq0, hq1⟩ | ⟨hq, -⟩
        · have := time_late S.scale (.inl ⟨q, rfl, hq0, hq1⟩) (timeErr_le S.scale (by linarith [hka a]))
            (S.ahead_le _ a (by linarith [hka a])) S.lam_pos (S.along a) h0 h1 hexit
          rw [hq] at hle
          have hqq : q ≤ q' := by simpa [Fl.le] using hle
          linarith
        · rw [hq] at hle
          simp [Fl.le] at hle
      have hcf : after i f k a ≠ f a := by
        intro he
        have h3 := hto a
        unfold after stepFromDiff at he
        split_ifs at he <;> omega
      rw [if_neg hcf] at h
      obtain ⟨l', hl', rfl⟩ := Option.map_eq_some_iff.1 h
      rw [after_step] at hl'
      refine (ih _ _ l' (timesAt_step S hR bits hcell hT (by linarith [hka a])) ?_ hl').imp id fun h => List.mem_cons_of_mem _ h
      intro e
      by_cases he : e = a
      · subst he
        simpa using Nat.succ_le_of_lt hlt
      · simpa [he] using hk e

end
end VGT
