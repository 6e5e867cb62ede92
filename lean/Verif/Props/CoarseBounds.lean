import Verif.Props.Clearance
import Verif.Props.Gradient

/-!
C60: the coarse gradient of a generated field.
-/
set_option autoImplicit false

namespace VGT
open VGT.EDT VGT.Spec

/-- The cell before (after) a cell on an axis, or the cell itself where the grid ends. -/
def Spec.before (c : Fin 3 → ℤ) (a : Fin 3) : Fin 3 → ℤ := fun b => if b = a then max 0 (c a - 1) else c b
def Spec.after (n : Fin 3 → ℕ) (c : Fin 3 → ℤ) (a : Fin 3) : Fin 3 → ℤ :=
  fun b => if b = a then min ((n a : ℤ) - 1) (c a + 1) else c b

section
variable {K : Type} [Field K] [LinearOrder K] [IsStrictOrderedRing K] [FloorRing K]

theorem moveTo_before (i : IVec) (a : Fin 3) : moveTo i a (max 0 (i a - 1)) = before i a := by
  funext b
  unfold moveTo before
  by_cases h : b = a
  · subst h; rw [Function.update_self, if_pos rfl]
  · rw [Function.update_of_ne h, if_neg h]

theorem moveTo_after (n : Fin 3 → ℕ) (i : IVec) (a : Fin 3) :
    moveTo i a (min ((n a : ℤ) - 1) (i a + 1)) = after n i a := by
  funext b
  unfold moveTo after
  by_cases h : b = a
  · subst h; rw [Function.update_self, if_pos rfl]
  · rw [Function.update_of_ne h, if_neg h]

/-- C60. Whenever a coarse gradient is available it is the difference quotient between the cells before and after on each axis,
in grid frame, turned to the world; nothing is divided by zero on axes of one cell. -/
theorem C60_formula {g : SDFGrid K} (hs : 0 < g.s) {i : IVec} {edge : Bool} {w : Vec K}
    (hw : g.coarse i edge = some (some w)) : ∃ v : Vec K, IsRotated g.pose.R v w ∧ CellInGrid (axisCells g.dims) i ∧
      ∀ a, (axisCells g.dims a = 1 → v a = 0) ∧ (axisCells g.dims a ≠ 1 →
        v a * (((after (axisCells g.dims) i a a - before i a a : ℤ) : K) * g.s) =
          storedAt g.data (after (axisCells g.dims) i a) - storedAt g.data (before i a)) := by
  have hav : CellInGrid (axisCells g.dims) i ∧ (edge = true ∨ ¬ OnEdge (axisCells g.dims) i) := by
    by_contra hn
    rw [(C17_availability hs i edge).2 hn] at hw
    simp at hw
  have h := inGrid_axis.2 hav.1
  have hi := hav.1
  have main : ∃ v : Vec K, g.coarseGrid i edge = some (some v) ∧ ∀ a, (axisCells g.dims a = 1 → v a = 0) ∧
      (axisCells g.dims a ≠ 1 → v a = (storedAt g.data (after (axisCells g.dims) i a) - storedAt g.data (before i a)) *
        (1 / (((after (axisCells g.dims) i a a - before i a a : ℤ) : K) * g.s))) := by
    unfold SDFGrid.coarseGrid
    rw [if_pos h]
    by_cases hint : i 0 > 0 ∧ i 1 > 0 ∧ i 2 > 0 ∧ i 0 < (g.dims.nx : ℤ) - 1 ∧ i 1 < (g.dims.ny : ℤ) - 1 ∧
        i 2 < (g.dims.nz : ℤ) - 1
    · rw [if_pos hint]
      obtain ⟨h1, h2, h3, h4, h5, h6⟩ := hint
      have hp : ∀ a, 0 < i a ∧ i a < (axisCells g.dims a : ℤ) - 1 := by
        intro a; fin_cases a
        · exact ⟨h1, h4⟩
        · exact ⟨h2, h5⟩
        · exact ⟨h3, h6⟩
      have hval : ∀ a, g.interiorAxis i a = some ((storedAt g.data (after (axisCells g.dims) i a) -
          storedAt g.data (before i a)) * (1 / (((after (axisCells g.dims) i a a - before i a a : ℤ) : K) * g.s))) := by
        intro a
        have hpa := hp a
        rw [interior_axis h hpa.1 hpa.2, ← moveTo_before, ← moveTo_after,
          show min ((axisCells g.dims a : ℤ) - 1) (i a + 1) = i a + 1 by omega, show max 0 (i a - 1) = i a - 1 by omega]
        unfold moveTo
        rw [Function.update_self, Function.update_self, show i a + 1 - (i a - 1) = 2 by ring]
        norm_num
      rw [hval, hval, hval]
      refine ⟨_, rfl, ?_⟩
      intro a
      have hpa := hp a
      refine ⟨fun h1 => by omega, fun _ => ?_⟩
      fin_cases a <;> rfl
    · rw [if_neg hint, if_pos (hav.2.resolve_right fun hh => hint ((not_onEdge h).2 hh))]
      have hval : ∀ a, ∃ x, g.edgeAxis i a = some x ∧ (axisCells g.dims a = 1 → x = 0) ∧
          (axisCells g.dims a ≠ 1 → x = (storedAt g.data (after (axisCells g.dims) i a) - storedAt g.data (before i a)) *
            (1 / (((after (axisCells g.dims) i a a - before i a a : ℤ) : K) * g.s))) := by
        intro a
        have hia := hi a
        unfold SDFGrid.edgeAxis
        dsimp only
        by_cases h1 : axisCells g.dims a = 1
        · rw [if_neg]
          · exact ⟨0, rfl, fun _ => rfl, fun h => absurd h1 h⟩
          · have : min ((axisCells g.dims a : ℤ) - 1) (i a + 1) - max 0 (i a - 1) = 0 := by omega
            rw [this]; simp
        · rw [if_pos, get_inGrid g (moveTo_inGrid h (by omega) (by omega)),
            get_inGrid g (moveTo_inGrid h (by omega) (by omega)), moveTo_after, moveTo_before]
          · refine ⟨_, rfl, fun h => absurd h h1, fun _ => ?_⟩
            unfold after before
            rw [if_pos rfl, if_pos rfl]
            rfl
          · have : (0 : ℤ) < min ((axisCells g.dims a : ℤ) - 1) (i a + 1) - max 0 (i a - 1) := by omega
            exact mul_pos (by exact_mod_cast this) hs
      obtain ⟨x, ex, hx⟩ := hval 0
      obtain ⟨y, ey, hy⟩ := hval 1
      obtain ⟨z, ez, hz⟩ := hval 2
      rw [ex, ey, ez]
      refine ⟨_, rfl, ?_⟩
      intro a
      fin_cases a
      · exact hx
      · exact hy
      · exact hz
  obtain ⟨v, hv, hva⟩ := main
  obtain ⟨w', hw', hrot⟩ := coarse_of_grid hv
  rw [hw] at hw'
  cases hw'
  refine ⟨v, hrot, hi, fun a => ⟨(hva a).1, fun h1 => ?_⟩⟩
  rw [(hva a).2 h1]
  have hpos : (0 : K) < ((after (axisCells g.dims) i a a - before i a a : ℤ) : K) * g.s := by
    apply mul_pos _ hs
    have := hi a
    have hlt : (0 : ℤ) < after (axisCells g.dims) i a a - before i a a := by
      unfold after before
      rw [if_pos rfl, if_pos rfl]
      omega
    exact_mod_cast hlt
  rw [mul_assoc, one_div_mul_cancel hpos.ne', mul_one]

end

/-! ### Generated fields -/

section
variable {filled : Idx → Bool} {border : Bool} {g : SDFGrid ℝ}

theorem before_in {n : Fin 3 → ℕ} {c : Fin 3 → ℤ} (h : CellInGrid n c) (a : Fin 3) : CellInGrid n (before c a) := by
  intro b
  unfold before
  split_ifs with hb
  · subst hb; have := h b; omega
  · exact h b

theorem after_in {n : Fin 3 → ℕ} {c : Fin 3 → ℤ} (h : CellInGrid n c) (a : Fin 3) : CellInGrid n (after n c a) := by
  intro b
  unfold after
  split_ifs with hb
  · subst hb; have := h b; omega
  · exact h b

/-- Squared distance of two cells of the grid that differ on one axis. -/
theorem sq3_axis {c c' : Fin 3 → ℤ} (h0 : ∀ a, 0 ≤ c a) (h0' : ∀ a, 0 ≤ c' a) {a : Fin 3} (h : ∀ b, b ≠ a → c b = c' b) :
    sq3 (cellIdx c) (cellIdx c') = (c a - c' a).natAbs ^ 2 := by
  have e : ∀ b, sqd (c b).toNat (c' b).toNat = (c b - c' b).natAbs ^ 2 := by
    intro b
    unfold sqd
    rw [Int.toNat_of_nonneg (h0 b), Int.toNat_of_nonneg (h0' b)]
  show sqd (c 0).toNat (c' 0).toNat + sqd (c 1).toNat (c' 1).toNat + sqd (c 2).toNat (c' 2).toNat = _
  rw [e, e, e]
  have z : ∀ b, b ≠ a → (c b - c' b).natAbs ^ 2 = 0 := by
    intro b hb; rw [h b hb]; simp
  fin_cases a
  · rw [z 1 (by decide), z 2 (by decide)]; simp
  · rw [z 0 (by decide), z 2 (by decide)]; simp
  · rw [z 0 (by decide), z 1 (by decide)]; simp

/-- C60. The coarse gradient of a generated field, in grid frame: between cells of the same kind no component exceeds 1; across a
surface the component points from the filled to the free side, is at least 1, at most 3/2, and exactly 2 where the grid ends
(only two cells are compared there). -/
theorem C60_generated (h : Generated filled border g) {i : IVec} {edge : Bool} {w : Vec ℝ}
    (hw : g.coarse i edge = some (some w)) : ∃ v : Vec ℝ, IsRotated g.pose.R v w ∧ ∀ a, axisCells g.dims a ≠ 1 →
      (filled (cellIdx (before i a)) = filled (cellIdx (after (axisCells g.dims) i a)) → |v a| ≤ 1) ∧
      (filled (cellIdx (before i a)) = true → filled (cellIdx (after (axisCells g.dims) i a)) = false →
        (0 < i a ∧ i a + 1 < axisCells g.dims a → 1 ≤ v a ∧ v a ≤ 3 / 2) ∧
        (¬ (0 < i a ∧ i a + 1 < axisCells g.dims a) → v a = 2)) ∧
      (filled (cellIdx (before i a)) = false → filled (cellIdx (after (axisCells g.dims) i a)) = true →
        (0 < i a ∧ i a + 1 < axisCells g.dims a → -(3 / 2) ≤ v a ∧ v a ≤ -1) ∧
        (¬ (0 < i a ∧ i a + 1 < axisCells g.dims a) → v a = -2)) := by
  have hs := h.pos
  obtain ⟨v, hrot, hi, hva⟩ := C60_formula hs hw
  refine ⟨v, hrot, fun a ha => ?_⟩
  have hia := hi a
  have hf := (hva a).2 ha
  have hB := before_in hi a
  have hA := after_in hi a
  have sqa : sq3 (cellIdx (after (axisCells g.dims) i a)) (cellIdx (before i a)) =
      (after (axisCells g.dims) i a a - before i a a).natAbs ^ 2 := by
    apply sq3_axis (fun b => (hA b).1) (fun b => (hB b).1)
    intro b hb
    unfold after before
    rw [if_neg hb, if_neg hb]
  have sq' : sq3 (cellIdx (before i a)) (cellIdx (after (axisCells g.dims) i a)) =
      (before i a a - after (axisCells g.dims) i a a).natAbs ^ 2 := by
    apply sq3_axis (fun b => (hB b).1) (fun b => (hA b).1)
    intro b hb
    unfold after before
    rw [if_neg hb, if_neg hb]
  have ea : after (axisCells g.dims) i a a = min ((axisCells g.dims a : ℤ) - 1) (i a + 1) := by
    unfold after; rw [if_pos rfl]
  have eb : before i a a = max 0 (i a - 1) := by
    unfold before; rw [if_pos rfl]
  obtain ⟨lo, hlo⟩ : ∃ x, x = g.data (cellIdx (before i a)) := ⟨_, rfl⟩
  obtain ⟨hi', hhi⟩ : ∃ x, x = g.data (cellIdx (after (axisCells g.dims) i a)) := ⟨_, rfl⟩
  change v a * _ = g.data (cellIdx (after (axisCells g.dims) i a)) - g.data (cellIdx (before i a)) at hf
  rw [← hlo, ← hhi] at hf
  -- the number of steps between the two cells
  obtain ⟨m, hm, hm12⟩ : ∃ m : ℕ, after (axisCells g.dims) i a a - before i a a = m ∧
      ((m = 2 ∧ (0 < i a ∧ i a + 1 < axisCells g.dims a)) ∨ (m = 1 ∧ ¬ (0 < i a ∧ i a + 1 < axisCells g.dims a))) := by
    refine ⟨(after (axisCells g.dims) i a a - before i a a).toNat, ?_, ?_⟩ <;> rw [ea, eb] <;> omega
  have sqrtm : Real.sqrt ((m ^ 2 : ℕ) : ℝ) = m := by
    push_cast
    rw [Real.sqrt_sq (Nat.cast_nonneg m)]
  have hsqa : sq3 (cellIdx (after (axisCells g.dims) i a)) (cellIdx (before i a)) = m ^ 2 := by
    rw [sqa, hm, Int.natAbs_natCast]
  have hsqb : sq3 (cellIdx (before i a)) (cellIdx (after (axisCells g.dims) i a)) = m ^ 2 := by
    rw [sq', show before i a a - after (axisCells g.dims) i a a = -(m : ℤ) by omega, Int.natAbs_neg, Int.natAbs_natCast]
  rw [hm, Int.cast_natCast] at hf
  -- across a surface
  have cross : ∀ {p n : Fin 3 → ℤ}, CellInGrid (axisCells g.dims) p → CellInGrid (axisCells g.dims) n →
      filled (cellIdx p) = false → filled (cellIdx n) = true → sq3 (cellIdx p) (cellIdx n) = m ^ 2 →
      (∀ b, b ≠ a → p b = i b ∧ n b = i b) → ((p a - i a).natAbs ≤ 1 ∧ (n a - i a).natAbs ≤ 1) →
      (m = 2 → (p a - i a).natAbs = 1 ∧ (n a - i a).natAbs = 1) →
      (m = 2 → 2 * g.s ≤ g.data (cellIdx p) - g.data (cellIdx n) ∧
        g.data (cellIdx p) - g.data (cellIdx n) ≤ 3 * g.s) ∧
      (m = 1 → g.data (cellIdx p) - g.data (cellIdx n) = 2 * g.s) := by
    intro p n hp hn fp fn hsq hoth _ hmid
    have hpi := cellIdx_in hp
    have hni := cellIdx_in hn
    have hii := cellIdx_in hi
    obtain ⟨o1, o2, o3⟩ := h.opposite hpi hni fp fn
    rw [hsq, sqrtm] at o1 o2
    have s1 := (h.sign hpi).1 fp
    have s2 := (h.sign hni).2 fn
    refine ⟨fun m2 => ⟨by linarith, ?_⟩, fun m1 => ?_⟩
    · obtain ⟨d1, d2⟩ := hmid m2
      rw [m2] at o1 o2
      push_cast at o1 o2
      cases hc : filled (cellIdx i) with
      | false =>
        -- the centre is free, so the filled cell is at a face
        have hq : sq3 (cellIdx i) (cellIdx n) = 1 := by
          rw [sq3_axis (fun b => (hi b).1) (fun b => (hn b).1) (a := a) (fun b hb => ((hoth b hb).2).symm)]
          rw [show i a - n a = -(n a - i a) by ring, Int.natAbs_neg, d2]; rfl
        have := ((h.opposite hii hni hc fn).2.2 hq).2
        linarith
      | true =>
        have hq : sq3 (cellIdx p) (cellIdx i) = 1 := by
          rw [sq3_axis (fun b => (hp b).1) (fun b => (hi b).1) (a := a) (fun b hb => (hoth b hb).1), d1]; rfl
        have := ((h.opposite hpi hii fp hc).2.2 hq).1
        linarith
    · have := o3 (by rw [hsq, m1]; rfl)
      linarith [this.1, this.2]
  have hba : ∀ b, b ≠ a → after (axisCells g.dims) i a b = i b ∧ before i a b = i b := by
    intro b hb
    unfold after before
    rw [if_neg hb, if_neg hb]
    exact ⟨rfl, rfl⟩
  have r1 : (after (axisCells g.dims) i a a - i a).natAbs ≤ 1 ∧ (before i a a - i a).natAbs ≤ 1 := by
    rw [ea, eb]; omega
  have r2 : m = 2 → (after (axisCells g.dims) i a a - i a).natAbs = 1 ∧ (before i a a - i a).natAbs = 1 := by
    intro m2; rw [ea, eb]; omega
  refine ⟨fun same => ?_, fun fb fa => ?_, fun fb fa => ?_⟩
  · have := h.same (cellIdx_in hA) (cellIdx_in hB) same.symm
    rw [← hlo, ← hhi, hsqa, sqrtm, ← hf, abs_mul, abs_of_nonneg (by positivity : (0 : ℝ) ≤ m * g.s)] at this
    have hmpos : (0 : ℝ) < m * g.s := by
      apply mul_pos _ hs
      have : 0 < m := by omega
      exact_mod_cast this
    exact le_of_mul_le_mul_right (by linarith) hmpos
  · have c := cross hA hB fa fb hsqa (fun b hb => hba b hb) r1 r2
    rw [← hlo, ← hhi, ← hf] at c
    refine ⟨fun hmid => ?_, fun hmid => ?_⟩
    · have m2 : m = 2 := by omega
      have := c.1 m2
      rw [m2] at this
      push_cast at this
      constructor <;> nlinarith
    · have m1 : m = 1 := by omega
      have := c.2 m1
      rw [m1] at this
      push_cast at this
      have h2 : (v a - 2) * g.s = 0 := by linarith
      rcases mul_eq_zero.1 h2 with h2 | h2
      · linarith
      · linarith
  · have c := cross hB hA fb fa hsqb (fun b hb => (hba b hb).symm) r1.symm (fun m2 => (r2 m2).symm)
    rw [← hlo, ← hhi] at c
    have hf' : lo - hi' = -(v a * (m * g.s)) := by linarith
    rw [hf'] at c
    refine ⟨fun hmid => ?_, fun hmid => ?_⟩
    · have m2 : m = 2 := by omega
      have := c.1 m2
      rw [m2] at this
      push_cast at this
      constructor <;> nlinarith
    · have m1 : m = 1 := by omega
      have := c.2 m1
      rw [m1] at this
      push_cast at this
      have h2 : (v a + 2) * g.s = 0 := by linarith
      rcases mul_eq_zero.1 h2 with h2 | h2
      · linarith
      · linarith

end

/-- C60. Next to a flat wall the coarse gradient is not of length 1: in a row of four cells of which the first is filled, it is
2 in the first cell and 3/2 in the second, from there on 1. -/
theorem C60_wall_gradient_too_long : ∃ g : SDFGrid ℝ, Generated exLone false g ∧ g.dims = ⟨4, 1, 1⟩ ∧
    g.coarse ![0, 0, 0] true = some (some ![0, 2, 0]) ∧ g.coarse ![1, 0, 0] true = some (some ![0, 3 / 2, 0]) ∧
    g.coarse ![2, 0, 0] true = some (some ![0, 1, 0]) ∧ g.coarse ![3, 0, 0] true = some (some ![0, 1, 0]) := by
  obtain ⟨g, hg, hd, hs, hP⟩ := C58_generated_exists (d := ⟨4, 1, 1⟩) (by constructor <;> decide) (s := 1) one_pos
    exTurned_orthogonal (filled := exLone) (i := (1, 0, 0)) (j := (0, 0, 0)) (by decide) (by decide) (by decide) (by decide)
  have lone : ∀ p', exLone p' = true → p' = (0, 0, 0) := fun p' hp' => by simpa [exLone] using hp'
  have val : ∀ k : ℕ, 0 < k → k < 4 → g.data (k, 0, 0) = k := by
    intro k h0 h4
    rw [hg.value (p := (0, 0, 0)) (by rw [hd]; exact ⟨h4, one_pos, one_pos⟩) (by simp [exLone]; omega)
      (by rw [hd]; decide) (by decide) (by intro p' _ hp'; rw [lone p' hp']), hs, mul_one]
    have : sq3 (k, 0, 0) (0, 0, 0) = k ^ 2 := by simp [sq3, sqd]
    rw [this]
    push_cast
    rw [Real.sqrt_sq (Nat.cast_nonneg k)]
  have v0 : g.data (0, 0, 0) = -1 := by
    rw [hg.value_filled (p := (1, 0, 0)) (by rw [hd]; decide) (by decide) (by rw [hd]; decide) (by decide), hs, mul_one]
    · norm_num [sq3, sqd]
    · intro p' _ hp'
      apply sq3_pos
      rintro rfl
      exact absurd hp' (by decide)
  have v1 : g.data (1, 0, 0) = 1 := by rw [val 1 (by decide) (by decide)]; norm_num
  have v2 : g.data (2, 0, 0) = 2 := by rw [val 2 (by decide) (by decide)]; norm_num
  have v3 : g.data (3, 0, 0) = 3 := by rw [val 3 (by decide) (by decide)]; norm_num
  refine ⟨g, hg, hd, ?_⟩
  have main : ∀ k : ℤ, 0 ≤ k → k < 4 → ∀ x : ℝ,
      x * ((min 3 (k + 1) - max 0 (k - 1) : ℤ) : ℝ) = g.data ((min 3 (k + 1)).toNat, 0, 0) - g.data ((max 0 (k - 1)).toNat, 0, 0) →
      g.coarse ![k, 0, 0] true = some (some ![0, x, 0]) := by
    intro k h0 h4 x hx
    obtain ⟨w, hw⟩ := (C17_availability hg.pos ![k, 0, 0] true).1 ⟨by
      rw [hd]; intro a; fin_cases a
      · exact ⟨h0, h4⟩
      · exact ⟨le_rfl, one_pos⟩
      · exact ⟨le_rfl, one_pos⟩, Or.inl rfl⟩
    obtain ⟨v, hrot, _, hv⟩ := C60_formula hg.pos hw
    rw [hd, hs] at hv
    have e1 := (hv 1).1 rfl
    have e2 := (hv 2).1 rfl
    have e0 := (hv 0).2 (by decide)
    have ea : storedAt g.data (after (axisCells ⟨4, 1, 1⟩) ![k, 0, 0] 0) = g.data ((min 3 (k + 1)).toNat, 0, 0) := rfl
    have eb : storedAt g.data (before ![k, 0, 0] 0) = g.data ((max 0 (k - 1)).toNat, 0, 0) := rfl
    rw [ea, eb, ← hx, mul_one] at e0
    have hpos : ((min 3 (k + 1) - max 0 (k - 1) : ℤ) : ℝ) ≠ 0 := by
      have : min 3 (k + 1) - max 0 (k - 1) ≠ 0 := by omega
      exact_mod_cast this
    have e0 := mul_right_cancel₀ hpos e0
    rw [hw]
    congr 2
    funext a
    rw [hrot a, e0, e1, e2, hP]
    fin_cases a <;> simp [exTurned]
  refine ⟨main 0 (by decide) (by decide) 2 ?_, main 1 (by decide) (by decide) (3 / 2) ?_, main 2 (by decide) (by decide) 1 ?_,
    main 3 (by decide) (by decide) 1 ?_⟩
  · rw [show min 3 ((0 : ℤ) + 1) = 1 from rfl, show max 0 ((0 : ℤ) - 1) = 0 from rfl]
    show _ = g.data (1, 0, 0) - g.data (0, 0, 0)
    rw [v0, v1]; norm_num
  · rw [show min 3 ((1 : ℤ) + 1) = 2 from rfl, show max 0 ((1 : ℤ) - 1) = 0 from rfl]
    show _ = g.data (2, 0, 0) - g.data (0, 0, 0)
    rw [v0, v2]; norm_num
  · rw [show min 3 ((2 : ℤ) + 1) = 3 from rfl, show max 0 ((2 : ℤ) - 1) = 1 from rfl]
    show _ = g.data (3, 0, 0) - g.data (1, 0, 0)
    rw [v1, v3]; norm_num
  · rw [show min 3 ((3 : ℤ) + 1) = 3 from rfl, show max 0 ((3 : ℤ) - 1) = 2 from rfl]
    show _ = g.data (3, 0, 0) - g.data (2, 0, 0)
    rw [v2, v3]; norm_num

/-- Concrete case of `C60_generated`: the row above, at its second cell. -/
example : ∃ (g : SDFGrid ℝ) (w : Vec ℝ), Generated exLone false g ∧ g.coarse ![1, 0, 0] true = some (some w) ∧
    axisCells g.dims 0 ≠ 1 ∧ exLone (cellIdx (before ![1, 0, 0] 0)) = true ∧
    exLone (cellIdx (after (axisCells g.dims) ![1, 0, 0] 0)) = false := by
  obtain ⟨g, hg, hd, _, h1, _⟩ := C60_wall_gradient_too_long
  refine ⟨g, _, hg, h1, by rw [hd]; decide, by decide, by rw [hd]; decide⟩

end VGT
