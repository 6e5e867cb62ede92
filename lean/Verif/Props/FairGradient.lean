import Verif.Lemmas.FairGradient
import Verif.Model.FusedGradient
import Verif.Props.FairPipeline
import Verif.Props.GradientFloat

/-!
C90: coarse gradients in any accurate arithmetic, for example with fused products and sums.
-/
set_option autoImplicit false

namespace VGT
open VGT.EDT VGT.Spec

section
variable {F : Type} {A : QueryArith F} {val kept : F → ℝ} {u η us ηs N : ℝ} {ro : Rounding} {filled : Idx → Bool} {border : Bool} {g : SDFGrid ℝ}
  {fg : FlSDF F}

/-- A computed grid-aligned coarse gradient against that of an exactly generated field whose values differ by a relative error `ε`. -/
theorem fair_coarse {g₀ : SDFGrid ℝ} (hg0 : Generated filled border g₀) (hd : g₀.dims = g.dims) (hs0 : g₀.s = g.s)
    {ε : ℝ} (hε0 : 0 ≤ ε) (hε1 : ε ≤ 1 / 4)
    (hnear : ∀ i, g.dims.In i → |g.data i - g₀.data i| ≤ ε * |g₀.data i| ∧ |g₀.data i| ≤ 2 * N * g.s)
    (h : FairQuery A val kept u η) (hst : FairStep A val kept us ηs) (hr : FairRoom u η g.s N) (hf : FairField val kept u g fg)
    (hη2 : η ≤ u / (2 * g.s)) (hus : us ≤ 1 / 10 ^ 5) (hle : u ≤ us) (hηs : ηs ≤ us * g.s) (hηle : η ≤ ηs)
    {i : IVec} {edge : Bool} {v' : Fin 3 → F} (hv' : flCoarseGrid A fg i edge = .value v') :
    ∃ v w, g₀.coarse i edge = some (some w) ∧ IsRotated g₀.pose.R v w ∧ ∀ a,
      (axisCells g.dims a = 1 → kept (v' a) = 0 ∧ v a = 0) ∧ |v a| ≤ 2 ∧ |kept (v' a) - v a| ≤ 4 * N * ε + (8 * us + 240 * u) * N := by
  have hpos := hr.s0
  have hN1 := hr.one_le
  have hNs : g.s ≤ N * g.s := by nlinarith
  obtain ⟨hi, hedge, -⟩ := flCoarseGrid_parts _ _ hv'
  rw [hf.dims] at hi hedge
  obtain ⟨w, hw⟩ := (C17_availability hg0.pos i edge).1 (by rw [hd]; exact ⟨hi, hedge⟩)
  obtain ⟨v, hrot, -, hva⟩ := C60_formula hg0.pos hw
  have hM : ∀ c, CellInGrid (axisCells g.dims) c → |stored g.data c| ≤ 3 * (N * g.s) := by
    intro c hc
    obtain ⟨h1, h2⟩ := hnear _ (cellIdx_in hc)
    have h3 := abs_add_le (g.data (cellIdx c) - g₀.data (cellIdx c)) (g₀.data (cellIdx c))
    rw [sub_add_cancel] at h3
    have h4 : ε * |g₀.data (cellIdx c)| ≤ 1 / 4 * (2 * N * g.s) := mul_le_mul hε1 h2 (abs_nonneg _) (by norm_num)
    have h5 : |g.data (cellIdx c)| ≤ 3 * (N * g.s) := by linarith
    exact h5
  refine ⟨v, w, hw, hrot, fun a => ?_⟩
  obtain ⟨c1, c2⟩ := fair_coarse_axis h hst hr hf hη2 hus hle hηs hηle hM hv' a
  by_cases ha : axisCells g.dims a = 1
  · have e0 := (hva a).1 (by rw [hd]; exact ha)
    have e1 := c1 ha
    refine ⟨fun _ => ⟨e1, e0⟩, by rw [e0]; norm_num, ?_⟩
    rw [e0, e1, sub_zero, abs_zero]
    have := hr.u0
    have : 0 ≤ us := hr.u0.trans hle
    positivity
  refine ⟨fun h1 => absurd h1 ha, coarse_le_two hg0 hw hrot (by rw [hd]; exact ha), ?_⟩
  obtain ⟨k, hk, hkk, hb⟩ := c2 ha
  have hv0 := (hva a).2 (by rw [hd]; exact ha)
  rw [hd, hs0, ← hkk] at hv0
  have hk1 : 1 ≤ k := by rcases hk with rfl | rfl <;> norm_num
  have hks : 0 < k * g.s := by nlinarith
  have hsks : g.s ≤ k * g.s := by nlinarith
  obtain ⟨D, hD⟩ : ∃ D, D = stored g.data (Spec.after (axisCells g.dims) i a) - stored g.data (Spec.before i a) := ⟨_, rfl⟩
  obtain ⟨D₀, hD₀⟩ : ∃ D, D = storedAt g₀.data (Spec.after (axisCells g.dims) i a) - storedAt g₀.data (Spec.before i a) := ⟨_, rfl⟩
  rw [← hD] at hb
  rw [← hD₀] at hv0
  have hDD : |D - D₀| ≤ 4 * N * ε * g.s := by
    have near : ∀ c, CellInGrid (axisCells g.dims) c → |stored g.data c - storedAt g₀.data c| ≤ ε * (2 * N * g.s) := by
      intro c hc
      obtain ⟨h1, h2⟩ := hnear _ (cellIdx_in hc)
      exact h1.trans (mul_le_mul_of_nonneg_left h2 hε0)
    have n1 := near _ (after_in hi a)
    have n2 := near _ (before_in hi a)
    have e : D - D₀ = (stored g.data (Spec.after (axisCells g.dims) i a) - storedAt g₀.data (Spec.after (axisCells g.dims) i a)) -
        (stored g.data (Spec.before i a) - storedAt g₀.data (Spec.before i a)) := by rw [hD, hD₀]; ring
    rw [e]
    have := abs_sub (stored g.data (Spec.after (axisCells g.dims) i a) - storedAt g₀.data (Spec.after (axisCells g.dims) i a))
      (stored g.data (Spec.before i a) - storedAt g₀.data (Spec.before i a))
    linarith
  have hva' : v a = D₀ / (k * g.s) := by rw [eq_div_iff hks.ne']; exact hv0
  have hq : |D / (k * g.s) - v a| ≤ 4 * N * ε := by
    rw [hva', ← sub_div, abs_div, abs_of_pos hks, div_le_iff₀ hks]
    refine hDD.trans (mul_le_mul_of_nonneg_left hsks (by positivity))
  have := abs_sub_le (kept (v' a)) (D / (k * g.s)) (v a)
  linarith

/-- C90. In any accurate arithmetic, a grid-aligned coarse gradient of a generated field with `N` cells along an axis is within `τ` of exact slopes along
each axis: between 1 and 3/2 from a filled to a free cell (2 at the ends of the axis), the reverse, and at most 1 between cells of the same kind. -/
theorem C90_coarse (hg : GeneratedBy ro filled border g) (hrr : ro.rr = roundDouble) {k : ℕ} {emin : ℤ}
    (hc : ro.cast = rne k emin) {v τ : ℝ} (hv : (2 : ℝ) ^ (-(k : ℤ)) = v) (hv2 : v ≤ 2 ^ (-24 : ℤ)) (hemin : emin + k ≤ -100)
    (hs : (2 : ℝ) ^ (-100 : ℤ) ≤ g.s) (hN : ∀ a, (axisCells g.dims a : ℝ) ≤ N)
    (h : FairQuery A val kept u η) (hst : FairStep A val kept us ηs) (hr : FairRoom u η g.s N) (hf : FairField val kept u g fg)
    (hη2 : η ≤ u / (2 * g.s)) (hus : us ≤ 1 / 10 ^ 5) (hle : u ≤ us) (hηs : ηs ≤ us * g.s) (hηle : η ≤ ηs)
    (hτ : (4 * (v + 2 ^ (-51 : ℤ)) + 8 * us + 240 * u) * N ≤ τ)
    {i : IVec} {edge : Bool} {v' : Fin 3 → F} (hv' : flCoarseGrid A fg i edge = .value v') :
    CoarseNear τ filled g i (fun a => kept (v' a)) := by
  obtain ⟨g₀, hg0, hd, hs0, -, hnear⟩ := hg.exact_twin hrr hc hv hv2 hemin hs hN
  have hv0 : 0 ≤ v := by rw [← hv]; positivity
  obtain ⟨v₀, w, hw, hrot, hva⟩ := fair_coarse hg0 hd hs0 (ε := v + 2 ^ (-51 : ℤ)) (by positivity) (by norm_num at hv2 ⊢; linarith) hnear h hst hr hf hη2
    hus hle hηs hηle hv'
  refine ⟨v₀, fun a => ⟨(hva a).2.1, (hva a).2.2.trans (le_trans (le_of_eq (by ring)) hτ), (hva a).1, fun ha => ?_⟩⟩
  have := slopeUpTo_of_generated hg0 hw hrot (a := a) (by rw [hd]; exact ha)
  rw [hd] at this
  exact this

/-- A matrix times a direction: the entries are within `κ` of `R`. -/
theorem fair_rotate (h : FairQuery A val kept u η) (hu : 0 ≤ u) (hu' : u ≤ 1 / 10 ^ 5) (hη : η ≤ u) {R : Fin 3 → Fin 3 → ℝ} {Rs : Fin 3 → Fin 3 → F} {κ : ℝ}
    (hκ : κ ≤ 1 / 1000) (hR : ∀ a b, |R a b| ≤ 1) (hRs : ∀ a b, |kept (Rs a b) - R a b| ≤ κ) (v : Fin 3 → F) (a : Fin 3) :
    |kept (flRotate A.toArith Rs v a) - (R a 0 * kept (v 0) + R a 1 * kept (v 1) + R a 2 * kept (v 2))| ≤
      (κ + 10 * u) * (1 + |kept (v 0)| + |kept (v 1)| + |kept (v 2)|) := by
  have term : ∀ b, |kept (Rs a b) * kept (v b) - R a b * kept (v b)| ≤ κ * |kept (v b)| ∧ |kept (Rs a b) * kept (v b)| ≤ 1001 / 1000 * |kept (v b)| := by
    intro b
    have h1 := hRs a b
    constructor
    · rw [← sub_mul, abs_mul]
      exact mul_le_mul_of_nonneg_right h1 (abs_nonneg _)
    · rw [abs_mul]
      refine mul_le_mul_of_nonneg_right ?_ (abs_nonneg _)
      have t := abs_add_le (kept (Rs a b) - R a b) (R a b)
      rw [sub_add_cancel] at t
      linarith [hR a b]
  have prod : ∀ b, |val (A.mul (Rs a b) (v b)) - R a b * kept (v b)| ≤ κ * |kept (v b)| + 1001 / 1000 * (u * |kept (v b)|) + u ∧
      |val (A.mul (Rs a b) (v b))| ≤ 1002 / 1000 * |kept (v b)| + u := by
    intro b
    obtain ⟨t1, t2⟩ := term b
    have m := h.mul (Rs a b) (v b)
    have m2 : u * |kept (Rs a b) * kept (v b)| ≤ u * (1001 / 1000 * |kept (v b)|) := mul_le_mul_of_nonneg_left t2 hu
    have a1 := abs_add_le (val (A.mul (Rs a b) (v b)) - kept (Rs a b) * kept (v b)) (kept (Rs a b) * kept (v b) - R a b * kept (v b))
    rw [sub_add_sub_cancel] at a1
    have a2 := abs_add_le (val (A.mul (Rs a b) (v b)) - kept (Rs a b) * kept (v b)) (kept (Rs a b) * kept (v b))
    rw [sub_add_cancel] at a2
    have a3 : u * |kept (v b)| ≤ 1 / 10 ^ 5 * |kept (v b)| := mul_le_mul_of_nonneg_right hu' (abs_nonneg _)
    have := abs_nonneg (kept (v b))
    constructor <;> linarith
  obtain ⟨p0, q0⟩ := prod 0
  obtain ⟨p1, q1⟩ := prod 1
  obtain ⟨p2, q2⟩ := prod 2
  unfold flRotate
  have s1 := h.add (A.mul (Rs a 0) (v 0)) (A.mul (Rs a 1) (v 1))
  have s2 := h.add (A.add (A.mul (Rs a 0) (v 0)) (A.mul (Rs a 1) (v 1))) (A.mul (Rs a 2) (v 2))
  have s3 := h.store (A.add (A.add (A.mul (Rs a 0) (v 0)) (A.mul (Rs a 1) (v 1))) (A.mul (Rs a 2) (v 2)))
  generalize kept (A.add (A.add (A.mul (Rs a 0) (v 0)) (A.mul (Rs a 1) (v 1))) (A.mul (Rs a 2) (v 2))) = z3 at *
  generalize val (A.add (A.add (A.mul (Rs a 0) (v 0)) (A.mul (Rs a 1) (v 1))) (A.mul (Rs a 2) (v 2))) = z2 at *
  generalize val (A.add (A.mul (Rs a 0) (v 0)) (A.mul (Rs a 1) (v 1))) = z1 at *
  generalize val (A.mul (Rs a 0) (v 0)) = x0 at *
  generalize val (A.mul (Rs a 1) (v 1)) = x1 at *
  generalize val (A.mul (Rs a 2) (v 2)) = x2 at *
  have n0 := abs_nonneg (kept (v 0))
  have n1 := abs_nonneg (kept (v 1))
  have n2 := abs_nonneg (kept (v 2))
  generalize |kept (v 0)| = V0 at *
  generalize |kept (v 1)| = V1 at *
  generalize |kept (v 2)| = V2 at *
  generalize R a 0 * kept (v 0) = y0 at *
  generalize R a 1 * kept (v 1) = y1 at *
  generalize R a 2 * kept (v 2) = y2 at *
  have hη0 : 0 ≤ 1 + V0 + V1 + V2 := by linarith
  -- sizes
  have uu : u * u ≤ 1 / 10 ^ 5 * u := mul_le_mul_of_nonneg_right hu' hu
  have uV0 : u * (u * V0) ≤ 1 / 10 ^ 5 * (u * V0) := mul_le_mul_of_nonneg_right hu' (by positivity)
  have uV1 : u * (u * V1) ≤ 1 / 10 ^ 5 * (u * V1) := mul_le_mul_of_nonneg_right hu' (by positivity)
  have uV2 : u * (u * V2) ≤ 1 / 10 ^ 5 * (u * V2) := mul_le_mul_of_nonneg_right hu' (by positivity)
  have c0 : 0 ≤ u * V0 := by positivity
  have c1 : 0 ≤ u * V1 := by positivity
  have c2 : 0 ≤ u * V2 := by positivity
  have b1 : u * (|x0| + |x1|) ≤ u * (1002 / 1000 * V0 + 1002 / 1000 * V1 + 2 * u) := mul_le_mul_of_nonneg_left (by linarith) hu
  have z1b : |z1| ≤ |x0| + |x1| + (u * (|x0| + |x1|) + η) := by
    have t := abs_add_le (z1 - (x0 + x1)) (x0 + x1)
    rw [sub_add_cancel] at t
    linarith [abs_add_le x0 x1]
  have z1c : |z1| ≤ 11 / 10 * V0 + 11 / 10 * V1 + 4 * u := by
    have d0 : u * V0 ≤ 1 / 10 ^ 5 * V0 := mul_le_mul_of_nonneg_right hu' n0
    have d1 : u * V1 ≤ 1 / 10 ^ 5 * V1 := mul_le_mul_of_nonneg_right hu' n1
    nlinarith
  have b2 : u * (|z1| + |x2|) ≤ u * (11 / 10 * V0 + 11 / 10 * V1 + 11 / 10 * V2 + 5 * u) := mul_le_mul_of_nonneg_left (by linarith) hu
  have z2c : |z2| ≤ 12 / 10 * V0 + 12 / 10 * V1 + 12 / 10 * V2 + 7 * u := by
    have t := abs_add_le (z2 - (z1 + x2)) (z1 + x2)
    rw [sub_add_cancel] at t
    have t' := abs_add_le z1 x2
    have d0 : u * V0 ≤ 1 / 10 ^ 5 * V0 := mul_le_mul_of_nonneg_right hu' n0
    have d1 : u * V1 ≤ 1 / 10 ^ 5 * V1 := mul_le_mul_of_nonneg_right hu' n1
    have d2 : u * V2 ≤ 1 / 10 ^ 5 * V2 := mul_le_mul_of_nonneg_right hu' n2
    nlinarith
  have b3 : u * |z2| ≤ u * (12 / 10 * V0 + 12 / 10 * V1 + 12 / 10 * V2 + 7 * u) := mul_le_mul_of_nonneg_left z2c hu
  have e : z3 - (y0 + y1 + y2) = (z3 - z2) + (z2 - (z1 + x2)) + (z1 - (x0 + x1)) + (x0 - y0) + (x1 - y1) + (x2 - y2) := by ring
  rw [e]
  have t1 := abs_add_le ((z3 - z2) + (z2 - (z1 + x2)) + (z1 - (x0 + x1)) + (x0 - y0) + (x1 - y1)) (x2 - y2)
  have t2 := abs_add_le ((z3 - z2) + (z2 - (z1 + x2)) + (z1 - (x0 + x1)) + (x0 - y0)) (x1 - y1)
  have t3 := abs_add_le ((z3 - z2) + (z2 - (z1 + x2)) + (z1 - (x0 + x1))) (x0 - y0)
  have t4 := abs_add_le ((z3 - z2) + (z2 - (z1 + x2))) (z1 - (x0 + x1))
  have t5 := abs_add_le (z3 - z2) (z2 - (z1 + x2))
  have hκ0 : 0 ≤ κ := (abs_nonneg _).trans (hRs 0 0)
  have total : |z3 - z2| + |z2 - (z1 + x2)| + |z1 - (x0 + x1)| + |x0 - y0| + |x1 - y1| + |x2 - y2| ≤ κ * (V0 + V1 + V2) + 10 * u + 10 * (u * V0) + 10 * (u * V1) +
      10 * (u * V2) := by
    nlinarith
  have : (κ + 10 * u) * (1 + V0 + V1 + V2) = κ + κ * (V0 + V1 + V2) + 10 * u + 10 * (u * V0) + 10 * (u * V1) + 10 * (u * V2) := by ring
  linarith

/-- C90, in the frame of the world: with a rotation that is computed to within `ρ`, for example as in `fair_rotate`. -/
theorem C90_coarse_world {τ ρ : ℝ} (hR : ∀ a b, |g.pose.R a b| ≤ 1) (hρ : ∀ v a, |kept (fg.rotate v a) - (g.pose.R a 0 * kept (v 0) +
      g.pose.R a 1 * kept (v 1) + g.pose.R a 2 * kept (v 2))| ≤ ρ * (1 + |kept (v 0)| + |kept (v 1)| + |kept (v 2)|)) (hρ0 : 0 ≤ ρ) {i : IVec} {edge : Bool}
    (hnear : ∀ v', flCoarseGrid A fg i edge = .value v' → CoarseNear τ filled g i (fun a => kept (v' a)))
    {w' : Fin 3 → F} (hw' : flCoarse A fg i edge = .value w') :
    ∃ v w, (∀ a, |v a| ≤ 2 ∧ (axisCells g.dims a = 1 → v a = 0) ∧ (axisCells g.dims a ≠ 1 → SlopeUpTo 0 filled (axisCells g.dims) i a (v a))) ∧
      IsRotated g.pose.R v w ∧ ∀ a, |kept (w' a) - w a| ≤ 3 * τ + ρ * (7 + 3 * τ) := by
  unfold flCoarse at hw'
  rcases hc : flCoarseGrid A fg i edge with _ | _ | _ | v'
  · rw [hc] at hw'; cases hw'
  · rw [hc] at hw'; cases hw'
  · rw [hc] at hw'; cases hw'
  rw [hc] at hw'
  cases hw'
  obtain ⟨v, hv⟩ := hnear v' hc
  refine ⟨v, fun a => g.pose.R a 0 * v 0 + g.pose.R a 1 * v 1 + g.pose.R a 2 * v 2, fun a => ⟨(hv a).1, fun e => ((hv a).2.2.1 e).2, (hv a).2.2.2⟩,
    fun a => rfl, fun a => ?_⟩
  have h1 := hρ v' a
  have hb : ∀ b, |kept (v' b)| ≤ 2 + τ := by
    intro b
    have := abs_add_le (kept (v' b) - v b) (v b)
    rw [sub_add_cancel] at this
    linarith [(hv b).1, (hv b).2.1]
  have h2 : ρ * (1 + |kept (v' 0)| + |kept (v' 1)| + |kept (v' 2)|) ≤ ρ * (7 + 3 * τ) := mul_le_mul_of_nonneg_left (by linarith [hb 0, hb 1, hb 2]) hρ0
  have term : ∀ b, |g.pose.R a b * (kept (v' b) - v b)| ≤ τ := by
    intro b
    rw [abs_mul]
    exact (mul_le_of_le_one_left (abs_nonneg _) (hR a b)).trans (hv b).2.1
  have h3 : |(g.pose.R a 0 * kept (v' 0) + g.pose.R a 1 * kept (v' 1) + g.pose.R a 2 * kept (v' 2)) -
      (g.pose.R a 0 * v 0 + g.pose.R a 1 * v 1 + g.pose.R a 2 * v 2)| ≤ 3 * τ := by
    rw [show (g.pose.R a 0 * kept (v' 0) + g.pose.R a 1 * kept (v' 1) + g.pose.R a 2 * kept (v' 2)) -
      (g.pose.R a 0 * v 0 + g.pose.R a 1 * v 1 + g.pose.R a 2 * v 2) =
      g.pose.R a 0 * (kept (v' 0) - v 0) + g.pose.R a 1 * (kept (v' 1) - v 1) + g.pose.R a 2 * (kept (v' 2) - v 2) by ring]
    have t1 := abs_add_le (g.pose.R a 0 * (kept (v' 0) - v 0) + g.pose.R a 1 * (kept (v' 1) - v 1)) (g.pose.R a 2 * (kept (v' 2) - v 2))
    have t2 := abs_add_le (g.pose.R a 0 * (kept (v' 0) - v 0)) (g.pose.R a 1 * (kept (v' 1) - v 1))
    linarith [term 0, term 1, term 2]
  have t := abs_sub_le (kept (fg.rotate v' a)) (g.pose.R a 0 * kept (v' 0) + g.pose.R a 1 * kept (v' 1) + g.pose.R a 2 * kept (v' 2))
    (g.pose.R a 0 * v 0 + g.pose.R a 1 * v 1 + g.pose.R a 2 * v 2)
  show |kept (fg.rotate v' a) - _| ≤ _
  linarith

end

end VGT
