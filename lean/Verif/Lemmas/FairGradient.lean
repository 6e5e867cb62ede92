import Verif.Lemmas.FairQuery
import Verif.Lemmas.GradientRound
import Verif.Spec.FairGradient

/-!
C90: difference quotients in any accurate arithmetic.
-/
set_option autoImplicit false

namespace VGT
open VGT.EDT VGT.Spec

section
variable {F : Type} {A : QueryArith F} {val kept : F → ℝ} {u η us ηs N : ℝ} {g : SDFGrid ℝ} {fg : FlSDF F}

/-- A difference times a computed inverse. -/
theorem fair_quotient (h : FairQuery A val kept u η) (hu : 0 ≤ u) (hu' : u ≤ 1 / 10 ^ 5) {d b : F} {D W L e : ℝ} (hL : 0 < L)
    (hd : |val d - D| ≤ e) (hD : |D| ≤ W) (he : e ≤ W) (hηW : η ≤ u * W) (hηL : η ≤ u * (1 / L)) (hη : η ≤ u * (W / L))
    (hb : Near u 23 (1 / L) (val b) (1 / L)) : |kept (A.mul d b) - D / L| ≤ 101 / 100 * (e / L) + 40 * (u * (W / L)) := by
  have hW : 0 ≤ W := (abs_nonneg _).trans hD
  have he0 : 0 ≤ e := (abs_nonneg _).trans hd
  have hi : 0 < 1 / L := by positivity
  have hkb := h.kept_near hu le_rfl hu' hb hηL (by norm_num) (by norm_num)
  have b1 : |kept b - 1 / L| ≤ 26 * u * (1 / L) := by have := hkb.2; norm_num at this ⊢; exact this
  have b2 : |kept b| ≤ 101 / 100 * (1 / L) := by
    have t := abs_add_le (kept b - 1 / L) (1 / L)
    rw [sub_add_cancel, abs_of_pos hi] at t
    have : 26 * u * (1 / L) ≤ 1 / 100 * (1 / L) := mul_le_mul_of_nonneg_right (by linarith) hi.le
    linarith
  have d1 : |val d| ≤ 2 * W := by
    have t := abs_add_le (val d - D) D
    rw [sub_add_cancel] at t
    linarith
  have huW : u * W ≤ 1 / 10 ^ 5 * W := mul_le_mul_of_nonneg_right hu' hW
  have d2 : |kept d - val d| ≤ 3 * (u * W) := by
    have t := h.store d
    have : u * |val d| ≤ u * (2 * W) := mul_le_mul_of_nonneg_left d1 hu
    linarith
  have d3 : |kept d - D| ≤ e + 3 * (u * W) := by
    have t := abs_add_le (kept d - val d) (val d - D)
    rw [sub_add_sub_cancel] at t
    linarith
  have d4 : |kept d| ≤ 21 / 10 * W := by
    have t := abs_add_le (kept d - val d) (val d)
    rw [sub_add_cancel] at t
    linarith
  have huW0 : 0 ≤ u * W := mul_nonneg hu hW
  -- the product
  have p1 : |kept d * kept b - D / L| ≤ (e + 3 * (u * W)) * (101 / 100 * (1 / L)) + W * (26 * u * (1 / L)) := by
    rw [show kept d * kept b - D / L = (kept d - D) * kept b + D * (kept b - 1 / L) by ring]
    refine (abs_add_le _ _).trans ?_
    rw [abs_mul, abs_mul]
    exact add_le_add (mul_le_mul d3 b2 (abs_nonneg _) (by linarith)) (mul_le_mul hD b1 (abs_nonneg _) hW)
  have p2 : |kept d * kept b| ≤ 22 / 10 * (W / L) := by
    rw [abs_mul]
    have := mul_le_mul d4 b2 (abs_nonneg _) (by linarith)
    refine this.trans ?_
    rw [show 21 / 10 * W * (101 / 100 * (1 / L)) = 2121 / 1000 * (W / L) by ring]
    have : 0 ≤ W / L := by positivity
    linarith
  have hWL : 0 ≤ W / L := by positivity
  have huWL : 0 ≤ u * (W / L) := by positivity
  have v1 : |val (A.mul d b) - kept d * kept b| ≤ 33 / 10 * (u * (W / L)) := by
    have t := h.mul d b
    have : u * |kept d * kept b| ≤ u * (22 / 10 * (W / L)) := mul_le_mul_of_nonneg_left p2 hu
    linarith
  have v2 : |val (A.mul d b)| ≤ 23 / 10 * (W / L) := by
    have t := abs_add_le (val (A.mul d b) - kept d * kept b) (kept d * kept b)
    rw [sub_add_cancel] at t
    have : u * (W / L) ≤ 1 / 10 ^ 5 * (W / L) := mul_le_mul_of_nonneg_right hu' hWL
    linarith
  have k1 : |kept (A.mul d b) - val (A.mul d b)| ≤ 34 / 10 * (u * (W / L)) := by
    have t := h.store (A.mul d b)
    have : u * |val (A.mul d b)| ≤ u * (23 / 10 * (W / L)) := mul_le_mul_of_nonneg_left v2 hu
    linarith
  have t1 := abs_add_le (kept (A.mul d b) - val (A.mul d b)) (val (A.mul d b) - kept d * kept b)
  rw [sub_add_sub_cancel] at t1
  have t2 := abs_add_le (kept (A.mul d b) - kept d * kept b) (kept d * kept b - D / L)
  rw [sub_add_sub_cancel] at t2
  rw [show (e + 3 * (u * W)) * (101 / 100 * (1 / L)) + W * (26 * u * (1 / L)) = 101 / 100 * (e / L) + 2903 / 100 * (u * (W / L)) by ring] at p1
  linarith

/-- The inverse of a length of one or two cells. -/
theorem fair_inverse (h : FairQuery A val kept u η) (hr : FairRoom u η g.s N) (hf : FairField val kept u g fg) (hη2 : η ≤ u / (2 * g.s))
    {k : ℝ} (hk : k = 1 ∨ k = 2) {n : F} (hn : |val n - k| ≤ 2 * u * k) :
    0 < kept (A.mul n fg.s) ∧ Near u 23 (1 / (k * g.s)) (val (A.div A.one (A.mul n fg.s))) (1 / (k * g.s)) := by
  have hs := hr.s0
  have hu := hr.u0
  have hu' : u ≤ 1 / 10 ^ 5 := (le_mul_of_one_le_right hu hr.one_le).trans hr.small
  have hk0 : 1 ≤ k ∧ k ≤ 2 := by rcases hk with rfl | rfl <;> norm_num
  have hks : g.s ≤ k * g.s := by nlinarith
  have hks' : k * g.s ≤ 2 * g.s := by nlinarith
  have hks0 : 0 < k * g.s := by linarith
  have e1 : η ≤ u * k := hr.eta.trans (le_mul_of_one_le_right hu hk0.1)
  have e2 : η ≤ u * (k * g.s) := hr.eta_s.trans (mul_le_mul_of_nonneg_left hks hu)
  have e3 : η ≤ u * (1 / (k * g.s)) := by
    refine hη2.trans ?_
    rw [mul_one_div]
    exact div_le_div_of_nonneg_left hu hks0 hks'
  have n1 : Near u 2 k (val n) k := ⟨by rw [abs_of_pos (by linarith)], hn⟩
  have n2 : Near u 0 g.s (val fg.s) g.s := by
    rw [hf.size]
    exact Near.exact (by rw [abs_of_pos hs])
  have n3 := (h.mul_near hu le_rfl hu' n1 n2 e1 hr.eta_s e2 (by norm_num) le_rfl (by norm_num) (by norm_num)).mono (k' := 12) hu (by norm_num)
  have n4 : Near u 0 1 (val A.one) 1 := by
    rw [h.one]
    exact Near.exact (by norm_num)
  have n5 := (h.div_near hu le_rfl hu' n4 n3 hks0 (by rw [mul_one]; exact hr.eta) e2 e3 le_rfl (by norm_num) (by norm_num) (by norm_num)).mono (k' := 23) hu
    (by norm_num)
  refine ⟨?_, n5⟩
  have n6 := (abs_le.1 (h.kept_near hu le_rfl hu' n3 e2 (by norm_num) (by norm_num)).2).1
  have : (12 + 3) * u * (k * g.s) ≤ 1 / 2 * (k * g.s) := mul_le_mul_of_nonneg_right (by linarith) hks0.le
  linarith

/-- One component of a computed grid-aligned coarse gradient. -/
theorem fair_coarse_axis (h : FairQuery A val kept u η) (hst : FairStep A val kept us ηs) (hr : FairRoom u η g.s N) (hf : FairField val kept u g fg)
    (hη2 : η ≤ u / (2 * g.s)) (hus : us ≤ 1 / 10 ^ 5) (hle : u ≤ us) (hηs : ηs ≤ us * g.s) (hηle : η ≤ ηs)
    (hM : ∀ c, CellInGrid (axisCells g.dims) c → |stored g.data c| ≤ 3 * (N * g.s)) {i : IVec} {edge : Bool} {v : Fin 3 → F}
    (hv : flCoarseGrid A fg i edge = .value v) (a : Fin 3) :
    (axisCells g.dims a = 1 → kept (v a) = 0) ∧ (axisCells g.dims a ≠ 1 → ∃ k : ℝ, (k = 1 ∨ k = 2) ∧
      k = ((after (axisCells g.dims) i a a - before i a a : ℤ) : ℝ) ∧
      |kept (v a) - (stored g.data (after (axisCells g.dims) i a) - stored g.data (before i a)) / (k * g.s)| ≤ (8 * us + 240 * u) * N) := by
  obtain ⟨hi, -, hva⟩ := flCoarseGrid_parts _ _ hv
  rw [hf.dims] at hi hva
  have hia := hi a
  have hs := hr.s0
  have hu := hr.u0
  have hu' : u ≤ 1 / 10 ^ 5 := (le_mul_of_one_le_right hu hr.one_le).trans hr.small
  have hus0 : 0 ≤ us := hu.trans hle
  have hNs : g.s ≤ N * g.s := by nlinarith [hr.one_le]
  have eb : before i a a = max 0 (i a - 1) := by unfold before; rw [if_pos rfl]
  have ea : after (axisCells g.dims) i a a = min ((axisCells g.dims a : ℤ) - 1) (i a + 1) := by
    unfold after; rw [if_pos rfl]
  have hA := after_in hi a
  have hB := before_in hi a
  obtain ⟨x, hx⟩ : ∃ x, x = stored g.data (after (axisCells g.dims) i a) := ⟨_, rfl⟩
  obtain ⟨y, hy⟩ : ∃ y, y = stored g.data (before i a) := ⟨_, rfl⟩
  have hxv : val (stored fg.data (after (axisCells g.dims) i a)) = x := by rw [hx]; exact (hf.data _ (cellIdx_in hA)).1
  have hyv : val (stored fg.data (before i a)) = y := by rw [hy]; exact (hf.data _ (cellIdx_in hB)).1
  have hxM : |x| ≤ 3 * (N * g.s) := by rw [hx]; exact hM _ hA
  have hyM : |y| ≤ 3 * (N * g.s) := by rw [hy]; exact hM _ hB
  rw [← hx, ← hy]
  have hDW : |x - y| ≤ 6 * (N * g.s) := by have := abs_sub x y; linarith
  have usN : us * g.s ≤ us * (N * g.s) := mul_le_mul_of_nonneg_left hNs hus0
  have err : us * (|x| + |y|) + ηs ≤ 7 * (us * (N * g.s)) := by
    have : us * (|x| + |y|) ≤ us * (6 * (N * g.s)) := mul_le_mul_of_nonneg_left (by linarith) hus0
    linarith
  have fin : ∀ {k : ℝ} {n d : F}, (k = 1 ∨ k = 2) → |val n - k| ≤ 2 * u * k → |val d - (x - y)| ≤ us * (|x| + |y|) + ηs →
      |kept (A.mul d (A.div A.one (A.mul n fg.s))) - (x - y) / (k * g.s)| ≤ (8 * us + 240 * u) * N := by
    intro k n d hk hn hd
    have hk0 : 1 ≤ k ∧ k ≤ 2 := by rcases hk with rfl | rfl <;> norm_num
    have hks : g.s ≤ k * g.s := by nlinarith
    have hks' : k * g.s ≤ 2 * g.s := by nlinarith
    have hks0 : 0 < k * g.s := by linarith
    have q2 : 6 * (N * g.s) / (k * g.s) ≤ 6 * N := by
      rw [div_le_iff₀ hks0]
      nlinarith [hr.one_le]
    have q3 : (1 : ℝ) ≤ 6 * (N * g.s) / (k * g.s) := by
      rw [le_div_iff₀ hks0]
      linarith
    have hsN : 7 * (us * (N * g.s)) ≤ 6 * (N * g.s) := by
      have : us * (N * g.s) ≤ 1 / 10 ^ 5 * (N * g.s) := mul_le_mul_of_nonneg_right hus (by linarith)
      linarith
    have e3 : η ≤ u * (1 / (k * g.s)) := by
      refine hη2.trans ?_
      rw [mul_one_div]
      exact div_le_div_of_nonneg_left hu hks0 hks'
    have key := fair_quotient h hu hu' hks0 (hd.trans err) hDW hsN (hr.eta_s.trans (mul_le_mul_of_nonneg_left (by linarith) hu)) e3
      (hr.eta.trans (le_mul_of_one_le_right hu q3)) (fair_inverse h hr hf hη2 hk hn).2
    refine key.trans ?_
    have q4 : 7 * (us * (N * g.s)) / (k * g.s) ≤ 7 * (us * N) := by
      rw [div_le_iff₀ hks0]
      have : us * N * g.s ≤ us * N * (k * g.s) := mul_le_mul_of_nonneg_left hks (mul_nonneg hus0 (by linarith [hr.one_le]))
      linarith
    have q5 : u * (6 * (N * g.s) / (k * g.s)) ≤ u * (6 * N) := mul_le_mul_of_nonneg_left q2 hu
    have q6 : 0 ≤ us * N := mul_nonneg hus0 (by linarith [hr.one_le])
    nlinarith
  have hk12 : axisCells g.dims a ≠ 1 → (((after (axisCells g.dims) i a a - before i a a : ℤ) : ℝ) = 1 ∨
      ((after (axisCells g.dims) i a a - before i a a : ℤ) : ℝ) = 2) := by
    intro h1
    have : after (axisCells g.dims) i a a - before i a a = 1 ∨ after (axisCells g.dims) i a a - before i a a = 2 := by
      rw [ea, eb]; omega
    rcases this with h | h <;> rw [h] <;> norm_num
  rcases hva a with ⟨hint, hv'⟩ | hv'
  · refine ⟨fun h1 => by omega, fun h1 => ⟨_, hk12 h1, rfl, ?_⟩⟩
    have e2 : ((after (axisCells g.dims) i a a - before i a a : ℤ) : ℝ) = 2 := by
      have : after (axisCells g.dims) i a a - before i a a = 2 := by rw [ea, eb]; omega
      rw [this]; norm_num
    rw [e2, hv']
    refine fin (.inr rfl) (by rw [hst.two, sub_self, abs_zero]; positivity) ?_
    have := hst.stored (stored fg.data (after (axisCells g.dims) i a)) (stored fg.data (before i a))
    rw [hxv, hyv] at this
    exact this
  · constructor
    · intro h1
      have : after (axisCells g.dims) i a a - before i a a = 0 := by rw [ea, eb]; omega
      rw [hv', this, hst.lt, hst.nothing, h.zero, if_neg (by simp)]
      exact h.zero
    · intro h1
      refine ⟨_, hk12 h1, rfl, ?_⟩
      obtain ⟨j, hj⟩ : ∃ j : ℤ, j = after (axisCells g.dims) i a a - before i a a := ⟨_, rfl⟩
      have hk' := hk12 h1
      rw [← hj] at hk' hv' ⊢
      have hn : |val (A.ofInt j) - j| ≤ 2 * u * j := by
        have t := h.ofInt j
        have hj1 : (1 : ℝ) ≤ j := by rcases hk' with e | e <;> rw [e] <;> norm_num
        rw [abs_of_pos (show (0 : ℝ) < j by linarith)] at t
        have := hr.eta.trans (le_mul_of_one_le_right hu hj1)
        linarith
      have hpos := (fair_inverse h hr hf hη2 hk' hn).1
      rw [hv', hst.lt, h.zero, if_pos (by simpa using hpos)]
      refine fin hk' hn ?_
      have t := h.sub (stored fg.data (after (axisCells g.dims) i a)) (stored fg.data (before i a))
      rw [hxv, hyv] at t
      have : u * (|x| + |y|) ≤ us * (|x| + |y|) := mul_le_mul_of_nonneg_right hle (by positivity)
      linarith

end

end VGT
