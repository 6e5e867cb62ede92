import Verif.Spec.FairQuery
import Verif.Lemmas.QueryRoundBilinear

/-!
C86: errors of queries in any accurate arithmetic.
-/
set_option autoImplicit false

namespace VGT
open VGT.EDT VGT.Spec

namespace Near
variable {ε k k' B B' x y x' y' : ℝ}

theorem widen (h : Near ε k B x y) (h0 : 0 ≤ ε) (hk : 0 ≤ k) (hB : B ≤ B') : Near ε k B' x y :=
  ⟨h.1.trans hB, h.2.trans (mul_le_mul_of_nonneg_left hB (mul_nonneg hk h0))⟩

theorem size (h : Near ε k B x y) (h0 : 0 ≤ ε) (hε : ε ≤ 1 / 10 ^ 5) (hk : 0 ≤ k) (hk' : k ≤ 10 ^ 4) : |x| ≤ 11 / 10 * B := by
  have hB := h.nonneg
  have h1 := abs_add_le (x - y) y
  rw [sub_add_cancel] at h1
  have h2 : k * ε * B ≤ 1 / 10 * B := by
    refine mul_le_mul_of_nonneg_right ?_ hB
    calc k * ε ≤ 10 ^ 4 * (1 / 10 ^ 5) := mul_le_mul hk' hε h0 (by norm_num)
      _ = 1 / 10 := by norm_num
  have := h.1
  have := h.2
  linarith

theorem times (h : Near ε k B x y) (h' : Near ε k' B' x' y') (h0 : 0 ≤ ε) (hε : ε ≤ 1 / 10 ^ 5) (hk : 0 ≤ k) (hk' : 0 ≤ k') :
    Near ε (k + k' + k * k' / 10 ^ 5) (B * B') (x * x') (y * y') := by
  have hB := h.nonneg
  have hB' := h'.nonneg
  constructor
  · rw [abs_mul]
    exact mul_le_mul h.1 h'.1 (abs_nonneg _) hB
  · have e : x * x' - y * y' = (x - y) * (x' - y') + ((x - y) * y' + y * (x' - y')) := by ring
    rw [e]
    have t := (abs_add_le ((x - y) * (x' - y')) ((x - y) * y' + y * (x' - y'))).trans
      (add_le_add le_rfl (abs_add_le ((x - y) * y') (y * (x' - y'))))
    simp only [abs_mul] at t
    have t1 : |x - y| * |x' - y'| ≤ (k * ε * B) * (k' * ε * B') :=
      mul_le_mul h.2 h'.2 (abs_nonneg _) (mul_nonneg (mul_nonneg hk h0) hB)
    have t2 : |x - y| * |y'| ≤ (k * ε * B) * B' := mul_le_mul h.2 h'.1 (abs_nonneg _) (mul_nonneg (mul_nonneg hk h0) hB)
    have t3 : |y| * |x' - y'| ≤ B * (k' * ε * B') := mul_le_mul h.1 h'.2 (abs_nonneg _) hB
    have t4 : (k * k' * ε * (B * B')) * ε ≤ (k * k' * ε * (B * B')) * (1 / 10 ^ 5) :=
      mul_le_mul_of_nonneg_left hε (mul_nonneg (mul_nonneg (mul_nonneg hk hk') h0) (mul_nonneg hB hB'))
    linarith

theorem inverse (h : Near ε k B x B) (hB : 0 < B) (h0 : 0 ≤ ε) (hε : ε ≤ 1 / 10 ^ 5) (hk : 0 ≤ k) (hk2 : k ≤ 900) :
    x ≠ 0 ∧ Near ε (101 / 100 * k) (1 / B) (1 / x) (1 / B) := by
  have hkε : k * ε ≤ 9 / 1000 := by
    calc k * ε ≤ 900 * (1 / 10 ^ 5) := mul_le_mul hk2 hε h0 (by norm_num)
      _ = 9 / 1000 := by norm_num
  have h1 := (abs_le.1 h.2).1
  have hx : 991 / 1000 * B ≤ x := by
    have : k * ε * B ≤ 9 / 1000 * B := mul_le_mul_of_nonneg_right hkε hB.le
    linarith
  have hx0 : 0 < x := lt_of_lt_of_le (by linarith) hx
  refine ⟨hx0.ne', by rw [abs_of_pos (by positivity)], ?_⟩
  have e : 1 / x - 1 / B = -(x - B) / (x * B) := by field_simp; ring
  rw [e, abs_div, abs_neg, abs_of_pos (mul_pos hx0 hB), div_le_iff₀ (mul_pos hx0 hB)]
  refine h.2.trans ?_
  have e2 : 101 / 100 * k * ε * (1 / B) * (x * B) = 101 / 100 * (k * ε) * x := by field_simp
  rw [e2]
  have : 101 / 100 * (k * ε) * (991 / 1000 * B) ≤ 101 / 100 * (k * ε) * x :=
    mul_le_mul_of_nonneg_left hx (mul_nonneg (by norm_num) (mul_nonneg hk h0))
  have hp : 0 ≤ k * ε * B := mul_nonneg (mul_nonneg hk h0) hB.le
  linarith

end Near

namespace Spec.FairQuery
variable {F : Type} {A : QueryArith F} {val kept : F → ℝ} {u η ε k k' B B' y y' : ℝ} {x x' : F}

theorem kept_near (h : FairQuery A val kept u η) (hu : 0 ≤ u) (huε : u ≤ ε) (hε : ε ≤ 1 / 10 ^ 5) (hx : Near ε k B (val x) y) (hB : η ≤ u * B)
    (hk : 0 ≤ k) (hk' : k ≤ 10 ^ 4) : Near ε (k + 3) B (kept x) y := by
  have h0 : 0 ≤ ε := hu.trans huε
  refine ⟨hx.1, ?_⟩
  have h1 := h.store x
  have h2 := hx.size h0 hε hk hk'
  have h3 := abs_add_le (kept x - val x) (val x - y)
  rw [sub_add_sub_cancel] at h3
  have h4 := mul_le_mul_of_nonneg_left h2 hu
  have h5 : u * B ≤ ε * B := mul_le_mul_of_nonneg_right huε hx.nonneg
  have h6 := mul_nonneg hu hx.nonneg
  have := hx.2
  linarith

theorem add_near (h : FairQuery A val kept u η) (hu : 0 ≤ u) (huε : u ≤ ε) (hε : ε ≤ 1 / 10 ^ 5) (hx : Near ε k B (val x) y)
    (hx' : Near ε k' B' (val x') y') (hB : η ≤ u * (B + B')) (hk : 0 ≤ k) (hkk : k' ≤ k) (hk0 : 0 ≤ k') (hk' : k ≤ 10 ^ 4) :
    Near ε (k + 3) (B + B') (val (A.add x x')) (y + y') := by
  have h0 : 0 ≤ ε := hu.trans huε
  obtain ⟨s1, s2⟩ := hx.add (hx'.mono h0 hkk)
  refine ⟨s1, ?_⟩
  have h1 := h.add x x'
  have h2 := hx.size h0 hε hk hk'
  have h2' := hx'.size h0 hε hk0 (hkk.trans hk')
  have h3 := abs_add_le (val (A.add x x') - (val x + val x')) (val x + val x' - (y + y'))
  rw [sub_add_sub_cancel] at h3
  have h4 := mul_le_mul_of_nonneg_left (add_le_add h2 h2') hu
  have h5 : u * (B + B') ≤ ε * (B + B') := mul_le_mul_of_nonneg_right huε (add_nonneg hx.nonneg hx'.nonneg)
  have h6 := mul_nonneg hu (add_nonneg hx.nonneg hx'.nonneg)
  linarith

theorem sub_near (h : FairQuery A val kept u η) (hu : 0 ≤ u) (huε : u ≤ ε) (hε : ε ≤ 1 / 10 ^ 5) (hx : Near ε k B (val x) y)
    (hx' : Near ε k B' (val x') y') (hB : η ≤ u * (B + B')) (hk : 0 ≤ k) (hk' : k ≤ 10 ^ 4) :
    Near ε (k + 3) (B + B') (val (A.sub x x')) (y - y') := by
  have h0 : 0 ≤ ε := hu.trans huε
  obtain ⟨s1, s2⟩ := hx.sub hx'
  refine ⟨s1, ?_⟩
  have h1 := h.sub x x'
  have h2 := hx.size h0 hε hk hk'
  have h2' := hx'.size h0 hε hk hk'
  have h3 := abs_add_le (val (A.sub x x') - (val x - val x')) (val x - val x' - (y - y'))
  rw [sub_add_sub_cancel] at h3
  have h4 := mul_le_mul_of_nonneg_left (add_le_add h2 h2') hu
  have h5 : u * (B + B') ≤ ε * (B + B') := mul_le_mul_of_nonneg_right huε (add_nonneg hx.nonneg hx'.nonneg)
  have h6 := mul_nonneg hu (add_nonneg hx.nonneg hx'.nonneg)
  linarith

theorem mul_near (h : FairQuery A val kept u η) (hu : 0 ≤ u) (huε : u ≤ ε) (hε : ε ≤ 1 / 10 ^ 5) (hx : Near ε k B (val x) y)
    (hx' : Near ε k' B' (val x') y') (hB : η ≤ u * B) (hB' : η ≤ u * B') (hBB : η ≤ u * (B * B')) (hk : 0 ≤ k) (hk' : 0 ≤ k')
    (h1 : k ≤ 1500) (h1' : k' ≤ 1500) :
    Near ε (k + k' + 9 + (k + 3) * (k' + 3) / 10 ^ 5) (B * B') (val (A.mul x x')) (y * y') := by
  have h0 : 0 ≤ ε := hu.trans huε
  have p := (h.kept_near hu huε hε hx hB hk (by linarith)).times (h.kept_near hu huε hε hx' hB' hk' (by linarith)) h0 hε (by linarith) (by linarith)
  have hkk : (k + 3) * (k' + 3) / 10 ^ 5 ≤ 1503 * 1503 / 10 ^ 5 := by gcongr <;> linarith
  have hkk0 : 0 ≤ (k + 3) * (k' + 3) / 10 ^ 5 := by positivity
  have h2 := p.size h0 hε (by linarith) (by norm_num at hkk ⊢; linarith)
  refine ⟨p.1, ?_⟩
  have h3 := abs_add_le (val (A.mul x x') - kept x * kept x') (kept x * kept x' - y * y')
  rw [sub_add_sub_cancel] at h3
  have h4 := mul_le_mul_of_nonneg_left h2 hu
  have hBB0 := p.nonneg
  have h5 : u * (B * B') ≤ ε * (B * B') := mul_le_mul_of_nonneg_right huε hBB0
  have h6 := mul_nonneg hu hBB0
  have h7 := h.mul x x'
  have h8 := p.2
  generalize (k + 3) * (k' + 3) / 10 ^ 5 = c at h8 ⊢
  nlinarith

theorem div_near (h : FairQuery A val kept u η) (hu : 0 ≤ u) (huε : u ≤ ε) (hε : ε ≤ 1 / 10 ^ 5) (hx : Near ε k B (val x) y)
    (hx' : Near ε k' B' (val x') B') (hB0 : 0 < B') (hB : η ≤ u * B) (hB' : η ≤ u * B') (hBB : η ≤ u * (B / B')) (hk : 0 ≤ k) (hk' : 0 ≤ k')
    (h1 : k ≤ 1500) (h1' : k' ≤ 850) :
    Near ε (k + 101 / 100 * k' + 10 + (k + 3) * (101 / 100 * (k' + 3)) / 10 ^ 5) (B / B') (val (A.div x x')) (y / B') := by
  have h0 : 0 ≤ ε := hu.trans huε
  obtain ⟨hne, hi⟩ := (h.kept_near hu huε hε hx' hB' hk' (by linarith)).inverse hB0 h0 hε (by linarith) (by linarith)
  have p := (h.kept_near hu huε hε hx hB hk (by linarith)).times hi h0 hε (by linarith) (by linarith)
  rw [mul_one_div, mul_one_div, mul_one_div] at p
  have hkk : (k + 3) * (101 / 100 * (k' + 3)) / 10 ^ 5 ≤ 1503 * 1503 / 10 ^ 5 := by gcongr <;> linarith
  have hkk0 : 0 ≤ (k + 3) * (101 / 100 * (k' + 3)) / 10 ^ 5 := by positivity
  have h2 := p.size h0 hε (by linarith) (by norm_num at hkk ⊢; linarith)
  refine ⟨p.1, ?_⟩
  have h3 := abs_add_le (val (A.div x x') - kept x / kept x') (kept x / kept x' - y / B')
  rw [sub_add_sub_cancel] at h3
  have h4 := mul_le_mul_of_nonneg_left h2 hu
  have hBB0 := p.nonneg
  have h5 : u * (B / B') ≤ ε * (B / B') := mul_le_mul_of_nonneg_right huε hBB0
  have h6 := mul_nonneg hu hBB0
  have h7 := h.div x x' hne
  have h8 := p.2
  generalize (k + 3) * (101 / 100 * (k' + 3)) / 10 ^ 5 = c at h8 ⊢
  generalize B / B' = C at *
  have h9 : 0 ≤ ε * C := mul_nonneg h0 hBB0
  linarith

end Spec.FairQuery

end VGT
