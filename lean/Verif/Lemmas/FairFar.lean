import Verif.Spec.FairFar
import Verif.Props.FairFreeAll
import Verif.Props.FairDefined

/-!
C89: the computed entry into the grid in any arithmetic that is right up to a small error.
-/
set_option autoImplicit false

namespace VGT
open VGT.EDT VGT.Spec VGT.Par

/-! ### Plain numbers -/

/-- The time at which a face is passed, times the speed. -/
theorem plane_number {u η B w v t k d y : ℚ} (hu : 0 ≤ u) (hu1 : 9000 * u ≤ 1) (hη0 : 0 ≤ η) (hηu : η ≤ u) (hηB : η ≤ u * B) (hB : 0 < B) (hd : |d| ≤ 3) (hd0 : d ≠ 0)
    (hyB : |y| ≤ 6 * B) (hw : |w - y| ≤ 7 * (u * B)) (hv : |v - 1 / d| ≤ u * |1 / d| + η) (ht : |t - w * v| ≤ u * |w * v| + η)
    (hk : |k - t| ≤ u * |t| + η) : |k * d - y| ≤ 52 * (u * B) := by
  have huB : 0 ≤ u * B := hη0.trans hηB
  have huB1 := mul_le_mul_of_nonneg_right hu1 hB.le
  have hd' := abs_nonneg d
  have hηd : η * |d| ≤ 3 * (u * B) := by
    have := mul_le_mul_of_nonneg_left hd hη0
    linarith
  have hvd : |v * d - 1| ≤ 4 * u := by
    have e1 : v * d - 1 = (v - 1 / d) * d := by field_simp
    rw [e1, abs_mul]
    have h1 := mul_le_mul_of_nonneg_right hv hd'
    have h2 : |1 / d| * |d| = 1 := by rw [← abs_mul, one_div_mul_cancel hd0, abs_one]
    have h3 := mul_le_mul_of_nonneg_left hd hη0
    have e2 : (u * |1 / d| + η) * |d| = u * (|1 / d| * |d|) + η * |d| := by ring
    rw [e2, h2] at h1
    linarith
  have hwB : |w| ≤ 601 / 100 * B := (near_bound hw hyB).trans (by linarith)
  have a1 : |w * v * d - w| ≤ 25 * (u * B) := by
    rw [show w * v * d - w = w * (v * d - 1) by ring, abs_mul]
    have := mul_le_mul hwB hvd (abs_nonneg _) (by linarith)
    linarith
  have a2 : |w * v * d| ≤ 602 / 100 * B := (near_bound a1 hwB).trans (by linarith)
  have a3 : |t * d - w * v * d| ≤ 91 / 10 * (u * B) := by
    rw [show t * d - w * v * d = (t - w * v) * d by ring, abs_mul]
    have h1 := mul_le_mul_of_nonneg_right ht hd'
    have h2 := mul_le_mul_of_nonneg_left a2 hu
    rw [abs_mul (w * v)] at h2
    linarith
  have a4 : |t * d| ≤ 603 / 100 * B := (near_bound a3 a2).trans (by linarith)
  have a5 : |k * d - t * d| ≤ 91 / 10 * (u * B) := by
    rw [show k * d - t * d = (k - t) * d by ring, abs_mul]
    have h1 := mul_le_mul_of_nonneg_right hk hd'
    have h2 := mul_le_mul_of_nonneg_left a4 hu
    rw [abs_mul t] at h2
    linarith
  rw [show k * d - y = (k * d - t * d) + ((t * d - w * v * d) + ((w * v * d - w) + (w - y))) by ring]
  have h1 := abs_add_le (k * d - t * d) ((t * d - w * v * d) + ((w * v * d - w) + (w - y)))
  have h2 := abs_add_le (t * d - w * v * d) ((w * v * d - w) + (w - y))
  have h3 := abs_add_le (w * v * d - w) (w - y)
  linarith

/-- The time to the nearer plane is before a time at which the ray has passed the plane it moves towards. -/
theorem axis_early_fair {w κ x S ds tl th t : ℚ} (hds : ds ≠ 0) (hds3 : |ds| ≤ 3) (hl : |tl * ds - (0 - x)| ≤ w) (hh : |th * ds - (S - x)| ≤ w)
    (hκ : w < κ) (h1 : 0 < ds → κ ≤ x + t * ds) (h2 : ds < 0 → x + t * ds ≤ S - κ) :
    tl + (κ - w) / 3 ≤ t ∨ th + (κ - w) / 3 ≤ t := by
  have l' := abs_le.1 hl
  have h' := abs_le.1 hh
  have d' := abs_le.1 hds3
  rcases lt_or_gt_of_ne hds with hneg | hpos
  · right
    have := h2 hneg
    have b1 : κ - w ≤ (t - th) * (-ds) := by nlinarith
    have c1 : 0 < t - th := by
      by_contra hc
      have := mul_nonpos_of_nonpos_of_nonneg (not_lt.1 hc) (neg_pos.2 hneg).le
      linarith
    have c3 : (t - th) * (-ds) ≤ (t - th) * 3 := mul_le_mul_of_nonneg_left (by linarith) c1.le
    linarith
  · left
    have := h1 hpos
    have b1 : κ - w ≤ (t - tl) * ds := by nlinarith
    have c1 : 0 < t - tl := by
      by_contra hc
      have := mul_nonpos_of_nonpos_of_nonneg (not_lt.1 hc) hpos.le
      linarith
    have c3 : (t - tl) * ds ≤ (t - tl) * 3 := mul_le_mul_of_nonneg_left (by linarith) c1.le
    linarith

section
variable {F : Type} {A : Arith F} {sqrt : F → F} {val kept : F → Fl} {u η M e B s N : ℚ} {g : RayGrid F} {c : Camera3} {x : Fin 3 → ℚ}
  {o p : Fin 3 → F} {vo vp : Fin 3 → ℚ} {l l' : ℚ}

/-! ### The slab test -/

/-- A time that is `0` or at least `k` before `t`. -/
def EarlyTime (val kept : F → Fl) (u η t k : ℚ) (m : F) : Prop :=
  ∃ vm km, val m = .fin vm ∧ kept m = .fin km ∧ |km - vm| ≤ u * |vm| + η ∧ 0 ≤ km ∧ (km = 0 ∨ km + k ≤ t)

theorem slab_axis_early_fair (H : AccurateArith A sqrt val kept u η M) (S : Room u η M e B) {O D Z m q : F} {vo vd vz Sz t κ : ℚ}
    {st' : F × F} (hO : val O = .fin vo) (hD : val D = .fin vd) (hZ : val Z = .fin vz) (ho : |vo| ≤ 3 * B) (hz : |vz| ≤ 3 * B) (hd3 : |vd| ≤ 3)
    (hzS : |vz - Sz| ≤ 4 * (u * B)) (hκ : 60 * (u * B) < κ) (h1 : 0 < vd → κ ≤ vo + t * vd) (h2 : vd < 0 → vo + t * vd ≤ Sz - κ)
    (hm : EarlyTime val kept u η t ((κ - 60 * (u * B)) / 3) m)
    (h : flSlabAxis A O D Z (m, q) = some st') : EarlyTime val kept u η t ((κ - 60 * (u * B)) / 3) st'.1 := by
  have hB := S.B_pos; have hu := S.u_nonneg; have hu1 := S.u_le; have hη0 := S.η_nonneg; have hηu := S.η_u; have hηB := S.η_B
  have huB := mul_pos S.u_pos hB
  unfold flSlabAxis at h
  rcases flat_fair H S hD hd3 with ⟨f1, -⟩ | ⟨f1, f2⟩
  · rw [if_pos f1] at h
    split_ifs at h
    cases h
    exact hm
  · rw [if_neg (by simp [f1])] at h
    have hvd0 : vd ≠ 0 := by
      intro h0
      rw [h0, abs_zero] at f2
      norm_num at f2
    obtain ⟨w, v, tl, kl, a1, a2, a3, a4, a5, a6, -⟩ := time_value H S H.zero.1 hO hD (by rw [abs_zero]; linarith) ho le_rfl (by norm_num) f2 hd3
    obtain ⟨w', v', th, kh, b1, b2, b3, b4, b5, b6, -⟩ := time_value H S hZ hO hD hz ho le_rfl (by norm_num) f2 hd3
    have c1 := plane_number hu hu1 hη0 hηu hηB hB hd3 hvd0 (by rw [zero_sub, abs_neg]; linarith) a3 a4 a5 a6
    have c2 := plane_number hu hu1 hη0 hηu hηB hB hd3 hvd0 ((abs_sub _ _).trans (by linarith)) b3 b4 b5 b6
    have c3 : |kh * vd - (Sz - vo)| ≤ 60 * (u * B) := by
      have k1 := abs_le.1 c2
      have k2 := abs_le.1 hzS
      rw [abs_le]
      constructor <;> linarith
    have htimes := axis_early_fair hvd0 hd3 (c1.trans (by linarith)) c3 hκ h1 h2
    dsimp only at h
    generalize A.mul (A.sub A.zero O) (A.div A.one D) = Lo at a1 a2 h
    generalize A.mul (A.sub Z O) (A.div A.one D) = Hi at b1 b2 h
    have hmin : ∀ T1, T1 = (if A.le Lo Hi = true then Lo else Hi) → ∃ t' k', val T1 = .fin t' ∧ kept T1 = .fin k' ∧ |k' - t'| ≤ u * |t'| + η ∧
        k' + (κ - 60 * (u * B)) / 3 ≤ t := by
      intro T1 hT1
      have hle : A.le Lo Hi = decide (kl ≤ kh) := by rw [H.le, a2, b2]; rfl
      by_cases hc : kl ≤ kh
      · rw [if_pos (by simpa [hle] using hc)] at hT1
        subst hT1
        exact ⟨tl, kl, a1, a2, a6, by rcases htimes with h3 | h3 <;> linarith⟩
      · rw [if_neg (by simpa [hle] using hc)] at hT1
        subst hT1
        push Not at hc
        exact ⟨th, kh, b1, b2, b6, by rcases htimes with h3 | h3 <;> linarith⟩
    obtain ⟨vm, km, m1, m2, m3, m4, m5⟩ := hm
    obtain ⟨t', k', t1, t2, t3, t4⟩ := hmin _ rfl
    have hnew : EarlyTime val kept u η t ((κ - 60 * (u * B)) / 3)
        (if A.lt m (if A.le Lo Hi = true then Lo else Hi) = true then (if A.le Lo Hi = true then Lo else Hi) else m) := by
      by_cases hlt : A.lt m (if A.le Lo Hi = true then Lo else Hi) = true
      · rw [if_pos hlt]
        rw [H.lt, m2, t2] at hlt
        have : km < k' := by simpa [Fl.lt] using hlt
        exact ⟨t', k', t1, t2, t3, by linarith, .inr t4⟩
      · rw [if_neg hlt]
        exact ⟨vm, km, m1, m2, m3, m4, m5⟩
    rw [Option.ite_none_left_eq_some] at h
    obtain ⟨-, h⟩ := h
    cases h
    exact hnew

theorem slabs_early_fair (H : AccurateArith A sqrt val kept u η M) (S : Room u η M e B) {d : Fin 3 → F} {vd vz Sz : Fin 3 → ℚ}
    {range T : F} {t κ : ℚ} (hO : ∀ a, val (o a) = .fin (vo a)) (hD : ∀ a, val (d a) = .fin (vd a)) (hZ : ∀ a, val (g.size a) = .fin (vz a))
    (ho : ∀ a, |vo a| ≤ 3 * B) (hz : ∀ a, |vz a| ≤ 3 * B) (hd3 : ∀ a, |vd a| ≤ 3) (hzS : ∀ a, |vz a - Sz a| ≤ 4 * (u * B)) (hκ : 60 * (u * B) < κ)
    (k1 : ∀ a, 0 < vd a → κ ≤ vo a + t * vd a) (k2 : ∀ a, vd a < 0 → vo a + t * vd a ≤ Sz a - κ)
    (h : flSlabs A g o d range = some T) : EarlyTime val kept u η t ((κ - 60 * (u * B)) / 3) T := by
  unfold flSlabs at h
  rcases h0 : flSlabAxis A (o 0) (d 0) (g.size 0) (A.zero, range) with _ | ⟨s1, q1⟩
  · rw [h0] at h; cases h
  rw [h0, Option.bind_some] at h
  have a1 := slab_axis_early_fair H S (hO 0) (hD 0) (hZ 0) (ho 0) (hz 0) (hd3 0) (hzS 0) hκ (k1 0) (k2 0)
    ⟨0, 0, H.zero.1, H.zero.2, by rw [sub_self, abs_zero, mul_zero, zero_add]; exact S.η_nonneg, le_rfl, .inl rfl⟩ h0
  rcases h1 : flSlabAxis A (o 1) (d 1) (g.size 1) (s1, q1) with _ | ⟨s2, q2⟩
  · rw [h1] at h; cases h
  rw [h1, Option.bind_some] at h
  have a2 := slab_axis_early_fair H S (hO 1) (hD 1) (hZ 1) (ho 1) (hz 1) (hd3 1) (hzS 1) hκ (k1 1) (k2 1) a1 h1
  rcases h2 : flSlabAxis A (o 2) (d 2) (g.size 2) (s2, q2) with _ | ⟨s3, q3⟩
  · rw [h2] at h; cases h
  rw [h2, Option.map_some] at h
  have a3 := slab_axis_early_fair H S (hO 2) (hD 2) (hZ 2) (ho 2) (hz 2) (hd3 2) (hzS 2) hκ (k1 2) (k2 2) a2 h2
  cases h
  exact a3

/-! ### The entry -/

/-- The entry lies before `t`. -/
theorem entry_value (H : AccurateArith A sqrt val kept u η M) (S : Room u η M e B) (htiny : TinyGiven A val) {t k : ℚ} {m : F} (hm : EarlyTime val kept u η t k m)
    (ht : t ≤ 14 * B) (hk : 40 * (u * B) + 2 / 10 ^ 10 ≤ k) (ht0 : 40 * (u * B) + 2 / 10 ^ 10 ≤ t) :
    ∃ T, val (A.add m A.tiny) = .fin T ∧ 0 ≤ T ∧ T < t := by
  have hB := S.B_pos; have hu := S.u_nonneg; have hu1 := S.u_le; have hηt := S.η_tiny; have hηB := S.η_B; have hη0 := S.η_nonneg
  have hM1 := S.M_one; have hMB := S.M_B
  have huB := mul_pos S.u_pos hB
  have huB1 := mul_le_mul_of_nonneg_right hu1 hB.le
  obtain ⟨vm, km, m1, -, m3, m4, m5⟩ := hm
  obtain ⟨τ, τ1, τ2⟩ := htiny
  obtain ⟨b, b1, b2⟩ := H.store _ _ τ1 (by norm_num at hM1; linarith)
  obtain ⟨b', b3, b4⟩ := H.tiny
  rw [b1] at b3
  cases b3
  have b5 := abs_le.1 b4
  norm_num at b5 hηt hM1 hMB hk ht0 ⊢
  have b2' := abs_le.1 b2
  have hut := mul_le_mul_of_nonneg_right hu1 (abs_nonneg τ)
  have hτ0 : 0 < τ := by
    by_contra hc
    push Not at hc
    rw [abs_of_nonpos hc] at b2' hut
    linarith
  rw [abs_of_pos hτ0] at b2' hut
  have hτ1 : 98 / 10 ^ 12 ≤ τ := by norm_num; linarith
  have hτ2 : τ ≤ 102 / 10 ^ 12 := by norm_num; linarith
  norm_num at hτ1 hτ2
  have hkm : km ≤ 14 * B := by
    rcases m5 with h | h
    · rw [h]; linarith
    · linarith
  have hum := mul_le_mul_of_nonneg_right hu1 (abs_nonneg vm)
  have hvm : |vm| ≤ 141 / 10 * B := by
    have h1 := abs_sub_abs_le_abs_sub vm km
    rw [abs_sub_comm] at m3
    rw [abs_of_nonneg m4] at h1
    linarith
  have hum2 := mul_le_mul_of_nonneg_left hvm hu
  obtain ⟨T, T1, T2, T3⟩ := H.add _ _ _ _ m1 τ1 (by rw [abs_of_pos hτ0]; linarith)
  rw [abs_of_pos hτ0] at T2
  have T2' := abs_le.1 T2
  have m3' := abs_le.1 m3
  refine ⟨T, T1, ?_, ?_⟩
  · rcases le_total 0 vm with h | h
    · exact T3 h hτ0.le
    · rw [abs_of_nonpos h] at T2' m3' hum
      linarith
  · rcases m5 with h | h <;> linarith

/-- Plain numbers: the start. -/
theorem start_number {u η B vo d T b y : ℚ} (hu : 0 ≤ u) (hu1 : 9000 * u ≤ 1) (hηB : η ≤ u * B) (hB : 0 < B)
    (ho : |vo| ≤ 2 * B) (hdT : |d * T| ≤ 101 / 10 * B)
    (hb : |b - d * T| ≤ u * |d * T| + η) (hy : |y - (vo + b)| ≤ u * (|vo| + |b|) + η) : |y - (vo + d * T)| ≤ 25 * (u * B) ∧ |y| ≤ 13 * B := by
  have huB1 := mul_le_mul_of_nonneg_right hu1 hB.le
  have h1 := mul_le_mul_of_nonneg_left hdT hu
  have huB := mul_nonneg hu hB.le
  have hb' : |b| ≤ 102 / 10 * B := (near_bound hb hdT).trans (by linarith)
  have h2 := mul_le_mul_of_nonneg_left (show |vo| + |b| ≤ 122 / 10 * B by linarith) hu
  have h3 : |y - (vo + d * T)| ≤ 25 * (u * B) := by
    rw [show y - (vo + d * T) = (y - (vo + b)) + (b - d * T) by ring]
    have := abs_add_le (y - (vo + b)) (b - d * T)
    linarith
  refine ⟨h3, (near_bound h3 (abs_add_le _ _)).trans (by linarith)⟩

end

end VGT
