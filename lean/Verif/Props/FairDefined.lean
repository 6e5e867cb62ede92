import Verif.Spec.FairIndex
import Verif.Props.AccurateAll
import Verif.Props.Anywhere

/-!
C88: voxelization without IEEE arithmetic has a result.
-/
set_option autoImplicit false

namespace VGT
open VGT.EDT VGT.Spec VGT.Par

section
variable {F : Type} {A : Arith F} {sqrt : F → F} {val kept : F → Fl} {u η M e B ν L : ℚ} {g : RayGrid F} {c : Camera3} {x : Fin 3 → ℚ}
  {o p : Fin 3 → F} {vo vp : Fin 3 → ℚ} {l l' : ℚ}

/-! ### Indices -/

theorem index_number {Y e u η K v q z b : ℚ} (he : 0 < e) (hY : 0 ≤ Y) (hu : 0 ≤ u) (hu1 : 9000 * u ≤ 1) (hη : η ≤ 1 / 10 ^ 13) (hv : |v * e - 1| ≤ 4 * u) (hq : |q| ≤ Y)
    (hz : |z - q * v| ≤ u * |q * v| + η) (hb : |b - z| ≤ u * |z| + η) (hK : 101 / 100 * (Y / e) + 2 ≤ K) :
    |q * v| ≤ K ∧ |z| ≤ K ∧ |b| + 1 ≤ K := by
  have hQ : 0 ≤ Y / e := by positivity
  have h1 : |v| * e ≤ 1001 / 1000 := by
    have := abs_sub_abs_le_abs_sub (v * e) 1
    rw [abs_mul, abs_of_pos he, abs_one] at this
    linarith
  have h2 : |q * v| ≤ 1001 / 1000 * (Y / e) := by
    rw [abs_mul]
    have h3 : |v| ≤ 1001 / 1000 / e := by rwa [le_div_iff₀ he]
    calc |q| * |v| ≤ Y * (1001 / 1000 / e) := mul_le_mul hq h3 (abs_nonneg _) hY
      _ = _ := by ring
  have h4 := mul_le_mul_of_nonneg_right hu1 (abs_nonneg (q * v))
  have h5 := near_bound hz h2
  have h6 : |z| ≤ 1002 / 1000 * (Y / e) + 1 / 10 ^ 13 := by linarith
  have h7 := mul_le_mul_of_nonneg_right hu1 (abs_nonneg z)
  have h8 := near_bound hb h6
  norm_num at hη h6 h8
  refine ⟨by linarith, by linarith, by linarith⟩

theorem index_exists (H : AccurateArith A sqrt val kept u η M) (S : Room u η M e B) (G : GridGiven val u e B g) (I : FairIndex A sqrt val kept L)
    {q : Fin 3 → F} {vq : Fin 3 → ℚ} {Y K : ℚ} (hq : ∀ a, val (q a) = .fin (vq a)) (hY : ∀ a, |vq a| ≤ Y) (hYM : Y ≤ M)
    (hK : 101 / 100 * (Y / e) + 2 ≤ K) (hKL : K ≤ L) (hLM : L ≤ M) : ∃ i, flIndex A g q = some i ∧ ∀ a, |(i a : ℚ)| ≤ K := by
  obtain ⟨v, hv, hv'⟩ := G.inv
  have he := S.e_pos
  have hY0 : 0 ≤ Y := (abs_nonneg _).trans (hY 0)
  have key : ∀ a, ∃ i, A.toInt (A.mul (q a) g.inv) = some i ∧ |(i : ℚ)| ≤ K := fun a => by
    have hvM : |v| ≤ M := by
      have h1 : |v| * e ≤ 2 := by
        have := abs_sub_abs_le_abs_sub (v * e) 1
        rw [abs_mul, abs_of_pos he, abs_one] at this
        linarith [S.u_le]
      have h2 : |v| ≤ 2 / e := by rwa [le_div_iff₀ he]
      exact h2.trans S.M_inv.2
    have n1 := index_number (z := vq a * v) (b := vq a * v) he hY0 S.u_nonneg S.u_le S.η_tiny hv' (hY a)
      (by rw [sub_self, abs_zero]; exact add_nonneg (mul_nonneg S.u_nonneg (abs_nonneg _)) S.η_nonneg)
      (by rw [sub_self, abs_zero]; exact add_nonneg (mul_nonneg S.u_nonneg (abs_nonneg _)) S.η_nonneg) hK
    obtain ⟨z, z1, z2, -⟩ := H.mul _ _ _ _ (hq a) hv ((hY a).trans hYM) hvM (by linarith [n1.1])
    have n2 := index_number (b := z) he hY0 S.u_nonneg S.u_le S.η_tiny hv' (hY a) z2
      (by rw [sub_self, abs_zero]; exact add_nonneg (mul_nonneg S.u_nonneg (abs_nonneg _)) S.η_nonneg) hK
    obtain ⟨b, b1, b2⟩ := H.store _ _ z1 (by linarith [n2.2.1])
    have n3 := index_number he hY0 S.u_nonneg S.u_le S.η_tiny hv' (hY a) z2 b2 hK
    obtain ⟨i, hi⟩ := Option.isSome_iff_exists.1 (I.toInt _ _ b1 (by linarith [n3.2.2]))
    obtain ⟨b', k1, k2⟩ := H.toInt _ _ hi
    rw [b1] at k1
    cases k1
    refine ⟨i, hi, ?_⟩
    have f1 := Int.floor_le b
    have f2 := Int.lt_floor_add_one b
    rw [k2] at f1 f2
    have := abs_le.1 (le_refl |b|)
    rw [abs_le]
    constructor <;> linarith [n3.2.2]
  choose i h1 h2 using key
  exact ⟨i, axes3_some.2 h1, h2⟩

/-! ### The end of a ray -/

theorem final_defined (H : AccurateArith A sqrt val kept u η M) (S : Room u η M e B) (I : FairIndex A sqrt val kept L)
    (R : FairRay A sqrt val kept u B c x o p vo vp l l') {range : F}
    (hr : (c.range = .pinf ∧ kept range = .pinf) ∨ ∃ r r', c.range = .fin r ∧ kept range = .fin r' ∧ 0 < r ∧ 0 ≤ r' ∧ |r' - r| ≤ u * r + η)
    (hst : kept range = val range) :
    ∃ ve : Fin 3 → ℚ, ∀ a, val (flFinalPoint A o p (flLength A sqrt o p) range a) = .fin (ve a) ∧ |ve a| ≤ 14 * B := by
  have hu := S.u_nonneg; have hu1 := S.u_le; have hB := S.B_pos; have hηB := S.η_B; have hηt := S.η_tiny
  obtain ⟨hM1, hM2⟩ := S.M_ten
  have huB1 := mul_le_mul_of_nonneg_right hu1 hB.le
  have hll : l' = l := by
    have h1 := R.stored
    have h2 := R.length
    unfold flLength at h1 h2
    dsimp only at h1 h2
    rw [I.root, h2] at h1
    exact (Fl.fin.inj h1).symm
  unfold flFinalPoint
  by_cases hclip : flClipped A (flLength A sqrt o p) range = true
  · rw [if_pos hclip]
    unfold flClipped at hclip
    rw [H.lt, R.stored] at hclip
    rcases hr with ⟨-, hk⟩ | ⟨r, r', -, hk, -, hr0, -⟩
    · rw [hk] at hclip; cases hclip
    · have hlt : r' < l := by
        rw [hk, hll] at hclip
        simpa [Fl.lt] using hclip
      have hl0 : 0 < l := lt_of_le_of_lt hr0 hlt
      have hq : |r' / l| ≤ 1 := by
        rw [abs_of_nonneg (div_nonneg hr0 hl0.le), div_le_one hl0]
        exact hlt.le
      have hlM : |l| ≤ M := by rw [abs_of_pos hl0]; linarith [R.l_le]
      obtain ⟨s, s1, s2⟩ := H.div _ _ _ _ (hst.symm.trans hk) R.length hl0.ne' (by rw [abs_of_nonneg hr0]; linarith [R.l_le]) hlM (by linarith)
      have s3 : |s| ≤ 101 / 100 := by
        have k := mul_le_mul_of_nonneg_right hu1 (abs_nonneg (r' / l))
        have := near_bound s2 hq
        norm_num at hηt
        linarith
      have key : ∀ a, ∃ z, val (A.add (o a) (A.mul (A.sub (p a) (o a)) (A.div range (flLength A sqrt o p)))) = .fin z ∧ |z| ≤ 14 * B := fun a => by
        have hb : |vp a| + |vo a| ≤ 10 * B := by linarith [R.p_le a, R.o_le a]
        obtain ⟨d, d1, d2⟩ := H.sub _ _ _ _ (R.val_p a) (R.val_o a) (by linarith)
        have k1 := mul_le_mul_of_nonneg_left hb hu
        have d3 : |d| ≤ 101 / 10 * B := (near_bound d2 ((abs_sub _ _).trans hb)).trans (by linarith)
        have d4 : |d * s| ≤ 103 / 10 * B := by
          rw [abs_mul]
          have := mul_le_mul d3 s3 (abs_nonneg _) (by linarith)
          linarith
        obtain ⟨m, m1, m2, -⟩ := H.mul _ _ _ _ d1 s1 (by linarith) (by linarith) (by linarith)
        have k2 := mul_le_mul_of_nonneg_right hu1 (abs_nonneg (d * s))
        have m3 : |m| ≤ 21 / 2 * B := (near_bound m2 d4).trans (by linarith)
        have hsum : |vo a| + |m| ≤ 25 / 2 * B := by linarith [R.o_le a]
        obtain ⟨z, z1, z2, -⟩ := H.add _ _ _ _ (R.val_o a) m1 (by linarith)
        have k3 := mul_le_mul_of_nonneg_left hsum hu
        exact ⟨z, z1, (near_bound z2 ((abs_add_le _ _).trans hsum)).trans (by linarith)⟩
      choose z h1 h2 using key
      exact ⟨z, fun a => ⟨h1 a, h2 a⟩⟩
  · rw [if_neg hclip]
    exact ⟨vp, fun a => ⟨R.val_p a, by linarith [R.p_le a]⟩⟩

/-! ### The slab test -/

/-- The time at which a face is passed. -/
theorem time_value (H : AccurateArith A sqrt val kept u η M) (S : Room u η M e B) {X Y D : F} {a b d m : ℚ} (hX : val X = .fin a) (hY : val Y = .fin b)
    (hD : val D = .fin d) (ha : |a| ≤ 3 * B) (hb : |b| ≤ 3 * B) (hm : 9 / 10 ^ 11 ≤ m) (hm1 : m ≤ 1) (hd : m ≤ |d|) (hd3 : |d| ≤ 3) :
    ∃ w v t k, val (A.mul (A.sub X Y) (A.div A.one D)) = .fin t ∧ kept (A.mul (A.sub X Y) (A.div A.one D)) = .fin k ∧
      |w - (a - b)| ≤ 7 * (u * B) ∧ |v - 1 / d| ≤ u * |1 / d| + η ∧ |t - w * v| ≤ u * |w * v| + η ∧ |k - t| ≤ u * |t| + η ∧
      |t| ≤ 61 / 10 * (B / m) := by
  have hB := S.B_pos; have hu := S.u_nonneg; have hu1 := S.u_le; have hηB := S.η_B; have hηt := S.η_tiny
  have hMB := S.M_B; have hM1 := S.M_one
  have huB1 := mul_le_mul_of_nonneg_right hu1 hB.le
  have huB := mul_nonneg hu hB.le
  have hm0 : 0 < m := lt_of_lt_of_le (by norm_num) hm
  have hi1 : 1 ≤ 1 / m := by rw [le_div_iff₀ hm0]; linarith
  have hi2 : 1 / m ≤ 12 * 10 ^ 9 := by
    rw [div_le_iff₀ hm0]
    norm_num at hm ⊢
    linarith
  have hQ : B / m = B * (1 / m) := by ring
  have hQ1 : B ≤ B / m := by rw [hQ]; nlinarith
  have hQ2 : B / m ≤ 12 * 10 ^ 9 * B := by rw [hQ]; nlinarith
  obtain ⟨w, w1, w2⟩ := H.sub _ _ _ _ hX hY (by linarith)
  have w3 : |w - (a - b)| ≤ 7 * (u * B) := by
    have k := mul_le_mul_of_nonneg_left (show |a| + |b| ≤ 6 * B by linarith) hu
    linarith
  have w4 : |w| ≤ 601 / 100 * B := by
    have k2 : |a - b| ≤ 6 * B := (abs_sub a b).trans (by linarith)
    have := near_bound w3 k2
    linarith
  have hd0 : 0 < |d| := lt_of_lt_of_le hm0 hd
  have hi : |1 / d| ≤ 1 / m := by
    rw [abs_div, abs_one]
    exact one_div_le_one_div_of_le hm0 hd
  obtain ⟨v, v1, v2⟩ := H.div _ _ _ _ H.one hD (abs_pos.1 hd0) (by rw [abs_one]; linarith) (by linarith) (by linarith)
  have v3 : |v| ≤ 1001 / 1000 * (1 / m) := by
    have k := mul_le_mul_of_nonneg_right hu1 (abs_nonneg (1 / d))
    have := near_bound v2 hi
    norm_num at hηt
    linarith
  have hwv : |w * v| ≤ 602 / 100 * (B / m) := by
    rw [abs_mul, hQ]
    have := mul_le_mul w4 v3 (abs_nonneg _) (by linarith)
    have k : 0 ≤ B * (1 / m) := by positivity
    linarith
  obtain ⟨t, t1, t2, -⟩ := H.mul _ _ _ _ w1 v1 (by linarith) (by linarith) (by linarith)
  have t3 : |t| ≤ 61 / 10 * (B / m) := by
    have k := mul_le_mul_of_nonneg_right hu1 (abs_nonneg (w * v))
    have := near_bound t2 hwv
    linarith
  obtain ⟨k, k1, k2⟩ := H.store _ _ t1 (by linarith)
  exact ⟨w, v, t, k, t1, k1, w3, v2, t2, k2, t3⟩

/-- Signs of times. -/
theorem time_sign {u η B w v t k d y : ℚ} (hu : 0 < u) (hu1 : 9000 * u ≤ 1) (hη0 : 0 ≤ η) (hη : η ≤ 1 / 10 ^ 13) (hηB : η ≤ u * B) (hd : |d| ≤ 3) (hd0 : d ≠ 0)
    (hw : |w - y| ≤ 7 * (u * B)) (hv : |v - 1 / d| ≤ u * |1 / d| + η) (ht : |t - w * v| ≤ u * |w * v| + η) (hk : |k - t| ≤ u * |t| + η)
    (hy : (y ≤ -(300 * (u * B)) ∧ 0 < d) ∨ (300 * (u * B) ≤ y ∧ d < 0)) : k ≤ η := by
  have huB : 0 ≤ u * B := hη0.trans hηB
  have hi : 1 / 3 ≤ |1 / d| := by
    rw [abs_div, abs_one]
    exact one_div_le_one_div_of_le (abs_pos.2 hd0) hd
  have hv' := abs_le.1 hv
  have hw' := abs_le.1 hw
  have hu2 := mul_le_mul_of_nonneg_right hu1 (abs_nonneg (1 / d))
  have hneg : w * v ≤ -(30 * (u * B)) := by
    rcases hy with ⟨h1, h2⟩ | ⟨h1, h2⟩
    · have hdp : 0 < 1 / d := by positivity
      rw [abs_of_pos hdp] at hi hv' hu2
      have hv1 : 3 / 10 ≤ v := by norm_num at hη; linarith [hv'.1]
      have hw1 : w ≤ -(200 * (u * B)) := by linarith [hw'.2]
      nlinarith
    · have hdp : 1 / d < 0 := div_neg_of_pos_of_neg one_pos h2
      rw [abs_of_neg hdp] at hi hv' hu2
      have hv1 : v ≤ -(3 / 10) := by norm_num at hη; linarith [hv'.2]
      have hw1 : 200 * (u * B) ≤ w := by linarith [hw'.1]
      nlinarith
  have h0 : w * v ≤ 0 := by linarith
  rw [abs_of_nonpos h0] at ht
  have ht' := (abs_le.1 ht).2
  have h3 : 9000 * (u * -(w * v)) ≤ -(w * v) := by
    have := mul_le_mul_of_nonneg_right hu1 (show 0 ≤ -(w * v) by linarith)
    linarith
  have t0 : t ≤ 0 := by linarith
  rw [abs_of_nonpos t0] at hk
  have h4 : 9000 * (u * -t) ≤ -t := by
    have := mul_le_mul_of_nonneg_right hu1 (show 0 ≤ -t by linarith)
    linarith
  have := (abs_le.1 hk).2
  linarith

/-- A time that is not too large. -/
def TimeWithin (val kept : F → Fl) (T : ℚ) (m : F) : Prop := ∃ vm km, val m = .fin vm ∧ kept m = .fin km ∧ |vm| ≤ T ∧ 0 ≤ km

/-- One axis of the slab test: the start time stays finite and below `32/5 B / ν`. -/
theorem slab_axis_value (H : AccurateArith A sqrt val kept u η M) (S : Room u η M e B) (N : IndexRoom ν e B L M) {O D Z m q : F} {vo vd vz : ℚ}
    {st' : F × F} (hO : val O = .fin vo) (hD : val D = .fin vd) (hZ : val Z = .fin vz) (ho : |vo| ≤ 3 * B) (hz : |vz| ≤ 3 * B) (hd3 : |vd| ≤ 3)
    (hcase : (300 * (u * B) ≤ vo ∧ vo + 300 * (u * B) ≤ vz) ∨ ν ≤ |vd| ∨ ν ≤ 9 / 10 ^ 11) (hm : TimeWithin val kept (32 / 5 * (B / ν)) m)
    (h : flSlabAxis A O D Z (m, q) = some st') : TimeWithin val kept (32 / 5 * (B / ν)) st'.1 := by
  have hB := S.B_pos; have hu1 := S.u_le; have hηt := S.η_tiny
  have hν0 : 0 < ν := lt_of_lt_of_le (by norm_num) N.ν_ge
  have hQB : B ≤ B / ν := by
    rw [le_div_iff₀ hν0]
    have := mul_le_of_le_one_right hB.le N.ν_le
    linarith
  have huB := mul_pos S.u_pos hB
  have huB1 := mul_le_mul_of_nonneg_right hu1 hB.le
  unfold flSlabAxis at h
  rcases flat_fair H S hD hd3 with ⟨f1, -⟩ | ⟨f1, f2⟩
  · rw [if_pos f1] at h
    split_ifs at h
    cases h
    exact hm
  · rw [if_neg (by simp [f1])] at h
    obtain ⟨μ, h9, h91, f3, e9⟩ : ∃ μ : ℚ, 9 / 10 ^ 11 ≤ μ ∧ μ ≤ 1 ∧ μ ≤ |vd| ∧ (ν ≤ |vd| ∨ ν ≤ 9 / 10 ^ 11 → μ = ν) := by
      by_cases hs : ν ≤ |vd|
      · exact ⟨ν, N.ν_ge, N.ν_le, hs, fun _ => rfl⟩
      · exact ⟨9 / 10 ^ 11, le_rfl, by norm_num, f2, fun h => le_antisymm N.ν_ge (h.resolve_left hs)⟩
    obtain ⟨w, v, tl, kl, a1, a2, a3, a4, a5, a6, a7⟩ := time_value H S H.zero.1 hO hD (by rw [abs_zero]; linarith) ho h9 h91 f3 hd3
    obtain ⟨w', v', th, kh, b1, b2, b3, b4, b5, b6, b7⟩ := time_value H S hZ hO hD hz ho h9 h91 f3 hd3
    dsimp only at h
    generalize A.mul (A.sub A.zero O) (A.div A.one D) = Lo at a1 a2 h
    generalize A.mul (A.sub Z O) (A.div A.one D) = Hi at b1 b2 h
    -- the smaller of the two times
    have hvd0 : vd ≠ 0 := by
      intro h0
      rw [h0, abs_zero] at f2
      norm_num at f2
    have small : ∀ (k t : ℚ), |k - t| ≤ u * |t| + η → 0 ≤ k → (|t| ≤ 61 / 10 * (B / ν) ∨ k ≤ η) → |t| ≤ 32 / 5 * (B / ν) := by
      intro k t hk hk0 hor
      rcases hor with h1 | h1
      · linarith
      · have k1 := abs_sub_abs_le_abs_sub t k
        rw [abs_sub_comm] at hk
        rw [abs_of_nonneg hk0] at k1
        have k2 := mul_le_mul_of_nonneg_right hu1 (abs_nonneg t)
        linarith [S.η_B]
    have hmin : ∀ T1, T1 = (if A.le Lo Hi = true then Lo else Hi) → ∃ t k, val T1 = .fin t ∧ kept T1 = .fin k ∧ (0 ≤ k → |t| ≤ 32 / 5 * (B / ν)) := by
      intro T1 hT1
      have hle : A.le Lo Hi = decide (kl ≤ kh) := by rw [H.le, a2, b2]; rfl
      have hmin2 : ∀ k, k = min kl kh → (|tl| ≤ 61 / 10 * (B / ν) ∧ |th| ≤ 61 / 10 * (B / ν)) ∨ k ≤ η := by
        intro k hk
        rcases hcase with ⟨c1, c2⟩ | c1
        · right
          rcases lt_or_gt_of_ne hvd0 with hneg | hpos
          · have := time_sign S.u_pos hu1 S.η_nonneg hηt S.η_B hd3 hvd0 b3 b4 b5 b6 (.inr ⟨by linarith, hneg⟩)
            rw [hk]
            exact (min_le_right _ _).trans this
          · have := time_sign S.u_pos hu1 S.η_nonneg hηt S.η_B hd3 hvd0 a3 a4 a5 a6 (.inl ⟨by linarith, hpos⟩)
            rw [hk]
            exact (min_le_left _ _).trans this
        · left
          rw [e9 c1] at a7 b7
          exact ⟨a7, b7⟩
      by_cases hc : kl ≤ kh
      · rw [if_pos (by simpa [hle] using hc)] at hT1
        subst hT1
        refine ⟨tl, kl, a1, a2, fun h0 => small kl tl a6 h0 ?_⟩
        rcases hmin2 kl (min_eq_left hc).symm with ⟨h1, -⟩ | h1
        · exact .inl h1
        · exact .inr h1
      · rw [if_neg (by simpa [hle] using hc)] at hT1
        subst hT1
        refine ⟨th, kh, b1, b2, fun h0 => small kh th b6 h0 ?_⟩
        rcases hmin2 kh (min_eq_right (not_le.1 hc).le).symm with ⟨-, h1⟩ | h1
        · exact .inl h1
        · exact .inr h1
    obtain ⟨vm, km, m1, m2, m3, m4⟩ := hm
    obtain ⟨t, k, t1, t2, t3⟩ := hmin _ rfl
    have hnew : TimeWithin val kept (32 / 5 * (B / ν))
        (if A.lt m (if A.le Lo Hi = true then Lo else Hi) = true then (if A.le Lo Hi = true then Lo else Hi) else m) := by
      by_cases hlt : A.lt m (if A.le Lo Hi = true then Lo else Hi) = true
      · rw [if_pos hlt]
        rw [H.lt, m2, t2] at hlt
        have : km < k := by simpa [Fl.lt] using hlt
        exact ⟨t, k, t1, t2, t3 (by linarith), by linarith⟩
      · rw [if_neg hlt]
        exact ⟨vm, km, m1, m2, m3, m4⟩
    split_ifs at h <;> cases h <;> simp_all

/-- The slab test. -/
theorem slabs_value (H : AccurateArith A sqrt val kept u η M) (S : Room u η M e B) (N : IndexRoom ν e B L M) {d : Fin 3 → F} {vd vz : Fin 3 → ℚ}
    {range t : F} (hO : ∀ a, val (o a) = .fin (vo a)) (hD : ∀ a, val (d a) = .fin (vd a)) (hZ : ∀ a, val (g.size a) = .fin (vz a))
    (ho : ∀ a, |vo a| ≤ 3 * B) (hz : ∀ a, |vz a| ≤ 3 * B) (hd3 : ∀ a, |vd a| ≤ 3)
    (hcase : ∀ a, (300 * (u * B) ≤ vo a ∧ vo a + 300 * (u * B) ≤ vz a) ∨ ν ≤ |vd a| ∨ ν ≤ 9 / 10 ^ 11)
    (h : flSlabs A g o d range = some t) : TimeWithin val kept (32 / 5 * (B / ν)) t := by
  have hν : 0 < ν := lt_of_lt_of_le (by norm_num) N.ν_ge
  have hB := S.B_pos
  have hT : 0 ≤ 32 / 5 * (B / ν) := by positivity
  unfold flSlabs at h
  rcases h0 : flSlabAxis A (o 0) (d 0) (g.size 0) (A.zero, range) with _ | ⟨s1, q1⟩
  · rw [h0] at h; cases h
  rw [h0, Option.bind_some] at h
  have a1 := slab_axis_value H S N (hO 0) (hD 0) (hZ 0) (ho 0) (hz 0) (hd3 0) (hcase 0) ⟨0, 0, H.zero.1, H.zero.2, by rwa [abs_zero], le_rfl⟩ h0
  rcases h1 : flSlabAxis A (o 1) (d 1) (g.size 1) (s1, q1) with _ | ⟨s2, q2⟩
  · rw [h1] at h; cases h
  rw [h1, Option.bind_some] at h
  have a2 := slab_axis_value H S N (hO 1) (hD 1) (hZ 1) (ho 1) (hz 1) (hd3 1) (hcase 1) a1 h1
  rcases h2 : flSlabAxis A (o 2) (d 2) (g.size 2) (s2, q2) with _ | ⟨s3, q3⟩
  · rw [h2] at h; cases h
  rw [h2, Option.map_some] at h
  have a3 := slab_axis_value H S N (hO 2) (hD 2) (hZ 2) (ho 2) (hz 2) (hd3 2) (hcase 2) a2 h2
  cases h
  exact a3

/-- The start of a ray from outside. -/
theorem start_value (H : AccurateArith A sqrt val kept u η M) (S : Room u η M e B) (I : FairIndex A sqrt val kept L) (N : IndexRoom ν e B L M)
    {O D t : F} {vo vd : ℚ} (hO : val O = .fin vo) (hD : val D = .fin vd) (ho : |vo| ≤ 2 * B) (hd3 : |vd| ≤ 3)
    (ht : TimeWithin val kept (32 / 5 * (B / ν)) t) :
    ∃ y, val (A.add O (A.mul D (A.add t A.tiny))) = .fin y ∧ |y| ≤ 25 * (B / ν) + 1 / 10 ^ 8 := by
  have hB := S.B_pos; have hu := S.u_nonneg; have hu1 := S.u_le; have hηt := S.η_tiny
  have hMB := S.M_B; have hM1 := S.M_one
  have hν0 : 0 < ν := lt_of_lt_of_le (by norm_num) N.ν_ge
  have hQ1 : B ≤ B / ν := by
    rw [le_div_iff₀ hν0]
    have := mul_le_of_le_one_right hB.le N.ν_le
    linarith
  have hQ2 : B / ν ≤ 12 * 10 ^ 9 * B := by
    rw [div_le_iff₀ hν0]
    have h1 := mul_le_mul_of_nonneg_right N.ν_ge hB.le
    norm_num at h1 ⊢
    linarith
  obtain ⟨vm, km, m1, -, m3, -⟩ := ht
  obtain ⟨τ, τ1, τ2⟩ := I.tiny
  generalize B / ν = Q at *
  norm_num at τ2 hηt hMB hM1 hQ2
  have k1 : |vm| + |τ| ≤ 32 / 5 * Q + 1 / 1000000000 := by linarith
  obtain ⟨a, a1, a2, -⟩ := H.add _ _ _ _ m1 τ1 (by linarith)
  have k2 := mul_le_mul_of_nonneg_left k1 hu
  have k3 : u * Q * 9000 ≤ Q := by
    have := mul_le_mul_of_nonneg_right hu1 (show 0 ≤ Q by linarith)
    linarith
  have a3 : |a| ≤ 641 / 100 * Q + 2 / 1000000000 := (near_bound a2 ((abs_add_le _ _).trans k1)).trans (by linarith)
  have k4 : |vd * a| ≤ 3 * (641 / 100 * Q + 2 / 1000000000) := by
    rw [abs_mul]
    exact mul_le_mul hd3 a3 (abs_nonneg _) (by norm_num)
  obtain ⟨b, b1, b2, -⟩ := H.mul _ _ _ _ hD a1 (by linarith) (by linarith) (by linarith)
  have k5 := mul_le_mul_of_nonneg_left k4 hu
  have b3 : |b| ≤ 194 / 10 * Q + 7 / 1000000000 := (near_bound b2 k4).trans (by linarith)
  have k6 : |vo| + |b| ≤ 214 / 10 * Q + 7 / 1000000000 := by linarith
  obtain ⟨y, y1, y2, -⟩ := H.add _ _ _ _ hO b1 (by linarith)
  have k7 := mul_le_mul_of_nonneg_left k6 hu
  refine ⟨y, y1, ?_⟩
  have := near_bound y2 ((abs_add_le _ _).trans k6)
  norm_num
  linarith

/-! ### One ray -/

/-- The ray does not leave the sensor too flat, along axis `a`. -/
theorem dir_value (H : AccurateArith A sqrt val kept u η M) (S : Room u η M e B) (hν : 9 / 10 ^ 11 ≤ ν) (hν1 : ν ≤ 1)
    (R : FairRay A sqrt val kept u B c x o p vo vp l l') (hapart : Apart (1000 * (u * B)) c.sensor (c.place x)) (a : Fin 3) :
    ∃ v, val (A.div (A.sub (p a) (o a)) (flLength A sqrt o p)) = .fin v ∧ |v| ≤ 3 ∧
      (GetsOn ν (1000 * (u * B)) a c.sensor (c.place x) → ν ≤ |v|) := by
  have hu := S.u_nonneg; have hu1 := S.u_le
  have huB := mul_pos S.u_pos S.B_pos
  have hB := S.B_pos
  have huB1 := mul_le_mul_of_nonneg_right hu1 hB.le
  have hηB := S.η_B; have hηt := S.η_tiny
  have hν0 : 0 < ν := lt_of_lt_of_le (by norm_num) hν
  obtain ⟨hM1, hM2⟩ := S.M_ten
  have hl : 721 * (u * B) ≤ l := by
    have h1 : (1000 * (u * B)) ^ 2 ≤ (l + 279 * (u * B)) ^ 2 := le_trans hapart R.upper
    have h2 := abs_le_of_sq_le (by linarith [R.l_nonneg]) h1
    rw [abs_of_pos (by linarith)] at h2
    linarith
  have hl0 : 0 < l := by linarith
  have hspan : |vp a - vo a| ≤ l + 371 * (u * B) := by
    have d1 := abs_le.1 (abs_le_of_distSq (by linarith [R.l_nonneg]) R.upper a)
    have d2 := abs_le.1 (R.near_o a)
    have d3 := abs_le.1 (R.near_p a)
    rw [abs_le]
    constructor <;> linarith
  have hb : |vp a| + |vo a| ≤ 10 * B := by linarith [R.p_le a, R.o_le a]
  obtain ⟨r, r1, r2⟩ := H.sub _ _ _ _ (R.val_p a) (R.val_o a) (by linarith)
  have k := mul_le_mul_of_nonneg_left hb hu
  have r3 : |r - (vp a - vo a)| ≤ 11 * (u * B) := by linarith
  have r4 : |r| ≤ l + 382 * (u * B) := (near_bound r3 hspan).trans (by linarith)
  have hq : |r / l| ≤ 5 / 2 := by
    rw [abs_div, abs_of_pos hl0, div_le_iff₀ hl0]
    linarith
  obtain ⟨v, v1, v2⟩ := H.div _ _ _ _ r1 R.length hl0.ne' (by linarith [R.l_le]) (by rw [abs_of_pos hl0]; linarith [R.l_le]) (by linarith)
  have kq := mul_le_mul_of_nonneg_right hu1 (abs_nonneg (r / l))
  refine ⟨v, v1, (near_bound v2 hq).trans (by norm_num at hηt ⊢; linarith), fun hon => ?_⟩
  obtain ⟨h2, h3⟩ := hon
  have h6 : |c.place x a - c.sensor a| ≤ |r| + 103 * (u * B) := by
    have k1 := abs_le.1 (R.near_o a)
    have k2 := abs_le.1 (R.near_p a)
    have k3 := abs_le.1 (le_refl |r|)
    have k4 := abs_le.1 r3
    rw [abs_le]
    constructor <;> linarith
  have h7 : 2 * ν * l ≤ |c.place x a - c.sensor a| / 2 + 536 * (u * B) := by
    rcases le_or_gt (|c.place x a - c.sensor a| / (4 * ν)) (14 * B) with h8 | h8
    · have h9 : distSq c.sensor (c.place x) ≤ (|c.place x a - c.sensor a| / (4 * ν)) ^ 2 := by
        rw [div_pow, sq_abs, le_div_iff₀ (by positivity)]
        linarith
      have h10 := R.lower _ (by positivity) h8 h9
      have h11 := mul_le_mul_of_nonneg_left h10 (show 0 ≤ 2 * ν by linarith)
      have h12 : 2 * ν * (|c.place x a - c.sensor a| / (4 * ν) + 268 * (u * B)) = |c.place x a - c.sensor a| / 2 + 536 * (ν * (u * B)) := by
        field_simp
        ring
      have h13 := mul_le_mul_of_nonneg_right hν1 huB.le
      linarith
    · rw [lt_div_iff₀ (by linarith)] at h8
      have h9 := mul_le_mul_of_nonneg_left R.l_le (show 0 ≤ 2 * ν by linarith)
      linarith
  have h14 : 3 / 2 * ν ≤ |r / l| := by
    rw [abs_div, abs_of_pos hl0, le_div_iff₀ hl0]
    linarith
  have h15 := abs_sub_abs_le_abs_sub (r / l) v
  rw [abs_sub_comm] at h15
  norm_num at hηt hν
  linarith

/-- Places that may have to have indices. -/
theorem Spec.IndexRoom.places (S : Room u η M e B) (N : IndexRoom ν e B L M) :
    14 * B ≤ 25 * (B / ν) + 1 / 10 ^ 8 ∧ 25 * (B / ν) + 1 / 10 ^ 8 ≤ M ∧ 101 / 100 * ((25 * (B / ν) + 1 / 10 ^ 8) / e) + 2 ≤ L / 2 := by
  have hB := S.B_pos; have he := S.e_pos
  have hν0 : 0 < ν := lt_of_lt_of_le (by norm_num) N.ν_ge
  have hQ1 : B ≤ B / ν := by
    rw [le_div_iff₀ hν0]
    have := mul_le_of_le_one_right hB.le N.ν_le
    linarith
  have hQ2 : B / ν ≤ 12 * 10 ^ 9 * B := by
    rw [div_le_iff₀ hν0]
    have h1 := mul_le_mul_of_nonneg_right N.ν_ge hB.le
    norm_num at h1 ⊢
    linarith
  have h := N.L_ge
  have hMB := S.M_B; have hM1 := S.M_one
  refine ⟨by norm_num; linarith, by norm_num at *; linarith, ?_⟩
  have h1 : (25 * (B / ν) + 1 / 10 ^ 8) / e * (202 / 100) ≤ (51 * (B / ν) + 1 / 10 ^ 7) / e := by
    rw [div_mul_eq_mul_div]
    refine div_le_div_of_nonneg_right ?_ he.le
    norm_num
    linarith
  linarith

/-- The rays of a camera are defined. -/
theorem ray_defined_fair (H : AccurateArith A sqrt val kept u η M) (S : Room u η M e B) (G : GridGiven val u e B g) (I : FairIndex A sqrt val kept L)
    (N : IndexRoom ν e B L M) (R : FairRay A sqrt val kept u B c x o p vo vp l l') {range : F}
    (hr : (c.range = .pinf ∧ kept range = .pinf) ∨ ∃ r r', c.range = .fin r ∧ kept range = .fin r' ∧ 0 < r ∧ 0 ≤ r' ∧ |r' - r| ≤ u * r + η)
    (hst : kept range = val range)
    (hcase : DeepInGrid (fairTol u B) e (axisCells g.dims) c.sensor ∨ Apart (1000 * (u * B)) c.sensor (c.place x) ∧
      ∀ a, BetweenFaces (fairTol u B) e (axisCells g.dims) a c.sensor ∨ GetsOn ν (1000 * (u * B)) a c.sensor (c.place x) ∨ ν ≤ 9 / 10 ^ 11) :
    (flRaycast A g o p (flLength A sqrt o p) range).isSome := by
  have hB := S.B_pos; have he := S.e_pos
  have huB := mul_pos S.u_pos hB
  have huB1 := mul_le_mul_of_nonneg_right S.u_le hB.le
  obtain ⟨w1, w2, w3⟩ := N.places S
  have hL0 : L / 2 ≤ L := by
    have : 0 ≤ (25 * (B / ν) + 1 / 10 ^ 8) / e := div_nonneg (by linarith) he.le
    linarith
  have hidx : ∀ (q : Fin 3 → F) (vq : Fin 3 → ℚ), (∀ a, val (q a) = .fin (vq a)) → (∀ a, |vq a| ≤ 25 * (B / ν) + 1 / 10 ^ 8) →
      ∃ i, flIndex A g q = some i ∧ ∀ a, |(i a : ℚ)| ≤ L / 2 := fun q vq h1 h2 => index_exists H S G I h1 h2 w2 w3 hL0 N.L_le
  obtain ⟨ve, hve⟩ := final_defined H S I R hr hst
  obtain ⟨f, hf, hfb⟩ := hidx _ _ (fun a => (hve a).1) fun a => (hve a).2.trans w1
  obtain ⟨i, hi, hib⟩ := hidx _ _ R.val_o fun a => by linarith [R.o_le a]
  have hfits : ∀ j : IVec, (∀ a, |(j a : ℚ)| ≤ L / 2) → ∀ a, A.fits (f a - j a) = true := fun j hj a => by
    refine I.fits _ ?_
    push_cast
    have := abs_sub (f a : ℚ) (j a)
    linarith [hfb a, hj a]
  unfold flRaycast
  dsimp only
  unfold flStart
  rw [hi, Option.map_some]
  by_cases hin : inGrid g.dims i = true
  · rw [if_pos hin]
    obtain ⟨ms, h1, -⟩ := flCastFrom_path A g (ray := fun a => A.sub (p a) (o a)) hi hf (hfits i hib)
      (flClipped A (flLength A sqrt o p) range)
    simp only
    rw [h1]
    rfl
  · rw [if_neg hin]
    rcases hs : flSlabs A g o (fun a => A.div (A.sub (p a) (o a)) (flLength A sqrt o p)) range with _ | t
    · rfl
    rcases hcase with hdeep | ⟨hap, hcase⟩
    · exfalso
      refine hin (inGrid_iff.2 fun a => ?_)
      obtain ⟨v, hv, hv'⟩ := G.inv
      obtain ⟨k1, k2⟩ := index_fair H S (R.val_o a) hv hv' (by linarith [R.o_le a]) (axes3_some.1 hi a) rfl
      have d := hdeep a
      unfold fairTol at d
      have d2 := abs_le.1 (R.near_o a)
      constructor
      · have h3 : 0 < ((i a : ℚ) + 1) * e := by linarith
        have h4 : (0 : ℚ) < (i a : ℚ) + 1 := pos_of_mul_pos_left h3 he.le
        have h5 : (0 : ℤ) < i a + 1 := by exact_mod_cast h4
        omega
      · have h3 : (i a : ℚ) * e < axisCells g.dims a * e := by linarith
        have h4 := lt_of_mul_lt_mul_right h3 he.le
        exact_mod_cast h4
    have hdir := fun a => dir_value H S N.ν_ge N.ν_le R hap a
    choose vd d1 d2 d3 using hdir
    choose vz z1 z2 using G.size
    have hsize : ∀ a, |vz a| ≤ 3 * B := fun a => by
      have k1 : |(axisCells g.dims a : ℚ) * e| ≤ B := by
        rw [abs_of_nonneg (mul_nonneg (by positivity) he.le)]
        exact G.extent a
      have := near_bound (z2 a) k1
      linarith
    have ht := slabs_value H S N R.val_o d1 z1 (fun a => by linarith [R.o_le a]) hsize d2 (fun a => by
      rcases hcase a with h1 | h1 | h1
      · left
        obtain ⟨h4, h5⟩ := h1
        unfold fairTol at h4 h5
        have h2 := abs_le.1 (R.near_o a)
        have h3 := abs_le.1 (z2 a)
        constructor <;> linarith
      · exact .inr (.inl (d3 a h1))
      · exact .inr (.inr h1)) hs
    have hst : ∀ a, ∃ y, val (A.add (o a) (A.mul (A.div (A.sub (p a) (o a)) (flLength A sqrt o p)) (A.add t A.tiny))) = .fin y ∧
        |y| ≤ 25 * (B / ν) + 1 / 10 ^ 8 := fun a => start_value H S I N (R.val_o a) (d1 a) (R.o_le a) (d2 a) ht
    choose y y1 y2 using hst
    obtain ⟨j, hj, hjb⟩ := hidx _ _ y1 y2
    obtain ⟨ms, h1, -⟩ := flCastFrom_path A g (ray := fun a => A.sub (p a) (o a)) hj hf (hfits j hjb)
      (flClipped A (flLength A sqrt o p) range)
    simp only [Option.map_some]
    rw [h1]
    rfl

/-! ### Whole voxelizations -/

variable {K : Type} {op : FilterOptions} {pct : ℚ} {t k : ℤ} {output : VoxMap K}

/-- C88, the CPU: with any accurate arithmetic every voxelization has a result, wherever the sensors are within `B`, if there are indices for
places up to `51 · 10^11 / 9` times `B`, and no point is measured at a sensor outside the grid (nearer than `1000 u B`). -/
theorem C88_has_result (H : AccurateArith A sqrt val kept u η M) (S : Room u η M e B) (G : GridGiven val u e B g) (I : FairIndex A sqrt val kept L)
    (N : IndexRoom (9 / 10 ^ 11) e B L M) (hop : FilterOptions.make (.fin pct) t k = some op) {clouds : List (CpuCloud F)} {cams : List Camera3}
    (hlen : ∀ cl ∈ clouds, cl.points.length < 2 ^ 31)
    (hcams : List.Forall₂ (fun cl c => c.Within B ∧ Given val kept u η B c cl.tf cl.range cl.points ∧ kept cl.range = val cl.range) clouds cams)
    (hpts : ∀ c ∈ cams, DeepInGrid (fairTol u B) e (axisCells g.dims) c.sensor ∨
      ∀ x, some x ∈ c.points → Apart (1000 * (u * B)) c.sensor (c.place x)) (hd : output.dims = g.dims) :
    ∃ output', FlVoxelizeRuns A sqrt g op clouds output output' := by
  refine (C74_defined hop hlen hd).2 fun cl hcl => ?_
  obtain ⟨c, hcm, hc, hg, hst⟩ := forall₂_mem' hcams cl hcl
  have hB := S.B_pos
  have he := S.e_pos
  constructor
  · obtain ⟨vo, vp, l, l', R⟩ := cpu_ray_fair H S hc hg (x := fun _ => 0) (fun a => by rw [abs_zero]; exact hB.le) (y := fun _ => A.zero)
      (fun a => ⟨0, H.zero.1, by rw [sub_self, abs_zero]; exact mul_nonneg S.u_nonneg hB.le⟩)
    obtain ⟨w1, w2, w3⟩ := N.places S
    have h0 : 0 ≤ (25 * (B / (9 / 10 ^ 11)) + 1 / 10 ^ 8) / e := div_nonneg (by linarith) he.le
    obtain ⟨i, hi, -⟩ := index_exists H S G I R.val_o (fun a => (R.o_le a).trans (by linarith)) w2 w3 (by linarith) N.L_le
    rw [hi]
    rfl
  · intro y hy
    cases y with
    | none => rfl
    | some y =>
      obtain ⟨x', hx', hyx⟩ := forall₂_mem' hg.points _ hy
      cases x' with
      | none => exact absurd hyx id
      | some x =>
        obtain ⟨vo, vp, l, l', R⟩ := cpu_ray_fair H S hc hg (hc.points x hx') hyx
        refine ray_defined_fair H S G I N R hg.range hst ?_
        rcases hpts c hcm with h1 | h1
        · exact .inl h1
        · exact .inr ⟨h1 x hx', fun a => .inr (.inr le_rfl)⟩

/-- C88, devices: with any accurate arithmetic every voxelization has a result if each sensor is in the grid, or for each of its points, the
point is not at the sensor and along each axis the sensor is between the faces of the grid or the ray is not almost parallel to them.  How near
to parallel, `ν`, depends on how far away things are: there are indices for places up to `51 B / ν`. -/
theorem C88_device_has_result {share : ℤ → ℤ → Fl} {api : DeviceApi} {static : VoxMap K} (H : AccurateArith A sqrt val kept u η M)
    (S : Room u η M e B) (G : GridGiven val u e B g) (I : FairIndex A sqrt val kept L) (N : IndexRoom ν e B L M)
    (hop : FilterOptions.make (.fin pct) t k = some op) {clouds : List (DevCloud F)} {cams : List Camera3} (hh : Helper api clouds)
    (hN : g.dims.total * 2 * numTrackingGrids clouds < 2 ^ 31) (hlen : ∀ cl ∈ clouds, cl.points.length ≤ 2 ^ 24)
    (hcams : List.Forall₂ (fun cl c => c.Within B ∧ Given val kept u η B c cl.tf cl.range cl.points ∧ kept cl.range = val cl.range) clouds cams)
    (hpts : ∀ c ∈ cams, DeepInGrid (fairTol u B) e (axisCells g.dims) c.sensor ∨ ∀ x, some x ∈ c.points →
      Apart (1000 * (u * B)) c.sensor (c.place x) ∧
      ∀ a, BetweenFaces (fairTol u B) e (axisCells g.dims) a c.sensor ∨ GetsOn ν (1000 * (u * B)) a c.sensor (c.place x))
    (hd : static.dims = g.dims) : ∃ output', FastDeviceRuns share api A sqrt g op clouds static output output' := by
  refine fast_defined hop hh hN hlen hd fun cl hcl y hy => ?_
  obtain ⟨c, hcm, hc, hg, hst⟩ := forall₂_mem' hcams cl hcl
  cases y with
  | none => rfl
  | some y =>
    obtain ⟨x', hx', hyx⟩ := forall₂_mem' hg.points _ hy
    cases x' with
    | none => exact absurd hyx id
    | some x =>
      obtain ⟨vo, vp, l, l', R⟩ := dev_ray_fair H S hc hg (hc.points x hx') hyx
      refine ray_defined_fair H S G I N R hg.range hst ?_
      rcases hpts c hcm with h1 | h1
      · exact .inl h1
      · exact .inr ⟨(h1 x hx').1, fun a => ((h1 x hx').2 a).elim .inl fun h => .inr (.inl h)⟩

end

end VGT
