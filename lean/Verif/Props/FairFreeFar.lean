import Verif.Lemmas.FairFar
import Verif.Props.RayReaches

/-!
C89: free cells were looked through in any arithmetic that is right up to a small error, wherever the sensors are.
-/
set_option autoImplicit false

namespace VGT
open VGT.EDT VGT.Spec VGT.Par

section
variable {F : Type} {A : Arith F} {sqrt : F → F} {val kept : F → Fl} {u η M e B s N : ℚ} {g : RayGrid F} {c : Camera3} {x : Fin 3 → ℚ}
  {o p : Fin 3 → F} {vo vp : Fin 3 → ℚ} {l l' : ℚ}

/-! ### The start -/

/-- What is well within the range is not cut. -/
theorem share_le_fair (S : Room u η M e B) (R : FairRay A sqrt val kept u B c x o p vo vp l l') {final : Fin 3 → F} {ve d : Fin 3 → ℚ} {q : ℚ}
    (C : FairCast A val kept u s N B c.range o p final vo vp ve d q l) (hr : c.range = .pinf ∨ ∃ r, c.range = .fin r) {τ tol : ℚ}
    (htol : 400 * (u * B) ≤ tol) (t0 : 0 ≤ τ) (t1 : τ ≤ 1) (t3 : WellWithin tol c.range c.sensor (onSeg c.sensor (c.place x) τ)) : τ ≤ q := by
  have huB := mul_pos S.u_pos S.B_pos
  rcases hr with hcr | ⟨r, hcr⟩
  · rw [C.whole hcr]; exact t1
  · obtain ⟨w1, w2⟩ := t3 r hcr
    refine C.long r τ hcr t0 t1 ?_
    rw [distSq_onSeg] at w2
    rcases t0.eq_or_lt with ht | ht
    · rw [← ht, zero_mul]; linarith
    · set D := (r - tol) / τ with hD
      have hDτ : τ * D = r - tol := by rw [hD]; field_simp
      have hD0 : 0 ≤ D := div_nonneg (by linarith) ht.le
      have hdist : distSq c.sensor (c.place x) ≤ D ^ 2 := by
        rw [hD, div_pow, le_div_iff₀ (by positivity)]
        linarith
      rcases le_or_gt D (14 * B) with h1 | h1
      · have h2 := R.lower D hD0 h1 hdist
        have h3 := mul_le_mul_of_nonneg_left h2 t0
        rw [mul_add, hDτ] at h3
        have h4 := mul_le_mul_of_nonneg_right t1 (show 0 ≤ 268 * (u * B) by positivity)
        linarith
      · have h3 := mul_le_mul_of_nonneg_left (R.l_le.trans h1.le) t0
        linarith

/-- A ray from outside that does not end before the grid is not too short. -/
theorem far_length (H : AccurateArith A sqrt val kept u η M) (S : Room u η M e B) (G : GridGiven val u e B g)
    (R : FairRay A sqrt val kept u B c x o p vo vp l l') {i0 : IVec} (hi0 : flIndex A g o = some i0) (hout : ¬ CellInGrid (axisCells g.dims) i0)
    {σ : ℚ} (h0 : 0 ≤ σ) (h1 : σ ≤ 1) (hnot : NotShort (reachTol u B) e (axisCells g.dims) c.sensor (onSeg c.sensor (c.place x) σ)) :
    2600 * (u * B) + 1 / 10 ^ 9 ≤ σ * l := by
  obtain ⟨v, hv, hv'⟩ := G.inv
  have huB := mul_pos S.u_pos S.B_pos
  have he := S.e_pos
  have : ∃ a, ¬ (0 ≤ i0 a ∧ i0 a < axisCells g.dims a) := by
    by_contra hc
    push Not at hc
    exact hout fun a => by
      have := hc a
      omega
  obtain ⟨a, ha⟩ := this
  obtain ⟨k1, k2⟩ := index_fair H S (R.val_o a) hv hv' ((R.o_le a).trans (by linarith [S.B_pos])) (axes3_some.1 hi0 a) rfl
  have k3 := abs_le.1 (R.near_o a)
  have hspan := abs_le_of_distSq (by linarith [R.l_nonneg]) R.upper a
  have hσ : |σ * (c.place x a - c.sensor a)| ≤ σ * l + 279 * (u * B) := by
    rw [abs_mul, abs_of_nonneg h0]
    have k4 := mul_le_mul_of_nonneg_left hspan h0
    have k5 := mul_le_mul_of_nonneg_right h1 (show 0 ≤ 279 * (u * B) by linarith)
    linarith
  have hσ' := abs_le.1 hσ
  obtain ⟨n1, n2⟩ := hnot a
  unfold onSeg reachTol at n1 n2
  generalize (1 : ℚ) / 10 ^ 9 = tiny at *
  by_cases hz : 0 ≤ i0 a
  · have hge : (axisCells g.dims a : ℤ) ≤ i0 a := by
      by_contra hc
      exact ha ⟨hz, by omega⟩
    have hge' : (axisCells g.dims a : ℚ) ≤ i0 a := by exact_mod_cast hge
    have := mul_le_mul_of_nonneg_right hge' he.le
    rcases n2 with n2 | n2 | n2 <;> linarith
  · have hlt : (i0 a : ℚ) + 1 ≤ 0 := by exact_mod_cast (show i0 a + 1 ≤ 0 by omega)
    have := mul_nonpos_of_nonpos_of_nonneg hlt he.le
    rcases n1 with n1 | n1 | n1 <;> linarith

/-- The computed direction. -/
theorem far_dir (H : AccurateArith A sqrt val kept u η M) (S : Room u η M e B) (V : WalkRoom u η M e B N g.dims)
    (R : FairRay A sqrt val kept u B c x o p vo vp l l') (hl : 721 * (u * B) ≤ l) (a : Fin 3) :
    ∃ v, val (A.div (A.sub (p a) (o a)) (flLength A sqrt o p)) = .fin v ∧ |v| ≤ 3 ∧ |v * l - (vp a - vo a)| ≤ 23 * (u * B) := by
  have hu := S.u_nonneg; have hu1 := S.u_le
  have huB := mul_pos S.u_pos S.B_pos
  have hB := S.B_pos
  have huB1 := mul_le_mul_of_nonneg_right hu1 hB.le
  have hηB := S.η_B; have hηt := S.η_tiny; have hη0 := S.η_nonneg
  obtain ⟨hM1, hM2⟩ := S.M_ten
  have hl0 : 0 < l := by linarith
  have hspan : |vp a - vo a| ≤ l + 371 * (u * B) := by
    have d1 := abs_le.1 (abs_le_of_distSq (by linarith [R.l_nonneg]) R.upper a)
    have d2 := abs_le.1 (R.near_o a)
    have d3 := abs_le.1 (R.near_p a)
    rw [abs_le]
    constructor <;> linarith
  have hb : |vp a| + |vo a| ≤ 10 * B := by linarith [R.p_le a, R.o_le a]
  obtain ⟨r, r1, r2⟩ := H.sub _ _ _ _ (R.val_p a) (R.val_o a) (by linarith)
  have k := mul_le_mul_of_nonneg_left hb hu
  have r3 : |r - (vp a - vo a)| ≤ 11 * (u * B) := by linarith
  have r4 : |r| ≤ l + 382 * (u * B) := (near_bound r3 hspan).trans (by linarith)
  have r5 : |r| ≤ 101 / 10 * B := (near_bound r3 ((abs_sub _ _).trans hb)).trans (by linarith)
  have hq : |r / l| ≤ 5 / 2 := by
    rw [abs_div, abs_of_pos hl0, div_le_iff₀ hl0]
    linarith
  obtain ⟨v, v1, v2⟩ := H.div _ _ _ _ r1 R.length hl0.ne' (by linarith [R.l_le]) (by rw [abs_of_pos hl0]; linarith [R.l_le]) (by linarith)
  have kq := mul_le_mul_of_nonneg_right hu1 (abs_nonneg (r / l))
  refine ⟨v, v1, (near_bound v2 hq).trans (by norm_num at hηt ⊢; linarith), ?_⟩
  have hvl : |v * l - r| ≤ 111 / 10 * (u * B) := by
    have e1 : v * l - r = (v - r / l) * l := by field_simp
    rw [e1, abs_mul, abs_of_pos hl0]
    have h1 := mul_le_mul_of_nonneg_right v2 hl0.le
    have h2 : |r / l| * l = |r| := by rw [abs_div, abs_of_pos hl0]; field_simp
    have e2 : (u * |r / l| + η) * l = u * (|r / l| * l) + η * l := by ring
    rw [e2, h2] at h1
    have h3 := mul_le_mul_of_nonneg_left r5 hu
    have h4 := mul_le_mul_of_nonneg_left R.l_le hη0
    have h5 := V.η_B
    have h6 := mul_le_mul_of_nonneg_left S.e_le hu
    have h7 := mul_nonneg hη0 hB.le
    linarith
  rw [show v * l - (vp a - vo a) = (v * l - r) + (r - (vp a - vo a)) by ring]
  have := abs_add_le (v * l - r) (r - (vp a - vo a))
  linarith

/-- The computed start lies on the ray, before what is well within the range and in the grid. -/
theorem far_start (H : AccurateArith A sqrt val kept u η M) (S : Room u η M e B) (htiny : TinyGiven A val) (G : GridGiven val u e B g)
    (V : WalkRoom u η M e B N g.dims) (R : FairRay A sqrt val kept u B c x o p vo vp l l') {i0 : IVec} (hi0 : flIndex A g o = some i0)
    (hout : ¬ CellInGrid (axisCells g.dims) i0) {σ : ℚ} (h0 : 0 ≤ σ) (h1 : σ ≤ 1)
    (hnot : NotShort (reachTol u B) e (axisCells g.dims) c.sensor (onSeg c.sensor (c.place x) σ)) {range t : F}
    (ht : flSlabs A g o (fun a => A.div (A.sub (p a) (o a)) (flLength A sqrt o p)) range = some t) :
    ∃ (ς : ℚ) (vs : Fin 3 → ℚ), 0 ≤ ς ∧ ς < σ ∧ ∀ a,
      val (A.add (o a) (A.mul (A.div (A.sub (p a) (o a)) (flLength A sqrt o p)) (A.add t A.tiny))) = .fin (vs a) ∧
      |vs a - onSeg vo vp ς a| ≤ 48 * (u * B) ∧ |vs a| ≤ 13 * B := by
  have hfar := far_length H S G R hi0 hout h0 h1 hnot
  have hu := S.u_nonneg; have hu1 := S.u_le
  have huB := mul_pos S.u_pos S.B_pos
  have hB := S.B_pos
  have huB1 := mul_le_mul_of_nonneg_right hu1 hB.le
  have hηB := S.η_B
  obtain ⟨hM1, hM2⟩ := S.M_ten
  have hσl : σ * l ≤ l := mul_le_of_le_one_left R.l_nonneg h1
  norm_num at hfar
  have hl : 721 * (u * B) ≤ l := by linarith
  have hl0 : 0 < l := by linarith
  choose vd d1 d2 d3 using far_dir H S V R hl
  choose vz z1 z2 using G.size
  have hz3 : ∀ a, |vz a| ≤ 3 * B := fun a => by
    have h2 : |(axisCells g.dims a : ℚ) * e| ≤ B := by
      rw [abs_of_nonneg (mul_nonneg (Nat.cast_nonneg _) S.e_pos.le)]
      exact G.extent a
    exact (near_bound (z2 a) h2).trans (by linarith)
  have hat : ∀ a, |vo a + σ * l * vd a - onSeg c.sensor (c.place x) σ a| ≤ 69 * (u * B) := fun a => by
    have k1 := onSeg_near R.near_o R.near_p h0 h1 a
    have k2 : |σ * (vd a * l - (vp a - vo a))| ≤ 23 * (u * B) := by
      rw [abs_mul, abs_of_nonneg h0]
      exact (mul_le_of_le_one_left (abs_nonneg _) h1).trans (d3 a)
    rw [show vo a + σ * l * vd a - onSeg c.sensor (c.place x) σ a = σ * (vd a * l - (vp a - vo a)) + (onSeg vo vp σ a - onSeg c.sensor (c.place x) σ a) by
      unfold onSeg; ring]
    have := abs_add_le (σ * (vd a * l - (vp a - vo a))) (onSeg vo vp σ a - onSeg c.sensor (c.place x) σ a)
    linarith
  have hearly := slabs_early_fair (t := σ * l) (κ := reachTol u B - 115 * (u * B)) H S R.val_o d1 z1 (fun a => (R.o_le a).trans (by linarith)) hz3 d2 z2
    (by unfold reachTol; norm_num; linarith)
    (fun a hd => by
      have k1 := abs_le.1 (hat a)
      have k2 := abs_le.1 (R.near_o a)
      have k3 : 0 ≤ σ * l * vd a := mul_nonneg (by linarith) hd.le
      have n1 := (hnot a).1
      have hr : 3000 * (u * B) ≤ reachTol u B := by unfold reachTol; norm_num
      rcases n1 with n1 | n1 | n1 <;> linarith)
    (fun a hd => by
      have k1 := abs_le.1 (hat a)
      have k2 := abs_le.1 (R.near_o a)
      have k3 : σ * l * vd a ≤ 0 := mul_nonpos_of_nonneg_of_nonpos (by linarith) hd.le
      have n2 := (hnot a).2
      have hr : 3000 * (u * B) ≤ reachTol u B := by unfold reachTol; norm_num
      rcases n2 with n2 | n2 | n2 <;> linarith) ht
  obtain ⟨T, T1, T2, T3⟩ := entry_value H S htiny hearly (by linarith [R.l_le]) (by unfold reachTol; norm_num; linarith) (by norm_num; linarith)
  have key : ∀ a, ∃ y, val (A.add (o a) (A.mul (A.div (A.sub (p a) (o a)) (flLength A sqrt o p)) (A.add t A.tiny))) = .fin y ∧
      |y - onSeg vo vp (T / l) a| ≤ 48 * (u * B) ∧ |y| ≤ 13 * B := fun a => by
    have hdl : |vd a * l| ≤ 101 / 10 * B := by
      have hb : |vp a - vo a| ≤ 10 * B := (abs_sub _ _).trans (by linarith [R.p_le a, R.o_le a])
      exact (near_bound (d3 a) hb).trans (by linarith)
    have hdT : |vd a * T| ≤ 101 / 10 * B := by
      refine le_trans ?_ hdl
      rw [abs_mul, abs_mul, abs_of_nonneg T2, abs_of_pos hl0]
      exact mul_le_mul_of_nonneg_left (by linarith) (abs_nonneg _)
    obtain ⟨b, b1, b2, -⟩ := H.mul _ _ _ _ (d1 a) T1 (by linarith [d2 a]) (by rw [abs_of_nonneg T2]; linarith [R.l_le]) (by linarith)
    have hb' : |b| ≤ 11 * B := by
      have := mul_le_mul_of_nonneg_left hdT hu
      exact (near_bound b2 hdT).trans (by linarith)
    obtain ⟨y, y1, y2, -⟩ := H.add _ _ _ _ (R.val_o a) b1 (by linarith [R.o_le a])
    obtain ⟨y3, y4⟩ := start_number hu hu1 hηB hB (R.o_le a) hdT b2 y2
    refine ⟨y, y1, ?_, y4⟩
    have hT0 : 0 ≤ T / l := div_nonneg T2 hl0.le
    have hT1 : T / l ≤ 1 := (div_le_one hl0).2 (by linarith)
    have k2 : |T / l * (vd a * l - (vp a - vo a))| ≤ 23 * (u * B) := by
      rw [abs_mul, abs_of_nonneg hT0]
      exact (mul_le_of_le_one_left (abs_nonneg _) hT1).trans (d3 a)
    have e1 : y - onSeg vo vp (T / l) a = (y - (vo a + vd a * T)) + T / l * (vd a * l - (vp a - vo a)) := by
      unfold onSeg
      have : T / l * (vd a * l) = vd a * T := by field_simp
      linear_combination -this
    rw [e1]
    have := abs_add_le (y - (vo a + vd a * T)) (T / l * (vd a * l - (vp a - vo a)))
    linarith
  choose vs v1 v2 v3 using key
  exact ⟨T / l, vs, div_nonneg T2 hl0.le, by rw [div_lt_iff₀ hl0]; exact T3, fun a => ⟨v1 a, v2 a, v3 a⟩⟩

/-! ### The walk -/

/-- How many cells the walk may be away from the origin. -/
def farCells (e B N : ℚ) : ℚ := N + 12 * (B / e)

/-- The measure of the walk. -/
def farErr (u s n N : ℚ) : ℚ := 3 * u * N ^ 2 * s / 2 + 3 * (3 * u * n * s)

theorem farRoom_scale (S : Room u η M e B) (V : WalkRoom u η M e B N g.dims) (V' : FarRoom u M e B N) (hs : |s - e| ≤ u * e) :
    0 < s ∧ 11 * B ≤ farCells e B N * s ∧ farCells e B N * s ≤ 1001 / 1000 * (N * e) + 121 / 10 * B ∧
      RayScale (3 * u) η M s (farCells e B N) N (farErr u s (farCells e B N) N) := by
  have hu := S.u_pos; have hu1 := S.u_le; have he := S.e_pos; have hB := S.B_pos
  have hue := mul_le_mul_of_nonneg_right hu1 he.le
  have hs' := abs_le.1 hs
  have hs0 : 0 < s := by linarith
  have hN := V.N_ge
  have hN0 : 0 < N := by linarith
  have hBe : 0 < B / e := div_pos hB he
  have hse : 999 / 1000 * e ≤ s := by linarith
  have hse' : s ≤ 1001 / 1000 * e := by linarith
  have e1 : B / e * e = B := div_mul_cancel₀ _ he.ne'
  have k1 := mul_le_mul_of_nonneg_left hse hBe.le
  have k2 := mul_le_mul_of_nonneg_left hse' hBe.le
  have k3 := mul_le_mul_of_nonneg_left hse' hN0.le
  have k4 := mul_pos hN0 hs0
  have k5 : B / e * (999 / 1000 * e) = 999 / 1000 * B := by linear_combination 999 / 1000 * e1
  have k6 : B / e * (1001 / 1000 * e) = 1001 / 1000 * B := by linear_combination 1001 / 1000 * e1
  have hns : farCells e B N * s = N * s + 12 * (B / e * s) := by unfold farCells; ring
  have hle : farCells e B N * s ≤ 1001 / 1000 * (N * e) + 121 / 10 * B := by rw [hns]; linarith
  refine ⟨hs0, by rw [hns]; linarith, hle, ?_⟩
  refine RayScale.wide hs0 (by linarith) S.η_nonneg hN (by unfold farCells; linarith) ?_ ?_ (by linarith [S.η_u]) ?_ V'.M_n ?_ (by linarith [V.M_u])
  · have := V'.small
    unfold farCells
    linarith
  · have := V'.fine
    unfold farCells
    linarith
  · have h1 : e ≤ 2 * s := by linarith
    have h2 := mul_le_mul_of_nonneg_left h1 hu.le
    have := V.η_e
    have := mul_pos hu hs0
    linarith
  · have := V.M_e
    have := S.M_B
    norm_num at this
    linarith

/-- The ray is set up for the walk from where it enters. -/
theorem farSetup (H : AccurateArith A sqrt val kept u η M) (S : Room u η M e B)
    (G : GridGiven val u e B g) (V : WalkRoom u η M e B N g.dims) (V' : FarRoom u M e B N) (hs : |s - e| ≤ u * e)
    (R : FairRay A sqrt val kept u B c x o p vo vp l l') {start final : Fin 3 → F} {vs ve d : Fin 3 → ℚ} {q ς : ℚ} {range : Fl}
    (C : FairCast A val kept u s N B range o p final vo vp ve d q l) (h0 : 0 ≤ ς) (hq : ς < q) (hvs : ∀ a, val (start a) = .fin (vs a))
    (hnear : ∀ a, |vs a - onSeg vo vp ς a| ≤ 48 * (u * B)) (hvB : ∀ a, |vs a| ≤ 13 * B)
    {i f : IVec} (hi : flIndex A g start = some i) (hf : flIndex A g final = some f) (hin : CellInGrid (axisCells g.dims) i) :
    RaySetup (3 * u) η M s (farCells e B N) N (farErr u s (farCells e B N) N) g.dims i f vs (fun a => ve a - vs a) d (q - ς) := by
  obtain ⟨hs0, hwide, -, h⟩ := farRoom_scale S V V' hs
  have hB := S.B_pos
  have hu := S.u_pos; have he := S.e_pos; have hu1 := S.u_le
  have hus := mul_pos h.u_pos h.s_pos
  have hNn : N ≤ farCells e B N := by
    unfold farCells
    linarith [div_pos hB he]
  generalize farCells e B N = n at *
  have huB := mul_pos hu hB
  have hdim : ∀ a, (i a : ℚ) + 3 ≤ N := fun a => by
    have h3 : (i a : ℚ) + 1 ≤ axisCells g.dims a := by exact_mod_cast (hin a).2
    linarith [V.dims a]
  have hfin : ∀ a (m : ℤ), 0 ≤ m → (m : ℚ) ≤ N →
      (m ≤ f a → m * s - 5 * (3 * u * n * s) ≤ ve a) ∧ (f a < m → ve a ≤ m * s + 5 * (3 * u * n * s)) := fun a m h0 hm => by
    obtain ⟨y, y1, y2, y3⟩ := walk_index_near H S G hs0 hs hf (C.final a) (C.final_le a)
    have h3 := mul_le_mul_of_nonneg_right (hm.trans hNn) hus.le
    have h4 := mul_le_mul_of_nonneg_right (V.N_ge.trans hNn) hus.le
    constructor
    · intro hmf
      have := walk_index_ge h y1 y3 h0 (hm.trans hNn) hmf
      linarith
    · intro hmf
      have := walk_index_lt h y2 y3 h0 (hm.trans hNn) hmf
      linarith
  refine ⟨h, V.dims, hin, fun a => ?_, fun a => ?_, by linarith, by linarith [C.q_le], fun a m h0 hm hmf => ?_, fun a m h0 hm hmf => ?_, fun a => ?_⟩
  · obtain ⟨y, y1, y2, y3⟩ := walk_index_near H S G hs0 hs hi (hvs a) (by linarith [hvB a])
    have h1 := walk_index_ge h y1 y3 (hin a).1 (by linarith [hdim a]) le_rfl
    have h2 := walk_index_lt h y2 y3 (m := i a + 1) (by have := (hin a).1; omega) (by push_cast; linarith [hdim a]) (by omega)
    have h3 := mul_le_mul_of_nonneg_right ((hdim a).trans hNn) hus.le
    push_cast at h2
    constructor <;> linarith
  · unfold SpeedOf
    obtain ⟨hM1, hM2⟩ := S.M_ten
    have hb : |vp a| + |vo a| ≤ 10 * B := by linarith [R.p_le a, R.o_le a]
    obtain ⟨r, r1, r2⟩ := H.sub _ _ _ _ (R.val_p a) (R.val_o a) (by linarith)
    rw [C.ray a] at r1
    cases r1
    have k := mul_le_mul_of_nonneg_left hb hu.le
    have hηB := S.η_B
    have r3 : |d a - (vp a - vo a)| ≤ 11 * (u * B) := by linarith
    have k1 : |(q - ς) * (d a - (vp a - vo a))| ≤ 11 * (u * B) := by
      rw [abs_mul, abs_of_pos (by linarith : 0 < q - ς)]
      exact (mul_le_of_le_one_left (abs_nonneg _) (by linarith [C.q_le])).trans r3
    have e1 : (q - ς) * d a - (ve a - vs a) = (q - ς) * (d a - (vp a - vo a)) + ((vs a - onSeg vo vp ς a) - (ve a - onSeg vo vp q a)) := by
      unfold onSeg; ring
    rw [e1]
    have k2 := abs_add_le ((q - ς) * (d a - (vp a - vo a))) ((vs a - onSeg vo vp ς a) - (ve a - onSeg vo vp q a))
    have k3 := abs_sub (vs a - onSeg vo vp ς a) (ve a - onSeg vo vp q a)
    have k4 := hnear a
    have k5 := C.near a
    have k6 := mul_le_mul_of_nonneg_left hwide hu.le
    have k7 := mul_nonneg hu.le (abs_nonneg (ve a - vs a))
    linarith
  · have := (hfin a m h0 hm).1 hmf
    linarith
  · have := (hfin a m h0 hm).2 hmf
    linarith
  · have h1 := mul_le_mul_of_nonneg_left (C.ray_le a) S.η_nonneg
    have h2 := V.η_B
    have hue := mul_le_mul_of_nonneg_right hu1 he.le
    have hs' := abs_le.1 hs
    have h3 := mul_le_mul_of_nonneg_left (show e ≤ 2 * s by linarith) hu.le
    linarith

theorem farErr_tol (S : Room u η M e B) (V : WalkRoom u η M e B N g.dims) (V' : FarRoom u M e B N) (hs : |s - e| ≤ u * e) :
    32 * farErr u s (farCells e B N) N + 106 * (u * B) + N * (u * e) ≤ farFreeTol u e B N := by
  obtain ⟨hs0, -, hle, -⟩ := farRoom_scale S V V' hs
  have hu := S.u_pos; have hu1 := S.u_le; have he := S.e_pos; have hB := S.B_pos
  have hN : 0 < N := by linarith [V.N_ge]
  have hue := mul_le_mul_of_nonneg_right hu1 he.le
  have hs' := abs_le.1 hs
  have h1 : s ≤ 9001 / 9000 * e := by linarith
  have h2 := mul_le_mul_of_nonneg_left h1 (show 0 ≤ u * N ^ 2 by positivity)
  have h3 := mul_le_mul_of_nonneg_left hle hu.le
  have h4 : 0 ≤ u * N ^ 2 * e := by positivity
  have h5 : 0 ≤ u * N * e := by positivity
  have h6 : 0 ≤ u * B := by positivity
  unfold farErr farFreeTol
  linarith

theorem cast_out_marks_any {start final ray : Fin 3 → F} {clip : Bool} {ms : List Mark} {i : IVec}
    (h : flCastFrom A g start final ray clip = some ms) (hi : flIndex A g start = some i) (hout : ¬ CellInGrid (axisCells g.dims) i) {m : Mark}
    (hm : m ∈ ms) : flIndex A g final = some m.cell ∧ CellInGrid (axisCells g.dims) m.cell := by
  obtain ⟨i', f, hi', hf, hmarks⟩ := flCastFrom_some _ _ h
  rw [hi] at hi'
  cases hi'
  obtain ⟨l, hl, hfree⟩ := hmarks.path
  have hnil : l = [] := hl.empty.2 (.inr hout)
  subst hnil
  cases m with
  | free c =>
    rcases (hfree c).1 hm with h1 | ⟨-, rfl, h2⟩
    · cases h1
    · exact ⟨hf, h2⟩
  | filled c =>
    obtain ⟨-, rfl, h2⟩ := (hmarks.filled c).1 hm
    exact ⟨hf, h2⟩

theorem cast_of_far {range : F} {ms : List Mark} {i : IVec} (hi : flIndex A g o = some i) (hout : ¬ CellInGrid (axisCells g.dims) i)
    (h : flRaycast A g o p (flLength A sqrt o p) range = some ms) :
    ms = [] ∨ ∃ t, flSlabs A g o (fun a => A.div (A.sub (p a) (o a)) (flLength A sqrt o p)) range = some t ∧
      flCastFrom A g (fun a => A.add (o a) (A.mul (A.div (A.sub (p a) (o a)) (flLength A sqrt o p)) (A.add t A.tiny)))
        (flFinalPoint A o p (flLength A sqrt o p) range) (fun a => A.sub (p a) (o a)) (flClipped A (flLength A sqrt o p) range) = some ms := by
  unfold flRaycast flStart at h
  dsimp only at h
  rw [hi, Option.map_some, if_neg (by rw [inGrid_iff]; exact hout)] at h
  rcases ht : flSlabs A g o (fun a => A.div (A.sub (p a) (o a)) (flLength A sqrt o p)) range with _ | t
  · rw [ht] at h
    cases h
    exact .inl rfl
  · rw [ht] at h
    exact .inr ⟨t, rfl, h⟩

/-- Marks are made near the ray and before the range, for sensors outside the grid. -/
theorem ray_seen_near_far (H : AccurateArith A sqrt val kept u η M) (W : FairWalk A sqrt val kept u η M) (S : Room u η M e B) (htiny : TinyGiven A val)
    (G : GridGiven val u e B g) (hcell : CellGiven val u e g) (V : WalkRoom u η M e B N g.dims) (V' : FarRoom u M e B N)
    (R : FairRay A sqrt val kept u B c x o p vo vp l l') {range : F}
    (hr : (c.range = .pinf ∧ kept range = .pinf) ∨ ∃ r r', c.range = .fin r ∧ kept range = .fin r' ∧ 0 < r ∧ 0 ≤ r' ∧ |r' - r| ≤ u * r + η)
    (hst : kept range = val range) (hr0 : kept range ≠ .fin 0) {i0 : IVec} (hi0 : flIndex A g o = some i0)
    (hout : ¬ CellInGrid (axisCells g.dims) i0) (hreach : Reaches (reachTol u B) e (axisCells g.dims) c.range c.sensor (c.place x))
    {ms : List Mark} (h : flRaycast A g o p (flLength A sqrt o p) range = some ms) {m : Mark} (hm : m ∈ ms)
    (hmc : CellInGrid (axisCells g.dims) m.cell) : SeenNear (farFreeTol u e B N) e c.range c.sensor (c.place x) m.cell := by
  obtain ⟨s, hsv, hs⟩ := hcell
  have hu := S.u_nonneg; have he := S.e_pos; have hB := S.B_pos; have hu1 := S.u_le
  have huB := mul_nonneg hu hB.le
  have hue := mul_nonneg hu he.le
  obtain ⟨σ, σ0, σ1, hwell, hnot⟩ := hreach
  obtain ⟨ve, d, q, C⟩ := fairCast (s := s) (N := N) H W S V hs R hr hst hr0
  have hσq : σ ≤ q := share_le_fair S R C (hr.imp And.left fun ⟨r, _, h1, _⟩ => ⟨r, h1⟩) (by unfold reachTol; norm_num; linarith) σ0 σ1 hwell
  rcases cast_of_far hi0 hout h with rfl | ⟨t, ht, hcast⟩
  · cases hm
  obtain ⟨ς, vs, ς0, ςσ, hvs⟩ := far_start H S htiny G V R hi0 hout σ0 σ1 hnot ht
  have htol := farErr_tol S V V' hs
  have hN : 0 ≤ N := by linarith [V.N_ge]
  obtain ⟨hM1, hM2⟩ := S.M_ten
  obtain ⟨hs0, -, -, -⟩ := farRoom_scale S V V' hs
  have k0 : ∀ a, (0 : ℚ) ≤ m.cell a := fun a => by exact_mod_cast (hmc a).1
  have k1 : ∀ a, (m.cell a : ℚ) + 1 ≤ axisCells g.dims a := fun a => by exact_mod_cast (hmc a).2
  have hbig : 400 * (u * B) + N * (u * e) ≤ farFreeTol u e B N := by
    unfold farFreeTol
    have : 0 ≤ u * N ^ 2 * e := by positivity
    have : 0 ≤ u * N * e := by positivity
    linarith
  -- a point of the walked segment near the cell is enough
  have key : ∀ τ, 0 ≤ τ → τ ≤ 1 → (∀ a, (m.cell a : ℚ) * s + 106 * (u * B) + N * (u * e) - farFreeTol u e B N ≤ onSeg vs ve τ a ∧
      onSeg vs ve τ a ≤ ((m.cell a : ℚ) + 1) * s - 106 * (u * B) - N * (u * e) + farFreeTol u e B N) →
      SeenNear (farFreeTol u e B N) e c.range c.sensor (c.place x) m.cell := by
    intro τ t0 t1 hnear
    have hω0 : 0 ≤ ς + τ * (q - ς) := add_nonneg ς0 (mul_nonneg t0 (by linarith))
    have hωq : ς + τ * (q - ς) ≤ q := by
      have := mul_le_of_le_one_left (show 0 ≤ q - ς by linarith) t1
      linarith
    have hω1 : ς + τ * (q - ς) ≤ 1 := hωq.trans C.q_le
    refine ⟨ς + τ * (q - ς), hω0, hω1, fun a => ?_, fun r h1 => ?_⟩
    · have h2 := abs_le.1 (onSeg_near R.near_o R.near_p hω0 hω1 a)
      have h3 : |onSeg vs ve τ a - onSeg vo vp (ς + τ * (q - ς)) a| ≤ 60 * (u * B) := by
        have e1 : onSeg vo vp (ς + τ * (q - ς)) a = onSeg (onSeg vo vp ς) (onSeg vo vp q) τ a := by unfold onSeg; ring
        rw [e1]
        exact onSeg_near (fun a => ((hvs a).2.1).trans (by linarith)) C.near t0 t1 a
      have h3' := abs_le.1 h3
      obtain ⟨h4, h5⟩ := hnear a
      have k2 := V.dims a
      have h6 := abs_le.1 (edge_index (N := N) hu he hs (k0 a) (by linarith [k1 a]))
      have h7 := abs_le.1 (edge_index (N := N) hu he hs (k := (m.cell a : ℚ) + 1) (by linarith [k0 a]) (by linarith [k1 a]))
      constructor <;> linarith
    · rw [distSq_onSeg]
      have h2 := C.short r h1
      have h3 : 0 ≤ l + 279 * (u * B) := by linarith [R.l_nonneg]
      have h4 := (mul_le_mul_of_nonneg_right hωq h3).trans h2
      have h5 := mul_le_mul_of_nonneg_left R.upper (sq_nonneg (ς + τ * (q - ς)))
      rw [← mul_pow] at h5
      refine h5.trans (pow_le_pow_left₀ (mul_nonneg hω0 h3) ?_ 2)
      have := mul_nonneg hN hue
      linarith
  obtain ⟨i', f, hi', hf, -⟩ := flCastFrom_some _ _ hcast
  by_cases hin : CellInGrid (axisCells g.dims) i'
  · have Z := farSetup H S G V V' hs R C ς0 (lt_of_lt_of_le ςσ hσq) (fun a => (hvs a).1) (fun a => (hvs a).2.1) (fun a => (hvs a).2.2) hi' hf hin
    obtain ⟨τ, t0, t1, t2⟩ := (cast_marks_fair H W hu le_rfl Z (fun a => (C.ray_le a).trans (by linarith)) (fun a => (hvs a).1) C.ray C.ray_kept rfl hsv
      hi' hf hcast).1 m hm
    refine key τ t0 t1 fun a => ?_
    obtain ⟨h4, h5⟩ := t2 a
    have e1 : onSeg vs (fun a => vs a + (ve a - vs a)) τ a = onSeg vs ve τ a := by unfold onSeg; ring
    rw [e1] at h4 h5
    constructor <;> linarith
  · obtain ⟨hf', -⟩ := cast_out_marks_any hcast hi' hin hm
    refine key 1 zero_le_one le_rfl fun a => ?_
    have e1 : onSeg vs ve 1 a = ve a := by unfold onSeg; ring
    rw [e1]
    obtain ⟨y, y1, y2, y3⟩ := walk_index_near H S G hs0 hs hf' (C.final a) (C.final_le a)
    have h1 := mul_le_mul_of_nonneg_left (C.final_le a) hu
    have h2 : u * s ≤ 2 * (u * B) := by
      have hs' := abs_le.1 hs
      have h3 := mul_le_mul_of_nonneg_right hu1 he.le
      have := mul_le_mul_of_nonneg_left (show s ≤ 2 * B by linarith [S.e_le]) hu
      linarith
    have y3' := abs_le.1 y3
    have h5 := mul_le_mul_of_nonneg_right y1 hs0.le
    have h6 := mul_le_mul_of_nonneg_right y2.le hs0.le
    constructor <;> linarith

/-- Marks are made near the ray and before the range, wherever the sensor is. -/
theorem ray_seen_or_short (H : AccurateArith A sqrt val kept u η M) (W : FairWalk A sqrt val kept u η M) (S : Room u η M e B) (htiny : TinyGiven A val)
    (G : GridGiven val u e B g) (hcell : CellGiven val u e g) (V : WalkRoom u η M e B N g.dims) (V' : FarRoom u M e B N)
    (R : FairRay A sqrt val kept u B c x o p vo vp l l') {range : F}
    (hr : (c.range = .pinf ∧ kept range = .pinf) ∨ ∃ r r', c.range = .fin r ∧ kept range = .fin r' ∧ 0 < r ∧ 0 ≤ r' ∧ |r' - r| ≤ u * r + η)
    (hst : RangeStored val kept range)
    {ms : List Mark} (h : flRaycast A g o p (flLength A sqrt o p) range = some ms) {m : Mark} (hm : m ∈ ms)
    (hmc : CellInGrid (axisCells g.dims) m.cell) : SeenNear (farFreeTol u e B N) e c.range c.sensor (c.place x) m.cell ∨
      ¬ Reaches (reachTol u B) e (axisCells g.dims) c.range c.sensor (c.place x) := by
  obtain ⟨i0, hi0⟩ := sensor_index_any h
  by_cases hreach : Reaches (reachTol u B) e (axisCells g.dims) c.range c.sensor (c.place x)
  · left
    by_cases hin : CellInGrid (axisCells g.dims) i0
    · have hle : freeTol u e B N ≤ farFreeTol u e B N := by
        unfold freeTol farFreeTol
        have := mul_pos S.u_pos S.B_pos
        linarith
      have hpos : 0 ≤ freeTol u e B N := by
        unfold freeTol
        have := S.u_pos; have := S.B_pos; have := S.e_pos
        have hN : 0 ≤ N := by linarith [V.N_ge]
        positivity
      obtain ⟨τ, t0, t1, t2, t3⟩ := ray_seen_near_fair H W S G hcell V R hr hst.1 hst.2 hi0 hin h hm hmc
      refine ⟨τ, t0, t1, fun a => ?_, fun r h1 => (t3 r h1).trans ?_⟩
      · obtain ⟨h4, h5⟩ := t2 a
        constructor <;> linarith
      · have hr0 : 0 ≤ r := by
          rcases hr with ⟨h2, -⟩ | ⟨r1, -, h2, -, h3, -⟩ <;> rw [h1] at h2 <;> cases h2
          exact h3.le
        exact pow_le_pow_left₀ (by linarith) (by linarith) 2
    · exact ray_seen_near_far H W S htiny G hcell V V' R hr hst.1 hst.2 hi0 hin hreach h hm hmc
  · exact .inr hreach

end

end VGT
