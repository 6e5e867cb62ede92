import Verif.Spec.Accurate
import Verif.Props.CameraRay

/-!
Positions and lengths computed with an arithmetic that is right up to a small error, for C85.
-/
set_option autoImplicit false

namespace VGT
open VGT.EDT VGT.Spec VGT.Par

/-! ### Plain numbers -/

/-- A product of two numbers that are not quite right. -/
theorem fair_product {u η B r x z y m : ℚ} (hu : 0 ≤ u) (hu1 : 9000 * u ≤ 1) (hB : 0 ≤ B) (hη : η ≤ u * B) (hr : |r| ≤ 2) (hx : |x| ≤ B)
    (hz : |z - r| ≤ u) (hy : |y - x| ≤ u * B) (hm : |m - z * y| ≤ u * |z * y| + η) : |z * y| ≤ 3 * B ∧ |m - r * x| ≤ 7 * (u * B) := by
  have huB : 0 ≤ u * B := mul_nonneg hu hB
  have huB' := mul_le_mul_of_nonneg_right hu1 hB
  have z1 : |z| ≤ 2 + u := near_bound hz hr
  have y1 : |y| ≤ B + u * B := near_bound hy hx
  have y2 : |y| ≤ 9001 / 9000 * B := by linarith
  have z2 : |z| ≤ 18001 / 9000 := by linarith
  have zy : |z * y| ≤ 201 / 100 * B := by
    rw [abs_mul]
    have := mul_le_mul z2 y2 (abs_nonneg _) (by norm_num)
    linarith
  have d : |z * y - r * x| ≤ 302 / 100 * (u * B) := by
    rw [show z * y - r * x = (z - r) * y + r * (y - x) by ring]
    have h1 := abs_add_le ((z - r) * y) (r * (y - x))
    rw [abs_mul, abs_mul] at h1
    have h2 := mul_le_mul hz y2 (abs_nonneg _) hu
    have h3 := mul_le_mul hr hy (abs_nonneg _) (by norm_num)
    linarith
  refine ⟨by linarith, ?_⟩
  have k := mul_le_mul_of_nonneg_left zy hu
  have := abs_add_le (m - z * y) (z * y - r * x)
  rw [show (m - z * y) + (z * y - r * x) = m - r * x by ring] at this
  linarith

/-- A sum of three products and a shift that are not quite right. -/
theorem fair_sum {u η B a0 a1 a2 a3 m0 m1 m2 m3 s1 s2 s3 : ℚ} (hu : 0 ≤ u) (hu1 : 9000 * u ≤ 1) (hB : 0 ≤ B) (hη : η ≤ u * B)
    (h0 : |a0| ≤ 2 * B) (h1 : |a1| ≤ 2 * B) (h2 : |a2| ≤ 2 * B) (h3 : |a3| ≤ B)
    (e0 : |m0 - a0| ≤ 7 * (u * B)) (e1 : |m1 - a1| ≤ 7 * (u * B)) (e2 : |m2 - a2| ≤ 7 * (u * B)) (e3 : |m3 - a3| ≤ 4 * (u * B))
    (f1 : |s1 - (m0 + m1)| ≤ u * (|m0| + |m1|) + η) (f2 : |s2 - (s1 + m2)| ≤ u * (|s1| + |m2|) + η)
    (f3 : |s3 - (s2 + m3)| ≤ u * (|s2| + |m3|) + η) :
    |m0| + |m1| ≤ 10 * B ∧ |s1| + |m2| ≤ 10 * B ∧ |s2| + |m3| ≤ 10 * B ∧ |s3 - (a0 + a1 + a2 + a3)| ≤ 46 * (u * B) := by
  have huB : 0 ≤ u * B := mul_nonneg hu hB
  have huB' := mul_le_mul_of_nonneg_right hu1 hB
  have b0 := near_bound e0 h0
  have b1 := near_bound e1 h1
  have b2 := near_bound e2 h2
  have b3 := near_bound e3 h3
  have c1 : |m0| + |m1| ≤ 401 / 100 * B := by linarith
  have g1 : |s1 - (a0 + a1)| ≤ 1902 / 100 * (u * B) := by
    have k := mul_le_mul_of_nonneg_left c1 hu
    have h4 := abs_add_le (s1 - (m0 + m1)) ((m0 - a0) + (m1 - a1))
    have h5 := abs_add_le (m0 - a0) (m1 - a1)
    rw [show (s1 - (m0 + m1)) + ((m0 - a0) + (m1 - a1)) = s1 - (a0 + a1) by ring] at h4
    linarith
  have z1 : |a0 + a1| ≤ 4 * B := (abs_add_le a0 a1).trans (by linarith)
  have d1 := near_bound g1 z1
  have c2 : |s1| + |m2| ≤ 602 / 100 * B := by linarith
  have g2 : |s2 - (a0 + a1 + a2)| ≤ 3305 / 100 * (u * B) := by
    have k := mul_le_mul_of_nonneg_left c2 hu
    have h4 := abs_add_le (s2 - (s1 + m2)) ((s1 - (a0 + a1)) + (m2 - a2))
    have h5 := abs_add_le (s1 - (a0 + a1)) (m2 - a2)
    rw [show (s2 - (s1 + m2)) + ((s1 - (a0 + a1)) + (m2 - a2)) = s2 - (a0 + a1 + a2) by ring] at h4
    linarith
  have z2 : |a0 + a1 + a2| ≤ 6 * B := (abs_add_le (a0 + a1) a2).trans (by linarith)
  have d2 := near_bound g2 z2
  have c3 : |s2| + |m3| ≤ 703 / 100 * B := by linarith
  refine ⟨by linarith, by linarith, by linarith, ?_⟩
  have k := mul_le_mul_of_nonneg_left c3 hu
  have h4 := abs_add_le (s3 - (s2 + m3)) ((s2 - (a0 + a1 + a2)) + (m3 - a3))
  have h5 := abs_add_le (s2 - (a0 + a1 + a2)) (m3 - a3)
  rw [show (s3 - (s2 + m3)) + ((s2 - (a0 + a1 + a2)) + (m3 - a3)) = s3 - (a0 + a1 + a2 + a3) by ring] at h4
  linarith

section
variable {F : Type} {A : Arith F} {sqrt : F → F} {val kept : F → Fl} {u η M e B : ℚ} {g : RayGrid F} {c : Camera3} {x : Fin 3 → ℚ}

theorem Spec.Room.u_nonneg (S : Room u η M e B) : 0 ≤ u := S.u_pos.le

theorem Spec.Room.B_pos (S : Room u η M e B) : 0 < B := S.e_pos.trans_le S.e_le

theorem Spec.Room.M_ten (S : Room u η M e B) : 100 * B ≤ M ∧ 100 ≤ M := by
  have h1 := S.M_B; have h2 := S.M_one; have h3 := S.B_pos
  constructor <;> linarith

/-- A product of an entry of the pose and a coordinate. -/
theorem mul_fair (H : AccurateArith A sqrt val kept u η M) (S : Room u η M e B) {X Y : F} {z y r t : ℚ} (hX : val X = .fin z) (hY : val Y = .fin y)
    (hr : |r| ≤ 2) (ht : |t| ≤ B) (hz : |z - r| ≤ u) (hy : |y - t| ≤ u * B) :
    ∃ m, val (A.mul X Y) = .fin m ∧ |m - r * t| ≤ 7 * (u * B) := by
  have hB := S.B_pos; have hu := S.u_nonneg; have hu1 := S.u_le
  have huB1 := mul_le_mul_of_nonneg_right hu1 hB.le
  obtain ⟨hM1, hM2⟩ := S.M_ten
  have z1 := near_bound hz hr
  have y1 := near_bound hy ht
  have hzy := (fair_product (m := z * y) (η := 0) hu hu1 hB.le (mul_nonneg hu hB.le) hr ht hz hy (by
    rw [sub_self, abs_zero]
    have := mul_nonneg hu (abs_nonneg (z * y))
    linarith)).1
  obtain ⟨m, m1, m2, -⟩ := H.mul X Y z y hX hY (by linarith) (by linarith) (by linarith)
  exact ⟨m, m1, (fair_product hu hu1 hB.le S.η_B hr ht hz hy m2).2⟩

/-- The transform of a point. -/
theorem transform_fair (H : AccurateArith A sqrt val kept u η M) (S : Room u η M e B) (hc : c.Within B) {tf : ℕ → F}
    (htf : ∀ k < 12, ∃ z, val (tf k) = .fin z ∧ |z - c.pose k| ≤ u) (hx : ∀ a, |x a| ≤ B) {y : Fin 3 → F}
    (hy : ∀ a, ∃ z, val (y a) = .fin z ∧ |z - x a| ≤ u * B) (a : Fin 3) {w : F} (hw : ∃ z, val w = .fin z ∧ |z - c.pose (12 + a)| ≤ 4 * (u * B)) :
    ∃ z, val (A.add (A.add (A.add (A.mul (tf a) (y 0)) (A.mul (tf (4 + a)) (y 1))) (A.mul (tf (8 + a)) (y 2))) w) = .fin z ∧
      |z - c.place x a| ≤ 46 * (u * B) := by
  have hB := S.B_pos; have hu := S.u_nonneg; have hu1 := S.u_le
  obtain ⟨hM1, hM2⟩ := S.M_ten
  obtain ⟨t0, t1, t2⟩ := hc.turn a
  have t3 := hc.shift a
  obtain ⟨z0, p0, q0⟩ := htf a (by omega)
  obtain ⟨z1, p1, q1⟩ := htf (4 + a) (by omega)
  obtain ⟨z2, p2, q2⟩ := htf (8 + a) (by omega)
  obtain ⟨y0, r0, s0⟩ := hy 0
  obtain ⟨y1, r1, s1⟩ := hy 1
  obtain ⟨y2, r2, s2⟩ := hy 2
  obtain ⟨m0, a0, b0⟩ := mul_fair H S p0 r0 t0 (hx 0) q0 s0
  obtain ⟨m1, a1, b1⟩ := mul_fair H S p1 r1 t1 (hx 1) q1 s1
  obtain ⟨m2, a2, b2⟩ := mul_fair H S p2 r2 t2 (hx 2) q2 s2
  obtain ⟨m3, a3, b3⟩ := hw
  have P0 := prod_le t0 (hx 0); have P1 := prod_le t1 (hx 1); have P2 := prod_le t2 (hx 2)
  have key := fun s1 s2 s3 => fair_sum (s1 := s1) (s2 := s2) (s3 := s3) hu hu1 hB.le S.η_B P0 P1 P2 t3 b0 b1 b2 b3
  have zero : ∀ v w : ℚ, |(v + w) - (v + w)| ≤ u * (|v| + |w|) + η := fun v w => by
    rw [sub_self, abs_zero]
    have := mul_nonneg hu (add_nonneg (abs_nonneg v) (abs_nonneg w))
    linarith [S.η_nonneg]
  obtain ⟨v1, c1, d1, -⟩ := H.add _ _ _ _ a0 a1 (by
    have := (key _ _ _ (zero _ _) (zero _ _) (zero _ _)).1
    linarith)
  obtain ⟨v2, c2, d2, -⟩ := H.add _ _ _ _ c1 a2 (by
    have := (key _ _ _ d1 (zero _ _) (zero _ _)).2.1
    linarith)
  obtain ⟨v3, c3, d3, -⟩ := H.add _ _ _ _ c2 a3 (by
    have := (key _ _ _ d1 d2 (zero _ _)).2.2.1
    linarith)
  exact ⟨v3, c3, (key _ _ _ d1 d2 d3).2.2.2⟩

/-- The shift times one, as the CPU has it. -/
theorem shift_fair (H : AccurateArith A sqrt val kept u η M) (S : Room u η M e B) {w : F} {z t : ℚ} (hw : val w = .fin z) (ht : |t| ≤ B)
    (hz : |z - t| ≤ u * B) : ∃ z', val (A.mul w A.one) = .fin z' ∧ |z' - t| ≤ 4 * (u * B) := by
  have hB := S.B_pos; have hu := S.u_nonneg; have hu1 := S.u_le
  have huB := mul_nonneg hu hB.le
  have huB1 := mul_le_mul_of_nonneg_right hu1 hB.le
  obtain ⟨hM1, hM2⟩ := S.M_ten
  have z1 := near_bound hz ht
  obtain ⟨m, m1, m2, -⟩ := H.mul w A.one z 1 hw H.one (by linarith) (by rw [abs_one]; linarith) (by rw [mul_one]; linarith)
  rw [mul_one] at m2
  refine ⟨m, m1, ?_⟩
  have k := mul_le_mul_of_nonneg_left (show |z| ≤ 2 * B by linarith) hu
  have := abs_add_le (m - z) (z - t)
  rw [show (m - z) + (z - t) = m - t by ring] at this
  linarith [S.η_B]

/-- Everything known about the sensor `o` and the point `p` as computed: the values are `vo` and `vp`, the length of the ray has the value `l`
and is stored as `l'`. -/
structure FairRay (A : Arith F) (sqrt : F → F) (val kept : F → Fl) (u B : ℚ) (c : Camera3) (x : Fin 3 → ℚ) (o p : Fin 3 → F)
    (vo vp : Fin 3 → ℚ) (l l' : ℚ) : Prop where
  val_o : ∀ a, val (o a) = .fin (vo a)
  val_p : ∀ a, val (p a) = .fin (vp a)
  near_o : ∀ a, |vo a - c.sensor a| ≤ 46 * (u * B)
  near_p : ∀ a, |vp a - c.place x a| ≤ 46 * (u * B)
  o_le : ∀ a, |vo a| ≤ 2 * B
  p_le : ∀ a, |vp a| ≤ 8 * B
  length : val (flLength A sqrt o p) = .fin l
  stored : kept (flLength A sqrt o p) = .fin l'
  l_nonneg : 0 ≤ l
  l_le : l ≤ 14 * B
  near_l : |l' - l| ≤ 15 * (u * B)
  upper : distSq c.sensor (c.place x) ≤ (l + 279 * (u * B)) ^ 2
  lower : ∀ D, 0 ≤ D → D ≤ 14 * B → distSq c.sensor (c.place x) ≤ D ^ 2 → l ≤ D + 268 * (u * B)

theorem fairRay (H : AccurateArith A sqrt val kept u η M) (S : Room u η M e B) (hc : c.Within B) (hx : ∀ a, |x a| ≤ B) {o p : Fin 3 → F}
    (ho : ∀ a, ∃ z, val (o a) = .fin z ∧ |z - c.sensor a| ≤ 46 * (u * B)) (hp : ∀ a, ∃ z, val (p a) = .fin z ∧ |z - c.place x a| ≤ 46 * (u * B)) :
    ∃ vo vp l l', FairRay A sqrt val kept u B c x o p vo vp l l' := by
  choose vo ho1 ho2 using ho
  choose vp hp1 hp2 using hp
  have hB := S.B_pos; have hu := S.u_nonneg; have hu1 := S.u_le; have hη := S.η_nonneg; have hηB := S.η_B; have hηsq := S.η_sq
  obtain ⟨hMB, -⟩ := S.M_ten
  have hMsq := S.M_sq
  have huB := mul_nonneg hu hB.le
  have huB1 : 9000 * (u * B) ≤ B := by
    have := mul_le_mul_of_nonneg_right hu1 hB.le
    linarith
  set D : Fin 3 → ℚ := fun a => c.place x a - c.sensor a with hDdef
  have hD6 : ∀ a, |D a| ≤ 6 * B := by
    intro a
    obtain ⟨t0, t1, t2⟩ := hc.turn a
    have P0 := prod_le t0 (hx 0); have P1 := prod_le t1 (hx 1); have P2 := prod_le t2 (hx 2)
    have e1 : D a = c.pose a * x 0 + c.pose (4 + a) * x 1 + c.pose (8 + a) * x 2 := by
      rw [hDdef]; unfold Camera3.place Camera3.sensor; ring
    rw [e1]
    have h1 := abs_add_le (c.pose a * x 0 + c.pose (4 + a) * x 1) (c.pose (8 + a) * x 2)
    have h2 := abs_add_le (c.pose a * x 0) (c.pose (4 + a) * x 1)
    linarith
  have hs1 : ∀ a, |c.sensor a| ≤ B := fun a => hc.shift a
  have ho3 : ∀ a, |vo a| ≤ 102 / 100 * B := fun a => (near_bound (ho2 a) (hs1 a)).trans (by linarith)
  have hpl : ∀ a, |c.place x a| ≤ 7 * B := fun a => by
    have h1 := abs_add_le (D a) (c.sensor a)
    rw [show D a + c.sensor a = c.place x a by rw [hDdef]; ring] at h1
    linarith [hD6 a, hs1 a]
  have hp3 : ∀ a, |vp a| ≤ 702 / 100 * B := fun a => (near_bound (hp2 a) (hpl a)).trans (by linarith)
  have hr : ∀ a, ∃ r, val (A.sub (p a) (o a)) = .fin r ∧ |r - D a| ≤ 102 * (u * B) ∧ |r| ≤ 61 / 10 * B := by
    intro a
    have hb : |vp a| + |vo a| ≤ 804 / 100 * B := by linarith [hp3 a, ho3 a]
    obtain ⟨r, e1, e2⟩ := H.sub _ _ _ _ (hp1 a) (ho1 a) (by linarith)
    have e3 := mul_le_mul_of_nonneg_left hb hu
    have e4 : |r - (vp a - vo a)| ≤ 905 / 100 * (u * B) := by linarith
    have e5 : |r - D a| ≤ 102 * (u * B) := by
      have k1 := abs_le.1 e4; have k2 := abs_le.1 (ho2 a); have k3 := abs_le.1 (hp2 a)
      rw [hDdef, abs_le]
      constructor <;> simp only <;> linarith
    exact ⟨r, e1, e5, (near_bound e5 (hD6 a)).trans (by linarith)⟩
  choose r hr1 hr2 hr3 using hr
  have hsq : ∀ a, r a * r a ≤ 3721 / 100 * B ^ 2 := fun a => by
    have := pow_le_pow_left₀ (abs_nonneg _) (hr3 a) 2
    rw [sq_abs] at this
    nlinarith
  have hB2 : 0 ≤ B ^ 2 := sq_nonneg B
  have huu : (u * B) ^ 2 ≤ 1 / 9000 * B ^ 2 := by nlinarith
  have hm : ∀ a, ∃ m, val (A.mul (A.sub (p a) (o a)) (A.sub (p a) (o a))) = .fin m ∧ 0 ≤ m ∧ |m - r a * r a| ≤ u * (r a * r a) + η ∧ m ≤ 38 * B ^ 2 := by
    intro a
    have h0 := mul_self_nonneg (r a)
    obtain ⟨m, e1, e2, e3⟩ := H.mul _ _ _ _ (hr1 a) (hr1 a) (by linarith [hr3 a]) (by linarith [hr3 a]) (by rw [abs_of_nonneg h0]; linarith [hsq a])
    rw [abs_of_nonneg h0] at e2
    refine ⟨m, e1, e3 h0, e2, ?_⟩
    have k := mul_le_mul_of_nonneg_right hu1 h0
    have := (abs_le.1 e2).2
    linarith [hsq a]
  choose m hm1 hm2 hm3 hm4 using hm
  obtain ⟨t, ht1, ht2, ht0⟩ := H.add _ _ _ _ (hm1 0) (hm1 1) (by rw [abs_of_nonneg (hm2 0), abs_of_nonneg (hm2 1)]; linarith [hm4 0, hm4 1])
  rw [abs_of_nonneg (hm2 0), abs_of_nonneg (hm2 1)] at ht2
  have ht0 := ht0 (hm2 0) (hm2 1)
  have ht3 : t ≤ 77 * B ^ 2 := by
    have k := mul_le_mul_of_nonneg_right hu1 (add_nonneg (hm2 0) (hm2 1))
    have := (abs_le.1 ht2).2
    linarith [hm4 0, hm4 1]
  obtain ⟨q, hq1, hq2, hq0⟩ := H.add _ _ _ _ ht1 (hm1 2) (by rw [abs_of_nonneg ht0, abs_of_nonneg (hm2 2)]; linarith [hm4 2])
  rw [abs_of_nonneg ht0, abs_of_nonneg (hm2 2)] at hq2
  have hq0 := hq0 ht0 (hm2 2)
  have hq3 : q ≤ 116 * B ^ 2 := by
    have k := mul_le_mul_of_nonneg_right hu1 (add_nonneg ht0 (hm2 2))
    have := (abs_le.1 hq2).2
    linarith [hm4 2]
  obtain ⟨l, hl1, hl0, hl2⟩ := H.root _ _ hq1 hq0 (by linarith)
  have herr := root_error hu hu1 hη (mul_self_nonneg (r 0)) (mul_self_nonneg (r 1)) (mul_self_nonneg (r 2)) (hm3 0) (hm3 1) (hm3 2)
    (hm2 0) (hm2 1) (hm2 2) ht0 ht2 hq2 hl2
  have hSum0 : 0 ≤ r 0 * r 0 + r 1 * r 1 + r 2 * r 2 := add_nonneg (add_nonneg (mul_self_nonneg _) (mul_self_nonneg _)) (mul_self_nonneg _)
  have hSumB : r 0 * r 0 + r 1 * r 1 + r 2 * r 2 ≤ 112 * B ^ 2 := by linarith [hsq 0, hsq 1, hsq 2]
  have hlen13 : l ≤ 13 * B := by
    refine abs_le_of_sq_le_sq' ?_ (by positivity) |>.2
    have k := mul_le_mul_of_nonneg_right hu1 hSum0
    have := (abs_le.1 herr).2
    nlinarith
  have hlen14 : l ≤ 14 * B := by linarith
  obtain ⟨l', hl3, hl4⟩ := H.store _ _ hl1 (by rw [abs_of_nonneg hl0]; linarith)
  rw [abs_of_nonneg hl0] at hl4
  have hl5 := mul_le_mul_of_nonneg_left hlen13 hu
  have hup := length_upper hu hu1 hη hB.le hηsq hSum0 hl0 hlen14 herr
  have hdist : distSq c.sensor (c.place x) = (D 0) ^ 2 + (D 1) ^ 2 + (D 2) ^ 2 := rfl
  refine ⟨vo, vp, l, l', ho1, hp1, ho2, hp2, fun a => by linarith [ho3 a], fun a => by linarith [hp3 a], hl1, hl3, hl0, hlen14, by linarith, ?_, ?_⟩
  · have hw : ∀ a, |D a - r a| ≤ 102 * (u * B) := fun a => by rw [abs_sub_comm]; exact hr2 a
    have := minkowski (v0 := r 0) (v1 := r 1) (v2 := r 2) (A := l + 75 * (u * B)) (by positivity) (by positivity)
      (by rw [sq, sq, sq]; exact hup) (hw 0) (hw 1) (hw 2)
    rw [add_sub_cancel, add_sub_cancel, add_sub_cancel] at this
    rw [show l + 279 * (u * B) = l + 75 * (u * B) + 2 * (102 * (u * B)) by ring, hdist]
    exact this
  · intro L hL hL14 hτ
    rw [hdist] at hτ
    have := minkowski (v0 := D 0) (v1 := D 1) (v2 := D 2) (A := L) hL (by positivity) hτ (hr2 0) (hr2 1) (hr2 2)
    rw [add_sub_cancel, add_sub_cancel, add_sub_cancel] at this
    have := length_lower (A := L + 2 * (102 * (u * B))) (τ := 1) hu hu1 hη hB.le hηsq hSum0 zero_le_one le_rfl (by positivity) (by linarith)
      (by rw [one_pow, one_mul]; linarith [sq (r 0), sq (r 1), sq (r 2)]) herr
    linarith

/-- Comparing the computed cell with a boundary: cell `k` begins at `k * e`. -/
theorem index_fair (H : AccurateArith A sqrt val kept u η M) (S : Room u η M e B) {w v p : ℚ} {P V : F} (hP : val P = .fin p) (hV : val V = .fin v)
    (hv : |v * e - 1| ≤ 4 * u) (hp : |p| ≤ 8 * B) {i : ℤ} (hi : A.toInt (A.mul P V) = some i) (hw : w = 60 * (u * B)) :
    (i : ℚ) * e ≤ p + w ∧ p < ((i : ℚ) + 1) * e + w := by
  have hB := S.B_pos; have hu := S.u_nonneg; have hu1 := S.u_le; have he := S.e_pos; have heB := S.e_le
  have huB := mul_nonneg hu hB.le
  obtain ⟨hM1, hM2⟩ := S.M_inv
  have hve := abs_le.1 hv
  have hvabs : |v| * e ≤ 1 + 4 * u := by
    have h1 : |v * e| ≤ 1 + 4 * u := near_bound hv (by rw [abs_one])
    rwa [abs_mul, abs_of_pos he] at h1
  have hve2 : |v| * e ≤ 1001 / 1000 := by linarith
  have hvM : |v| ≤ M := by
    refine le_trans ?_ hM2
    rw [le_div_iff₀ he]
    linarith
  have hpv : |p * v| * e ≤ 801 / 100 * B := by
    rw [abs_mul, mul_assoc]
    have := mul_le_mul hp hve2 (mul_nonneg (abs_nonneg v) he.le) (by linarith)
    linarith
  have hpvM : |p * v| ≤ M := by
    refine le_trans ?_ hM1
    rw [← mul_div_assoc, le_div_iff₀ he]
    linarith
  have hM9 := S.M_ten.1
  obtain ⟨m, m1, m2, -⟩ := H.mul P V p v hP hV (by linarith) hvM hpvM
  have huB1 := mul_le_mul_of_nonneg_right hu1 hB.le
  have hηe : η * e ≤ u * B := mul_le_mul S.η_u heB he.le hu
  -- in units of length
  have m3 : |m * e - p| ≤ 42 * (u * B) := by
    have k1 := mul_le_mul_of_nonneg_right m2 he.le
    have k2 : |m - p * v| * e = |m * e - p * v * e| := by
      rw [← abs_of_pos he, ← abs_mul, abs_of_pos he]; congr 1; ring
    rw [k2] at k1
    have k3 : |p * v * e - p| ≤ 32 * (u * B) := by
      rw [show p * v * e - p = p * (v * e - 1) by ring, abs_mul]
      have := mul_le_mul hp hv (abs_nonneg _) (by linarith)
      linarith
    have k4 := mul_le_mul_of_nonneg_left hpv hu
    have k5 := abs_add_le (m * e - p * v * e) (p * v * e - p)
    rw [sub_add_sub_cancel] at k5
    linarith
  have m4 : |m| * e ≤ 802 / 100 * B := by
    have := near_bound m3 hp
    rw [abs_mul, abs_of_pos he] at this
    linarith
  have hmM : |m| ≤ M := by
    refine le_trans ?_ hM1
    rw [← mul_div_assoc, le_div_iff₀ he]
    linarith
  obtain ⟨b, b1, b2⟩ := H.store _ _ m1 hmM
  obtain ⟨q, q1, q2⟩ := H.toInt _ _ hi
  rw [b1] at q1
  cases q1
  have b3 : |b * e - p| ≤ 52 * (u * B) := by
    have k1 := mul_le_mul_of_nonneg_right b2 he.le
    have k2 : |b - m| * e = |b * e - m * e| := by
      rw [← abs_of_pos he, ← abs_mul, abs_of_pos he]; congr 1; ring
    rw [k2] at k1
    have k4 := mul_le_mul_of_nonneg_left m4 hu
    have k5 := abs_add_le (b * e - m * e) (m * e - p)
    rw [sub_add_sub_cancel] at k5
    linarith
  have f1 : (i : ℚ) ≤ b := by rw [← q2]; exact Int.floor_le b
  have f2 : b < (i : ℚ) + 1 := by rw [← q2]; exact Int.lt_floor_add_one b
  have g1 := mul_le_mul_of_nonneg_right f1 he.le
  have g2 := mul_lt_mul_of_pos_right f2 he
  have := abs_le.1 b3
  rw [hw]
  constructor <;> linarith

end

end VGT
