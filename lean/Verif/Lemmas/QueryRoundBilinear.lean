import Verif.Lemmas.QueryRound

/-!
Rounding errors of the second interpolation formula.
-/
set_option autoImplicit false

namespace VGT

section
variable {K : Type} [Field K] [LinearOrder K] [IsStrictOrderedRing K]

/-- `x` is near `y`, a number of size at most `B`: the error is `k ε` relative to `B`. -/
def Near (ε k B x y : K) : Prop := |y| ≤ B ∧ |x - y| ≤ k * ε * B

namespace Near
variable {ε k k' B B' x y x' y' : K}

theorem nonneg (h : Near ε k B x y) : 0 ≤ B := (abs_nonneg _).trans h.1

theorem mono (h : Near ε k B x y) (h0 : 0 ≤ ε) (hk : k ≤ k') : Near ε k' B x y :=
  ⟨h.1, h.2.trans (mul_le_mul_of_nonneg_right (mul_le_mul_of_nonneg_right hk h0) h.nonneg)⟩

theorem exact (h : |y| ≤ B) : Near ε 0 B y y := ⟨h, by simp⟩

theorem add (h : Near ε k B x y) (h' : Near ε k B' x' y') : Near ε k (B + B') (x + x') (y + y') := by
  refine ⟨(abs_add_le _ _).trans (add_le_add h.1 h'.1), ?_⟩
  have := (abs_add_le (x - y) (x' - y')).trans (add_le_add h.2 h'.2)
  rw [show x + x' - (y + y') = x - y + (x' - y') by ring]
  linarith

theorem neg (h : Near ε k B x y) : Near ε k B (-x) (-y) := by
  refine ⟨by rw [abs_neg]; exact h.1, ?_⟩
  rw [show -x - -y = -(x - y) by ring, abs_neg]
  exact h.2

theorem sub (h : Near ε k B x y) (h' : Near ε k B' x' y') : Near ε k (B + B') (x - x') (y - y') := by
  rw [sub_eq_add_neg, sub_eq_add_neg]
  exact h.add h'.neg

theorem mul (h : Near ε k B x y) (h' : Near ε k' B' x' y') (h0 : 0 ≤ ε) (hε : ε ≤ 1 / 1000) (hk : 0 ≤ k) (hk' : 0 ≤ k') :
    Near ε (k + k' + k * k' / 1000) (B * B') (x * x') (y * y') := by
  have hB := h.nonneg
  have hB' := h'.nonneg
  constructor
  · rw [abs_mul]
    exact mul_le_mul h.1 h'.1 (abs_nonneg _) hB
  · have e : x * x' - y * y' = (x - y) * (x' - y') + ((x - y) * y' + y * (x' - y')) := by ring
    rw [e]
    have t := (abs_add_le ((x - y) * (x' - y')) ((x - y) * y' + y * (x' - y'))).trans
      (add_le_add le_rfl (abs_add_le ((x - y) * y') (y * (x' - y'))))
    simp only [abs_mul] at t
    have t1 : |x - y| * |x' - y'| ≤ (k * ε * B) * (k' * ε * B') :=
      mul_le_mul h.2 h'.2 (abs_nonneg _) (mul_nonneg (mul_nonneg hk h0) hB)
    have t2 : |x - y| * |y'| ≤ (k * ε * B) * B' := mul_le_mul h.2 h'.1 (abs_nonneg _) (mul_nonneg (mul_nonneg hk h0) hB)
    have t3 : |y| * |x' - y'| ≤ B * (k' * ε * B') := mul_le_mul h.1 h'.2 (abs_nonneg _) hB
    have t4 : (k * k' * ε * (B * B')) * ε ≤ (k * k' * ε * (B * B')) * (1 / 1000) :=
      mul_le_mul_of_nonneg_left hε (mul_nonneg (mul_nonneg (mul_nonneg hk hk') h0) (mul_nonneg hB hB'))
    linarith

theorem inv (h : Near ε k B x B) (hB : 0 < B) (h0 : 0 ≤ ε) (hε : ε ≤ 1 / 1000) (hk : 0 ≤ k) (hk2 : k ≤ 100) :
    Near ε (6 / 5 * k) (1 / B) (1 / x) (1 / B) := by
  refine ⟨by rw [abs_of_pos (by positivity)], ?_⟩
  have hkε : k * ε ≤ 1 / 10 := by
    calc k * ε ≤ 100 * (1 / 1000) := mul_le_mul hk2 hε h0 (by norm_num)
      _ = 1 / 10 := by norm_num
  have h1 := (abs_le.1 h.2).1
  have hx : 9 / 10 * B ≤ x := by
    have : k * ε * B ≤ 1 / 10 * B := mul_le_mul_of_nonneg_right hkε hB.le
    linarith
  have hx0 : 0 < x := lt_of_lt_of_le (by linarith) hx
  have e : 1 / x - 1 / B = -(x - B) / (x * B) := by field_simp; ring
  rw [e, abs_div, abs_neg, abs_of_pos (mul_pos hx0 hB), div_le_iff₀ (mul_pos hx0 hB)]
  refine h.2.trans ?_
  have e2 : 6 / 5 * k * ε * (1 / B) * (x * B) = 6 / 5 * (k * ε) * x := by field_simp
  rw [e2]
  have : 6 / 5 * (k * ε) * (9 / 10 * B) ≤ 6 / 5 * (k * ε) * x :=
    mul_le_mul_of_nonneg_left hx (mul_nonneg (by norm_num) (mul_nonneg hk h0))
  have hp : 0 ≤ k * ε * B := mul_nonneg (mul_nonneg hk h0) hB.le
  linarith

end Near

variable {r : K → K} {u η s N : K}

theorem Precise.rnd [FloorRing K] (h : Precise r u η s N) {k B x y : K} (hx : Near (u * N) k B x y) (hB : η ≤ u * B) (hk : k ≤ 1000) :
    Near (u * N) (k + 3) B (r x) y := by
  refine ⟨hx.1, ?_⟩
  have hB0 := hx.nonneg
  have h1 := h.near hx.2
  have hkB : 0 ≤ u * N * B := mul_nonneg h.k0 hB0
  have h2 : u * N * B ≤ 1 / 1000 * B := mul_le_mul_of_nonneg_right h.small hB0
  have h3 : k * (u * N) * B ≤ B := by
    have : k * (u * N * B) ≤ 1000 * (u * N * B) := mul_le_mul_of_nonneg_right hk hkB
    linarith
  have h4 : u * (|y| + k * (u * N) * B) ≤ u * (B + B) := mul_le_mul_of_nonneg_left (add_le_add hx.1 h3) h.u0
  have h5 : u * B ≤ u * N * B := mul_le_mul_of_nonneg_right h.u_le hB0
  linarith

set_option maxHeartbeats 800000 in
/-- The second formula, for cells that are neither so small nor so large that areas or their inverses underflow. -/
theorem Precise.accurate_bilinear [FloorRing K] (h : Precise r u η s N) (h3 : η ≤ u * s ^ 3) (h2 : η ≤ u / s ^ 2) :
    Accurate (flBilinear (roundedArith r)) r u s N (8000 * (u * N)) := by
  intro j c q w v V hj hc hq hw hV hv
  have hs := h.s0
  have u0 := h.u0
  have hk := h.k0
  have hsm := h.small
  have hVpos : 0 < V := lt_of_lt_of_le h.s0 hV
  have hw2 : ∀ a, |w a| ≤ 2 := fun a => abs_le.2 ⟨by linarith [(hw a).1], (hw a).2⟩
  have big : ∀ {B B' : K}, η ≤ u * B → B ≤ B' → η ≤ u * B' := fun h1 h2 => h1.trans (mul_le_mul_of_nonneg_left h2 u0)
  have e1 : η ≤ u * 1 := by rw [mul_one]; exact h.eta
  have es2 : η ≤ u * s ^ 2 := by
    rcases le_total s 1 with hs1 | hs1
    · exact big h3 (pow_le_pow_of_le_one hs.le hs1 (by norm_num))
    · exact big e1 (one_le_pow₀ hs1)
  have ei : η ≤ u * (1 / s) := by
    rcases le_total s 1 with hs1 | hs1
    · exact big e1 (by rw [le_div_iff₀ hs]; linarith)
    · refine big (by rw [mul_one_div]; exact h2) (one_div_le_one_div_of_le hs ?_)
      calc s = s * 1 := by ring
        _ ≤ s * s := mul_le_mul_of_nonneg_left hs1 hs.le
        _ = s ^ 2 := by ring
  have ei2 : η ≤ u * (1 / s ^ 2) := by rw [mul_one_div]; exact h2
  have eV : η ≤ u * V := big h.eta_s hV
  have esV : η ≤ u * (s * V) := big es2 (by rw [sq]; exact mul_le_mul_of_nonneg_left hV hs.le)
  have es2V : η ≤ u * (s ^ 2 * V) := big h3 (by rw [pow_succ]; exact mul_le_mul_of_nonneg_left hV (sq_nonneg s))
  have eVs : η ≤ u * (V / s) := big e1 (by rwa [le_div_iff₀ hs, one_mul])
  -- offsets
  have lo : ∀ a, Near (u * N) 6 (2 * s) (r (q a - c a)) (w a * s) := by
    intro a
    refine ⟨by rw [abs_mul, abs_of_pos hs]; exact mul_le_mul_of_nonneg_right (hw2 a) hs.le, ?_⟩
    have := h.offset (hw2 a) (hc a) (hq a)
    linarith
  have hi : ∀ a, Near (u * N) 10 (2 * s) (r (r (c a + s) - q a)) ((1 - w a) * s) := by
    intro a
    have hcs : Near (u * N) 6 (2 * s) (r (c a + s) - q a) ((1 - w a) * s) := by
      have hw' : |1 - w a| ≤ 2 := abs_le.2 ⟨by linarith [(hw a).2], by linarith [(hw a).1]⟩
      refine ⟨by rw [abs_mul, abs_of_pos hs]; exact mul_le_mul_of_nonneg_right hw' hs.le, ?_⟩
      have hks : u * N * s ≤ 1 / 1000 * s := mul_le_mul_of_nonneg_right hsm hs.le
      have h9 : u * s ≤ u * N * s := mul_le_mul_of_nonneg_right h.u_le hs.le
      have h10 : 0 ≤ u * s := mul_nonneg u0 hs.le
      have hcs : |c a + s| ≤ (N + 3 / 2 + 8 * (1 / 1000)) * s := by
        have e1 : |j a * s| ≤ N * s := by
          rw [abs_mul, abs_of_pos hs]
          exact mul_le_mul_of_nonneg_right (hj a) hs.le
        have hca := hc a
        rw [abs_le] at e1 hca ⊢
        constructor <;> linarith [e1.1, e1.2, hca.1, hca.2]
      have t1 := h.err (c a + s)
      have h4 : u * |c a + s| ≤ u * ((N + 3 / 2 + 8 * (1 / 1000)) * s) := mul_le_mul_of_nonneg_left hcs u0
      have h5 : u * ((N + 3 / 2 + 8 * (1 / 1000)) * s) = u * N * s + (3 / 2 + 8 * (1 / 1000)) * (u * s) := by ring
      have t2 : r (c a + s) - q a - (1 - w a) * s = (r (c a + s) - (c a + s)) + (c a - (j a + 1 / 2) * s) := by rw [hq a]; ring
      rw [t2]
      have t3 := abs_add_le (r (c a + s) - (c a + s)) (c a - (j a + 1 / 2) * s)
      have := hc a
      have := h.eta_s
      linarith
    exact (h.rnd hcs (big h.eta_s (by linarith)) (by norm_num)).mono hk (by norm_num)
  have ed : ∀ a, Near (u * N) 7 s (r (r (c a + s) - c a)) s := fun a => ⟨by rw [abs_of_pos hs], h.edge (hj a) (hc a)⟩
  -- rows
  have row : ∀ y z, Near (u * N) 17 (4 * (s * V))
      (r (r (r (r (c 0 + s) - q 0) * v false y z) + r (r (q 0 - c 0) * v true y z)))
      ((1 - w 0) * s * v false y z + w 0 * s * v true y z) := by
    intro y z
    have p1 := h.rnd ((hi 0).mul (Near.exact (hv false y z)) hk hsm (by norm_num) le_rfl)
      (big esV (by have := mul_pos hs hVpos; linarith)) (by norm_num)
    have p2 := h.rnd ((lo 0).mul (Near.exact (hv true y z)) hk hsm (by norm_num) le_rfl)
      (big esV (by have := mul_pos hs hVpos; linarith)) (by norm_num)
    have p3 := (p1.mono (k' := 13) hk (by norm_num)).add (p2.mono (k' := 13) hk (by norm_num))
    have e : 2 * s * V + 2 * s * V = 4 * (s * V) := by ring
    rw [e] at p3
    exact (h.rnd p3 (big esV (by have := mul_pos hs hVpos; linarith)) (by norm_num)).mono hk (by norm_num)
  have area : Near (u * N) 18 (s ^ 2) (r (r (r (c 0 + s) - c 0) * r (r (c 1 + s) - c 1))) (s ^ 2) := by
    have p1 := (ed 0).mul (ed 1) hk hsm (by norm_num) (by norm_num)
    have e : s * s = s ^ 2 := by ring
    rw [e] at p1
    exact (h.rnd p1 es2 (by norm_num)).mono hk (by norm_num)
  have iarea := h.rnd (area.inv (by positivity) hk hsm (by norm_num) (by norm_num)) ei2 (by norm_num)
  have s2V : 0 < s ^ 2 * V := by positivity
  obtain ⟨P, hP⟩ : ∃ P : Bool → K, P = fun z =>
      r (r (1 / r (r (r (c 0 + s) - c 0) * r (r (c 1 + s) - c 1))) *
        r (r (r (r (r (r (c 0 + s) - q 0) * v false false z) + r (r (q 0 - c 0) * v true false z)) * r (r (c 1 + s) - q 1)) +
          r (r (r (r (r (c 0 + s) - q 0) * v false true z) + r (r (q 0 - c 0) * v true true z)) * r (q 1 - c 1)))) := ⟨_, rfl⟩
  have plane : ∀ z, Near (u * N) 68 (16 * V) (P z)
      ((1 - w 1) * ((1 - w 0) * v false false z + w 0 * v true false z) + w 1 * ((1 - w 0) * v false true z + w 0 * v true true z)) := by
    intro z
    have p1 := h.rnd ((row false z).mul (hi 1) hk hsm (by norm_num) (by norm_num)) (big es2V (by linarith)) (by norm_num)
    have p2 := h.rnd ((row true z).mul (lo 1) hk hsm (by norm_num) (by norm_num)) (big es2V (by linarith)) (by norm_num)
    have p3 := (p1.mono (k' := 31) hk (by norm_num)).add (p2.mono (k' := 31) hk (by norm_num))
    have e : 4 * (s * V) * (2 * s) + 4 * (s * V) * (2 * s) = 16 * (s ^ 2 * V) := by ring
    rw [e] at p3
    have p4 := h.rnd p3 (big es2V (by linarith)) (by norm_num)
    have p5 := iarea.mul p4 hk hsm (by norm_num) (by norm_num)
    have e2 : 1 / s ^ 2 * (16 * (s ^ 2 * V)) = 16 * V := by field_simp
    rw [e2] at p5
    have p6 := (h.rnd p5 (big eV (by linarith)) (by norm_num)).mono hk (k' := 68) (by norm_num)
    have e3 : 1 / s ^ 2 * (((1 - w 0) * s * v false false z + w 0 * s * v true false z) * ((1 - w 1) * s) +
        ((1 - w 0) * s * v false true z + w 0 * s * v true true z) * (w 1 * s)) =
        (1 - w 1) * ((1 - w 0) * v false false z + w 0 * v true false z) + w 1 * ((1 - w 0) * v false true z + w 0 * v true true z) := by
      field_simp
    rw [e3] at p6
    rw [hP]
    exact p6
  obtain ⟨X, hX⟩ : ∃ X : Bool → K, X = fun z => (1 - w 1) * ((1 - w 0) * v false false z + w 0 * v true false z) +
      w 1 * ((1 - w 0) * v false true z + w 0 * v true true z) := ⟨_, rfl⟩
  have plane' : ∀ z, Near (u * N) 68 (16 * V) (P z) (X z) := by rw [hX]; exact plane
  have i2 := h.rnd ((ed 2).inv hs hk hsm (by norm_num) (by norm_num)) ei (by norm_num)
  have d := h.rnd ((plane' true).sub (plane' false)) (big eV (by linarith)) (by norm_num)
  have hVs0 : 0 < V / s := by positivity
  have m1 := h.rnd (d.mul i2 hk hsm (by norm_num) (by norm_num)) (by
    refine big eVs ?_
    have : (16 * V + 16 * V) * (1 / s) = 32 * (V / s) := by ring
    rw [this]
    linarith) (by norm_num)
  have m2 := m1.mul (lo 2) hk hsm (by norm_num) (by norm_num)
  have e4 : (16 * V + 16 * V) * (1 / s) * (2 * s) = 64 * V := by field_simp; norm_num
  rw [e4] at m2
  have m3 := h.rnd m2 (big eV (by linarith)) (by norm_num)
  have e5 : (X true - X false) * (1 / s) * (w 2 * s) = w 2 * (X true - X false) := by field_simp
  rw [e5] at m3
  have m4 := ((plane' false).mono (k' := 96) hk (by norm_num)).add (m3.mono (k' := 96) hk (by norm_num))
  have m5 := h.rnd m4 (big eV (by linarith)) (by norm_num)
  have e6 : flBilinear (roundedArith r) c (fun a => r (c a + s)) v q =
      r (P false + r (r (r (P true - P false) * r (1 / r (r (c 2 + s) - c 2))) * r (q 2 - c 2))) := by
    rw [hP]; rfl
  have e7 : triB w v = X false + w 2 * (X true - X false) := by
    rw [hX]; unfold triB; dsimp only; ring
  rw [e6, e7]
  refine m5.2.trans ?_
  have : 0 ≤ u * N * V := mul_nonneg hk hVpos.le
  linarith

end

end VGT
