import Verif.Props.RayCut
import Verif.Props.CameraFloat

/-!
C84: when the ray of a point is defined, wherever the sensor is.
-/
set_option autoImplicit false

namespace VGT
open VGT.EDT VGT.Spec

/-! ### One ray, any rounding with errors below one percent -/

/-- Rounding keeps both signs. -/
def KeepsSigns (R : ℚ → Fl) : Prop := ∀ q y, R q = .fin y → (0 ≤ q → 0 ≤ y) ∧ (q ≤ 0 → y ≤ 0)

theorem keepsSigns_saturate (p : ℕ) (emin : ℤ) (hp : 1 ≤ p) (max : ℚ) : KeepsSigns fun q => saturate max (rne p emin q) := by
  intro q y h
  have h0 : rne p emin (0 : ℚ) = 0 := rne_zero p emin
  refine ⟨fun hq => keepsSign_saturate p emin max q y hq h, fun hq => ?_⟩
  have h2 : rne p emin q ≤ 0 := by
    have := rne_mono (p := p) (emin := emin) hp hq
    rwa [h0] at this
  unfold saturate at h
  dsimp only at h
  split_ifs at h
  cases h
  exact h2

section
variable {R : ℚ → Fl} {u η M : ℚ} {g : RayGrid Fl} {bits : ℕ}

/-- A rounded number is not much smaller than the number. -/
theorem rounds_abs_ge (hR : Rounds R u η M) (hu : u ≤ 1 / 100) {x y : ℚ} (h : R x = .fin y) : 99 / 100 * |x| - η ≤ |y| := by
  have h1 := hR.fin h
  have h2 := abs_sub_abs_le_abs_sub x y
  rw [abs_sub_comm] at h2
  have h4 := mul_le_mul_of_nonneg_right hu (abs_nonneg x)
  linarith

/-- The sizes of things: positions and edges of the grid are at most `X`, directions at least `ν` where it matters; `η` is much smaller. -/
structure RoughScale (u η M X ν : ℚ) : Prop where
  u_le : u ≤ 1 / 100
  η_nonneg : 0 ≤ η
  η_le : 10 ^ 13 * η ≤ 1
  η_X : 10 ^ 13 * η ≤ X
  X_pos : 0 < X
  ν_ge : 9 / 10 ^ 11 ≤ ν
  ν_le : ν ≤ 1
  M_one : 10 ≤ M
  M_inv : 10 ^ 11 / 9 ≤ M
  M_X : 10 ^ 12 * X ≤ M

/-- The time at which a plane at distance `z` is met. -/
theorem plane_time (hR : Rounds R u η M) (hsg : KeepsSigns R) {X ν : ℚ} (S : RoughScale u η M X ν) {z d m : ℚ} (hz : |z| ≤ X)
    (hm : 9 / 10 ^ 11 ≤ m) (hm1 : m ≤ 1) (hd : m ≤ |d|) :
    ∃ w v t, R z = .fin w ∧ Fl.divR R (.fin 1) (.fin d) = .fin v ∧ Fl.mulR R (.fin w) (.fin v) = .fin t ∧
      |t| ≤ 11 / 10 * (X / m) ∧ (z ≤ 0 → 0 < d → t ≤ 0) ∧ (0 ≤ z → d < 0 → t ≤ 0) := by
  have hu := S.u_le; have hη := S.η_nonneg; have hη1 := S.η_le; have hηX := S.η_X; have hX := S.X_pos; have hM := S.M_X; have hM1 := S.M_one
  have hm0 : 0 < m := lt_of_lt_of_le (by norm_num) hm
  have hd0 : d ≠ 0 := by
    intro h
    rw [h, abs_zero] at hd
    linarith
  have hi1 : 1 ≤ 1 / m := by rw [le_div_iff₀ hm0]; linarith
  have hi2 : 1 / m ≤ 10 ^ 11 / 9 := by
    rw [div_le_iff₀ hm0]
    linarith
  obtain ⟨w, w1, w2⟩ := rounds_abs_le hR hu hz (by linarith)
  have hinv : |1 / d| ≤ 1 / m := by
    rw [abs_div, abs_one]
    exact one_div_le_one_div_of_le hm0 hd
  have hMv : 1 / m ≤ M := by
    have := S.M_inv
    linarith
  obtain ⟨v, v1, v2⟩ := rounds_abs_le hR hu hinv hMv
  have hw : |w| ≤ 102 / 100 * X := by linarith
  have hv : |v| ≤ 102 / 100 * (1 / m) := by linarith
  have hwv : |w * v| ≤ 10404 / 10000 * (X / m) := by
    rw [abs_mul]
    calc |w| * |v| ≤ (102 / 100 * X) * (102 / 100 * (1 / m)) := mul_le_mul hw hv (abs_nonneg _) (by positivity)
      _ = 10404 / 10000 * (X / m) := by ring
  have hXm : X ≤ X / m := by
    rw [le_div_iff₀ hm0]
    nlinarith
  have hXm2 : X / m ≤ 10 ^ 11 / 9 * X := by
    calc X / m = X * (1 / m) := by ring
      _ ≤ X * (10 ^ 11 / 9) := mul_le_mul_of_nonneg_left hi2 hX.le
      _ = _ := by ring
  obtain ⟨t, t1, t2⟩ := rounds_abs_le hR hu hwv (by linarith)
  have hv3 : Fl.divR R (.fin 1) (.fin d) = .fin v := by
    show (if d = 0 then _ else R (1 / d)) = _
    rw [if_neg hd0, v1]
  refine ⟨w, v, t, w1, hv3, t1, by linarith, fun h1 h2 => ?_, fun h1 h2 => ?_⟩
  · have k1 := (hsg _ _ w1).2 h1
    have k2 := (hsg _ _ v1).1 (by positivity)
    exact (hsg _ _ t1).2 (mul_nonpos_of_nonpos_of_nonneg k1 k2)
  · have k1 := (hsg _ _ w1).1 h1
    have k2 := (hsg _ _ v1).2 (div_nonpos_of_nonneg_of_nonpos (by norm_num) h2.le)
    exact (hsg _ _ t1).2 (mul_nonpos_of_nonneg_of_nonpos k1 k2)

/-- One axis of the slab test: the start time stays finite and below `11/10 X / ν`. -/
theorem slab_axis_bounded (hR : Rounds R u η M) (hsg : KeepsSigns R) {X ν : ℚ} (S : RoughScale u η M X ν) {x d z m : ℚ} {q : Fl}
    {st' : Fl × Fl} (hx : |x| ≤ X) (hzx : |z - x| ≤ X) (hcase : (0 ≤ x ∧ x ≤ z) ∨ |d| < 9 / 10 ^ 11 ∨ ν ≤ |d|)
    (hm0 : 0 ≤ m) (hm : m ≤ 11 / 10 * (X / ν))
    (h : flSlabAxis (ieee R bits) (.fin x) (.fin d) (.fin z) (.fin m, q) = some st') :
    ∃ m', st'.1 = .fin m' ∧ 0 ≤ m' ∧ m' ≤ 11 / 10 * (X / ν) := by
  have hu := S.u_le; have hη := S.η_nonneg; have hη1 := S.η_le; have hM1 := S.M_one
  obtain ⟨τ, τ1, -⟩ := rounds_abs_le hR hu (le_refl |(1 : ℚ) / 10 ^ 10|) (by norm_num; linarith)
  have τ3 := rounds_abs_ge hR hu τ1
  have τ4 : 9 / 10 ^ 11 ≤ τ := by
    have h1 := (hsg _ _ τ1).1 (by norm_num)
    rw [abs_of_nonneg h1, abs_of_pos (show (0 : ℚ) < 1 / 10 ^ 10 by norm_num)] at τ3
    norm_num at τ3 hη1 ⊢
    linarith
  have hflat : (ieee R bits).lt ((ieee R bits).abs (.fin d)) (ieee R bits).tiny = decide (|d| < τ) := by
    show Fl.lt (.fin |d|) (R (1 / 10 ^ 10)) = _
    rw [τ1]
    rfl
  unfold flSlabAxis at h
  rw [hflat] at h
  by_cases hd : |d| < τ
  · rw [if_pos (by simpa using hd)] at h
    split_ifs at h
    cases h
    exact ⟨m, rfl, hm0, hm⟩
  · rw [if_neg (by simpa using hd)] at h
    push Not at hd
    have hd9 : 9 / 10 ^ 11 ≤ |d| := τ4.trans hd
    -- the bound that matters
    have key : ∃ tl th, Fl.mulR R (Fl.subR R (.fin 0) (.fin x)) (Fl.divR R (.fin 1) (.fin d)) = .fin tl ∧
        Fl.mulR R (Fl.subR R (.fin z) (.fin x)) (Fl.divR R (.fin 1) (.fin d)) = .fin th ∧
        (tl ≤ 11 / 10 * (X / ν) ∨ th ≤ 0 ∨ tl ≤ 0) ∧ (th ≤ 11 / 10 * (X / ν) ∨ th ≤ 0 ∨ tl ≤ 0) := by
      have h0x : |0 - x| ≤ X := by rwa [zero_sub, abs_neg]
      rcases hcase with hin | hflat' | hsteep
      · obtain ⟨w, v, tl, a1, a2, a3, -, a5, a6⟩ := plane_time hR hsg S h0x (le_refl (9 / 10 ^ 11)) (by norm_num) hd9
        obtain ⟨w', v', th, b1, b2, b3, -, b5, b6⟩ := plane_time hR hsg S hzx (le_refl (9 / 10 ^ 11)) (by norm_num) hd9
        have e1 : Fl.subR R (.fin 0) (.fin x) = .fin w := a1
        have e2 : Fl.subR R (.fin z) (.fin x) = .fin w' := b1
        refine ⟨tl, th, by rw [e1, a2, a3], by rw [e2, b2, b3], ?_⟩
        have : th ≤ 0 ∨ tl ≤ 0 := by
          rcases lt_trichotomy d 0 with hneg | hz | hpos
          · exact .inl (b6 (by linarith) hneg)
          · rw [hz, abs_zero] at hd9; norm_num at hd9
          · exact .inr (a5 (by linarith) hpos)
        exact ⟨.inr this, .inr this⟩
      · linarith
      · obtain ⟨w, v, tl, a1, a2, a3, a4, -, -⟩ := plane_time hR hsg S h0x S.ν_ge S.ν_le hsteep
        obtain ⟨w', v', th, b1, b2, b3, b4, -, -⟩ := plane_time hR hsg S hzx S.ν_ge S.ν_le hsteep
        have e1 : Fl.subR R (.fin 0) (.fin x) = .fin w := a1
        have e2 : Fl.subR R (.fin z) (.fin x) = .fin w' := b1
        exact ⟨tl, th, by rw [e1, a2, a3], by rw [e2, b2, b3], .inl ((le_abs_self _).trans a4), .inl ((le_abs_self _).trans b4)⟩
    obtain ⟨tl, th, k1, k2, k3, k4⟩ := key
    have hT : 0 ≤ 11 / 10 * (X / ν) := hm0.trans hm
    have hle : (ieee R bits).le (.fin tl) (.fin th) = decide (tl ≤ th) := rfl
    have hlt : ∀ a b : ℚ, (ieee R bits).lt (.fin a) (.fin b) = decide (a < b) := fun _ _ => rfl
    have k1' : (ieee R bits).mul ((ieee R bits).sub (ieee R bits).zero (.fin x)) ((ieee R bits).div (ieee R bits).one (.fin d)) = .fin tl := k1
    have k2' : (ieee R bits).mul ((ieee R bits).sub (.fin z) (.fin x)) ((ieee R bits).div (ieee R bits).one (.fin d)) = .fin th := k2
    simp only [k1', k2', hle] at h
    have hstart : ∃ t1, (if decide (tl ≤ th) = true then Fl.fin tl else Fl.fin th) = .fin t1 ∧ t1 ≤ 11 / 10 * (X / ν) := by
      by_cases hc : tl ≤ th
      · refine ⟨tl, by simp [hc], ?_⟩
        rcases k3 with h1 | h1 | h1 <;> linarith
      · refine ⟨th, by simp [hc], ?_⟩
        push Not at hc
        rcases k4 with h1 | h1 | h1 <;> linarith
    obtain ⟨t1, e1, e2⟩ := hstart
    rw [e1, hlt] at h
    obtain ⟨m', k5, k6, k7⟩ : ∃ m', (if decide (m < t1) = true then Fl.fin t1 else Fl.fin m) = .fin m' ∧ 0 ≤ m' ∧ m' ≤ 11 / 10 * (X / ν) := by
      by_cases hmt : m < t1
      · exact ⟨t1, by simp [hmt], by linarith, e2⟩
      · exact ⟨m, by simp [hmt], hm0, hm⟩
    rw [k5] at h
    split_ifs at h <;> cases h <;> exact ⟨m', rfl, k6, k7⟩

/-- The slab test. -/
theorem slabs_bounded (hR : Rounds R u η M) (hsg : KeepsSigns R) {X ν : ℚ} (S : RoughScale u η M X ν) {o d z : Fin 3 → ℚ} {range t : Fl}
    (hz : ∀ a, g.size a = .fin (z a)) (hx : ∀ a, |o a| ≤ X) (hzx : ∀ a, |z a - o a| ≤ X)
    (hcase : ∀ a, (0 ≤ o a ∧ o a ≤ z a) ∨ |d a| < 9 / 10 ^ 11 ∨ ν ≤ |d a|)
    (h : flSlabs (ieee R bits) g (fun a => .fin (o a)) (fun a => .fin (d a)) range = some t) :
    ∃ m, t = .fin m ∧ 0 ≤ m ∧ m ≤ 11 / 10 * (X / ν) := by
  have hν : 0 < ν := lt_of_lt_of_le (by norm_num) S.ν_ge
  have hT : 0 ≤ 11 / 10 * (X / ν) := by have := S.X_pos; positivity
  unfold flSlabs at h
  rw [hz 0, hz 1, hz 2] at h
  rcases h0 : flSlabAxis (ieee R bits) (.fin (o 0)) (.fin (d 0)) (.fin (z 0)) ((ieee R bits).zero, range) with _ | st0
  · rw [h0] at h; cases h
  rw [h0, Option.bind_some] at h
  obtain ⟨m0, a1, a2, a3⟩ := slab_axis_bounded hR hsg S (hx 0) (hzx 0) (hcase 0) (le_refl 0) hT h0
  obtain ⟨s1, q1⟩ := st0
  dsimp only at a1
  subst a1
  rcases h1 : flSlabAxis (ieee R bits) (.fin (o 1)) (.fin (d 1)) (.fin (z 1)) (.fin m0, q1) with _ | st1
  · rw [h1] at h; cases h
  rw [h1, Option.bind_some] at h
  obtain ⟨m1, b1, b2, b3⟩ := slab_axis_bounded hR hsg S (hx 1) (hzx 1) (hcase 1) a2 a3 h1
  obtain ⟨s2, q2⟩ := st1
  dsimp only at b1
  subst b1
  rcases h2 : flSlabAxis (ieee R bits) (.fin (o 2)) (.fin (d 2)) (.fin (z 2)) (.fin m1, q2) with _ | st2
  · rw [h2] at h; cases h
  rw [h2, Option.map_some] at h
  obtain ⟨m2, c1, c2, c3⟩ := slab_axis_bounded hR hsg S (hx 2) (hzx 2) (hcase 2) b2 b3 h2
  cases h
  exact ⟨m2, c1, c2, c3⟩

/-- The direction of the ray as it is computed. -/
theorem dir_rough (hR : Rounds R u η M) {X ν : ℚ} (S : RoughScale u η M X ν) {d len : ℚ} (hlen : 0 < len) (hη : 10 ^ 13 * η ≤ ν * len)
    (hd : |d| ≤ 3 / 2 * len) (hdX : |d| ≤ 2 * X) :
    ∃ r v, R d = .fin r ∧ Fl.divR R (.fin r) (.fin len) = .fin v ∧ |v| ≤ 17 / 10 ∧ (2 * ν * len ≤ |d| → ν ≤ |v|) := by
  have hu := S.u_le; have hη0 := S.η_nonneg; have hη1 := S.η_le; have hηX := S.η_X; have hX := S.X_pos; have hM := S.M_X; have hM1 := S.M_one
  have hν1 := S.ν_le; have hν := S.ν_ge
  have hνlen : ν * len ≤ len := mul_le_of_le_one_left hlen.le hν1
  obtain ⟨r, r1, r2⟩ := rounds_abs_le hR hu (le_refl |d|) (by linarith)
  have hq : |r / len| ≤ 153 / 100 := by
    rw [abs_div, abs_of_pos hlen, div_le_iff₀ hlen]
    linarith
  obtain ⟨v, v1, v2⟩ := rounds_abs_le hR hu hq (by linarith)
  refine ⟨r, v, r1, ?_, by linarith, fun hbig => ?_⟩
  · show (if len = 0 then _ else R (r / len)) = _
    rw [if_neg hlen.ne', v1]
  · have h1 := rounds_abs_ge hR hu r1
    have h2 := rounds_abs_ge hR hu v1
    have h3 : 197 / 100 * ν ≤ |r / len| := by
      rw [abs_div, abs_of_pos hlen, le_div_iff₀ hlen]
      linarith
    linarith

/-- The start of a ray from outside. -/
theorem start_bounded (hR : Rounds R u η M) {X ν : ℚ} (S : RoughScale u η M X ν) {x v m : ℚ} (hx : |x| ≤ X) (hv : |v| ≤ 17 / 10)
    (hm0 : 0 ≤ m) (hm : m ≤ 11 / 10 * (X / ν)) :
    ∃ e, (ieee R bits).add (.fin x) ((ieee R bits).mul (.fin v) ((ieee R bits).add (.fin m) (ieee R bits).tiny)) = .fin e ∧
      |e| ≤ 4 * (X / ν + 1 / 10 ^ 9) := by
  have hu := S.u_le; have hη0 := S.η_nonneg; have hη1 := S.η_le; have hηX := S.η_X; have hX := S.X_pos; have hM := S.M_X; have hM1 := S.M_one
  have hν0 : 0 < ν := lt_of_lt_of_le (by norm_num) S.ν_ge
  have hXν : X ≤ X / ν := by
    rw [le_div_iff₀ hν0]
    have := mul_le_of_le_one_right hX.le S.ν_le
    linarith
  have hXν2 : X / ν ≤ 10 ^ 11 / 9 * X := by
    rw [div_le_iff₀ hν0]
    have h1 := mul_le_mul_of_nonneg_right S.ν_ge hX.le
    nlinarith
  obtain ⟨τ, τ1, τ2⟩ := rounds_abs_le hR hu (le_refl |(1 : ℚ) / 10 ^ 10|) (by norm_num; linarith)
  have τ3 : |τ| ≤ 11 / 10 ^ 11 := by
    rw [abs_of_pos (show (0 : ℚ) < 1 / 10 ^ 10 by norm_num)] at τ2
    norm_num at τ2 hη1 ⊢
    linarith
  generalize X / ν = Q at *
  have h1 : |m + τ| ≤ 11 / 10 * Q + 11 / 10 ^ 11 := by
    have := abs_add_le m τ
    rw [abs_of_nonneg hm0] at this
    linarith
  obtain ⟨a, a1, a2⟩ := rounds_abs_le hR hu h1 (by norm_num; linarith)
  have h2 : |v * a| ≤ 17 / 10 * (101 / 100 * (11 / 10 * Q + 11 / 10 ^ 11) + η) := by
    rw [abs_mul]
    exact mul_le_mul hv a2 (abs_nonneg _) (by norm_num)
  obtain ⟨b, b1, b2⟩ := rounds_abs_le hR hu h2 (by norm_num at *; linarith)
  have h3 : |x + b| ≤ X + (101 / 100 * (17 / 10 * (101 / 100 * (11 / 10 * Q + 11 / 10 ^ 11) + η)) + η) :=
    (abs_add_le _ _).trans (add_le_add hx b2)
  obtain ⟨e, e1, e2⟩ := rounds_abs_le hR hu h3 (by norm_num at *; linarith)
  refine ⟨e, ?_, ?_⟩
  · show Fl.addR R (.fin x) (Fl.mulR R (.fin v) (Fl.addR R (.fin m) (R (1 / 10 ^ 10)))) = .fin e
    rw [τ1]
    have k1 : Fl.addR R (.fin m) (.fin τ) = .fin a := a1
    rw [k1]
    have k2 : Fl.mulR R (.fin v) (.fin a) = .fin b := b1
    rw [k2]
    exact e1
  · norm_num at *
    linarith

/-- C84, one ray: with positions within `X`, wherever the sensor is, the ray of a point that is not at the sensor is defined, if the index type
holds 16 times the number `K` of cells within `X / ν`.  Along each axis the sensor is between the two faces of the grid, or the ray is not
almost parallel to them (its share of the length is at least `2 ν`), or `ν` is `9/10^11`: flatter rays the code takes to be parallel. -/
theorem C84_ray_defined (hR : Rounds R u η M) (hsg : KeepsSigns R) {X ν K : ℚ} (S : RoughScale u η M X ν) {inv : ℚ} (hinv : g.inv = .fin inv)
    (hK : 1 ≤ K) (hKb : 16 * K ≤ 2 ^ (bits - 1)) (hKM : 4 * K ≤ M) (hX : (X / ν + 1 / 10 ^ 9) * |inv| ≤ K) {o p z : Fin 3 → ℚ} {len : ℚ}
    (hz : ∀ a, g.size a = .fin (z a)) (ho : ∀ a, |o a| ≤ X) (hp : ∀ a, |p a| ≤ X) (hzx : ∀ a, |z a - o a| ≤ X) (hlen : 0 < len)
    (hη : 10 ^ 13 * η ≤ ν * len) (hspan : ∀ a, |p a - o a| ≤ 3 / 2 * len)
    (hcase : ∀ a, (0 ≤ o a ∧ o a ≤ z a) ∨ 2 * ν * len ≤ |p a - o a| ∨ ν ≤ 9 / 10 ^ 11) {range : Fl} (hr : range ≠ .ninf)
    (hr' : ∀ r, range = .fin r → 0 ≤ r) :
    (flRaycast (ieee R bits) g (fun a => .fin (o a)) (fun a => .fin (p a)) (.fin len) range).isSome := by
  have hu := S.u_le; have hη0 := S.η_nonneg; have hη1 := S.η_le; have hηX := S.η_X; have hX0 := S.X_pos; have hM := S.M_X; have hM1 := S.M_one
  have hν0 : 0 < ν := lt_of_lt_of_le (by norm_num) S.ν_ge
  have hXν : X ≤ X / ν := by
    rw [le_div_iff₀ hν0]
    have := mul_le_of_le_one_right hX0.le S.ν_le
    linarith
  -- places within four times the bound have indices
  have hidx : ∀ y : Fin 3 → ℚ, (∀ a, |y a| ≤ 4 * (X / ν + 1 / 10 ^ 9)) →
      ∃ i, flIndex (ieee R bits) g (fun a => .fin (y a)) = some i ∧ ∀ a, |(i a : ℚ)| ≤ 6 * K := by
    intro y hy
    refine cut_index hR hu (by linarith) hK (by linarith) hKM hinv fun a => ?_
    rw [abs_mul]
    calc |y a| * |inv| ≤ 4 * (X / ν + 1 / 10 ^ 9) * |inv| := mul_le_mul_of_nonneg_right (hy a) (abs_nonneg _)
      _ = 4 * ((X / ν + 1 / 10 ^ 9) * |inv|) := by ring
      _ ≤ 4 * K := by linarith
  have hsmall : ∀ q : ℚ, |q| ≤ 4 * X → |q| ≤ 4 * (X / ν + 1 / 10 ^ 9) := fun q hq => by
    have : (0 : ℚ) ≤ 1 / 10 ^ 9 := by norm_num
    linarith
  -- the end
  obtain ⟨e, he, heb⟩ : ∃ e : Fin 3 → ℚ, flFinalPoint (ieee R bits) (fun a => .fin (o a)) (fun a => .fin (p a)) (.fin len) range =
      (fun a => .fin (e a)) ∧ ∀ a, |e a| ≤ 4 * X := by
    cases hclip : flClipped (ieee R bits) (.fin len) range with
    | false =>
      refine ⟨p, ?_, fun a => by linarith [hp a]⟩
      unfold flFinalPoint
      rw [hclip]
      rfl
    | true =>
      have h3 : Fl.lt range (.fin len) = true := hclip
      obtain ⟨r, rfl⟩ : ∃ r, range = .fin r := by
        cases range with
        | nan => cases h3
        | ninf => exact absurd rfl hr
        | fin r => exact ⟨r, rfl⟩
        | pinf => cases h3
      obtain ⟨e, e1, e2⟩ := cut_end (bits := bits) hR hu hη0 (by linarith) ho hp (by linarith) (hr' r rfl) h3
      refine ⟨e, e1, fun a => ?_⟩
      have h4 := abs_sub (p a) (o a)
      linarith [e2 a, ho a, hp a]
  obtain ⟨f, hf, hfb⟩ := hidx e fun a => hsmall _ (heb a)
  rw [← he] at hf
  obtain ⟨i, hi, hib⟩ := hidx o fun a => hsmall _ (by linarith [ho a])
  have hfits : ∀ j : IVec, (∀ a, |(j a : ℚ)| ≤ 6 * K) → ∀ a, (ieee R bits).fits (f a - j a) = true := by
    intro j hj a
    obtain ⟨d1, d2⟩ := abs_le.1 (hfb a)
    obtain ⟨d3, d4⟩ := abs_le.1 (hj a)
    show decide (-2 ^ (bits - 1) ≤ f a - j a ∧ f a - j a < 2 ^ (bits - 1)) = true
    rw [decide_eq_true_iff]
    constructor
    · have : ((-2 ^ (bits - 1) : ℤ) : ℚ) ≤ ((f a - j a : ℤ) : ℚ) := by push_cast; linarith
      exact_mod_cast this
    · have : ((f a - j a : ℤ) : ℚ) < ((2 ^ (bits - 1) : ℤ) : ℚ) := by push_cast; linarith
      exact_mod_cast this
  -- the start
  have hdir : ∀ a, ∃ r v, R (p a - o a) = .fin r ∧ Fl.divR R (.fin r) (.fin len) = .fin v ∧ |v| ≤ 17 / 10 ∧
      (2 * ν * len ≤ |p a - o a| → ν ≤ |v|) := fun a => by
    refine dir_rough hR S hlen hη (hspan a) ?_
    have h4 := abs_sub (p a) (o a)
    linarith [ho a, hp a]
  choose r v r1 v1 v2 v3 using hdir
  have hray : (fun a => (ieee R bits).sub ((fun a => Fl.fin (p a)) a) ((fun a => Fl.fin (o a)) a)) = fun a => .fin (r a) := by
    funext a
    exact r1 a
  have hd' : (fun a => (ieee R bits).div ((fun a => Fl.fin (r a)) a) (.fin len)) = fun a => .fin (v a) := by
    funext a
    exact v1 a
  unfold flRaycast
  dsimp only
  have hray' : (fun a => (ieee R bits).sub (Fl.fin (p a)) (Fl.fin (o a))) = fun a => .fin (r a) := hray
  rw [hray']
  unfold flStart
  rw [hi, Option.map_some]
  by_cases hin : inGrid g.dims i = true
  · rw [if_pos hin]
    obtain ⟨ms, h1, -⟩ := flCastFrom_path (ieee R bits) g (ray := fun a => .fin (r a)) hi hf (hfits i hib)
      (flClipped (ieee R bits) (.fin len) range)
    simp only
    rw [h1]
    rfl
  · rw [if_neg hin]
    have hd'' : (fun a => (ieee R bits).div (Fl.fin (r a)) (.fin len)) = fun a => .fin (v a) := hd'
    rw [hd'']
    rcases hs : flSlabs (ieee R bits) g (fun a => .fin (o a)) (fun a => .fin (v a)) range with _ | t
    · rfl
    · obtain ⟨m, rfl, m1, m2⟩ := slabs_bounded hR hsg S hz ho hzx (d := v) (fun a => by
        rcases hcase a with h1 | h1 | h1
        · exact .inl h1
        · exact .inr (.inr (v3 a h1))
        · rcases lt_or_ge |v a| (9 / 10 ^ 11) with h2 | h2
          · exact .inr (.inl h2)
          · exact .inr (.inr (h1.trans h2))) hs
      have hst : ∀ a, ∃ y, (ieee R bits).add (.fin (o a)) ((ieee R bits).mul ((ieee R bits).div (.fin (r a)) (.fin len))
          ((ieee R bits).add (.fin m) (ieee R bits).tiny)) = .fin y ∧ |y| ≤ 4 * (X / ν + 1 / 10 ^ 9) := by
        intro a
        obtain ⟨y, y1, y2⟩ := start_bounded (bits := bits) hR S (ho a) (v2 a) m1 m2
        refine ⟨y, ?_, y2⟩
        have : (ieee R bits).div (.fin (r a)) (.fin len) = .fin (v a) := v1 a
        rw [this, y1]
      choose y y1 y2 using hst
      obtain ⟨j, hj, hjb⟩ := hidx y y2
      have hstart : (fun a => (ieee R bits).add (Fl.fin (o a)) ((ieee R bits).mul ((ieee R bits).div (Fl.fin (r a)) (.fin len))
          ((ieee R bits).add (.fin m) (ieee R bits).tiny))) = fun a => .fin (y a) := funext y1
      obtain ⟨ms, h1, -⟩ := flCastFrom_path (ieee R bits) g (ray := fun a => .fin (r a)) hj hf (hfits j hjb)
        (flClipped (ieee R bits) (.fin len) range)
      simp only [Option.map_some]
      rw [hstart, h1]
      rfl

end

end VGT
