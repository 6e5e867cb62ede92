import Verif.Lemmas.Accurate
import Verif.Props.PointKept

/-!
C85: obstacles are kept and filled cells are real in any arithmetic that is right up to a small error: with products fused with sums, approximate
division and roots, and denormal numbers flushed to zero, on the CPU and on devices, wherever the sensor is.
-/
set_option autoImplicit false

namespace VGT
open VGT.EDT VGT.Spec VGT.Par

section
variable {F : Type} {A : Arith F} {sqrt : F → F} {val kept : F → Fl} {u η M e B : ℚ} {g : RayGrid F} {c : Camera3} {x : Fin 3 → ℚ}
  {o p : Fin 3 → F} {vo vp : Fin 3 → ℚ} {l l' : ℚ}

/-! ### The cell of the point -/

theorem point_near_fair (H : AccurateArith A sqrt val kept u η M) (S : Room u η M e B) (G : GridGiven val u e B g)
    (R : FairRay A sqrt val kept u B c x o p vo vp l l') {i : IVec} (hi : flIndex A g p = some i) : NearBox (fairTol u B) e i (c.place x) := by
  obtain ⟨v, hv, hv'⟩ := G.inv
  have huB := mul_nonneg S.u_nonneg S.B_pos.le
  intro a
  obtain ⟨h1, h2⟩ := index_fair H S (R.val_p a) hv hv' (R.p_le a) (axes3_some.1 hi a) rfl
  have h3 := abs_le.1 (R.near_p a)
  unfold fairTol
  constructor <;> linarith

theorem point_deep_fair (H : AccurateArith A sqrt val kept u η M) (S : Room u η M e B) (G : GridGiven val u e B g)
    (R : FairRay A sqrt val kept u B c x o p vo vp l l') {i j : IVec} (hdeep : DeepBox (fairTol u B) e i (c.place x))
    (hj : flIndex A g p = some j) : j = i := by
  obtain ⟨v, hv, hv'⟩ := G.inv
  have huB := mul_pos S.u_pos S.B_pos
  have he := S.e_pos
  funext a
  obtain ⟨h1, h2⟩ := index_fair H S (R.val_p a) hv hv' (R.p_le a) (axes3_some.1 hj a) rfl
  have h3 := abs_le.1 (R.near_p a)
  have h4 := hdeep a
  unfold fairTol at h4
  have k1 : (j a : ℚ) < i a + 1 := by
    by_contra hcon
    push Not at hcon
    have := mul_le_mul_of_nonneg_right hcon he.le
    linarith
  have k2 : (i a : ℚ) < j a + 1 := by
    by_contra hcon
    push Not at hcon
    have := mul_le_mul_of_nonneg_right hcon he.le
    linarith
  have k1' : j a < i a + 1 := by exact_mod_cast k1
  have k2' : i a < j a + 1 := by exact_mod_cast k2
  omega

theorem grid_deep_fair (H : AccurateArith A sqrt val kept u η M) (S : Room u η M e B) (G : GridGiven val u e B g)
    (R : FairRay A sqrt val kept u B c x o p vo vp l l') (h : DeepInGrid (fairTol u B) e (axisCells g.dims) (c.place x)) {f : IVec}
    (hf : flIndex A g p = some f) : CellInGrid (axisCells g.dims) f := by
  obtain ⟨v, hv, hv'⟩ := G.inv
  have huB := mul_pos S.u_pos S.B_pos
  have he := S.e_pos
  intro a
  obtain ⟨h1, h2⟩ := index_fair H S (R.val_p a) hv hv' (R.p_le a) (axes3_some.1 hf a) rfl
  have h3 := abs_le.1 (R.near_p a)
  have h4 := h a
  unfold fairTol at h4
  have k1 : (0 : ℚ) < f a + 1 := by
    by_contra hcon
    push Not at hcon
    have := mul_nonpos_of_nonpos_of_nonneg hcon he.le
    linarith
  have k2 : (f a : ℚ) < axisCells g.dims a := by
    by_contra hcon
    push Not at hcon
    have := mul_le_mul_of_nonneg_right hcon he.le
    linarith
  have k1' : 0 < f a + 1 := by exact_mod_cast k1
  have k2' : f a < axisCells g.dims a := by exact_mod_cast k2
  exact ⟨by omega, k2'⟩

/-! ### The range -/

/-- The ray of a point well within range is not cut. -/
theorem unclipped_fair (H : AccurateArith A sqrt val kept u η M) (S : Room u η M e B) (R : FairRay A sqrt val kept u B c x o p vo vp l l') {range : F}
    (hr : (c.range = .pinf ∧ kept range = .pinf) ∨ ∃ r r', c.range = .fin r ∧ kept range = .fin r' ∧ 0 < r ∧ 0 ≤ r' ∧ |r' - r| ≤ u * r + η)
    (h : WellWithin (fairTol u B) c.range c.sensor (c.place x)) : A.lt range (flLength A sqrt o p) = false := by
  rw [H.lt, R.stored]
  rcases hr with ⟨-, hk⟩ | ⟨r, r', hr, hk, hr0, -, hd⟩
  · rw [hk]; rfl
  · rw [hk]
    obtain ⟨w1, w2⟩ := h r hr
    have huB := mul_pos S.u_pos S.B_pos
    have hB := S.B_pos
    have hl := abs_le.1 R.near_l
    have hd' := (abs_le.1 hd).1
    have hη := S.η_B
    unfold fairTol at w1 w2
    have : l' ≤ r' := by
      by_cases hsmall : r - 400 * (u * B) ≤ 14 * B
      · have w3 := R.lower _ (by linarith) hsmall w2
        have h9 := mul_le_mul_of_nonneg_right S.u_le hB.le
        have k := mul_le_mul_of_nonneg_left (show r ≤ 15 * B by linarith) S.u_nonneg
        linarith
      · push Not at hsmall
        have hu2 : 0 ≤ (1 - u) * (r - (14 * B + 400 * (u * B))) := mul_nonneg (by linarith [S.u_le]) (by linarith)
        have k := mul_le_mul_of_nonneg_right S.u_le huB.le
        have h14 := R.l_le
        linarith
    simpa [Fl.lt] using this

/-- A ray that is not cut is within range. -/
theorem notBeyond_fair (H : AccurateArith A sqrt val kept u η M) (S : Room u η M e B) (R : FairRay A sqrt val kept u B c x o p vo vp l l') {range : F}
    (hr : (c.range = .pinf ∧ kept range = .pinf) ∨ ∃ r r', c.range = .fin r ∧ kept range = .fin r' ∧ 0 < r ∧ 0 ≤ r' ∧ |r' - r| ≤ u * r + η)
    (h : A.lt range (flLength A sqrt o p) = false) : NotBeyond (fairTol u B) c.range c.sensor (c.place x) := by
  rw [H.lt, R.stored] at h
  intro r hcr
  rcases hr with ⟨h1, -⟩ | ⟨r1, r', hr1, hk, hr0, -, hd⟩
  · rw [hcr] at h1; cases h1
  · rw [hcr] at hr1
    cases hr1
    rw [hk] at h
    have h4 : l' ≤ r' := by simpa [Fl.lt] using h
    have huB := mul_pos S.u_pos S.B_pos
    have hB := S.B_pos
    have hl := abs_le.1 R.near_l
    have hd' := (abs_le.1 hd).2
    have hη := S.η_B
    refine R.upper.trans (pow_le_pow_left₀ (by linarith [R.l_nonneg]) ?_ 2)
    unfold fairTol
    by_cases hsmall : r ≤ 20 * B
    · have k := mul_le_mul_of_nonneg_left hsmall S.u_nonneg
      linarith
    · push Not at hsmall
      linarith [R.l_le]

/-! ### Rays -/

/-- A filled mark is where the point is. -/
theorem filled_near_fair (H : AccurateArith A sqrt val kept u η M) (S : Room u η M e B) (G : GridGiven val u e B g)
    (R : FairRay A sqrt val kept u B c x o p vo vp l l') {range : F}
    (hr : (c.range = .pinf ∧ kept range = .pinf) ∨ ∃ r r', c.range = .fin r ∧ kept range = .fin r' ∧ 0 < r ∧ 0 ≤ r' ∧ |r' - r| ≤ u * r + η)
    {ms : List Mark} {i : IVec} (h : flRaycast A g o p (flLength A sqrt o p) range = some ms) (hm : Mark.filled i ∈ ms) :
    NearBox (fairTol u B) e i (c.place x) ∧ NotBeyond (fairTol u B) c.range c.sensor (c.place x) := by
  rcases C56_any_arithmetic _ g h with rfl | ⟨_, _, f, _, hf, hm', _⟩
  · cases hm
  obtain ⟨k1, rfl, -⟩ := (hm'.filled i).1 hm
  have hclip : flClipped A (flLength A sqrt o p) range = false := k1
  unfold flFinalPoint at hf
  rw [if_neg (by simp [hclip])] at hf
  exact ⟨point_near_fair H S G R hf, notBeyond_fair H S R hr k1⟩

/-- A ray that has a start and ends deep in the grid, well within range, marks the computed cell of its end filled. -/
theorem filled_of_start_fair (H : AccurateArith A sqrt val kept u η M) (S : Room u η M e B) (G : GridGiven val u e B g)
    (R : FairRay A sqrt val kept u B c x o p vo vp l l') {range : F}
    (hr : (c.range = .pinf ∧ kept range = .pinf) ∨ ∃ r r', c.range = .fin r ∧ kept range = .fin r' ∧ 0 < r ∧ 0 ≤ r' ∧ |r' - r| ≤ u * r + η)
    (h1 : DeepInGrid (fairTol u B) e (axisCells g.dims) (c.place x)) (h2 : WellWithin (fairTol u B) c.range c.sensor (c.place x))
    {ms : List Mark} (h : flRaycast A g o p (flLength A sqrt o p) range = some ms) {start : Fin 3 → F}
    (hs : flStart A g o (fun a => A.sub (p a) (o a)) (flLength A sqrt o p) range = some (some start)) :
    ∃ f, flIndex A g p = some f ∧ CellInGrid (axisCells g.dims) f ∧ Mark.filled f ∈ ms := by
  have hclip : flClipped A (flLength A sqrt o p) range = false := unclipped_fair H S R hr h2
  unfold flRaycast at h
  dsimp only at h
  rw [hs] at h
  obtain ⟨_, f, _, hf, hm'⟩ := flCastFrom_some _ _ h
  have hf' := hf
  unfold flFinalPoint at hf'
  rw [if_neg (by simp [hclip])] at hf'
  have hin := grid_deep_fair H S G R h1 hf'
  exact ⟨f, hf', hin, (hm'.filled f).2 ⟨hclip, rfl, hin⟩⟩

/-! ### The slab test -/

/-- The flatness test. -/
theorem flat_fair (H : AccurateArith A sqrt val kept u η M) (S : Room u η M e B) {D : F} {d : ℚ} (hD : val D = .fin d) (hd3 : |d| ≤ 3) :
    (A.lt (A.abs D) A.tiny = true ∧ |d| ≤ 11 / 10 ^ 11) ∨ (A.lt (A.abs D) A.tiny = false ∧ 9 / 10 ^ 11 ≤ |d|) := by
  obtain ⟨t, t1, t2⟩ := H.tiny
  obtain ⟨b, b1, b2⟩ := H.store _ _ hD (by linarith [S.M_ten.2])
  have e1 : A.lt (A.abs D) A.tiny = decide (|b| < t) := by
    rw [H.lt, H.abs _ _ b1, t1]
    rfl
  have h1 := abs_le.1 t2
  have h2 : |b| - |d| ≤ u * |d| + η := (abs_sub_abs_le_abs_sub b d).trans b2
  have h3 : |d| - |b| ≤ u * |d| + η := by
    rw [abs_sub_comm] at b2
    exact (abs_sub_abs_le_abs_sub d b).trans b2
  have h4 := S.η_tiny
  have h5 := mul_le_mul_of_nonneg_right S.u_le (abs_nonneg d)
  by_cases hlt : |b| < t
  · left
    refine ⟨by rw [e1]; simpa using hlt, ?_⟩
    norm_num at h1 h4 ⊢
    linarith
  · right
    refine ⟨by rw [e1]; simpa using hlt, ?_⟩
    push Not at hlt
    norm_num at h1 h4 ⊢
    linarith

/-- The time at which the ray passes a face. -/
theorem time_fair (H : AccurateArith A sqrt val kept u η M) (S : Room u η M e B) {X Y D : F} {a b d : ℚ} (hX : val X = .fin a) (hY : val Y = .fin b)
    (hD : val D = .fin d) (ha : |a| ≤ 3 * B) (hb : |b| ≤ 3 * B) (hd : 9 / 10 ^ 11 ≤ |d|) (hd3 : |d| ≤ 3) :
    ∃ t, kept (A.mul (A.sub X Y) (A.div A.one D)) = .fin t := by
  have hB := S.B_pos; have hu := S.u_nonneg; have hu1 := S.u_le
  have hMB := S.M_B; have hM1 := S.M_one
  have huB1 := mul_le_mul_of_nonneg_right hu1 hB.le
  have huB := mul_nonneg hu hB.le
  obtain ⟨w, w1, w2⟩ := H.sub _ _ _ _ hX hY (by linarith)
  have w3 : |w| ≤ 7 * B := by
    have k := mul_le_mul_of_nonneg_left (show |a| + |b| ≤ 6 * B by linarith) hu
    have k2 : |a - b| ≤ 6 * B := (abs_sub a b).trans (by linarith)
    have := near_bound w2 k2
    linarith [S.η_B]
  have hd0 : 0 < |d| := lt_of_lt_of_le (by norm_num) hd
  have hi : |1 / d| ≤ 12 * 10 ^ 9 := by
    rw [abs_div, abs_one, div_le_iff₀ hd0]
    norm_num at hd ⊢
    linarith
  obtain ⟨v, v1, v2⟩ := H.div _ _ _ _ H.one hD (abs_pos.1 hd0) (by rw [abs_one]; linarith) (by linarith) (by linarith)
  have v3 : |v| ≤ 13 * 10 ^ 9 := by
    have k := mul_le_mul_of_nonneg_right hu1 (abs_nonneg (1 / d))
    have := near_bound v2 hi
    have := S.η_tiny
    linarith
  have hwv : |w * v| ≤ 91 * 10 ^ 9 * B := by
    rw [abs_mul]
    have := mul_le_mul w3 v3 (abs_nonneg _) (by linarith)
    linarith
  obtain ⟨m, m1, m2, -⟩ := H.mul _ _ _ _ w1 v1 (by linarith) (by linarith) (by linarith)
  have m3 : |m| ≤ 100 * 10 ^ 9 * B := by
    have k := mul_le_mul_of_nonneg_right hu1 (abs_nonneg (w * v))
    have := near_bound m2 hwv
    linarith [S.η_B]
  obtain ⟨t, t1, -⟩ := H.store _ _ m1 (by linarith)
  exact ⟨t, t1⟩

/-- One axis of the slab test: it goes on if the ray is not flat or the sensor is between the faces. -/
theorem slab_axis_fair (H : AccurateArith A sqrt val kept u η M) (S : Room u η M e B) {O D Z m q : F} {vo vd vz km : ℚ} (hO : val O = .fin vo)
    (hD : val D = .fin vd) (hZ : val Z = .fin vz) (ho : |vo| ≤ 3 * B) (hz : |vz| ≤ 3 * B) (hd3 : |vd| ≤ 3)
    (hflat : |vd| ≤ 11 / 10 ^ 11 → ∃ ko kz, kept O = .fin ko ∧ kept Z = .fin kz ∧ 0 ≤ ko ∧ ko < kz) (hm : kept m = .fin km)
    (hq : Fl.lt (kept q) (.fin km) = false) :
    ∃ m' q' km', flSlabAxis A O D Z (m, q) = some (m', q') ∧ kept m' = .fin km' ∧ Fl.lt (kept q') (.fin km') = false := by
  unfold flSlabAxis
  rcases flat_fair H S hD hd3 with ⟨f1, f2⟩ | ⟨f1, f2⟩
  · rw [if_pos f1]
    obtain ⟨ko, kz, k1, k2, k3, k4⟩ := hflat f2
    have h3 : (A.le A.zero O && A.lt O Z) = true := by
      rw [H.le, H.lt, H.zero.2, k1, k2]
      simp [Fl.le, Fl.lt, k3, k4]
    rw [if_pos h3]
    exact ⟨m, q, km, rfl, hm, hq⟩
  · rw [if_neg (by simp [f1])]
    have hB := S.B_pos
    obtain ⟨tl, k1⟩ := time_fair H S H.zero.1 hO hD (by rw [abs_zero]; linarith) ho f2 hd3
    obtain ⟨th, k2⟩ := time_fair H S hZ hO hD hz ho f2 hd3
    dsimp only
    generalize A.mul (A.sub A.zero O) (A.div A.one D) = L at k1 ⊢
    generalize A.mul (A.sub Z O) (A.div A.one D) = U at k2 ⊢
    obtain ⟨T1, T2, t1, t2, g1, g2, h12, g3, g4⟩ : ∃ (T1 T2 : F) (t1 t2 : ℚ), kept T1 = .fin t1 ∧ kept T2 = .fin t2 ∧ t1 ≤ t2 ∧
        (if A.le L U = true then L else U) = T1 ∧ (if A.le L U = true then U else L) = T2 := by
      have hle : A.le L U = decide (tl ≤ th) := by rw [H.le, k1, k2]; rfl
      by_cases hc : tl ≤ th
      · exact ⟨L, U, tl, th, k1, k2, hc, by simp [hle, hc], by simp [hle, hc]⟩
      · exact ⟨U, L, th, tl, k2, k1, (not_le.1 hc).le, by simp [hle, hc], by simp [hle, hc]⟩
    rw [g3, g4]
    have hlt : ∀ a b : F, A.lt a b = Fl.lt (kept a) (kept b) := H.lt
    obtain ⟨m', km', k5, k6, k7⟩ : ∃ m' km', (if A.lt m T1 = true then T1 else m) = m' ∧ kept m' = .fin km' ∧ km' ≤ max km t1 := by
      by_cases hmt : km < t1
      · exact ⟨T1, t1, by simp [hlt, hm, g1, Fl.lt, hmt], g1, le_max_right _ _⟩
      · exact ⟨m, km, by simp [hlt, hm, g1, Fl.lt, hmt], hm, le_max_left _ _⟩
    rw [k5]
    obtain ⟨q', k8, hno⟩ : ∃ q', (if A.lt q T2 = true then T2 else q) = q' ∧ Fl.lt (kept q') (.fin km') = false := by
      by_cases hrt : A.lt q T2 = true
      · refine ⟨T2, by simp [hrt], ?_⟩
        rw [g2]
        have hkm : km ≤ t2 := by
          rw [hlt, g2] at hrt
          cases hk : kept q with
          | nan => rw [hk] at hrt; cases hrt
          | pinf => rw [hk] at hrt; cases hrt
          | ninf => rw [hk] at hq; cases hq
          | fin r =>
            rw [hk] at hq hrt
            have a1 : km ≤ r := by simpa [Fl.lt] using hq
            have a2 : r < t2 := by simpa [Fl.lt] using hrt
            linarith
        have : km' ≤ t2 := k7.trans (max_le hkm h12)
        simpa [Fl.lt] using this
      · refine ⟨q, by simp [hrt], ?_⟩
        rw [hlt, g2] at hrt
        cases hk : kept q with
        | nan => rfl
        | pinf => rfl
        | ninf => rw [hk] at hq; cases hq
        | fin r =>
          rw [hk] at hq hrt
          have a1 : km ≤ r := by simpa [Fl.lt] using hq
          have a2 : t2 ≤ r := by simpa [Fl.lt] using hrt
          have : km' ≤ r := k7.trans (max_le a1 (h12.trans a2))
          simpa [Fl.lt] using this
    rw [k8]
    have hno' : A.lt q' m' = false := by rw [hlt, k6, hno]
    rw [if_neg (by simp [hno'])]
    exact ⟨m', q', km', rfl, k6, hno⟩

/-- The slab test. -/
theorem slabs_fair (H : AccurateArith A sqrt val kept u η M) (S : Room u η M e B) {o d : Fin 3 → F} {vo vd vz : Fin 3 → ℚ} {range : F}
    (ho : ∀ a, val (o a) = .fin (vo a) ∧ |vo a| ≤ 3 * B) (hd : ∀ a, val (d a) = .fin (vd a) ∧ |vd a| ≤ 3)
    (hz : ∀ a, val (g.size a) = .fin (vz a) ∧ |vz a| ≤ 3 * B)
    (hflat : ∀ a, |vd a| ≤ 11 / 10 ^ 11 → ∃ ko kz, kept (o a) = .fin ko ∧ kept (g.size a) = .fin kz ∧ 0 ≤ ko ∧ ko < kz)
    (hq : Fl.lt (kept range) (.fin 0) = false) : ∃ t, flSlabs A g o d range = some t := by
  obtain ⟨m0, q0, k0, a1, a2, a3⟩ := slab_axis_fair H S (ho 0).1 (hd 0).1 (hz 0).1 (ho 0).2 (hz 0).2 (hd 0).2 (hflat 0) H.zero.2 hq
  obtain ⟨m1, q1, k1, b1, b2, b3⟩ := slab_axis_fair H S (ho 1).1 (hd 1).1 (hz 1).1 (ho 1).2 (hz 1).2 (hd 1).2 (hflat 1) a2 a3
  obtain ⟨m2, q2, k2, c1, -, -⟩ := slab_axis_fair H S (ho 2).1 (hd 2).1 (hz 2).1 (ho 2).2 (hz 2).2 (hd 2).2 (hflat 2) b2 b3
  unfold flSlabs
  rw [a1, Option.bind_some, b1, Option.bind_some, c1]
  exact ⟨_, rfl⟩

theorem flStart_in_any {A : Arith F} {o ray : Fin 3 → F} {len range : F} {i : IVec} (hi : flIndex A g o = some i)
    (hin : CellInGrid (axisCells g.dims) i) : flStart A g o ray len range = some (some o) := by
  unfold flStart
  rw [hi, Option.map_some, if_pos (inGrid_iff.2 hin)]

theorem sensor_index_any {A : Arith F} {o p : Fin 3 → F} {len range : F} {ms : List Mark} (h : flRaycast A g o p len range = some ms) :
    ∃ i, flIndex A g o = some i := by
  rcases hi : flIndex A g o with _ | i
  · simp [flRaycast, flStart, hi] at h
  · exact ⟨i, rfl⟩

/-- The length of a ray from outside the grid to a point deep in it. -/
theorem length_pos_fair (H : AccurateArith A sqrt val kept u η M) (S : Room u η M e B) (G : GridGiven val u e B g)
    (R : FairRay A sqrt val kept u B c x o p vo vp l l') (h1 : DeepInGrid (fairFarTol u B) e (axisCells g.dims) (c.place x)) {i0 : IVec}
    (hi0 : flIndex A g o = some i0) (hin : ¬ CellInGrid (axisCells g.dims) i0) :
    (∀ a, |vp a - vo a| ≤ l + 371 * (u * B)) ∧ 323 * (u * B) < l := by
  have huB := mul_pos S.u_pos S.B_pos
  have hB := S.B_pos
  have he := S.e_pos
  have hspan : ∀ a, |vp a - vo a| ≤ l + 371 * (u * B) := by
    intro a
    have d1 := abs_le.1 (abs_le_of_distSq (by linarith [R.l_nonneg]) R.upper a)
    have d2 := abs_le.1 (R.near_o a)
    have d3 := abs_le.1 (R.near_p a)
    rw [abs_le]
    constructor <;> linarith
  refine ⟨hspan, ?_⟩
  obtain ⟨v, hv, hv'⟩ := G.inv
  have : ∃ a, ¬ (0 ≤ i0 a ∧ i0 a < axisCells g.dims a) := by
    by_contra hcon
    push Not at hcon
    exact hin fun a => by
      have := hcon a
      omega
  obtain ⟨a, ha⟩ := this
  obtain ⟨k1, k2⟩ := index_fair H S (R.val_o a) hv hv' (by linarith [R.o_le a]) (axes3_some.1 hi0 a) rfl
  have d := h1 a
  unfold fairFarTol at d
  have d3 := abs_le.1 (R.near_p a)
  have d4 := abs_le.1 (hspan a)
  by_cases h0 : 0 ≤ i0 a
  · have h3 : (axisCells g.dims a : ℤ) ≤ i0 a := by
      by_contra hcon
      exact ha ⟨h0, by omega⟩
    have h3' : (axisCells g.dims a : ℚ) ≤ i0 a := by exact_mod_cast h3
    have := mul_le_mul_of_nonneg_right h3' he.le
    linarith
  · have h3 : (i0 a : ℚ) + 1 ≤ 0 := by exact_mod_cast (by omega : i0 a + 1 ≤ 0)
    have := mul_nonpos_of_nonpos_of_nonneg h3 he.le
    linarith

/-- A point deep in the grid ends a ray that marks a cell filled, wherever the sensor is. -/
theorem fills_fair (H : AccurateArith A sqrt val kept u η M) (S : Room u η M e B) (G : GridGiven val u e B g)
    (R : FairRay A sqrt val kept u B c x o p vo vp l l') {range : F}
    (hr : (c.range = .pinf ∧ kept range = .pinf) ∨ ∃ r r', c.range = .fin r ∧ kept range = .fin r' ∧ 0 < r ∧ 0 ≤ r' ∧ |r' - r| ≤ u * r + η)
    (h1 : DeepInGrid (fairFarTol u B) e (axisCells g.dims) (c.place x)) (h2 : WellWithin (fairTol u B) c.range c.sensor (c.place x))
    {ms : List Mark} (h : flRaycast A g o p (flLength A sqrt o p) range = some ms) :
    ∃ f, flIndex A g p = some f ∧ CellInGrid (axisCells g.dims) f ∧ Mark.filled f ∈ ms := by
  have hu := S.u_nonneg; have hu1 := S.u_le
  have huB := mul_pos S.u_pos S.B_pos
  have hB := S.B_pos
  have huB1 := mul_le_mul_of_nonneg_right hu1 hB.le
  have hηB := S.η_B; have hηt := S.η_tiny
  obtain ⟨hM1, hM2⟩ := S.M_ten
  have h1' : DeepInGrid (fairTol u B) e (axisCells g.dims) (c.place x) := fun a => by
    have := h1 a
    unfold fairFarTol at this
    unfold fairTol
    constructor <;> linarith
  obtain ⟨i0, hi0⟩ := sensor_index_any h
  by_cases hin : CellInGrid (axisCells g.dims) i0
  · exact filled_of_start_fair H S G R hr h1' h2 h (flStart_in_any hi0 hin)
  obtain ⟨hspan, hl⟩ := length_pos_fair H S G R h1 hi0 hin
  have hl0 : 0 < l := by linarith
  have hdir : ∀ a, ∃ v, val (A.div (A.sub (p a) (o a)) (flLength A sqrt o p)) = .fin v ∧ |v| ≤ 3 ∧
      (|v| ≤ 11 / 10 ^ 11 → |vp a - vo a| ≤ 17 / 10 ^ 10 * B + 11 * (u * B)) := by
    intro a
    have hb : |vp a| + |vo a| ≤ 10 * B := by linarith [R.p_le a, R.o_le a]
    obtain ⟨r, r1, r2⟩ := H.sub _ _ _ _ (R.val_p a) (R.val_o a) (by linarith)
    have k := mul_le_mul_of_nonneg_left hb hu
    have r3 : |r - (vp a - vo a)| ≤ 11 * (u * B) := by linarith
    have r4 : |r| ≤ l + 382 * (u * B) := (near_bound r3 (hspan a)).trans (by linarith)
    have hq : |r / l| ≤ 5 / 2 := by
      rw [abs_div, abs_of_pos hl0, div_le_iff₀ hl0]
      linarith
    obtain ⟨v, v1, v2⟩ := H.div _ _ _ _ r1 R.length hl0.ne' (by linarith [R.l_le]) (by rw [abs_of_pos hl0]; linarith [R.l_le]) (by linarith)
    have kq := mul_le_mul_of_nonneg_right hu1 (abs_nonneg (r / l))
    refine ⟨v, v1, (near_bound v2 hq).trans (by norm_num at hηt ⊢; linarith), fun hflat => ?_⟩
    have s1 : |r / l| ≤ 12 / 10 ^ 11 := by
      rw [abs_sub_comm] at v2
      have := near_bound v2 hflat
      norm_num at hηt this ⊢
      linarith
    rw [abs_div, abs_of_pos hl0, div_le_iff₀ hl0] at s1
    have s2 : |r| ≤ 17 / 10 ^ 10 * B := by
      have := R.l_le
      norm_num at s1 ⊢
      linarith
    rw [abs_sub_comm] at r3
    have := near_bound r3 s2
    linarith
  choose vd d1 d2 d3 using hdir
  choose vz z1 z2 using G.size
  have hsize : ∀ a, |vz a| ≤ 3 * B := fun a => by
    have k1 : |(axisCells g.dims a : ℚ) * e| ≤ B := by
      rw [abs_of_nonneg (mul_nonneg (by positivity) S.e_pos.le)]
      exact G.extent a
    have := near_bound (z2 a) k1
    linarith
  obtain ⟨t, ht⟩ := slabs_fair (g := g) (d := fun a => A.div (A.sub (p a) (o a)) (flLength A sqrt o p)) (range := range) H S
    (fun a => ⟨R.val_o a, by linarith [R.o_le a]⟩) (fun a => ⟨d1 a, d2 a⟩) (fun a => ⟨z1 a, hsize a⟩) (fun a hflat => by
      have f1 := abs_le.1 (d3 a hflat)
      obtain ⟨ko, o1, o2⟩ := H.store _ _ (R.val_o a) (by linarith [R.o_le a])
      obtain ⟨kz, s1, s2⟩ := H.store _ _ (z1 a) (by linarith [hsize a])
      have f2 := h1 a
      unfold fairFarTol at f2
      have f3 := abs_le.1 (R.near_p a)
      have f4 := abs_le.1 (z2 a)
      have f5 := mul_le_mul_of_nonneg_left (R.o_le a) hu
      have f6 := mul_le_mul_of_nonneg_left (hsize a) hu
      have f7 := abs_le.1 o2
      have f8 := abs_le.1 s2
      refine ⟨ko, kz, o1, s1, ?_, ?_⟩
      · norm_num at f1 f2 ⊢
        linarith
      · norm_num at f1 f2 ⊢
        linarith) (by
      rcases hr with ⟨-, hk⟩ | ⟨r, r', -, hk, -, hr0, -⟩
      · rw [hk]; rfl
      · rw [hk]; simpa [Fl.lt] using hr0)
  refine filled_of_start_fair H S G R hr h1' h2 h (start := fun a => A.add (o a) (A.mul
    (A.div (A.sub (p a) (o a)) (flLength A sqrt o p)) (A.add t A.tiny))) ?_
  unfold flStart
  rw [hi0, Option.map_some, if_neg (by rw [inGrid_iff]; exact hin), ht]
  rfl

end

end VGT
