import Verif.Props.Anywhere
import Verif.Props.PipelineAll

/-!
C74, C76, C77: obstacles are kept however far away the sensor is.  The slab test drops a ray only if it is almost parallel to a face, so that
the tolerance does not depend on the distance of the sensor other than by the error of coordinates.
-/
set_option autoImplicit false

namespace VGT
open VGT.EDT VGT.Spec VGT.Par

/-! ### The slab test ends early only for flat rays -/

section
variable {R : ℚ → Fl} {u η M : ℚ} {g : RayGrid Fl} {bits : ℕ}

/-- One axis of the slab test: it goes on if the ray is not flat or the sensor is between the faces. -/
theorem slab_axis_some (hR : Rounds R u η M) (hsg : KeepsSigns R) {X ν : ℚ} (S : RoughScale u η M X ν) {x d z m : ℚ} {q : Fl}
    (hx : |x| ≤ X) (hzx : |z - x| ≤ X) (hflat : |d| ≤ 102 / 10 ^ 12 → 0 ≤ x ∧ x < z) (hq : Fl.lt q (.fin m) = false) :
    ∃ m' q', flSlabAxis (ieee R bits) (.fin x) (.fin d) (.fin z) (.fin m, q) = some (.fin m', q') ∧ Fl.lt q' (.fin m') = false := by
  have hu := S.u_le; have hη := S.η_nonneg; have hη1 := S.η_le; have hM1 := S.M_one
  obtain ⟨τ, τ1, τ2⟩ := rounds_abs_le hR hu (le_refl |(1 : ℚ) / 10 ^ 10|) (by norm_num; linarith)
  have τ3 := rounds_abs_ge hR hu τ1
  have τ0 := (hsg _ _ τ1).1 (by norm_num)
  rw [abs_of_nonneg τ0, abs_of_pos (show (0 : ℚ) < 1 / 10 ^ 10 by norm_num)] at τ3 τ2
  have τ4 : 9 / 10 ^ 11 ≤ τ := by
    norm_num at τ3 hη1 ⊢
    linarith
  have τ5 : τ ≤ 102 / 10 ^ 12 := by
    norm_num at τ2 hη1 ⊢
    linarith
  have hflat' : (ieee R bits).lt ((ieee R bits).abs (.fin d)) (ieee R bits).tiny = decide (|d| < τ) := by
    show Fl.lt (.fin |d|) (R (1 / 10 ^ 10)) = _
    rw [τ1]
    rfl
  unfold flSlabAxis
  rw [hflat']
  by_cases hd : |d| < τ
  · rw [if_pos (by simpa using hd)]
    obtain ⟨h1, h2⟩ := hflat (by linarith)
    have h3 : ((ieee R bits).le (ieee R bits).zero (.fin x) && (ieee R bits).lt (.fin x) (.fin z)) = true := by
      show (decide ((0 : ℚ) ≤ x) && decide (x < z)) = true
      simp [h1, h2]
    rw [if_pos h3]
    exact ⟨m, q, rfl, hq⟩
  · rw [if_neg (by simpa using hd)]
    push Not at hd
    have hd9 : 9 / 10 ^ 11 ≤ |d| := τ4.trans hd
    have h0x : |0 - x| ≤ X := by rwa [zero_sub, abs_neg]
    obtain ⟨w, v, tl, a1, a2, a3, -, -, -⟩ := plane_time hR hsg S h0x (le_refl (9 / 10 ^ 11)) (by norm_num) hd9
    obtain ⟨w', v', th, b1, b2, b3, -, -, -⟩ := plane_time hR hsg S hzx (le_refl (9 / 10 ^ 11)) (by norm_num) hd9
    have e1 : Fl.subR R (.fin 0) (.fin x) = .fin w := a1
    have e2 : Fl.subR R (.fin z) (.fin x) = .fin w' := b1
    have k1 : (ieee R bits).mul ((ieee R bits).sub (ieee R bits).zero (.fin x)) ((ieee R bits).div (ieee R bits).one (.fin d)) = .fin tl := by
      show Fl.mulR R (Fl.subR R (.fin 0) (.fin x)) (Fl.divR R (.fin 1) (.fin d)) = _
      rw [e1, a2, a3]
    have k2 : (ieee R bits).mul ((ieee R bits).sub (.fin z) (.fin x)) ((ieee R bits).div (ieee R bits).one (.fin d)) = .fin th := by
      show Fl.mulR R (Fl.subR R (.fin z) (.fin x)) (Fl.divR R (.fin 1) (.fin d)) = _
      rw [e2, b2, b3]
    have hle : (ieee R bits).le (.fin tl) (.fin th) = decide (tl ≤ th) := rfl
    obtain ⟨t1, t2, h12, f1, f2⟩ : ∃ t1 t2 : ℚ, t1 ≤ t2 ∧ (if decide (tl ≤ th) = true then Fl.fin tl else Fl.fin th) = .fin t1 ∧
        (if decide (tl ≤ th) = true then Fl.fin th else Fl.fin tl) = .fin t2 := by
      by_cases hc : tl ≤ th
      · exact ⟨tl, th, hc, by simp [hc], by simp [hc]⟩
      · push Not at hc
        exact ⟨th, tl, hc.le, by simp [hc], by simp [hc]⟩
    simp only [k1, k2, hle, f1, f2]
    have hlt : ∀ a b : Fl, (ieee R bits).lt a b = Fl.lt a b := fun _ _ => rfl
    simp only [hlt]
    obtain ⟨m', k5, k6, k7⟩ : ∃ m', (if Fl.lt (.fin m) (.fin t1) = true then Fl.fin t1 else Fl.fin m) = .fin m' ∧ (m' = t1 ∨ m' = m) ∧ m' ≤ max m t1 := by
      by_cases hmt : m < t1
      · exact ⟨t1, by simp [Fl.lt, hmt], .inl rfl, le_max_right _ _⟩
      · exact ⟨m, by simp [Fl.lt, hmt], .inr rfl, le_max_left _ _⟩
    rw [k5]
    have hno : Fl.lt (if Fl.lt q (.fin t2) = true then Fl.fin t2 else q) (.fin m') = false := by
      cases q with
      | nan => rfl
      | pinf => rfl
      | ninf => cases hq
      | fin r =>
        have hr : m ≤ r := by simpa [Fl.lt] using hq
        by_cases hrt : r < t2
        · rw [if_pos (by simpa [Fl.lt] using hrt)]
          have : m' ≤ t2 := k7.trans (max_le (by linarith) h12)
          simpa [Fl.lt] using this
        · push Not at hrt
          rw [if_neg (by simpa [Fl.lt] using hrt)]
          have : m' ≤ r := k7.trans (max_le hr (by linarith))
          simpa [Fl.lt] using this
    rw [if_neg (by rw [hno]; decide)]
    exact ⟨m', _, rfl, hno⟩

/-- The slab test. -/
theorem slabs_some (hR : Rounds R u η M) (hsg : KeepsSigns R) {X ν : ℚ} (S : RoughScale u η M X ν) {o d z : Fin 3 → ℚ} {range : Fl}
    (hz : ∀ a, g.size a = .fin (z a)) (hx : ∀ a, |o a| ≤ X) (hzx : ∀ a, |z a - o a| ≤ X)
    (hflat : ∀ a, |d a| ≤ 102 / 10 ^ 12 → 0 ≤ o a ∧ o a < z a) (hq : Fl.lt range (.fin 0) = false) :
    ∃ t, flSlabs (ieee R bits) g (fun a => .fin (o a)) (fun a => .fin (d a)) range = some t := by
  obtain ⟨m0, q0, a1, a2⟩ := slab_axis_some (bits := bits) hR hsg S (hx 0) (hzx 0) (hflat 0) hq
  obtain ⟨m1, q1, b1, b2⟩ := slab_axis_some (bits := bits) hR hsg S (hx 1) (hzx 1) (hflat 1) a2
  obtain ⟨m2, q2, c1, -⟩ := slab_axis_some (bits := bits) hR hsg S (hx 2) (hzx 2) (hflat 2) b2
  unfold flSlabs
  rw [hz 0, hz 1, hz 2]
  have a1' : flSlabAxis (ieee R bits) (.fin (o 0)) (.fin (d 0)) (.fin (z 0)) ((ieee R bits).zero, range) = some (.fin m0, q0) := a1
  rw [a1', Option.bind_some, b1, Option.bind_some, c1]
  exact ⟨_, rfl⟩

/-- A flat ray gains little along the axis. -/
theorem flat_gain (hR : Rounds R u η M) {X ν : ℚ} (S : RoughScale u η M X ν) {d r v len : ℚ} (hlen : 0 < len) (h1 : R d = .fin r)
    (h2 : R (r / len) = .fin v) (h : |v| ≤ 102 / 10 ^ 12) : |d| ≤ len / (5 * 10 ^ 9) + 2 * η := by
  have hu := S.u_le; have hη := S.η_le
  have k1 := rounds_abs_ge hR hu h1
  have k2 := rounds_abs_ge hR hu h2
  have k3 : |r / len| ≤ 1 / (6 * 10 ^ 9) := by
    norm_num at *
    linarith
  rw [abs_div, abs_of_pos hlen, div_le_iff₀ hlen] at k3
  have h0 := S.η_nonneg
  linarith

end

/-! ### Rays of cameras -/

section
variable {R : ℚ → Fl} {sqrt : Fl → Fl} {u η M s n N E B : ℚ} {g : RayGrid Fl} {bits : ℕ} {c : Camera3} {x o p : Fin 3 → ℚ} {len : ℚ}

/-- What is assumed of the size of the grid as it is stored, and of the numbers. -/
structure Far (R : ℚ → Fl) (u η M s N E B : ℚ) (g : RayGrid Fl) : Prop where
  signs : KeepsSigns R
  scale : RoughScale u η M (9 * B + 2 * (N * s)) (9 / 10 ^ 11)
  size : ∀ a, ∃ z, g.size a = .fin z ∧ |z - axisCells g.dims a * s| ≤ E
  small : E ≤ s

/-- A point deep in the grid ends a ray that marks a cell filled, however far away the sensor is. -/
theorem ray_fills_far (P : CamPrecise R sqrt u η M s n N E B g) (W : Far R u η M s N E B g) (F : RayFacts R sqrt u B bits c x o p len)
    (hc : c.Within B) (hr : RangeOk η B c.range)
    (h1 : DeepInGrid (wideTol u E B) s (axisCells g.dims) (c.place x)) (h2 : WellWithin (wideTol u E B) c.range c.sensor (c.place x))
    {ms : List Mark} (hms : castRay R bits g c o p len = some ms) :
    ∃ f, flIndex (ieee R bits) g (fun a => .fin (p a)) = some f ∧ CellInGrid (axisCells g.dims) f ∧ Mark.filled f ∈ ms := by
  obtain ⟨hu, hs, hB, huB, hw, hw2⟩ := P.pos
  have huB1 : 9000 * (u * B) ≤ B := by have := mul_le_mul_of_nonneg_right P.cam.u_le hB.le; linarith
  have htol : camTol u E B ≤ wideTol u E B := wideTol_ge P
  have h1' : DeepInGrid (camTol u E B) s (axisCells g.dims) (c.place x) := fun a => by
    have := h1 a
    constructor <;> linarith
  have h2' := wellWithin_mono htol h2
  obtain ⟨i0, hi0⟩ := sensor_index hms
  by_cases hin : CellInGrid (axisCells g.dims) i0
  · exact ray_filled_of_start P F hr h1' h2' hms (flStart_in hi0 hin)
  have hE0 : 0 ≤ E := by
    obtain ⟨z, -, hz⟩ := W.size 0
    exact (abs_nonneg _).trans hz
  -- distances
  have hlow : ∀ a, |p a - o a| ≤ len + 289 * (u * B) := by
    intro a
    have d1 := abs_le.1 (abs_le_of_distSq (by linarith [F.len_nonneg]) F.upper a)
    have d2 := abs_le.1 (F.near_o a)
    have d3 := abs_le.1 (F.near_p a)
    rw [abs_le]
    constructor <;> linarith
  have hpdeep : ∀ a, 33 * E + 867 * (u * B) + (1 + B) / 10 ^ 8 ≤ p a ∧
      p a ≤ axisCells g.dims a * s - (33 * E + 867 * (u * B) + (1 + B) / 10 ^ 8) := by
    intro a
    have d1 := h1 a
    have d2 := abs_le.1 (F.near_p a)
    unfold wideTol camTol at d1
    constructor <;> linarith
  have hfar : 578 * (u * B) ≤ len := by
    obtain ⟨v, hv, hv'⟩ := P.grid.inv
    have : ∃ a, ¬ (0 ≤ i0 a ∧ i0 a < axisCells g.dims a) := by
      by_contra hcon
      push Not at hcon
      exact hin fun a => by
        have := hcon a
        omega
    obtain ⟨a, ha⟩ := this
    have hi1 := flIndex_axis hi0 a
    rw [hv] at hi1
    have hd := hpdeep a
    have hl := abs_le.1 (hlow a)
    have hB8 : 0 ≤ (1 + B) / 10 ^ 8 := by positivity
    by_cases h0 : 0 ≤ i0 a
    · have h3 : (axisCells g.dims a : ℤ) ≤ i0 a := by
        by_contra hcon
        exact ha ⟨h0, by omega⟩
      have := (index_final P.ray P.rounds bits hv' hi1 (axisCells g.dims a : ℤ) (by omega) (by
        push_cast; linarith [P.grid.dims a, P.ray.N_le])).1 h3
      push_cast at this
      linarith
    · have := (index_final P.ray P.rounds bits hv' hi1 0 le_rfl (by push_cast; linarith [P.ray.n_ge])).2 (by omega)
      push_cast at this
      linarith
  have hlen0 : 0 < len := by linarith
  have S := W.scale
  choose z hz hz' using W.size
  have ho : ∀ a, |o a| ≤ 2 * B := fun a => by
    have d1 : |c.sensor a| ≤ B := hc.shift a
    have d2 := F.near_o a
    have d3 := abs_sub_abs_le_abs_sub (o a) (c.sensor a)
    linarith
  have hcells : ∀ a, (axisCells g.dims a : ℚ) * s + 2 * s ≤ N * s := fun a => by
    have := mul_le_mul_of_nonneg_right (P.grid.dims a) hs.le
    linarith
  have hN0 : 0 ≤ N * s := mul_nonneg (by linarith [P.ray.N_ge]) hs.le
  have hdir : ∀ a, ∃ r v, R (p a - o a) = .fin r ∧ R (r / len) = .fin v := fun a => by
    obtain ⟨r, r1, r2⟩ := rounds_abs_le P.rounds S.u_le (F.span a) (by linarith [P.cam.M_B])
    have hηB := P.cam.η_B
    have hr3 : |r| ≤ 2 * (len + 289 * (u * B)) := by
      obtain ⟨r', r1', r2'⟩ := rounds_abs_le P.rounds S.u_le (hlow a) (by linarith [P.cam.M_B, F.len_le])
      rw [r1] at r1'
      cases r1'
      linarith
    have hq : |r / len| ≤ 3 := by
      rw [abs_div, abs_of_pos hlen0, div_le_iff₀ hlen0]
      linarith
    obtain ⟨v, v1, -⟩ := rounds_abs_le P.rounds S.u_le hq (by linarith [S.M_one])
    exact ⟨r, v, r1, v1⟩
  choose r v r1 v1 using hdir
  have hdirs : (fun a => (ieee R bits).div ((ieee R bits).sub (.fin (p a)) (.fin (o a))) (.fin len)) = fun a => Fl.fin (v a) := by
    funext a
    show Fl.divR R (R (p a - o a)) (.fin len) = _
    rw [r1 a]
    show (if len = 0 then _ else R (r a / len)) = _
    rw [if_neg hlen0.ne', v1 a]
  obtain ⟨t, ht⟩ := slabs_some (bits := bits) (g := g) (d := v) (range := c.range) P.rounds W.signs S hz (fun a => by linarith [ho a]) (fun a => by
      have k1 := abs_le.1 (hz' a)
      have k2 := abs_le.1 (ho a)
      have k3 := hcells a
      have k4 : (0 : ℚ) ≤ axisCells g.dims a * s := by positivity
      have k5 := W.small
      rw [abs_le]
      constructor <;> linarith) (fun a hflat => by
      have k1 := abs_le.1 (flat_gain P.rounds S hlen0 (r1 a) (v1 a) hflat)
      have k2 := hpdeep a
      have k3 := abs_le.1 (hz' a)
      have k4 := P.cam.η_B
      have k5 := F.len_le
      have k6 : len / (5 * 10 ^ 9) ≤ 14 * B / (5 * 10 ^ 9) := by gcongr
      have k7 : (1 + B) / 10 ^ 8 = 1 / 10 ^ 8 + B / 10 ^ 8 := by ring
      constructor <;> linarith) (by
      cases hcr : c.range with
      | nan => rfl
      | pinf => rfl
      | ninf => exact absurd hcr hr.1
      | fin q =>
        have := (hr.2 q hcr).1
        simpa [Fl.lt] using this.le)
  refine ray_filled_of_start P F hr h1' h2' hms (start := fun a => (ieee R bits).add (.fin (o a)) ((ieee R bits).mul
    ((ieee R bits).div ((ieee R bits).sub (.fin (p a)) (.fin (o a))) (.fin len)) ((ieee R bits).add t (ieee R bits).tiny))) ?_
  unfold flStart
  rw [hi0, Option.map_some, if_neg (by rw [inGrid_iff]; exact hin), hdirs, ht]
  congr 2

/-- A point deep in a cell ends a ray that marks the cell filled, however far away the sensor is. -/
theorem ray_filled_far (P : CamPrecise R sqrt u η M s n N E B g) (W : Far R u η M s N E B g) (F : RayFacts R sqrt u B bits c x o p len)
    (hc : c.Within B) (hr : RangeOk η B c.range) {i : IVec} (hi : CellInGrid (axisCells g.dims) i)
    (h1 : DeepBox (wideTol u E B) s i (c.place x)) (h2 : WellWithin (wideTol u E B) c.range c.sensor (c.place x))
    {ms : List Mark} (hms : castRay R bits g c o p len = some ms) : Mark.filled i ∈ ms := by
  obtain ⟨f, hf, -, hm⟩ := ray_fills_far P W F hc hr (deepInGrid_of_box P.pos.2.1.le hi h1) h2 hms
  rwa [← point_deep P F.near_p hi (deepBox_mono (wideTol_ge P) h1) hf]

end

/-! ### Devices -/

section
variable {R : ℚ → Fl} {sqrt : Fl → Fl} {u η M e s n N E E' B : ℚ} {g : RayGrid Fl} {bits : ℕ} {c : Camera3} {x o p : Fin 3 → ℚ} {len : ℚ}

/-- The same on a device: the edge of cells and the range are rounded to `float` before. -/
theorem dev_fills_far (P : DevPrecise R sqrt u η M e s n N E E' B g) (W : Far R u η M s N E B g) (hB7 : 1 ≤ 10 ^ 7 * B) (hc : c.Within B)
    (ht : c.Turns) (hr : DevRange η B c.range) (hx : some x ∈ c.points) (F : RayFacts R sqrt u B bits (Camera3.conv R c) x o p len)
    (h1 : DeepInGrid (devWideTol u E' B) e (axisCells g.dims) (c.place x))
    (h2 : WellWithin (devWideTol u E' B) c.range c.sensor (c.place x)) {ms : List Mark}
    (h : castRay R bits g (Camera3.conv R c) o p len = some ms) :
    ∃ f, flIndex (ieee R bits) g (fun a => .fin (p a)) = some f ∧ CellInGrid (axisCells g.dims) f ∧ Mark.filled f ∈ ms := by
  obtain ⟨d, d1, d2, d3, d4⟩ := edge_cost P
  obtain ⟨hu, hs, hB, huB, -, -⟩ := P.cam.pos
  have hnd : 0 ≤ N * d := mul_nonneg (by linarith [P.cam.ray.N_ge]) ((abs_nonneg _).trans d1)
  have k7 : 9000 * (u * B) ≤ B := by
    have := mul_le_mul_of_nonneg_right P.cam.cam.u_le hB.le
    linarith
  have hw : wideTol u E B = camTol u E B + 600 * (u * B) + (1 + B) / 10 ^ 8 := rfl
  have hw0 : 0 ≤ (1 + B) / 10 ^ 8 := by positivity
  have hw1 : (1 + B) / 10 ^ 8 ≤ 11 / 100 * B := by
    rw [div_le_iff₀ (by norm_num)]
    linarith
  have hdw : devWideTol u E' B = devTol u E' B + 600 * (u * B) + (1 + B) / 10 ^ 8 := rfl
  refine ray_fills_far P.cam W F (conv_within hc) (hr.ok P.cam.cam P.cam.rounds) ?_ ?_ h
  · exact deepInGrid_edge d1 (n := N) (fun a => by have := P.cam.grid.dims a; linarith) (deepInGrid_mono (by linarith) h1)
  · exact wellWithin_convert P.cam.cam P.cam.rounds (by linarith) (by linarith) (place_near hc ht (hc.points x hx))
      (wellWithin_mono (by linarith) h2)

theorem dev_filled_far (P : DevPrecise R sqrt u η M e s n N E E' B g) (W : Far R u η M s N E B g) (hB7 : 1 ≤ 10 ^ 7 * B) (hc : c.Within B)
    (ht : c.Turns) (hr : DevRange η B c.range) (hx : some x ∈ c.points) (F : RayFacts R sqrt u B bits (Camera3.conv R c) x o p len)
    {i : IVec} (hi : CellInGrid (axisCells g.dims) i)
    (h1 : DeepBox (devWideTol u E' B) e i (c.place x)) (h2 : WellWithin (devWideTol u E' B) c.range c.sensor (c.place x)) {ms : List Mark}
    (h : castRay R bits g (Camera3.conv R c) o p len = some ms) : Mark.filled i ∈ ms := by
  obtain ⟨d, d1, d2, d3, d4⟩ := edge_cost P
  obtain ⟨hu, hs, hB, huB, -, -⟩ := P.cam.pos
  have hw0 : 0 ≤ (1 + B) / 10 ^ 8 := by positivity
  have hdw : devWideTol u E' B = devTol u E' B + 600 * (u * B) + (1 + B) / 10 ^ 8 := rfl
  obtain ⟨f, hf, -, hm⟩ := dev_fills_far P W hB7 hc ht hr hx F (deepInGrid_of_box P.e_pos.le hi h1) h2 h
  rwa [← point_deep P.cam F.near_p hi (deepBox_edge d1 (edge_cells P hi) (deepBox_mono (by linarith) h1)) hf]

end

/-! ### `double` -/

/-- The tolerance in `double` for sensors anywhere: the share of the absolute constants `1e-10` of the code comes on top. -/
def doubleFarTol (s n B : ℚ) : ℚ := (33 * n ^ 2 * s + 900 * B) / 2 ^ 53 + (1 + B) / 10 ^ 8

theorem wideTol_double_far (s n B : ℚ) : wideTol (1 / 2 ^ 53) (1 / 2 ^ 53 * n ^ 2 * s) B = doubleFarTol s n B := by
  unfold wideTol camTol doubleFarTol; ring

section
variable {sqrt : Fl → Fl} {s n B : ℚ} {g : RayGrid Fl} {K : Type} {t k : ℤ} {op : FilterOptions}
  {cams : List Camera3} {output output' : VoxMap K} {c : Camera3} {x : Fin 3 → ℚ}

theorem DoubleGrid.far (G : DoubleGrid s n B g)
    (hsize : ∀ a, ∃ z, g.size a = .fin z ∧ |z - axisCells g.dims a * s| ≤ n * s / 2 ^ 53) :
    Far (fun q => saturate ((2 - 1 / 2 ^ 52) * 2 ^ 1023) (roundDouble q)) (1 / 2 ^ 53) (1 / 2 ^ 1075) ((2 - 1 / 2 ^ 52) * 2 ^ 1023) s n
      (1 / 2 ^ 53 * n ^ 2 * s) B g := by
  have hs0 : 0 < s := lt_of_lt_of_le (by norm_num) G.s_ge
  have hn := G.n_ge
  have hns : n * s ≤ 2 ^ 21 * s := mul_le_mul_of_nonneg_right G.n_le hs0.le
  have hns0 : 0 ≤ n * s := mul_nonneg (by linarith) hs0.le
  have hnn : n * (n * s) ≤ 2 ^ 21 * (2 ^ 21 * s) := mul_le_mul G.n_le hns hns0 (by norm_num)
  refine ⟨keepsSigns_saturate 53 (-1074) (by norm_num) _, roughScale_double ?_ ?_, fun a => ?_, ?_⟩
  · linarith [G.B_ge]
  · linarith [G.B_le, G.s_le]
  · obtain ⟨z, h1, h2⟩ := hsize a
    have := mul_le_mul_of_nonneg_right hn hns0
    exact ⟨z, h1, by linarith⟩
  · rw [show 1 / 2 ^ 53 * n ^ 2 * s = 1 / 2 ^ 53 * (n * (n * s)) by ring]
    linarith

/-- C74: on the CPU, obstacles are kept however far away the sensor is: with percentage 1 (the default), a cell in which one camera measured
at least `threshold` points, truly deeper in the cell than `(33 n² s + 900 B) / 2^53 + (1 + B) / 10^8` and nearer than the range by more than
that, ends up filled.  `B` bounds the coordinates; nothing else is assumed of the place of the sensor. -/
theorem C74_double_obstacle_anywhere (hs : IeeeSqrt sqrt) (G : DoubleGrid s n B g)
    (hsize : ∀ a, ∃ z, g.size a = .fin z ∧ |z - axisCells g.dims a * s| ≤ n * s / 2 ^ 53)
    (hop : FilterOptions.make (.fin 1) t k = some op) (hlen : ∀ c ∈ cams, c.points.length < 2 ^ 31) (hd : output.dims = g.dims)
    (h : FlVoxelizeRuns double64 sqrt g op (cams.map Camera3.cloud) output output') {i : IVec} (hi : CellInGrid (axisCells g.dims) i)
    (hocc : (output.data (dataIndex g.dims i)).le (.fin (1 / 2)) = true) (hcm : c ∈ cams) (hc : c.Within B) (hr : DoubleRange c.range)
    (hpts : t ≤ c.howMany fun x =>
      DeepBox (doubleFarTol s n B) s i (c.place x) ∧ WellWithin (doubleFarTol s n B) c.range c.sensor (c.place x)) :
    output'.data (dataIndex g.dims i) = .fin 1 := by
  rw [← wideTol_double_far] at hpts
  have P := G.precise hs
  refine cpu_filled_of_count hop (clouds_length hlen) hd h hi hocc (List.mem_map_of_mem hcm) (hpts.trans ?_)
  norm_cast
  refine howMany_le fun x hx hxp => ?_
  obtain ⟨ms, hms⟩ := Option.isSome_iff_exists.1 (point_defined h hcm hx)
  refine ⟨ms, hms, ?_⟩
  obtain ⟨o, p, len, F, e⟩ := cpuRay P 64 hc hx
  rw [e] at hms
  exact ray_filled_far P (G.far hsize) F hc (hr.ok G.B_le) hi hxp.1 hxp.2 hms

/-- C77, points are kept however far away the sensor is: with percentage 1 and threshold 1, every measured point whose true position is in
the grid and nearer than the range, by more than the tolerance, is near a cell that is filled afterwards. -/
theorem C77_double_kept_anywhere (hs : IeeeSqrt sqrt) (G : DoubleGrid s n B g)
    (hsize : ∀ a, ∃ z, g.size a = .fin z ∧ |z - axisCells g.dims a * s| ≤ n * s / 2 ^ 53) (hop : FilterOptions.make (.fin 1) 1 k = some op)
    (hlen : ∀ c ∈ cams, c.points.length < 2 ^ 31) (hd : output.dims = g.dims) (hnan : NoNaN output)
    (h : FlVoxelizeRuns double64 sqrt g op (cams.map Camera3.cloud) output output') (hcm : c ∈ cams) (hc : c.Within B)
    (hr : DoubleRange c.range) (hx : some x ∈ c.points)
    (h1 : DeepInGrid (doubleFarTol s n B) s (axisCells g.dims) (c.place x))
    (h2 : WellWithin (doubleFarTol s n B) c.range c.sensor (c.place x)) : Kept (doubleTol s n B) s output' (c.place x) := by
  rw [← wideTol_double_far] at h1 h2
  rw [← camTol_double]
  exact cpu_point_kept (G.precise hs) hop hlen hd hnan h hcm hc hx fun _ _ _ _ F hms =>
    ray_fills_far (G.precise hs) (G.far hsize) F hc (hr.ok G.B_le) h1 h2 hms

end

/-! ### `float` -/

/-- The tolerance in `float` for sensors anywhere: the share of the absolute constants `1e-10` of the code comes on top. -/
def floatFarTol (e n B : ℚ) : ℚ := (34 * n ^ 2 * e + 910 * B) / 2 ^ 24 + (1 + B) / 10 ^ 8

theorem devWideTol_float_far (e n B : ℚ) : devWideTol (1 / 2 ^ 24) (1 / 2 ^ 24 * n ^ 2 * e) B = floatFarTol e n B := by
  unfold devWideTol devTol floatFarTol; ring

section
variable {sqrt : Fl → Fl} {e v n B : ℚ} {g : RayGrid Fl} {K : Type} {api : DeviceApi} {t k : ℤ} {op : FilterOptions}
  {cams : List Camera3} {static output output' : VoxMap K} {c : Camera3} {x : Fin 3 → ℚ}

theorem FloatGrid.far (hs : FloatSqrt sqrt) (G : FloatGrid e v n B g)
    (hsize : ∀ a, ∃ z, g.size a = .fin z ∧ |z - axisCells g.dims a * e| ≤ n * e / 2 ^ 24) :
    ∃ s, DevPrecise floatR sqrt (1 / 2 ^ 24) (1 / 2 ^ 150) ((2 - 1 / 2 ^ 23) * 2 ^ 127) e s n n (1 / 2 ^ 24 * n ^ 2 * s)
        (1 / 2 ^ 24 * n ^ 2 * e) B g ∧
      Far floatR (1 / 2 ^ 24) (1 / 2 ^ 150) ((2 - 1 / 2 ^ 23) * 2 ^ 127) s n (1 / 2 ^ 24 * n ^ 2 * s) B g ∧ 1 ≤ 10 ^ 7 * B := by
  obtain ⟨s, hfs, hes, hsge, hsle, he, hedge, hse1, hgrid⟩ := G.edge
  obtain ⟨s', hfs', -, P⟩ := G.precise hs
  have hss : s' = s := by
    rw [hfs] at hfs'
    exact (Fl.fin.inj hfs').symm
  subst hss
  have hs0 := P.cam.ray.s_pos
  have hn := G.n_ge
  have hη : (1 : ℚ) / 2 ^ 150 ≤ 1 / 2 ^ 80 * e := by
    have := G.e_ge
    calc (1 : ℚ) / 2 ^ 150 ≤ 1 / 2 ^ 80 * (1 / 2 ^ 20) := by norm_num
      _ ≤ _ := by gcongr
  have hse : |s' - e| ≤ 101 / 100 * (e / 2 ^ 24) := by linarith
  have hse' := abs_le.1 hse
  have hne : 0 ≤ n * e := mul_nonneg (by linarith) he.le
  have hns0 : 0 ≤ n * s' := mul_nonneg (by linarith) hs0.le
  have hns : n * s' ≤ 528 * s' := mul_le_mul_of_nonneg_right G.n_le hs0.le
  have hnn : n * (n * s') ≤ 528 * (528 * s') := mul_le_mul G.n_le hns hns0 (by norm_num)
  have hB' : 1 / 2 ^ 20 ≤ B := G.e_ge.trans G.B_ge
  refine ⟨s', P, ⟨keepsSigns_saturate 24 (-149) (by norm_num) _, roughScale_float ?_ ?_ (le_refl _) (by norm_num), fun a => ?_, ?_⟩, ?_⟩
  · norm_num at *
    linarith
  · have := G.B_le
    norm_num at *
    linarith
  · obtain ⟨z, z1, z2⟩ := hsize a
    refine ⟨z, z1, ?_⟩
    have hm : (0 : ℚ) ≤ axisCells g.dims a := by positivity
    have hcell : (axisCells g.dims a : ℚ) * |s' - e| ≤ 101 / 100 * (n * e / 2 ^ 24) := by
      calc (axisCells g.dims a : ℚ) * |s' - e| ≤ n * (101 / 100 * (e / 2 ^ 24)) :=
            mul_le_mul (by linarith [G.dims a]) hse (abs_nonneg _) (by linarith)
        _ = _ := by ring
    rw [show z - axisCells g.dims a * s' = (z - axisCells g.dims a * e) - axisCells g.dims a * (s' - e) by ring]
    refine (abs_sub _ _).trans ?_
    rw [abs_mul, abs_of_nonneg hm]
    have k1 := mul_le_mul_of_nonneg_right hn hns0
    have k2 := mul_le_mul_of_nonneg_left (show 99 / 100 * e ≤ s' by linarith) (show 0 ≤ n by linarith)
    linarith
  · rw [show 1 / 2 ^ 24 * n ^ 2 * s' = 1 / 2 ^ 24 * (n * (n * s')) by ring]
    linarith
  · norm_num at hB' ⊢
    linarith

/-- C76: on a device, obstacles are kept however far away the sensor is: with percentage 1 (the default), a cell in which one camera measured
at least `threshold` points, truly deeper in the cell than `(34 n² e + 910 B) / 2^24 + (1 + B) / 10^8` and nearer than the range by more than
that, ends up filled.  `B` bounds the coordinates; nothing else is assumed of the place of the sensor. -/
theorem C76_float_obstacle_anywhere (hs : FloatSqrt sqrt) (G : FloatGrid e v n B g)
    (hsize : ∀ a, ∃ z, g.size a = .fin z ∧ |z - axisCells g.dims a * e| ≤ n * e / 2 ^ 24)
    (hh : Helper api (cams.map (Camera3.dev floatR)))
    (hN : g.dims.total * 2 * numTrackingGrids (cams.map (Camera3.dev floatR)) < 2 ^ 31)
    (hop : FilterOptions.make (.fin 1) t k = some op) (hlen : ∀ c ∈ cams, c.points.length ≤ 2 ^ 24)
    (hd : static.dims = g.dims) (h : DeviceVoxelizeRuns api float32 sqrt g op (cams.map (Camera3.dev floatR)) static output output')
    {i : IVec} (hi : CellInGrid (axisCells g.dims) i) (hocc : (static.data (dataIndex g.dims i)).le (.fin (1 / 2)) = true)
    (hcm : c ∈ cams) (hc : c.Within B) (ht : c.Turns) (hr : FloatRange c.range)
    (hpts : t ≤ c.howMany fun x =>
      DeepBox (floatFarTol e n B) e i (c.place x) ∧ WellWithin (floatFarTol e n B) c.range c.sensor (c.place x)) :
    output'.data (dataIndex g.dims i) = .fin 1 := by
  rw [← devWideTol_float_far] at hpts
  obtain ⟨s, P, W, hB7⟩ := G.far hs hsize
  refine dev_filled_of_count (bits := 32) hop hh hN (devs_length hlen) hd h hi hocc (List.mem_map_of_mem hcm) (hpts.trans ?_)
  norm_cast
  refine le_devHits fun x hx hxp => ?_
  obtain ⟨ms, hms⟩ := Option.isSome_iff_exists.1 (dev_point_defined (bits := 32) hh hN hd h hcm hx)
  refine ⟨ms, hms, ?_⟩
  obtain ⟨o, p, len, F, he⟩ := devRay P.cam 32 hc ht hx
  rw [he] at hms
  exact dev_filled_far P W hB7 hc ht (hr.ok G.B_le) hx F hi hxp.1 hxp.2 hms

/-- C77, points are kept on a device however far away the sensor is. -/
theorem C77_float_kept_anywhere (hs : FloatSqrt sqrt) (G : FloatGrid e v n B g)
    (hsize : ∀ a, ∃ z, g.size a = .fin z ∧ |z - axisCells g.dims a * e| ≤ n * e / 2 ^ 24)
    (hh : Helper api (cams.map (Camera3.dev floatR)))
    (hN : g.dims.total * 2 * numTrackingGrids (cams.map (Camera3.dev floatR)) < 2 ^ 31) (hop : FilterOptions.make (.fin 1) 1 k = some op)
    (hlen : ∀ c ∈ cams, c.points.length ≤ 2 ^ 24) (hd : static.dims = g.dims) (hdo : output.dims = g.dims) (hnan : NoNaN static)
    (h : DeviceVoxelizeRuns api float32 sqrt g op (cams.map (Camera3.dev floatR)) static output output') (hcm : c ∈ cams)
    (hc : c.Within B) (ht : c.Turns) (hr : FloatRange c.range) (hx : some x ∈ c.points)
    (h1 : DeepInGrid (floatFarTol e n B) e (axisCells g.dims) (c.place x))
    (h2 : WellWithin (floatFarTol e n B) c.range c.sensor (c.place x)) : Kept (floatTol e n B) e output' (c.place x) := by
  rw [← devWideTol_float_far] at h1 h2
  rw [← devTol_float]
  obtain ⟨s, P, W, hB7⟩ := G.far hs hsize
  exact dev_point_kept (bits := 32) P hh hN hop hlen hd hdo hnan h hcm hc ht hx fun _ _ _ _ F hms =>
    dev_fills_far P W hB7 hc ht (hr.ok G.B_le) hx F h1 h2 hms

end

/-! ### Queries -/

section
variable {norm : (Fin 3 → ℝ) → ℝ} {interp : (Fin 3 → ℝ) → (Fin 3 → ℝ) → (Bool → Bool → Bool → ℝ) → (Fin 3 → ℝ) → ℝ}
  {toGrid : Vec4 ℝ → Fin 3 → ℝ} {toWorld rotate : (Fin 3 → ℝ) → Fin 3 → ℝ} {K : Type} {gp : GenParams} {F : SDFGrid ℝ}
  {loc : Vec4 ℝ} {e' : ℝ} {p p' Y : Fin 3 → ℝ} {sqrt : Fl → Fl} {g : RayGrid Fl} {op : FilterOptions} {k : ℤ}
  {cams : List Camera3} {static output output' : VoxMap K} {c : Camera3} {x : Fin 3 → ℚ}

/-- C77, on the CPU nothing measured is overlooked, however far away the sensor is: as `C77_double_clearance_partial`, the sensor anywhere. -/
theorem C77_double_clearance_anywhere {s n B : ℚ} (hs : IeeeSqrt sqrt) (G : DoubleGrid s n B g)
    (hsize : ∀ a, ∃ z, g.size a = .fin z ∧ |z - axisCells g.dims a * s| ≤ n * s / 2 ^ 53) (hop : FilterOptions.make (.fin 1) 1 k = some op)
    (hlen : ∀ c ∈ cams, c.points.length < 2 ^ 31) (hd : output.dims = g.dims) (hnan : NoNaN output)
    (h : FlVoxelizeRuns double64 sqrt g op (cams.map Camera3.cloud) output output') (hcm : c ∈ cams) (hc : c.Within B)
    (hr : DoubleRange c.range) (hx : some x ∈ c.points)
    (h1 : DeepInGrid (doubleFarTol s n B) s (axisCells g.dims) (c.place x))
    (h2 : WellWithin (doubleFarTol s n B) c.range c.sensor (c.place x))
    (hq : Answers norm interp toGrid toWorld rotate gp output' s n F loc e' p)
    (hY : InFrame F.pose.R F.pose.t (fun a => (c.place x a : ℝ)) Y) :
    e' - (Real.sqrt 3 + 3 + n / 2 ^ 18 + n ^ 2 / 2 ^ 37) * s - dist3 p p' - 2 * doubleTol s n B ≤ dist3 p' Y :=
  hq.clear G.tol_nonneg (C77_double_kept_anywhere hs G hsize hop hlen hd hnan h hcm hc hr hx h1 h2) hY

/-- C77, on a device nothing measured is overlooked, however far away the sensor is. -/
theorem C77_float_clearance_anywhere {e v n B : ℚ} {api : DeviceApi} (hs : FloatSqrt sqrt) (G : FloatGrid e v n B g)
    (hsize : ∀ a, ∃ z, g.size a = .fin z ∧ |z - axisCells g.dims a * e| ≤ n * e / 2 ^ 24)
    (hh : Helper api (cams.map (Camera3.dev floatR)))
    (hN : g.dims.total * 2 * numTrackingGrids (cams.map (Camera3.dev floatR)) < 2 ^ 31) (hop : FilterOptions.make (.fin 1) 1 k = some op)
    (hlen : ∀ c ∈ cams, c.points.length ≤ 2 ^ 24) (hd : static.dims = g.dims) (hdo : output.dims = g.dims) (hnan : NoNaN static)
    (h : DeviceVoxelizeRuns api float32 sqrt g op (cams.map (Camera3.dev floatR)) static output output') (hcm : c ∈ cams)
    (hc : c.Within B) (ht : c.Turns) (hr : FloatRange c.range) (hx : some x ∈ c.points)
    (h1 : DeepInGrid (floatFarTol e n B) e (axisCells g.dims) (c.place x))
    (h2 : WellWithin (floatFarTol e n B) c.range c.sensor (c.place x))
    (hq : Answers norm interp toGrid toWorld rotate gp output' e n F loc e' p)
    (hY : InFrame F.pose.R F.pose.t (fun a => (c.place x a : ℝ)) Y) :
    e' - (Real.sqrt 3 + 3 + n / 2 ^ 18 + n ^ 2 / 2 ^ 37) * e - dist3 p p' - 2 * floatTol e n B ≤ dist3 p' Y :=
  hq.clear G.tol_nonneg (C77_float_kept_anywhere hs G hsize hh hN hop hlen hd hdo hnan h hcm hc ht hr hx h1 h2) hY

end

end VGT
