import Verif.Props.RayRound

/-!
C56, the rest of "nothing is undefined within reach": rays that are cut at the maximum range.
-/
set_option autoImplicit false

namespace VGT
open VGT.EDT VGT.Spec

variable {R : ℚ → Fl} {u η M : ℚ}

/-- A rounded number is not much larger than the number. -/
theorem rounds_abs_le (hR : Rounds R u η M) (hu : u ≤ 1 / 100) {x X : ℚ} (hx : |x| ≤ X) (hX : X ≤ M) :
    ∃ y, R x = .fin y ∧ |y| ≤ 101 / 100 * X + η := by
  have hxM : |x| ≤ M := hx.trans hX
  obtain ⟨h1, h2⟩ := abs_le.1 hxM
  rcases hR x with ⟨y, e, hy⟩ | ⟨_, h⟩ | ⟨_, h⟩
  · refine ⟨y, e, ?_⟩
    have h3 := abs_sub_abs_le_abs_sub y x
    have h4 := mul_le_mul_of_nonneg_right hu (abs_nonneg x)
    linarith
  · linarith
  · linarith

/-- The end of a ray that is cut, in any rounding with errors below one percent. -/
theorem cut_end (hR : Rounds R u η M) (hu : u ≤ 1 / 100) (hη0 : 0 ≤ η) (hη : η ≤ 1 / 100) {bits : ℕ} {o p : Fin 3 → ℚ}
    {B : ℚ} (ho : ∀ a, |o a| ≤ B) (hp : ∀ a, |p a| ≤ B) (hM : 4 * B + 2 ≤ M) {range : ℚ} (hr : 0 ≤ range) {len : Fl}
    (hlt : Fl.lt (.fin range) len = true) :
    ∃ e : Fin 3 → ℚ, flFinalPoint (ieee R bits) (fun a => .fin (o a)) (fun a => .fin (p a)) len (.fin range) =
      (fun a => .fin (e a)) ∧ ∀ a, |e a| ≤ 101 / 100 * |o a| + 107 / 100 * |p a - o a| + 5 * η := by
  have hB : 0 ≤ B := (abs_nonneg _).trans (ho 0)
  have hshare : ∃ t, Fl.divR R (.fin range) len = .fin t ∧ |t| ≤ 102 / 100 := by
    cases len with
    | nan => cases hlt
    | ninf => cases hlt
    | pinf => exact ⟨0, rfl, by norm_num⟩
    | fin L =>
      have hL : range < L := by simpa [Fl.lt] using hlt
      have hL0 : 0 < L := lt_of_le_of_lt hr hL
      have hq : |range / L| ≤ 1 := by
        rw [abs_of_nonneg (div_nonneg hr hL0.le), div_le_one hL0]
        exact hL.le
      obtain ⟨t, e, ht⟩ := rounds_abs_le hR hu hq (by linarith)
      refine ⟨t, ?_, by linarith⟩
      show (if L = 0 then _ else R (range / L)) = _
      rw [if_neg hL0.ne', e]
  obtain ⟨t, ht, ht'⟩ := hshare
  have hax : ∀ a, ∃ e, Fl.addR R (.fin (o a)) (Fl.mulR R (Fl.subR R (.fin (p a)) (.fin (o a))) (Fl.divR R (.fin range) len)) =
      .fin e ∧ |e| ≤ 101 / 100 * |o a| + 107 / 100 * |p a - o a| + 5 * η := by
    intro a
    have hd : |p a - o a| ≤ 2 * B := by
      have := abs_sub (p a) (o a)
      linarith [ho a, hp a]
    obtain ⟨d, d1, d2⟩ := rounds_abs_le hR hu (le_refl |p a - o a|) (by linarith)
    have hdt : |d * t| ≤ (101 / 100 * |p a - o a| + η) * (102 / 100) := by
      rw [abs_mul]
      exact mul_le_mul d2 ht' (abs_nonneg _) (by positivity)
    obtain ⟨m, m1, m2⟩ := rounds_abs_le hR hu hdt (by linarith)
    have hom : |o a + m| ≤ |o a| + (101 / 100 * ((101 / 100 * |p a - o a| + η) * (102 / 100)) + η) :=
      (abs_add_le _ _).trans (by linarith)
    obtain ⟨e, e1, e2⟩ := rounds_abs_le hR hu hom (by linarith [ho a])
    refine ⟨e, ?_, by linarith [abs_nonneg (p a - o a)]⟩
    have h1 : Fl.subR R (.fin (p a)) (.fin (o a)) = .fin d := d1
    rw [h1, ht]
    have h2 : Fl.mulR R (.fin d) (.fin t) = .fin m := m1
    rw [h2]
    exact e1
  choose e h1 h2 using hax
  refine ⟨e, ?_, h2⟩
  have hclip : flClipped (ieee R bits) len (.fin range) = true := hlt
  unfold flFinalPoint
  rw [if_pos hclip]
  funext a
  exact h1 a

/-- The index of a position of at most `4 T` cells, where `8 T` fits the index type. -/
theorem cut_index (hR : Rounds R u η M) (hu : u ≤ 1 / 100) (hη : η ≤ 1 / 100) {bits : ℕ} {T : ℚ} (hT : 1 ≤ T)
    (hTb : 8 * T ≤ 2 ^ (bits - 1)) (hTM : 4 * T ≤ M) {g : RayGrid Fl} {inv : ℚ} (hinv : g.inv = .fin inv)
    {x : Fin 3 → ℚ} (hx : ∀ a, |x a * inv| ≤ 4 * T) :
    ∃ i, flIndex (ieee R bits) g (fun a => .fin (x a)) = some i ∧ ∀ a, |(i a : ℚ)| ≤ 6 * T := by
  have hax : ∀ a, ∃ y : ℤ, (ieee R bits).toInt ((ieee R bits).mul (.fin (x a)) g.inv) = some y ∧ |(y : ℚ)| ≤ 6 * T := by
    intro a
    obtain ⟨y, e1, e2⟩ := rounds_abs_le hR hu (hx a) hTM
    have e3 : (ieee R bits).mul (.fin (x a)) g.inv = .fin y := by
      rw [hinv]
      exact e1
    obtain ⟨h7, h8⟩ := abs_le.1 e2
    have f1 := Int.floor_le y
    have f2 := Int.lt_floor_add_one y
    refine ⟨⌊y⌋, ?_, ?_⟩
    · rw [e3]
      show (if -2 ^ (bits - 1) ≤ ⌊y⌋ ∧ ⌊y⌋ < 2 ^ (bits - 1) then some ⌊y⌋ else none) = some ⌊y⌋
      rw [if_pos]
      constructor
      · have : ((-2 ^ (bits - 1) : ℤ) : ℚ) ≤ ⌊y⌋ := by push_cast; linarith
        exact_mod_cast this
      · have : (⌊y⌋ : ℚ) < ((2 ^ (bits - 1) : ℤ) : ℚ) := by push_cast; linarith
        exact_mod_cast this
    · rw [abs_le]
      constructor <;> linarith
  choose y h1 h2 using hax
  exact ⟨y, axes3_some.2 h1, h2⟩

/-- C56, cut rays, for every rounding with errors below one percent and indices of `bits` bits: from a sensor in the grid, with
sensor and point at most `T` cells from the corner of the grid and `8 T` within the index type, nothing is undefined, and
nothing is counted filled. -/
theorem C56_cut_ray_defined (hR : Rounds R u η M) (hu : u ≤ 1 / 100) (hη0 : 0 ≤ η) (hη : η ≤ 1 / 100) {bits : ℕ} {T : ℚ}
    (hT : 1 ≤ T) (hTb : 8 * T ≤ 2 ^ (bits - 1)) (hTM : 4 * T ≤ M) {g : RayGrid Fl} {inv : ℚ} (hinv : g.inv = .fin inv)
    (hηinv : 100 * (η * |inv|) ≤ 1) (hn : ∀ a, (axisCells g.dims a : ℚ) ≤ T) {o p : Fin 3 → ℚ} {B : ℚ}
    (hoB : ∀ a, |o a| ≤ B) (hpB : ∀ a, |p a| ≤ B) (hM : 4 * B + 2 ≤ M) (ho : ∀ a, |o a * inv| ≤ T) (hp : ∀ a, |p a * inv| ≤ T)
    {i : IVec} (hi : flIndex (ieee R bits) g (fun a => .fin (o a)) = some i) (hin : CellInGrid (axisCells g.dims) i)
    {range : ℚ} (hr : 0 ≤ range) {len : Fl} (hlt : Fl.lt (.fin range) len = true) :
    ∃ ms f, flRaycast (ieee R bits) g (fun a => .fin (o a)) (fun a => .fin (p a)) len (.fin range) = some ms ∧
      flIndex (ieee R bits) g (flFinalPoint (ieee R bits) (fun a => .fin (o a)) (fun a => .fin (p a)) len (.fin range)) = some f ∧
      RayMarks (axisCells g.dims) i f true ms ∧ ∀ c, Mark.filled c ∉ ms := by
  obtain ⟨e, he, heb⟩ := cut_end (bits := bits) hR hu hη0 hη hoB hpB hM hr hlt
  have hbound : ∀ a, |e a * inv| ≤ 4 * T := by
    intro a
    have h1 := ho a
    have h2 := hp a
    rw [abs_mul] at h1 h2 ⊢
    have h3 : |p a - o a| ≤ |p a| + |o a| := abs_sub (p a) (o a)
    have h4 := mul_le_mul_of_nonneg_right (heb a) (abs_nonneg inv)
    have h5 := mul_le_mul_of_nonneg_right h3 (abs_nonneg inv)
    have h6 : (101 / 100 * |o a| + 107 / 100 * |p a - o a| + 5 * η) * |inv| =
        101 / 100 * (|o a| * |inv|) + 107 / 100 * (|p a - o a| * |inv|) + 5 * (η * |inv|) := by ring
    have h7 : (|p a| + |o a|) * |inv| = |p a| * |inv| + |o a| * |inv| := by ring
    rw [h6] at h4
    rw [h7] at h5
    linarith
  obtain ⟨f, hf, hfb⟩ := cut_index hR hu hη hT hTb hTM hinv hbound
  rw [← he] at hf
  have hfit : ∀ a, (ieee R bits).fits (f a - i a) = true := by
    intro a
    obtain ⟨d1, d2⟩ := abs_le.1 (hfb a)
    obtain ⟨d3, d4⟩ := hin a
    have d5 := hn a
    have d3' : (0 : ℚ) ≤ i a := by exact_mod_cast d3
    have d4' : (i a : ℚ) < axisCells g.dims a := by exact_mod_cast d4
    show decide (-2 ^ (bits - 1) ≤ f a - i a ∧ f a - i a < 2 ^ (bits - 1)) = true
    rw [decide_eq_true_iff]
    constructor
    · have : ((-2 ^ (bits - 1) : ℤ) : ℚ) ≤ ((f a - i a : ℤ) : ℚ) := by push_cast; linarith
      exact_mod_cast this
    · have : ((f a - i a : ℤ) : ℚ) < ((2 ^ (bits - 1) : ℤ) : ℚ) := by push_cast; linarith
      exact_mod_cast this
  obtain ⟨ms, h1, h2, -, -⟩ := C56_sensor_in_grid (ieee R bits) g hi hin hf hfit
  have hc : (ieee R bits).lt (.fin range) len = true := hlt
  rw [hc] at h2
  refine ⟨ms, f, h1, hf, h2, fun c hc => ?_⟩
  have := ((h2.filled c).1 hc).1
  cases this

/-- C56, cut rays on devices: 2^28 cells. -/
theorem C56_device_cut {g : RayGrid Fl} {inv : ℚ} (hinv : g.inv = .fin inv) (hinv' : |inv| ≤ 2 ^ 127)
    (hn : ∀ a, axisCells g.dims a ≤ 2 ^ 28) {o p : Fin 3 → ℚ} (hoB : ∀ a, |o a| ≤ 2 ^ 124) (hpB : ∀ a, |p a| ≤ 2 ^ 124)
    (ho : ∀ a, |o a * inv| ≤ 2 ^ 28) (hp : ∀ a, |p a * inv| ≤ 2 ^ 28)
    {i : IVec} (hi : flIndex float32 g (fun a => .fin (o a)) = some i) (hin : CellInGrid (axisCells g.dims) i)
    {range : ℚ} (hr : 0 ≤ range) {len : Fl} (hlt : Fl.lt (.fin range) len = true) :
    ∃ ms f, flRaycast float32 g (fun a => .fin (o a)) (fun a => .fin (p a)) len (.fin range) = some ms ∧
      flIndex float32 g (flFinalPoint float32 (fun a => .fin (o a)) (fun a => .fin (p a)) len (.fin range)) = some f ∧
      RayMarks (axisCells g.dims) i f true ms ∧ ∀ c, Mark.filled c ∉ ms :=
  C56_cut_ray_defined rounds_float (by norm_num) (by norm_num) (by norm_num) (by norm_num) (by norm_num) (by norm_num) hinv
    (by
      have := mul_le_mul_of_nonneg_left hinv' (show (0 : ℚ) ≤ 1 / 2 ^ 150 by norm_num)
      norm_num at this ⊢
      linarith)
    (fun a => by exact_mod_cast hn a) hoB hpB (by norm_num) ho hp hi hin hr hlt

/-- C56, cut rays on the CPU: 2^60 cells. -/
theorem C56_cpu_cut {g : RayGrid Fl} {inv : ℚ} (hinv : g.inv = .fin inv) (hinv' : |inv| ≤ 2 ^ 1023)
    (hn : ∀ a, axisCells g.dims a ≤ 2 ^ 60) {o p : Fin 3 → ℚ} (hoB : ∀ a, |o a| ≤ 2 ^ 1020) (hpB : ∀ a, |p a| ≤ 2 ^ 1020)
    (ho : ∀ a, |o a * inv| ≤ 2 ^ 60) (hp : ∀ a, |p a * inv| ≤ 2 ^ 60)
    {i : IVec} (hi : flIndex double64 g (fun a => .fin (o a)) = some i) (hin : CellInGrid (axisCells g.dims) i)
    {range : ℚ} (hr : 0 ≤ range) {len : Fl} (hlt : Fl.lt (.fin range) len = true) :
    ∃ ms f, flRaycast double64 g (fun a => .fin (o a)) (fun a => .fin (p a)) len (.fin range) = some ms ∧
      flIndex double64 g (flFinalPoint double64 (fun a => .fin (o a)) (fun a => .fin (p a)) len (.fin range)) = some f ∧
      RayMarks (axisCells g.dims) i f true ms ∧ ∀ c, Mark.filled c ∉ ms :=
  C56_cut_ray_defined rounds_double (by norm_num) (by positivity) (by decide +kernel) (by norm_num) (by norm_num)
    (by decide +kernel) hinv
    (by
      have h1 := mul_le_mul_of_nonneg_left hinv' (show (0 : ℚ) ≤ 1 / 2 ^ 1075 by positivity)
      have h2 : (1 : ℚ) / 2 ^ 1075 * 2 ^ 1023 = 1 / 2 ^ 52 := by decide +kernel
      rw [h2] at h1
      norm_num at h1 ⊢
      linarith)
    (fun a => by exact_mod_cast hn a) hoB hpB (by decide +kernel) ho hp hi hin hr hlt

/-- A ray cut after half a cell. -/
example : ∃ ms f, flRaycast float32 twoCells (fun a => .fin ((![1/2, 1/2, 1/2] : Fin 3 → ℚ) a))
      (fun a => .fin ((![3/2, 1/2, 1/2] : Fin 3 → ℚ) a)) (.fin 1) (.fin (1 / 4)) = some ms ∧
    flIndex float32 twoCells (flFinalPoint float32 (fun a => .fin ((![1/2, 1/2, 1/2] : Fin 3 → ℚ) a))
      (fun a => .fin ((![3/2, 1/2, 1/2] : Fin 3 → ℚ) a)) (.fin 1) (.fin (1 / 4))) = some f ∧
    RayMarks (axisCells twoCells.dims) ![0, 0, 0] f true ms ∧ ∀ c, Mark.filled c ∉ ms :=
  C56_device_cut (g := twoCells) (inv := 1) rfl (by norm_num) (by decide) (by decide +kernel) (by decide +kernel)
    (by decide +kernel) (by decide +kernel) (by decide +kernel) (by unfold CellInGrid; decide +kernel) (by norm_num) (by decide +kernel)

/-- C72 on devices, rays cut at the range. -/
theorem C72_float_clipped {g : RayGrid Fl} {s n : ℚ} (hs : 1 / 2 ^ 30 ≤ s) (hs' : s ≤ 2 ^ 30) (hg : GridWith (1 / 2 ^ 24) s n g)
    (hn : 3 ≤ n) (hn' : n ≤ 528) {o p : Fin 3 → ℚ} (hpo : ∀ a, |p a - o a| ≤ 2 ^ 40) {i : IVec}
    (hi : flIndex float32 g (fun a => .fin (o a)) = some i) (hin : CellInGrid (axisCells g.dims) i) {len range : ℚ}
    (hr : 1 / 2 ^ 30 ≤ range) (hlt : range < len) (hlen : len ≤ 2 ^ 40) {X : ℚ}
    (hX : ∀ a, |p a - o a| * (range / len) ≤ X) {ms : List Mark}
    (hms : flRaycast float32 g (fun a => .fin (o a)) (fun a => .fin (p a)) (.fin len) (.fin range) = some ms) :
    (∀ m ∈ ms, PassesWithin (33 * (n ^ 2 * s / 2 ^ 24) + 5 * (X / 2 ^ 24)) s o (onSeg o p (range / len)) m.cell) ∧
    (∀ c, CellInGrid (axisCells g.dims) c →
      PassesDeep (33 * (n ^ 2 * s / 2 ^ 24) + 5 * (X / 2 ^ 24)) s o (onSeg o p (range / len)) c → Mark.free c ∈ ms) ∧
    ∀ c, Mark.filled c ∉ ms := by
  have e1 : n ^ 2 * s / 2 ^ 24 = 1 / 2 ^ 24 * n ^ 2 * s := by ring
  have e2 : X / 2 ^ 24 = 1 / 2 ^ 24 * X := by ring
  have e3 : onSeg o p (range / len) = fun a => o a + (p a - o a) * (range / len) := by funext a; unfold onSeg; ring
  rw [e1, e2, e3]
  refine C72_clipped_ray (L := 2 ^ 40) (rayScale_float hs hs' hn hn') rounds_float
    (keepsOne_saturate 24 (-149) (by norm_num) (by norm_num) _) 32 hg hi hin hpo (by norm_num) ?_
    (lt_of_lt_of_le (by norm_num) hr) hlt ?_ hX hms
  · calc (3 : ℚ) * (1 / 2 ^ 150 * 2 ^ 40) ≤ 1 / 2 ^ 24 * (1 / 2 ^ 30) := by norm_num
      _ ≤ _ := by gcongr
  · calc (2 : ℚ) * (1 / 2 ^ 150 * len) ≤ 2 * (1 / 2 ^ 150 * 2 ^ 40) := by gcongr
      _ ≤ 1 / 2 ^ 30 := by norm_num
      _ ≤ range := hr

theorem twoCells_with : GridWith (1 / 2 ^ 24) 1 4 twoCells :=
  ⟨rfl, ⟨1, rfl, by norm_num⟩, by intro a; fin_cases a <;> simp [twoCells, axisCells] <;> norm_num⟩

/-- A ray through two cells, within range and cut. -/
example (ms ms' : List Mark)
    (h : flRaycast float32 twoCells (fun a => .fin ((![1/2, 1/2, 1/2] : Fin 3 → ℚ) a))
      (fun a => .fin ((![3/2, 1/2, 1/2] : Fin 3 → ℚ) a)) (.fin 1) .pinf = some ms)
    (h' : flRaycast float32 twoCells (fun a => .fin ((![1/2, 1/2, 1/2] : Fin 3 → ℚ) a))
      (fun a => .fin ((![3/2, 1/2, 1/2] : Fin 3 → ℚ) a)) (.fin 1) (.fin (3 / 4)) = some ms') :
    (∀ m ∈ ms, PassesWithin ((32 : ℚ) * (4 ^ 2 * 1 / 2 ^ 24)) 1 ![1/2, 1/2, 1/2] ![3/2, 1/2, 1/2] m.cell) ∧ ∀ c, Mark.filled c ∉ ms' := by
  have hpo : ∀ a, |(![3/2, 1/2, 1/2] : Fin 3 → ℚ) a - (![1/2, 1/2, 1/2] : Fin 3 → ℚ) a| ≤ 2 ^ 40 := by decide +kernel
  have hi : flIndex float32 twoCells (fun a => .fin ((![1/2, 1/2, 1/2] : Fin 3 → ℚ) a)) = some ![0, 0, 0] := by decide +kernel
  have hin : CellInGrid (axisCells twoCells.dims) ![0, 0, 0] := by unfold CellInGrid; decide +kernel
  exact ⟨(C72_float (by norm_num) (by norm_num) twoCells_with (by norm_num) (by norm_num) hpo hi hin (by decide +kernel) h).1,
    (C72_float_clipped (by norm_num) (by norm_num) twoCells_with (by norm_num) (by norm_num) hpo hi hin (by norm_num) (by norm_num)
      (by norm_num) (X := 1) (by decide +kernel) h').2.2⟩

end VGT
