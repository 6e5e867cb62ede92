import Verif.Lemmas.Raycast
import Verif.Spec.Ray
import Mathlib.Algebra.Order.Field.Rat
import Mathlib.Data.Rat.Floor
import Mathlib.Tactic.NormNum

/-!
C36 (raycasting terminates, stays in the grid), C37 (only cells on the sensor ray), C38 (no cell skipped),
C48 (every measured point in range gets its filled mark).
-/
set_option autoImplicit false

namespace VGT
open VGT.EDT VGT.Spec

section
variable {K : Type} [Field K] [LinearOrder K] [IsStrictOrderedRing K] [FloorRing K]

/-! ### From the model to points -/

theorem cellOf_inCell {s : K} (hs : 0 < s) (p : Vec K) : InCell s (cellOf s p) p := by
  intro a
  unfold cellOf
  exact ⟨(le_div_iff₀ hs).1 (Int.floor_le _), (div_lt_iff₀ hs).1 (Int.lt_floor_add_one _)⟩

theorem inCell_unique {s : K} (hs : 0 < s) {p : Vec K} {c : IVec} (h : InCell s c p) : c = cellOf s p := by
  funext a
  unfold cellOf
  rw [eq_comm, Int.floor_eq_iff, le_div_iff₀ hs, div_lt_iff₀ hs]
  exact h a

theorem castFrom_total (d : Dims) (s : K) (q f ray : Vec K) (clip : Bool) :
    ∃ ms, castFrom d s q f ray clip = some ms ∧ (∀ m ∈ ms, CellInGrid (axisCells d) m.cell) ∧
      (ms.map Mark.cell).Nodup ∧
      ms.length ≤ (cellOf s f 0 - cellOf s q 0).natAbs + (cellOf s f 1 - cellOf s q 1).natAbs +
        (cellOf s f 2 - cellOf s q 2).natAbs + 1 ∧
      (∀ c, Mark.filled c ∈ ms → clip = false ∧ c = cellOf s f) ∧
      (clip = false → CellInGrid (axisCells d) (cellOf s f) → Mark.filled (cellOf s f) ∈ ms) := by
  obtain ⟨l, h1, h2, h3, h4⟩ := walk_total d (cellOf s f) (fun a => stepFromDiff (cellOf s f a - cellOf s q a))
    (fun a => deltaT s (ray a)) (idist (cellOf s f) (cellOf s q)) (cellOf s q)
    (fun a => axisT (q a) (ray a) (((cellOf s q a : K) + 1 / 2) * s - s * (1 / 2)) (((cellOf s q a : K) + 1 / 2) * s + s * (1 / 2)))
    (toward_init _ _) le_rfl
  refine ⟨(if inGrid d (cellOf s f) = true then [if clip then Mark.free (cellOf s f) else Mark.filled (cellOf s f)] else []) ++
    l.map Mark.free, by unfold castFrom; simp only; unfold idist at h1; rw [h1]; rfl, ?_, ?_, ?_, ?_, ?_⟩
  · intro m hm
    rw [List.mem_append] at hm
    rcases hm with hm | hm
    · split_ifs at hm with hg hc
      · rw [List.mem_singleton.1 hm]; exact inGrid_iff.1 hg
      · rw [List.mem_singleton.1 hm]; exact inGrid_iff.1 hg
      · cases hm
    · obtain ⟨c, hc, rfl⟩ := List.mem_map.1 hm
      exact inGrid_iff.1 (h3 c hc).1
  · have hl : (l.map Mark.free).map Mark.cell = l := by
      rw [List.map_map]
      have : (Mark.cell ∘ Mark.free) = id := rfl
      rw [this, List.map_id]
    rw [List.map_append, hl]
    split_ifs with hg hc
    · exact List.nodup_cons.2 ⟨fun h => (h3 _ h).2.1 rfl, h4⟩
    · exact List.nodup_cons.2 ⟨fun h => (h3 _ h).2.1 rfl, h4⟩
    · exact h4
  · rw [List.length_append, List.length_map]
    unfold idist at h2
    split_ifs <;> simp <;> omega
  · intro c hc
    rw [List.mem_append] at hc
    rcases hc with hc | hc
    · split_ifs at hc with hg hcl
      · simp at hc
      · simp only [List.mem_singleton, Mark.filled.injEq] at hc
        exact ⟨by simpa using hcl, hc⟩
      · cases hc
    · obtain ⟨c', _, h⟩ := List.mem_map.1 hc
      cases h
  · intro hc hg
    rw [List.mem_append]
    left
    rw [if_pos (inGrid_iff.2 hg), hc]
    simp

/-- Facts about a cast whose end lies ahead of its start. -/
theorem castFrom_ahead {d : Dims} {s T : K} (hs : 0 < s) {q f ray : Vec K} {clip : Bool} (hT : 0 ≤ T)
    (hf : ∀ a, f a = q a + T * ray a) {ms : List Mark} (hms : castFrom d s q f ray clip = some ms) :
    (∀ c, Mark.free c ∈ ms → ∃ τ, 0 ≤ τ ∧ τ ≤ T ∧ InBox s q ray c τ) ∧
    (inGrid d (cellOf s q) = true → ∀ c τ, 0 ≤ τ → τ ≤ T → InOpenCell s c (fun a => q a + τ * ray a) →
      inGrid d c = true → c ≠ cellOf s f → Mark.free c ∈ ms) := by
  unfold castFrom at hms
  simp only [Option.map_eq_some_iff] at hms
  obtain ⟨l, hl, rfl⟩ := hms
  have hq := cellOf_inCell hs q
  have hff := cellOf_inCell hs f
  have hal : Along ray (fun a => stepFromDiff (cellOf s f a - cellOf s q a)) := by
    intro a
    simp only [stepFromDiff]
    split_ifs with h1 h2
    · left
      refine ⟨?_, rfl⟩
      by_contra hr
      push Not at hr
      have hle : f a ≤ q a := by rw [hf a]; linarith [mul_nonpos_of_nonneg_of_nonpos hT hr]
      have : cellOf s f a ≤ cellOf s q a := Int.floor_le_floor (div_le_div_of_nonneg_right hle hs.le)
      omega
    · right; left
      refine ⟨?_, rfl⟩
      by_contra hr
      push Not at hr
      have hle : q a ≤ f a := by rw [hf a]; linarith [mul_nonneg hT hr]
      have : cellOf s q a ≤ cellOf s f a := Int.floor_le_floor (div_le_div_of_nonneg_right hle hs.le)
      omega
    · exact Or.inr (Or.inr rfl)
  have hfin : InBox s q ray (cellOf s f) T := by
    intro a
    rw [← hf a]
    exact ⟨(hff a).1, (hff a).2.le⟩
  have hte : ∀ a, axisT (q a) (ray a) (((cellOf s q a : K) + 1 / 2) * s - s * (1 / 2))
      (((cellOf s q a : K) + 1 / 2) * s + s * (1 / 2)) = exitT s (q a) (ray a) (cellOf s q a) :=
    fun a => axisT_eq (hq a).1 (hq a).2.le
  constructor
  · intro c hc
    rw [List.mem_append] at hc
    rcases hc with hc | hc
    · split_ifs at hc with hg hcl
      · simp only [List.mem_singleton, Mark.free.injEq] at hc
        exact ⟨T, hT, le_rfl, hc ▸ hfin⟩
      · simp at hc
      · cases hc
    · simp only [List.mem_map, Mark.free.injEq, exists_eq_right] at hc
      obtain ⟨τ', h1, h2, h3⟩ := walk_touch hs hal hfin _ _ _ 0 (toward_init _ _) hte hT
        (by intro a; rw [zero_mul, add_zero]; exact ⟨(hq a).1, (hq a).2.le⟩) l hl c hc
      exact ⟨τ', h1, h2, h3⟩
  · intro hin c τ h0 h1 hc hcin hcf
    rw [List.mem_append]
    right
    rw [List.mem_map]
    refine ⟨c, ?_, rfl⟩
    refine walk_cover hs hal hc hcin hcf _ _ _ ?_ hin hte l hl
    intro a
    have hca := hc a
    have hqa := hq a
    have hfa := hff a
    simp only at hca
    -- positions between start and end
    have key : (q a ≤ q a + τ * ray a ∧ q a + τ * ray a ≤ f a) ∨ (f a ≤ q a + τ * ray a ∧ q a + τ * ray a ≤ q a) := by
      rw [hf a]
      rcases le_total 0 (ray a) with hr | hr
      · left
        have := mul_nonneg h0 hr
        have := mul_le_mul_of_nonneg_right h1 hr
        constructor <;> linarith
      · right
        have := mul_nonpos_of_nonneg_of_nonpos h0 hr
        have := mul_le_mul_of_nonpos_right h1 hr
        constructor <;> linarith
    have conv : ∀ m n : ℤ, (m : K) * s < ((n : K) + 1) * s → m ≤ n := by
      intro m n h
      have := lt_of_mul_lt_mul_right h hs.le
      have : m < n + 1 := by exact_mod_cast this
      omega
    simp only [stepFromDiff]
    rcases key with ⟨k1, k2⟩ | ⟨k1, k2⟩
    · have e1 := conv (cellOf s q a) (c a) (by linarith)
      have e2 := conv (c a) (cellOf s f a) (by linarith)
      split_ifs <;> omega
    · have e1 := conv (cellOf s f a) (c a) (by linarith)
      have e2 := conv (c a) (cellOf s q a) (by linarith)
      split_ifs <;> omega

theorem isDist_zero {o p : Vec K} {L : K} (h : IsDist o p L) : L = 0 ↔ p = o := by
  constructor
  · rintro rfl
    have h2 := h.2
    have a0 := mul_self_nonneg (p 0 - o 0)
    have a1 := mul_self_nonneg (p 1 - o 1)
    have a2 := mul_self_nonneg (p 2 - o 2)
    have b0 : (p 0 - o 0) * (p 0 - o 0) = 0 := by linarith
    have b1 : (p 1 - o 1) * (p 1 - o 1) = 0 := by linarith
    have b2 : (p 2 - o 2) * (p 2 - o 2) = 0 := by linarith
    funext a
    fin_cases a
    · exact sub_eq_zero.1 (mul_self_eq_zero.1 b0)
    · exact sub_eq_zero.1 (mul_self_eq_zero.1 b1)
    · exact sub_eq_zero.1 (mul_self_eq_zero.1 b2)
  · rintro rfl
    have h2 := h.2
    simp only [sub_self, mul_zero, add_zero] at h2
    exact mul_self_eq_zero.1 h2

/-- The model's range-limited point is the intended one. -/
theorem finalPoint_eq {o p : Vec K} {L : K} (hL : IsDist o p L) {range : WithTop K} (hr : 0 ≤ range) {f : Vec K}
    (hf : IsRangeEnd o p L range f) :
    finalPoint o p L range = f ∧ ∃ lam, 0 ≤ lam ∧ lam ≤ 1 ∧ f = onSeg o p lam := by
  obtain ⟨lam, h0, h1, hfe, hfull, hclip⟩ := hf
  refine ⟨?_, lam, h0, h1, hfe⟩
  cases range with
  | top =>
    have : lam = 1 := hfull le_top
    subst this
    rw [hfe]
    funext a
    show p a = _
    unfold onSeg; ring
  | coe r =>
    show (if r < L then _ else _) = f
    by_cases h : r < L
    · rw [if_pos h]
      have hr0 : (0 : K) ≤ r := by exact_mod_cast hr
      have hlam : lam * L = r := by
        have := hclip (WithTop.coe_lt_coe.2 h)
        exact WithTop.coe_injective this
      have hLpos : 0 < L := lt_of_le_of_lt hr0 h
      rw [hfe]
      funext a
      unfold onSeg
      rw [← hlam, mul_div_assoc, div_self hLpos.ne', mul_one]
      ring
    · rw [if_neg h]
      have : lam = 1 := hfull (WithTop.coe_le_coe.2 (not_lt.1 h))
      subst this
      rw [hfe]
      funext a
      unfold onSeg; ring

/-! ### C36 -/

/-- C36, partial.  Casting a point never runs on, never leaves the grid, marks every cell at most once, and puts at
most one filled mark, on the cell containing the point and only when the point is within range.  `raycast` gives the
loop `|dx|+|dy|+|dz|` steps, so a result `some _` also says that many steps suffice.
Missing: a point equal to a sensor origin outside the grid (`C36_point_at_origin_is_undefined`), and negative ranges. -/
theorem C36_raycast_terminates_in_grid_partial (d : Dims) {s : K} (hs : 0 < s) {o p : Vec K} {L : K} (hL : IsDist o p L)
    {range : WithTop K} (hr : 0 ≤ range) (hne : p ≠ o ∨ ∃ oc, InCell s oc o ∧ CellInGrid (axisCells d) oc) :
    ∃ ms, raycast d s o p L range = some ms ∧ (∀ m ∈ ms, CellInGrid (axisCells d) m.cell) ∧
      (ms.map Mark.cell).Nodup ∧
      (∀ c, Mark.filled c ∈ ms → (L : WithTop K) ≤ range ∧ InCell s c p) := by
  have hfilled : ∀ c, clipped L range = false ∧ c = cellOf s (finalPoint o p L range) →
      (L : WithTop K) ≤ range ∧ InCell s c p := by
    rintro c ⟨h1, rfl⟩
    have hle : (L : WithTop K) ≤ range := by
      unfold clipped at h1
      exact not_lt.1 (of_decide_eq_false h1)
    refine ⟨hle, ?_⟩
    have : finalPoint o p L range = p := by
      cases range with
      | top => rfl
      | coe r =>
        show (if r < L then _ else _) = p
        rw [if_neg (not_lt.2 (WithTop.coe_le_coe.1 hle))]
    rw [this]
    exact cellOf_inCell hs p
  unfold raycast
  simp only
  by_cases hin : inGrid d (cellOf s o) = true
  · rw [if_pos hin]
    have hub : ¬ (L = 0 ∧ clipped L range = true) := by
      rintro ⟨h0, hc⟩
      unfold clipped at hc
      have := of_decide_eq_true hc
      rw [h0] at this
      exact absurd (lt_of_le_of_lt hr this) (lt_irrefl _)
    rw [if_neg hub]
    obtain ⟨ms, h1, h2, h3, _, h5, _⟩ := castFrom_total d s o (finalPoint o p L range) (fun a => p a - o a) (clipped L range)
    exact ⟨ms, h1, h2, h3, fun c hc => hfilled c (h5 c hc)⟩
  · rw [if_neg hin]
    have hL0 : L ≠ 0 := by
      intro h
      rcases hne with hne | ⟨oc, hoc, hne⟩
      · exact hne ((isDist_zero hL).1 h)
      · rw [inCell_unique hs hoc] at hne
        exact hin (inGrid_iff.2 hne)
    rw [if_neg hL0]
    cases hslab : slabs d s o (fun a => (p a - o a) / L) range with
    | none => exact ⟨[], rfl, by simp, by simp, by simp⟩
    | some tmin =>
      obtain ⟨ms, h1, h2, h3, _, h5, _⟩ := castFrom_total d s (fun a => o a + (p a - o a) / L * (tmin + tenth10))
        (finalPoint o p L range) (fun a => p a - o a) (clipped L range)
      exact ⟨ms, h1, h2, h3, fun c hc => hfilled c (h5 c hc)⟩

/-- C36, number of steps.  With the sensor in the grid the cast makes at most `|dx|+|dy|+|dz|` marks besides the one on
the last cell, where `dx, dy, dz` are the index differences of the cells of sensor and range-limited point. -/
theorem C36_step_bound (d : Dims) {s : K} (hs : 0 < s) {o p : Vec K} {L : K} (hL : IsDist o p L)
    {range : WithTop K} (hr : 0 ≤ range) {oc fc : IVec} (ho : InCell s oc o) (hin : CellInGrid (axisCells d) oc)
    {f : Vec K} (hf : IsRangeEnd o p L range f) (hfc : InCell s fc f) {ms : List Mark}
    (hms : raycast d s o p L range = some ms) :
    ms.length ≤ (fc 0 - oc 0).natAbs + (fc 1 - oc 1).natAbs + (fc 2 - oc 2).natAbs + 1 := by
  obtain ⟨hfe, _⟩ := finalPoint_eq hL hr hf
  rw [inCell_unique hs ho] at hin ⊢
  rw [inCell_unique hs hfc]
  unfold raycast at hms
  simp only at hms
  rw [if_pos (inGrid_iff.2 hin)] at hms
  split_ifs at hms
  rw [hfe] at hms
  obtain ⟨ms', h1, _, _, h4, _⟩ := castFrom_total d s o f (fun a => p a - o a) (clipped L range)
  rw [h1] at hms
  cases hms
  exact h4

/-! ### C38 -/

/-- C38.  With the sensor in the grid, every grid cell whose interior the segment from the sensor to the
range-limited point crosses gets a free mark, except the cell containing the end of the segment. -/
theorem C38_no_cell_skipped (d : Dims) {s : K} (hs : 0 < s) {o p : Vec K} {L : K} (hL : IsDist o p L)
    {range : WithTop K} (hr : 0 ≤ range) {oc : IVec} (ho : InCell s oc o) (hin : CellInGrid (axisCells d) oc)
    {f : Vec K} (hf : IsRangeEnd o p L range f) {ms : List Mark} (hms : raycast d s o p L range = some ms)
    {c : IVec} (hc : CellInGrid (axisCells d) c) (hcross : Crosses s o f c) (hend : ¬ InCell s c f) :
    Mark.free c ∈ ms := by
  obtain ⟨hfe, lam, h0, h1, hlam⟩ := finalPoint_eq hL hr hf
  have hoc := inCell_unique hs ho
  unfold raycast at hms
  simp only at hms
  rw [hoc] at hin
  rw [if_pos (inGrid_iff.2 hin)] at hms
  split_ifs at hms
  rw [hfe] at hms
  have hfa : ∀ a, f a = o a + lam * (p a - o a) := fun a => by rw [hlam]; rfl
  obtain ⟨_, hcov⟩ := castFrom_ahead hs h0 hfa hms
  obtain ⟨τ, t0, t1, ht⟩ := hcross
  refine hcov (inGrid_iff.2 hin) c (τ * lam) (mul_nonneg t0 h0) ?_ ?_ (inGrid_iff.2 hc) ?_
  · nlinarith
  · intro a
    have := ht a
    unfold onSeg at this
    rw [hfa a] at this
    have e : o a + τ * (o a + lam * (p a - o a) - o a) = o a + τ * lam * (p a - o a) := by ring
    rw [e] at this
    exact this
  · rintro rfl
    exact hend (cellOf_inCell hs f)

/-! ### C37 -/

theorem slabAxis_le {o dir size μ : K} (h : 0 ≤ o + μ * dir ∧ o + μ * dir ≤ size) {st st' : K × WithTop K}
    (hst : st.1 ≤ μ) (hs : slabAxis o dir size st = some st') : st'.1 ≤ μ ∧ st.1 ≤ st'.1 := by
  unfold slabAxis at hs
  by_cases hflat : |dir| < tenth10
  · rw [if_pos hflat] at hs
    split_ifs at hs
    cases hs
    exact ⟨hst, le_rfl⟩
  · rw [if_neg hflat] at hs
    simp only at hs
    have hne : dir ≠ 0 := by
      rintro rfl
      apply hflat
      rw [abs_zero]
      unfold tenth10
      positivity
    have ht1 : (if (0 - o) * (1 / dir) ≤ (size - o) * (1 / dir) then (0 - o) * (1 / dir) else (size - o) * (1 / dir)) ≤ μ := by
      rcases lt_or_gt_of_ne hne with hneg | hpos
      · have : (size - o) * (1 / dir) ≤ μ := by
          rw [mul_one_div, div_le_iff_of_neg hneg]; linarith
        split_ifs with h'
        · exact h'.trans this
        · exact this
      · have : (0 - o) * (1 / dir) ≤ μ := by
          rw [mul_one_div, div_le_iff₀ hpos]; linarith
        split_ifs with h'
        · exact this
        · exact (not_le.1 h').le.trans this
    generalize (if (0 - o) * (1 / dir) ≤ (size - o) * (1 / dir) then (0 - o) * (1 / dir) else (size - o) * (1 / dir)) = t1 at ht1 hs
    generalize (if (0 - o) * (1 / dir) ≤ (size - o) * (1 / dir) then (size - o) * (1 / dir) else (0 - o) * (1 / dir)) = t2 at hs
    by_cases h' : t1 > st.1
    · simp only [h', if_true] at hs
      generalize (if (t2 : WithTop K) > st.2 then (t2 : WithTop K) else st.2) = tm at hs
      split_ifs at hs
      cases hs
      exact ⟨ht1, le_of_lt h'⟩
    · simp only [h', if_false] at hs
      generalize (if (t2 : WithTop K) > st.2 then (t2 : WithTop K) else st.2) = tm at hs
      split_ifs at hs
      cases hs
      exact ⟨hst, le_rfl⟩

theorem slabs_le {d : Dims} {s μ : K} {o dir : Vec K} {range : WithTop K} (hμ : 0 ≤ μ)
    (h : ∀ a, 0 ≤ o a + μ * dir a ∧ o a + μ * dir a ≤ axisCells d a * s) {tmin : K}
    (hs : slabs d s o dir range = some tmin) : 0 ≤ tmin ∧ tmin ≤ μ := by
  unfold slabs at hs
  simp only [Option.bind_eq_some_iff, Option.map_eq_some_iff] at hs
  obtain ⟨st0, h0, st1, h1, st2, h2, rfl⟩ := hs
  have a0 := slabAxis_le (h 0) hμ h0
  have a1 := slabAxis_le (h 1) a0.1 h1
  have a2 := slabAxis_le (h 2) a1.1 h2
  exact ⟨(a0.2.trans a1.2).trans a2.2, a2.1⟩

/-- C37, partial.  A cell gets a free mark only if the segment from the sensor to the range-limited point touches it.
Full statement: without the hypothesis `hgrid`.  Missing: sensors outside the grid whose segment ends before it
enters the grid (or within the 1e-10 nudge after entering); there the claim is false,
see `C37_marks_behind_the_point`. -/
theorem C37_free_only_on_ray_partial (d : Dims) {s : K} (hs : 0 < s) {o p : Vec K} {L : K} (hL : IsDist o p L)
    {range : WithTop K} (hr : 0 ≤ range) {f : Vec K} (hf : IsRangeEnd o p L range f)
    (hgrid : (∃ oc, InCell s oc o ∧ CellInGrid (axisCells d) oc) ∨ ∃ τ lam, 0 ≤ τ ∧
      (∀ a, 0 ≤ onSeg o p τ a ∧ onSeg o p τ a ≤ axisCells d a * s) ∧
      f = onSeg o p lam ∧ τ * L + 1 / 10 ^ 10 ≤ lam * L)
    {ms : List Mark} (hms : raycast d s o p L range = some ms) {c : IVec} (hc : Mark.free c ∈ ms) :
    Touches s o f c := by
  obtain ⟨hfe, lam, h0, h1, hlam⟩ := finalPoint_eq hL hr hf
  have hfa : ∀ a, f a = o a + lam * (p a - o a) := fun a => by rw [hlam]; rfl
  -- from a parameter along the ray to a fraction of the segment
  have toTouch : ∀ τ, 0 ≤ τ → τ ≤ lam → InBox s o (fun a => p a - o a) c τ → Touches s o f c := by
    intro τ t0 t1 hb
    rcases eq_or_lt_of_le h0 with hz | hpos
    · refine ⟨0, le_rfl, zero_le_one, fun a => ?_⟩
      have hτ : τ = 0 := le_antisymm (t1.trans hz.symm.le) t0
      have := hb a
      unfold onSeg
      rw [hτ] at this
      simpa using this
    · refine ⟨τ / lam, div_nonneg t0 h0, (div_le_one hpos).2 t1, fun a => ?_⟩
      have := hb a
      unfold onSeg
      rw [hfa a]
      have e : o a + τ / lam * (o a + lam * (p a - o a) - o a) = o a + τ * (p a - o a) := by
        field_simp; ring
      rw [e]
      exact this
  unfold raycast at hms
  simp only at hms
  by_cases hin : inGrid d (cellOf s o) = true
  · rw [if_pos hin] at hms
    split_ifs at hms
    rw [hfe] at hms
    obtain ⟨htouch, _⟩ := castFrom_ahead hs h0 hfa hms
    obtain ⟨τ, t0, t1, hb⟩ := htouch c hc
    exact toTouch τ t0 t1 hb
  · rw [if_neg hin] at hms
    rcases hgrid with ⟨oc, hoc, hg⟩ | ⟨τ, lam', t0, hbox, hlam', hle⟩
    · rw [inCell_unique hs hoc] at hg
      exact absurd (inGrid_iff.2 hg) hin
    have hL0 : L ≠ 0 := by
      intro hz
      rw [hz, mul_zero, mul_zero] at hle
      have : (0 : K) < 1 / 10 ^ 10 := by positivity
      linarith
    have hLpos : 0 < L := lt_of_le_of_ne hL.1 (Ne.symm hL0)
    rw [if_neg hL0] at hms
    -- the fraction of `f` is unique
    have hll : lam' = lam := by
      have hpo : p ≠ o := fun h => hL0 ((isDist_zero hL).2 h)
      obtain ⟨a, ha⟩ : ∃ a, p a ≠ o a := by
        by_contra hall
        push Not at hall
        exact hpo (funext hall)
      have e1 : onSeg o p lam' a = onSeg o p lam a := by rw [← hlam', ← hlam]
      unfold onSeg at e1
      have e2 : lam' * (p a - o a) = lam * (p a - o a) := by linarith
      exact mul_right_cancel₀ (sub_ne_zero.2 ha) e2
    rw [hll] at hle
    cases hslab : slabs d s o (fun a => (p a - o a) / L) range with
    | none => rw [hslab] at hms; cases hms; cases hc
    | some tmin =>
      rw [hslab] at hms
      simp only at hms
      obtain ⟨m0, m1⟩ := slabs_le (d := d) (μ := τ * L) (mul_nonneg t0 hLpos.le) (by
        intro a
        have := hbox a
        unfold onSeg at this
        have e : o a + τ * L * ((p a - o a) / L) = o a + τ * (p a - o a) := by field_simp
        rw [e]
        exact this) hslab
      rw [hfe] at hms
      set σ : K := (tmin + tenth10) / L with hσ
      have hσ0 : 0 ≤ σ := div_nonneg (by unfold tenth10; positivity) hLpos.le
      have hσl : σ ≤ lam := by
        rw [hσ, div_le_iff₀ hLpos]
        unfold tenth10
        linarith
      have hstart : ∀ a, o a + (p a - o a) / L * (tmin + tenth10) = o a + σ * (p a - o a) := by
        intro a
        rw [hσ]
        field_simp
      obtain ⟨htouch, _⟩ := castFrom_ahead (T := lam - σ) hs (by linarith) (by
        intro a
        show f a = o a + (p a - o a) / L * (tmin + tenth10) + _
        rw [hstart a, hfa a]
        ring) hms
      obtain ⟨τ', u0, u1, hb⟩ := htouch c hc
      refine toTouch (σ + τ') (by linarith) (by linarith) ?_
      intro a
      have := hb a
      simp only at this
      rw [hstart a] at this
      have e : o a + σ * (p a - o a) + τ' * (p a - o a) = o a + (σ + τ') * (p a - o a) := by ring
      rw [e] at this
      exact this

/-! ### C48 -/

theorem slabAxis_some {o dir size L : K} (h : 0 ≤ o + L * dir ∧ o + L * dir ≤ size)
    (hflat : (0 ≤ o ∧ o < size) ∨ tenth10 ≤ |dir|) {st : K × WithTop K} (h1 : st.1 ≤ L) (h2 : (L : WithTop K) ≤ st.2) :
    ∃ st', slabAxis o dir size st = some st' ∧ st'.1 ≤ L ∧ (L : WithTop K) ≤ st'.2 := by
  have hL : ∀ st', slabAxis o dir size st = some st' → st'.1 ≤ L := fun st' h' => (slabAxis_le h h1 h').1
  by_cases hf : |dir| < tenth10
  · rcases hflat with hs | hs
    · exact ⟨st, by unfold slabAxis; rw [if_pos hf, if_pos hs], h1, h2⟩
    · exact absurd hs (not_le.2 hf)
  · have hne : dir ≠ 0 := by
      rintro rfl
      apply hf
      rw [abs_zero]
      unfold tenth10
      positivity
    have ht1 : (if (0 - o) * (1 / dir) ≤ (size - o) * (1 / dir) then (0 - o) * (1 / dir) else (size - o) * (1 / dir)) ≤ L := by
      rcases lt_or_gt_of_ne hne with hneg | hpos
      · have : (size - o) * (1 / dir) ≤ L := by
          rw [mul_one_div, div_le_iff_of_neg hneg]; linarith
        split_ifs with h'
        · exact h'.trans this
        · exact this
      · have : (0 - o) * (1 / dir) ≤ L := by
          rw [mul_one_div, div_le_iff₀ hpos]; linarith
        split_ifs with h'
        · exact this
        · exact (not_le.1 h').le.trans this
    unfold slabAxis
    rw [if_neg hf]
    simp only
    generalize (if (0 - o) * (1 / dir) ≤ (size - o) * (1 / dir) then (0 - o) * (1 / dir) else (size - o) * (1 / dir)) = t1 at ht1 ⊢
    generalize (if (0 - o) * (1 / dir) ≤ (size - o) * (1 / dir) then (size - o) * (1 / dir) else (0 - o) * (1 / dir)) = t2
    have hmin : (if t1 > st.1 then t1 else st.1) ≤ L := by split_ifs <;> assumption
    have hmax : (L : WithTop K) ≤ (if (t2 : WithTop K) > st.2 then (t2 : WithTop K) else st.2) := by
      split_ifs with h'
      · exact h2.trans (le_of_lt h')
      · exact h2
    generalize (if (t2 : WithTop K) > st.2 then (t2 : WithTop K) else st.2) = tm at hmax ⊢
    generalize (if t1 > st.1 then t1 else st.1) = tn at hmin ⊢
    have : ¬ ((tn : WithTop K) > tm) := not_lt.2 ((WithTop.coe_le_coe.2 hmin).trans hmax)
    rw [if_neg this]
    exact ⟨_, rfl, hmin, hmax⟩

/-- C48, partial.  A measured point in the grid and within range gets exactly one filled mark, on its cell, and the
cell gets no free mark from the same ray.
Missing: rays from outside the grid that are flatter than 1e-10 along an axis along which the sensor is outside
(`C48_flat_ray_lost`), and a point equal to a sensor origin. -/
theorem C48_hit_is_recorded_partial (d : Dims) {s : K} (hs : 0 < s) {o p : Vec K} {L : K} (hL : IsDist o p L)
    {range : WithTop K} (hr : (L : WithTop K) ≤ range) (hne : p ≠ o) {pc : IVec} (hp : InCell s pc p)
    (hin : CellInGrid (axisCells d) pc)
    (hflat : ∀ a, (0 ≤ o a ∧ o a < axisCells d a * s) ∨ 1 / 10 ^ 10 * L ≤ |p a - o a|) :
    ∃ ms, raycast d s o p L range = some ms ∧ Mark.filled pc ∈ ms ∧ Mark.free pc ∉ ms ∧
      ms.countP (fun m => m = Mark.filled pc) = 1 := by
  have hpc := inCell_unique hs hp
  have hL0 : L ≠ 0 := fun h => hne ((isDist_zero hL).1 h)
  have hLpos : 0 < L := lt_of_le_of_ne hL.1 (Ne.symm hL0)
  have hcl : clipped L range = false := decide_eq_false (not_lt.2 hr)
  have hfp : finalPoint o p L range = p := by
    cases range with
    | top => rfl
    | coe r =>
      show (if r < L then _ else _) = p
      rw [if_neg (not_lt.2 (WithTop.coe_le_coe.1 hr))]
  have finish : ∀ q : Vec K, ∃ ms, castFrom d s q p (fun a => p a - o a) false = some ms ∧ Mark.filled pc ∈ ms ∧
      Mark.free pc ∉ ms ∧ ms.countP (fun m => m = Mark.filled pc) = 1 := by
    intro q
    obtain ⟨ms, h1, _, h3, _, _, h6⟩ := castFrom_total d s q p (fun a => p a - o a) false
    rw [← hpc] at h6
    have hmem := h6 rfl hin
    have hnd : ms.Nodup := List.Nodup.of_map _ h3
    refine ⟨ms, h1, hmem, ?_, ?_⟩
    · intro hfree
      have := List.inj_on_of_nodup_map h3 hmem hfree rfl
      cases this
    · have : ms.count (Mark.filled pc) = 1 := List.count_eq_one_of_mem hnd hmem
      rw [List.count] at this
      rw [← this]
      apply List.countP_congr
      intro m _
      simp
  unfold raycast
  simp only
  rw [hcl, hfp]
  by_cases hoin : inGrid d (cellOf s o) = true
  · rw [if_pos hoin, if_neg (by simp)]
    exact finish o
  · rw [if_neg hoin, if_neg hL0]
    have hbox : ∀ a, 0 ≤ o a + L * ((p a - o a) / L) ∧ o a + L * ((p a - o a) / L) ≤ axisCells d a * s := by
      intro a
      have e : o a + L * ((p a - o a) / L) = p a := by field_simp; ring
      rw [e]
      have h1 := hp a
      have h2 := hin a
      have h3 : (0 : K) ≤ pc a := by exact_mod_cast h2.1
      have h4 : ((pc a : K) + 1) ≤ (axisCells d a : K) := by exact_mod_cast h2.2
      have h5 := mul_nonneg h3 hs.le
      have h6 := mul_le_mul_of_nonneg_right h4 hs.le
      constructor <;> linarith
    have hfl : ∀ a, (0 ≤ o a ∧ o a < axisCells d a * s) ∨ tenth10 ≤ |(p a - o a) / L| := by
      intro a
      rcases hflat a with h | h
      · exact Or.inl h
      · right
        rw [abs_div, abs_of_pos hLpos, le_div_iff₀ hLpos]
        exact h
    obtain ⟨st0, a0, b0, c0⟩ := slabAxis_some (st := (0, range)) (hbox 0) (hfl 0) hL.1 hr
    obtain ⟨st1, a1, b1, c1⟩ := slabAxis_some (hbox 1) (hfl 1) b0 c0
    obtain ⟨st2, a2, b2, c2⟩ := slabAxis_some (hbox 2) (hfl 2) b1 c1
    have hsl : slabs d s o (fun a => (p a - o a) / L) range = some st2.1 := by
      unfold slabs
      have e0 : slabAxis (o 0) ((p 0 - o 0) / L) (d.nx * s) (0, range) = some st0 := a0
      have e1 : slabAxis (o 1) ((p 1 - o 1) / L) (d.ny * s) st0 = some st1 := a1
      have e2 : slabAxis (o 2) ((p 2 - o 2) / L) (d.nz * s) st1 = some st2 := a2
      simp only [e0, e1, e2, Option.bind_some, Option.map_some]
    rw [hsl]
    exact finish _

end

/-! ### Violations and concrete cases -/

/-- C36 fails for a point equal to the origin of a sensor outside the grid: the direction is 0/0 and NaN is converted
to an integer. -/
theorem C36_point_at_origin_is_undefined :
    raycast ⟨2, 2, 2⟩ (1 : ℚ) ![-1, 0, 0] ![-1, 0, 0] 0 ⊤ = none := by decide +kernel

/-- C37 is false in general: a sensor at x = -10 measures a point at x = -5, five units before the grid, and the first
cell of the grid is marked free although the ray never reached it. -/
theorem C37_marks_behind_the_point :
    IsDist ![-10, 1 / 2, 1 / 2] ![(-5 : ℚ), 1 / 2, 1 / 2] 5 ∧
    raycast ⟨4, 1, 1⟩ (1 : ℚ) ![-10, 1 / 2, 1 / 2] ![-5, 1 / 2, 1 / 2] 5 ⊤ = some [Mark.free ![0, 0, 0]] ∧
    ¬ Touches (1 : ℚ) ![-10, 1 / 2, 1 / 2] ![-5, 1 / 2, 1 / 2] ![0, 0, 0] := by
  refine ⟨by unfold IsDist; simp; norm_num, by decide +kernel, ?_⟩
  rintro ⟨τ, h0, h1, h⟩
  have := h 0
  simp [onSeg] at this
  linarith

/-- The same with the point in the clear and the range limit short of the grid: nothing within range is near it. -/
theorem C37_marks_beyond_the_range :
    raycast ⟨4, 1, 1⟩ (1 : ℚ) ![-10, 1 / 2, 1 / 2] ![2, 1 / 2, 1 / 2] 12 ((3 : ℚ) : WithTop ℚ) =
      some [Mark.free ![0, 0, 0]] ∧
    ¬ Touches (1 : ℚ) ![-10, 1 / 2, 1 / 2] ![-7, 1 / 2, 1 / 2] ![0, 0, 0] := by
  refine ⟨by decide +kernel, ?_⟩
  rintro ⟨τ, h0, h1, h⟩
  have := h 0
  simp [onSeg] at this
  linarith

/-- C48 is false for extremely flat rays: a point on the low face of the grid, seen from just outside that face,
leaves no mark. -/
theorem C48_flat_ray_lost :
    IsDist ![-(2 / 10 ^ 11), 1 / 2, 1 / 2] ![(0 : ℚ), 1 / 2 + (1 - 1 / 10 ^ 22), 1 / 2] (1 + 1 / 10 ^ 22) ∧
    InCell (1 : ℚ) ![0, 1, 0] ![(0 : ℚ), 1 / 2 + (1 - 1 / 10 ^ 22), 1 / 2] ∧
    raycast ⟨2, 2, 1⟩ (1 : ℚ) ![-(2 / 10 ^ 11), 1 / 2, 1 / 2] ![0, 1 / 2 + (1 - 1 / 10 ^ 22), 1 / 2] (1 + 1 / 10 ^ 22) ⊤ =
      some [] := by
  refine ⟨by unfold IsDist; simp; norm_num, ?_, by decide +kernel⟩
  unfold InCell
  rw [fin3_forall]
  simp
  norm_num

/-- Sensor in cell (0,0,0), point in cell (3,1,0): five cells crossed, last one filled. -/
example : raycast ⟨4, 4, 1⟩ (1 : ℚ) ![1 / 2, 1 / 4, 1 / 2] ![7 / 2, 17 / 4 - 11 / 4, 1 / 2] 4 ⊤ =
    some [Mark.filled ![3, 1, 0], Mark.free ![0, 0, 0], Mark.free ![1, 0, 0], Mark.free ![2, 0, 0], Mark.free ![2, 1, 0]] := by
  decide +kernel

/-- The hypotheses of C36, C38 and C37 (sensor inside) hold together for a 3-4-5 ray. -/
example : IsDist ![(1 / 2 : ℚ), 1 / 2, 1 / 2] ![7 / 2, 9 / 2, 1 / 2] 5 ∧
    InCell (1 : ℚ) ![0, 0, 0] ![1 / 2, 1 / 2, 1 / 2] ∧ CellInGrid (axisCells ⟨4, 5, 1⟩) ![0, 0, 0] ∧
    IsRangeEnd ![(1 / 2 : ℚ), 1 / 2, 1 / 2] ![7 / 2, 9 / 2, 1 / 2] 5 ((5 / 2 : ℚ) : WithTop ℚ) ![2, 5 / 2, 1 / 2] ∧
    Crosses (1 : ℚ) ![1 / 2, 1 / 2, 1 / 2] ![2, 5 / 2, 1 / 2] ![1, 1, 0] ∧
    raycast ⟨4, 5, 1⟩ (1 : ℚ) ![1 / 2, 1 / 2, 1 / 2] ![7 / 2, 9 / 2, 1 / 2] 5 ((5 / 2 : ℚ) : WithTop ℚ) =
      some [Mark.free ![2, 2, 0], Mark.free ![0, 0, 0], Mark.free ![0, 1, 0], Mark.free ![1, 1, 0], Mark.free ![1, 2, 0]] := by
  refine ⟨by unfold IsDist; simp; norm_num, ?_, ?_, ⟨1 / 2, by norm_num, by norm_num, ?_, ?_, ?_⟩, ⟨3 / 5, by norm_num, by norm_num, ?_⟩,
    by decide +kernel⟩
  · unfold InCell; rw [fin3_forall]; simp; norm_num
  · unfold CellInGrid; rw [fin3_forall]; simp [axisCells]
  · funext a; fin_cases a <;> simp [onSeg] <;> norm_num
  · intro h
    have := WithTop.coe_le_coe.1 h
    norm_num at this
  · intro _; norm_num
  · unfold InOpenCell onSeg; rw [fin3_forall]; simp; norm_num

/-- A sensor outside the grid whose segment goes well into it (second alternative of C37's hypothesis). -/
example : ∃ τ lam : ℚ, 0 ≤ τ ∧
    (∀ a, 0 ≤ onSeg ![(-2 : ℚ), 1 / 2, 1 / 2] ![3 / 2, 1 / 2, 1 / 2] τ a ∧
      onSeg ![(-2 : ℚ), 1 / 2, 1 / 2] ![3 / 2, 1 / 2, 1 / 2] τ a ≤ axisCells ⟨4, 1, 1⟩ a * (1 : ℚ)) ∧
    ![(3 / 2 : ℚ), 1 / 2, 1 / 2] = onSeg ![(-2 : ℚ), 1 / 2, 1 / 2] ![3 / 2, 1 / 2, 1 / 2] lam ∧
    τ * (7 / 2) + 1 / 10 ^ 10 ≤ lam * (7 / 2) ∧
    raycast ⟨4, 1, 1⟩ (1 : ℚ) ![-2, 1 / 2, 1 / 2] ![3 / 2, 1 / 2, 1 / 2] (7 / 2) ⊤ =
      some [Mark.filled ![1, 0, 0], Mark.free ![0, 0, 0]] := by
  refine ⟨4 / 7, 1, by norm_num, ?_, ?_, by norm_num, by decide +kernel⟩
  · rw [fin3_forall]; simp [onSeg, axisCells]; norm_num
  · funext a; fin_cases a <;> simp [onSeg]

end VGT
