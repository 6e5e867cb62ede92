import Verif.Props.Units

/-!
C63: pushing a point out of a flat wall; C53 on generated fields.
-/
set_option autoImplicit false

namespace VGT
open VGT.EDT VGT.Spec

/-- The cells below layer `m` of axis `a` are filled, the others free; there are some of both kinds. -/
structure Spec.IsWall (d : Dims) (a : Fin 3) (m : ℕ) (filled : Idx → Bool) : Prop where
  pos : 0 < m
  lt : m < ![d.nx, d.ny, d.nz] a
  cells : ∀ i, d.In i → (filled i = true ↔ ![i.1, i.2.1, i.2.2] a < m)

section
variable {filled : Idx → Bool} {g : SDFGrid ℝ} {a : Fin 3} {m : ℕ}

theorem wall_estimate (h : Generated filled false g) (hw : IsWall g.dims a m filled) {q p : Vec ℝ}
    (hfr : InFrame g.pose.R g.pose.t q p) (hbox : InGridBox (axisCells g.dims) g.s q) :
    g.estimate (point4 p) = some (some (q a - m * g.s)) := by
  obtain ⟨ro, gi, isFilled, oob, out, hok, hr, hc, hd, hs, hf, hrun, hout⟩ := h.run
  simp only [GridGenRuns, hok.uniform, not_true_eq_false, if_false, if_true] at hrun
  rw [hs, hd] at hrun
  rw [hd] at hf hout
  have hfits : Fits g.dims := hd ▸ hok.fits.of_enlarge
  refine C52_flat_wall_exact (d := g.dims) (g := g) (a := a) (m := m) hok.rq hr hc h.pos hfits hw.pos hw.lt ?_ hrun rfl hout h.pose
    hfr hbox
  intro i hi
  rw [hf i hi]
  congr 1
  rw [Bool.eq_iff_iff, decide_eq_true_eq]
  exact hw.cells i hi

theorem length3_nonneg (v : Vec ℝ) : 0 ≤ length3 v := Real.sqrt_nonneg _

/-- In a wall the coarse gradient points straight out of the wall, whatever the cell. -/
theorem wall_gradient (h : Generated filled false g) (hw : IsWall g.dims a m filled) {i : IVec} {w : Vec ℝ}
    (hc : g.coarse i true = some (some w)) : 1 ≤ length3 w ∧ normalized length3 w = fun b => g.pose.R b a := by
  obtain ⟨v, hrot, hi, hv⟩ := C60_formula h.pos hc
  have hs := h.pos
  have hwl : m < axisCells g.dims a := hw.lt
  -- the stored distance depends on the layer only
  have hdata : ∀ c, CellInGrid (axisCells g.dims) c → storedAt g.data c =
      if c a < m then -(((m : ℝ) - c a) * g.s) else ((c a : ℝ) - m + 1) * g.s := by
    intro c hcg
    have hin := cellIdx_in hcg
    have hco : cellCoord (cellIdx c) a = (c a).toNat := by
      unfold cellCoord cellIdx; fin_cases a <;> rfl
    have hiff := hw.cells _ hin
    change (_ ↔ cellCoord (cellIdx c) a < m) at hiff
    have h0 := (hcg a).1
    change g.data (cellIdx c) = _
    have hcast : (((c a).toNat : ℕ) : ℝ) = (c a : ℝ) := by
      exact_mod_cast congrArg (Int.cast : ℤ → ℝ) (Int.toNat_of_nonneg h0)
    by_cases hlt : c a < m
    · rw [if_pos hlt]
      rw [h.value_filled (p := cellWith (cellIdx c) a m) hin (hiff.2 (by omega)) (cellWith_in hin hwl)
        (by
          rw [Bool.eq_false_iff]
          intro hx
          have := (hw.cells _ (cellWith_in hin hwl)).1 hx
          change cellCoord (cellWith (cellIdx c) a m) a < m at this
          rw [cellWith_coord] at this
          omega)
        (by
          intro p' hp' fp'
          have hge : ¬ cellCoord p' a < m := by
            intro hx
            rw [(hw.cells p' hp').2 hx] at fp'
            cases fp'
          rw [cellWith_sq3]
          refine le_trans ?_ (sqd_le_sq3 _ p' a)
          unfold sqd
          exact Nat.pow_le_pow_left (by omega) 2)]
      rw [cellWith_sq3, sqrt_sqd, hco, hcast, abs_of_neg]
      · ring
      · have : (c a : ℝ) < m := by exact_mod_cast hlt
        linarith
    · rw [if_neg hlt]
      have hm0 := hw.pos
      rw [h.value (p := cellWith (cellIdx c) a (m - 1)) hin
        (by
          rw [Bool.eq_false_iff]
          intro hx
          have := hiff.1 hx
          omega)
        (cellWith_in hin (by omega))
        (by
          refine (hw.cells _ (cellWith_in hin (by omega))).2 ?_
          change cellCoord (cellWith (cellIdx c) a (m - 1)) a < m
          rw [cellWith_coord]; omega)
        (by
          intro p' hp' fp'
          have hlt' : cellCoord p' a < m := (hw.cells p' hp').1 fp'
          rw [cellWith_sq3]
          refine le_trans ?_ (sqd_le_sq3 _ p' a)
          unfold sqd
          exact Nat.pow_le_pow_left (by omega) 2)]
      have hm1' : ((m - 1 : ℕ) : ℝ) = (m : ℝ) - 1 := by rw [Nat.cast_sub hm0]; simp
      have hge : (m : ℝ) ≤ c a := by
        have := not_lt.1 hlt
        exact_mod_cast this
      rw [cellWith_sq3, sqrt_sqd, hco, hcast, hm1', abs_of_pos (by linarith)]
      ring
  have hva : 1 ≤ v a := by
    have hne : axisCells g.dims a ≠ 1 := by have := hw.pos; omega
    have hf := (hv a).2 hne
    have hB := before_in hi a
    have hA := after_in hi a
    have hia := hi a
    rw [hdata _ hA, hdata _ hB] at hf
    have ea : after (axisCells g.dims) i a a = min ((axisCells g.dims a : ℤ) - 1) (i a + 1) := by
      unfold after; rw [if_pos rfl]
    have eb : before i a a = max 0 (i a - 1) := by
      unfold before; rw [if_pos rfl]
    have hlt : before i a a < after (axisCells g.dims) i a a := by rw [ea, eb]; omega
    generalize after (axisCells g.dims) i a a = A at *
    generalize before i a a = B at *
    have hAB : (B : ℝ) < A := by exact_mod_cast hlt
    push_cast at hf
    have key : ((A : ℝ) - B) * g.s ≤ v a * (((A : ℝ) - B) * g.s) := by
      rw [hf]
      by_cases h1 : A < m
      · rw [if_pos h1, if_pos (by omega)]; apply le_of_eq; ring
      · rw [if_neg h1]
        by_cases h2 : B < m
        · rw [if_pos h2]
          nlinarith
        · rw [if_neg h2]; apply le_of_eq; ring
    have hpos : 0 < ((A : ℝ) - B) * g.s := mul_pos (by linarith) hs
    by_contra hn
    nlinarith
  have hvb : ∀ b, b ≠ a → v b = 0 := by
    intro b hb
    by_cases h1 : axisCells g.dims b = 1
    · exact (hv b).1 h1
    · have hf := (hv b).2 h1
      have e1 : after (axisCells g.dims) i b a = i a := by unfold after; rw [if_neg (Ne.symm hb)]
      have e2 : before i b a = i a := by unfold before; rw [if_neg (Ne.symm hb)]
      rw [hdata _ (after_in hi b), hdata _ (before_in hi b), e1, e2, sub_self] at hf
      have ea : after (axisCells g.dims) i b b = min ((axisCells g.dims b : ℤ) - 1) (i b + 1) := by
        unfold after; rw [if_pos rfl]
      have eb : before i b b = max 0 (i b - 1) := by
        unfold before; rw [if_pos rfl]
      have hib := hi b
      have hlt : before i b b < after (axisCells g.dims) i b b := by rw [ea, eb]; omega
      have hAB : (0 : ℝ) < ((after (axisCells g.dims) i b b - before i b b : ℤ) : ℝ) := by
        have : 0 < after (axisCells g.dims) i b b - before i b b := by omega
        exact_mod_cast this
      rcases mul_eq_zero.1 hf with h0 | h0
      · exact h0
      · have := mul_pos hAB hs; linarith
  have hlen : length3 w = v a := by
    rw [length3_rotated h.pose hrot]
    unfold length3
    have : v 0 ^ 2 + v 1 ^ 2 + v 2 ^ 2 = v a ^ 2 := by
      fin_cases a
      · rw [hvb 1 (by decide), hvb 2 (by decide)]; simp
      · rw [hvb 0 (by decide), hvb 2 (by decide)]; simp
      · rw [hvb 0 (by decide), hvb 1 (by decide)]; simp
    rw [this, Real.sqrt_sq (by linarith)]
  refine ⟨by rw [hlen]; exact hva, ?_⟩
  unfold normalized
  rw [hlen, if_pos (by linarith)]
  funext b
  rw [hrot b]
  have hne : v a ≠ 0 := by linarith
  fin_cases a
  · rw [hvb 1 (by decide), hvb 2 (by decide)]
    simp only [mul_zero, add_zero]
    exact mul_div_cancel_right₀ _ hne
  · rw [hvb 0 (by decide), hvb 2 (by decide)]
    simp only [mul_zero, add_zero, zero_add]
    exact mul_div_cancel_right₀ _ hne
  · rw [hvb 0 (by decide), hvb 1 (by decide)]
    simp only [mul_zero, zero_add]
    exact mul_div_cancel_right₀ _ hne

/-- A point moved by `δ` along axis `a`. -/
def Spec.movedAlong (q : Fin 3 → ℝ) (a : Fin 3) (δ : ℝ) : Fin 3 → ℝ := fun b => if b = a then q b + δ else q b

theorem moved_inFrame {R : Fin 3 → Fin 3 → ℝ} {t q p : Fin 3 → ℝ} (h : InFrame R t q p) (a : Fin 3) (δ : ℝ) :
    InFrame R t (movedAlong q a δ) (fun b => p b + R b a * δ) := by
  intro b
  dsimp only
  rw [h b]
  unfold movedAlong
  fin_cases a <;> simp <;> ring

theorem moved_inBox {n : Fin 3 → ℕ} {s : ℝ} {q : Fin 3 → ℝ} (h : InGridBox n s q) {a : Fin 3} {δ : ℝ} (hδ : 0 ≤ δ)
    (hroom : q a + δ < n a * s) : InGridBox n s (movedAlong q a δ) := by
  intro b
  unfold movedAlong
  by_cases hb : b = a
  · subst hb
    rw [if_pos rfl]
    exact ⟨by linarith [(h b).1], hroom⟩
  · rw [if_neg hb]; exact h b

theorem inFrame_unique {R : Fin 3 → Fin 3 → ℝ} {t x y p : Fin 3 → ℝ} (hR : Orthogonal R) (hx : InFrame R t x p)
    (hy : InFrame R t y p) : x = y := by
  have inv : ∀ x : Vec ℝ, InFrame R t x p → ∀ b, x b = R 0 b * (p 0 - t 0) + R 1 b * (p 1 - t 1) + R 2 b * (p 2 - t 2) := by
    intro x hx b
    rw [hx 0, hx 1, hx 2]
    have h0 := hR.1 b 0
    have h1 := hR.1 b 1
    have h2 := hR.1 b 2
    have : x b = (if b = 0 then 1 else 0) * x 0 + (if b = 1 then 1 else 0) * x 1 + (if b = 2 then 1 else 0) * x 2 := by
      fin_cases b <;> simp
    rw [this, ← h0, ← h1, ← h2]; ring
  funext b
  rw [inv x hx b, inv y hy b]

/-- One pass of the projection loop in front of a wall. -/
theorem wall_step (h : Generated filled false g) (hw : IsWall g.dims a m filled) (hs4 : g.s < 4) {q p : Vec ℝ}
    (hfr : InFrame g.pose.R g.pose.t q p) (hbox : InGridBox (axisCells g.dims) g.s q) {minDist margin maxStep dist : ℝ}
    (hle : dist ≤ minDist) (fuel : ℕ) :
    g.projectLoop length3 minDist margin maxStep (fuel + 1) (point4 p) dist =
      match g.estimate (point4 fun b => p b + g.pose.R b a * min maxStep (margin - dist)) with
      | some (some dist') => g.projectLoop length3 minDist margin maxStep fuel
          (point4 fun b => p b + g.pose.R b a * min maxStep (margin - dist)) dist'
      | _ => some .throws := by
  have hin : inGrid g.dims (g.indexOf (point4 p)) = true :=
    (indexOf_worldIn h.pos h.pose).2 ⟨q, hfr, hbox⟩
  obtain ⟨w, hwc⟩ := (C17_availability h.pos (g.indexOf (point4 p)) true).1 ⟨inGrid_axis.1 hin, Or.inl rfl⟩
  obtain ⟨h1, h2⟩ := wall_gradient h hw hwc
  rw [SDFGrid.projectLoop]
  rw [if_pos hle]
  unfold SDFGrid.coarseAt
  rw [if_pos hin, hwc]
  dsimp only
  rw [if_pos (by linarith), h2]
  have e : (⟨fun b => (point4 p).v b + (fun b => g.pose.R b a) b * min maxStep (margin - dist), (point4 p).w⟩ : Vec4 ℝ) =
      point4 fun b => p b + g.pose.R b a * min maxStep (margin - dist) := rfl
  rw [e]
  rcases g.estimate (point4 fun b => p b + g.pose.R b a * min maxStep (margin - dist)) with _ | _ | _ <;> rfl

theorem wall_loop (h : Generated filled false g) (hw : IsWall g.dims a m filled) (hs4 : g.s < 4) {minDist margin maxStep : ℝ}
    (hmargin : minDist < margin) (hstep : 0 < maxStep) (hroom : m * g.s + margin < axisCells g.dims a * g.s) (N : ℕ) :
    ∀ {q p : Vec ℝ}, InFrame g.pose.R g.pose.t q p → InGridBox (axisCells g.dims) g.s q → q a - m * g.s ≤ minDist →
      minDist < q a - m * g.s + N * maxStep → ∀ fuel, N ≤ fuel → ∃ δ, 0 < δ ∧
        g.projectLoop length3 minDist margin maxStep fuel (point4 p) (q a - m * g.s) =
          some (.pos (point4 fun b => p b + g.pose.R b a * δ)) ∧
        minDist < q a + δ - m * g.s ∧ q a + δ - m * g.s ≤ margin := by
  induction N with
  | zero =>
    intro q p _ _ hle hlt
    simp at hlt
    linarith
  | succ N ih =>
    intro q p hfr hbox hle hlt fuel hfuel
    obtain ⟨fuel, rfl⟩ : ∃ f, fuel = f + 1 := ⟨fuel - 1, by omega⟩
    obtain ⟨η, hη⟩ : ∃ η, η = min maxStep (margin - (q a - m * g.s)) := ⟨_, rfl⟩
    have hη0 : 0 < η := by rw [hη]; exact lt_min hstep (by linarith)
    have hη1 : η ≤ margin - (q a - m * g.s) := by rw [hη]; exact min_le_right _ _
    have hfr' := moved_inFrame hfr a η
    have hbox' := moved_inBox hbox (a := a) hη0.le (by linarith)
    have hqa : movedAlong q a η a = q a + η := by unfold movedAlong; rw [if_pos rfl]
    rw [wall_step h hw hs4 hfr hbox hle, ← hη, wall_estimate h hw hfr' hbox', hqa]
    dsimp only
    by_cases hdone : q a + η - m * g.s ≤ minDist
    · have hηs : η = maxStep := by
        rcases min_choice maxStep (margin - (q a - m * g.s)) with hc | hc
        · rw [hη, hc]
        · rw [hη, hc] at hdone; linarith
      have hnext : minDist < movedAlong q a η a - m * g.s + N * maxStep := by
        rw [hqa]
        push_cast at hlt
        linarith
      obtain ⟨δ, hδ, hres, hc1, hc2⟩ := ih hfr' hbox' (by rw [hqa]; exact hdone) hnext fuel (by omega)
      rw [hqa] at hres hc1 hc2
      refine ⟨η + δ, by linarith, ?_, by linarith, by linarith⟩
      rw [hres]
      congr 3
      funext b
      ring
    · refine ⟨η, hη0, ?_, not_le.1 hdone, by linarith⟩
      unfold SDFGrid.projectLoop
      rw [if_neg hdone]
      simp [projectedPosition, point4]

/-- C63. In front of (or inside) a flat wall, on a generated field with cells of an edge below 4, at any place and in any
direction: a point without the requested clearance is pushed straight out of the wall. The projection ends after at most `N`
passes, where `N` steps of full size are more than the clearance that is missing, and the point it returns has more than the
requested clearance, by at most a thousandth of a step. (There must be room for that between the wall and the end of the grid.) -/
theorem C63_wall_projection (h : Generated filled false g) (hw : IsWall g.dims a m filled) (hs4 : g.s < 4) {q p : Vec ℝ}
    (hfr : InFrame g.pose.R g.pose.t q p) (hbox : InGridBox (axisCells g.dims) g.s q) {minDist mult : ℝ} (hmult : 0 < mult)
    (hroom : m * g.s + (minDist + g.s * mult / 1000) < axisCells g.dims a * g.s) (hle : q a - m * g.s ≤ minDist)
    {N : ℕ} (hN : minDist - (q a - m * g.s) < N * (g.s * mult)) {fuel : ℕ} (hfuel : N ≤ fuel) :
    ∃ δ, 0 < δ ∧ g.project length3 fuel (point4 p) minDist mult = some (.pos (point4 fun b => p b + g.pose.R b a * δ)) ∧
      minDist < (q a - m * g.s) + δ ∧ (q a - m * g.s) + δ ≤ minDist + g.s * mult / 1000 := by
  have hs := h.pos
  have hsm : 0 < g.s * mult := mul_pos hs hmult
  have hin : inGrid g.dims (g.indexOf (point4 p)) = true := (indexOf_worldIn hs h.pose).2 ⟨q, hfr, hbox⟩
  obtain ⟨δ, hδ, hres, h1, h2⟩ := wall_loop h hw hs4 (minDist := minDist) (margin := minDist + g.s * mult * (1 / 1000))
    (maxStep := g.s * mult) (by linarith) hsm (by linarith) N hfr hbox hle (by linarith) fuel hfuel
  refine ⟨δ, hδ, ?_, by linarith, by linarith⟩
  unfold SDFGrid.project
  rw [if_pos hin, wall_estimate h hw hfr hbox]
  exact hres

/-- C63, negative part: if the requested clearance ends beyond the grid, the point is pushed off the grid and the call throws. -/
theorem C63_wall_throws (h : Generated filled false g) (hw : IsWall g.dims a m filled) (hs4 : g.s < 4) {q p : Vec ℝ}
    (hfr : InFrame g.pose.R g.pose.t q p) (hbox : InGridBox (axisCells g.dims) g.s q) {minDist mult : ℝ} (hmult : 0 < mult)
    (hroom : axisCells g.dims a * g.s ≤ m * g.s + minDist)
    {N : ℕ} (hN : minDist - (q a - m * g.s) < N * (g.s * mult)) {fuel : ℕ} (hfuel : N ≤ fuel) :
    g.project length3 fuel (point4 p) minDist mult = some .throws := by
  have hs := h.pos
  have hsm : 0 < g.s * mult := mul_pos hs hmult
  have hin : inGrid g.dims (g.indexOf (point4 p)) = true := (indexOf_worldIn hs h.pose).2 ⟨q, hfr, hbox⟩
  unfold SDFGrid.project
  rw [if_pos hin, wall_estimate h hw hfr hbox]
  dsimp only
  generalize hmar : minDist + g.s * mult * (1 / 1000) = margin
  have hmargin : minDist < margin := by rw [← hmar]; linarith
  clear hin hmar
  revert fuel
  revert q p
  induction N with
  | zero =>
    intro q p _ hbox hN
    have := (hbox a).2
    simp at hN
    linarith
  | succ N ih =>
    intro q p hfr hbox hN fuel hfuel
    obtain ⟨fuel, rfl⟩ : ∃ f, fuel = f + 1 := ⟨fuel - 1, by omega⟩
    have hle : q a - m * g.s ≤ minDist := by linarith [(hbox a).2]
    obtain ⟨η, hη⟩ : ∃ η, η = min (g.s * mult) (margin - (q a - m * g.s)) := ⟨_, rfl⟩
    have hη0 : 0 < η := by rw [hη]; exact lt_min hsm (by linarith)
    have hfr' := moved_inFrame hfr a η
    have hqa : movedAlong q a η a = q a + η := by unfold movedAlong; rw [if_pos rfl]
    rw [wall_step h hw hs4 hfr hbox hle, ← hη]
    by_cases hr : q a + η < axisCells g.dims a * g.s
    · have hbox' := moved_inBox hbox (a := a) hη0.le hr
      rw [wall_estimate h hw hfr' hbox']
      dsimp only
      have hηs : η = g.s * mult := by
        rcases min_choice (g.s * mult) (margin - (q a - m * g.s)) with hc | hc
        · rw [hη, hc]
        · rw [hη, hc] at hr; linarith
      apply ih hfr' hbox' _ (by omega)
      rw [hqa]
      push_cast at hN
      linarith
    · have hout : inGrid g.dims (g.indexOf (point4 fun b => p b + g.pose.R b a * η)) = false := by
        rw [Bool.eq_false_iff]
        intro hx
        obtain ⟨q', hq', hb'⟩ := (indexOf_worldIn hs h.pose).1 hx
        have : q' = movedAlong q a η := inFrame_unique h.pose hq' hfr'
        rw [this] at hb'
        have := (hb' a).2
        rw [hqa] at this
        exact hr this
      rw [estimate_out _ _ hout]

theorem wall_loop_exact (h : Generated filled false g) (hw : IsWall g.dims a m filled) (hs4 : g.s < 4) {minDist margin maxStep : ℝ}
    (hmargin : minDist < margin) (hstep : 0 < maxStep) (K : ℕ) :
    ∀ {q p : Vec ℝ}, InFrame g.pose.R g.pose.t q p → InGridBox (axisCells g.dims) g.s q →
      q a - m * g.s + K * maxStep ≤ minDist → minDist < q a - m * g.s + (K + 1) * maxStep → ∀ fuel, K + 1 ≤ fuel →
      (q a + min ((K + 1) * maxStep) (margin - (q a - m * g.s)) < axisCells g.dims a * g.s →
        g.projectLoop length3 minDist margin maxStep fuel (point4 p) (q a - m * g.s) =
          some (.pos (point4 fun b => p b + g.pose.R b a * min ((K + 1) * maxStep) (margin - (q a - m * g.s))))) ∧
      (axisCells g.dims a * g.s ≤ q a + min ((K + 1) * maxStep) (margin - (q a - m * g.s)) →
        g.projectLoop length3 minDist margin maxStep fuel (point4 p) (q a - m * g.s) = some .throws) := by
  have out : ∀ {q p : Vec ℝ} {η : ℝ}, InFrame g.pose.R g.pose.t q p → axisCells g.dims a * g.s ≤ q a + η →
      g.estimate (point4 fun b => p b + g.pose.R b a * η) = some none := by
    intro q p η hfr hr
    have hfr' := moved_inFrame hfr a η
    have hqa : movedAlong q a η a = q a + η := by unfold movedAlong; rw [if_pos rfl]
    refine estimate_out _ _ ?_
    rw [Bool.eq_false_iff]
    intro hx
    obtain ⟨q', hq', hb'⟩ := (indexOf_worldIn h.pos h.pose).1 hx
    have e : q' = movedAlong q a η := inFrame_unique h.pose hq' hfr'
    rw [e] at hb'
    have := (hb' a).2
    rw [hqa] at this
    exact absurd this (not_lt.2 hr)
  induction K with
  | zero =>
    intro q p hfr hbox hle hlt fuel hfuel
    obtain ⟨fuel, rfl⟩ : ∃ f, fuel = f + 1 := ⟨fuel - 1, by omega⟩
    simp only [Nat.cast_zero, zero_mul, add_zero, zero_add, one_mul] at hle hlt ⊢
    obtain ⟨η, hη⟩ : ∃ η, η = min maxStep (margin - (q a - m * g.s)) := ⟨_, rfl⟩
    have hη0 : 0 < η := by rw [hη]; exact lt_min hstep (by linarith)
    have hη1 : minDist < q a + η - m * g.s := by
      rw [hη]
      rcases min_choice maxStep (margin - (q a - m * g.s)) with hc | hc <;> rw [hc] <;> linarith
    have hqa : movedAlong q a η a = q a + η := by unfold movedAlong; rw [if_pos rfl]
    rw [wall_step h hw hs4 hfr hbox hle, ← hη]
    constructor
    · intro hr
      rw [wall_estimate h hw (moved_inFrame hfr a η) (moved_inBox hbox hη0.le hr), hqa]
      dsimp only
      unfold SDFGrid.projectLoop
      rw [if_neg (not_le.2 hη1)]
      simp [projectedPosition, point4]
    · intro hr
      rw [out hfr hr]
  | succ K ih =>
    intro q p hfr hbox hle hlt fuel hfuel
    obtain ⟨fuel, rfl⟩ : ∃ f, fuel = f + 1 := ⟨fuel - 1, by omega⟩
    push_cast at hle hlt ⊢
    have hK : 0 ≤ (K : ℝ) * maxStep := by positivity
    have hη : min maxStep (margin - (q a - m * g.s)) = maxStep := min_eq_left (by linarith)
    have hqa : movedAlong q a maxStep a = q a + maxStep := by unfold movedAlong; rw [if_pos rfl]
    have hmin : min (((K : ℝ) + 1 + 1) * maxStep) (margin - (q a - m * g.s)) =
        maxStep + min (((K : ℝ) + 1) * maxStep) (margin - (q a + maxStep - m * g.s)) := by
      rw [← min_add_add_left]
      congr 1 <;> ring
    have hge : maxStep ≤ min (((K : ℝ) + 1 + 1) * maxStep) (margin - (q a - m * g.s)) := le_min (by linarith) (by linarith)
    rw [wall_step h hw hs4 hfr hbox (by linarith), hη]
    by_cases hr : q a + maxStep < axisCells g.dims a * g.s
    · have hfr' := moved_inFrame hfr a maxStep
      have hbox' := moved_inBox hbox (a := a) hstep.le hr
      rw [wall_estimate h hw hfr' hbox']
      dsimp only
      obtain ⟨h1, h2⟩ := ih hfr' hbox' (by rw [hqa]; linarith) (by rw [hqa]; linarith) fuel (by omega)
      rw [hqa] at h1 h2 ⊢
      constructor
      · intro hroom
        rw [h1 (by rw [hmin] at hroom; linarith), hmin]
        congr 3
        funext b
        ring
      · intro hroom
        exact h2 (by rw [hmin] at hroom; linarith)
    · rw [out hfr (not_lt.1 hr)]
      refine ⟨fun hroom => absurd (lt_of_le_of_lt (by linarith) hroom) hr, fun _ => rfl⟩

/-- C63, exactly. `K + 1` is the number of full steps after which a point without the requested clearance has it. The result is
the point moved straight out of the wall by these steps, or up to a thousandth of a step beyond the request if that is less,
if that place is in the grid; otherwise the call throws. -/
theorem C63_wall_exact (h : Generated filled false g) (hw : IsWall g.dims a m filled) (hs4 : g.s < 4) {q p : Vec ℝ}
    (hfr : InFrame g.pose.R g.pose.t q p) (hbox : InGridBox (axisCells g.dims) g.s q) {minDist mult : ℝ} (hmult : 0 < mult)
    {K : ℕ} (hK : K * (g.s * mult) ≤ minDist - (q a - m * g.s)) (hK' : minDist - (q a - m * g.s) < (K + 1) * (g.s * mult))
    {fuel : ℕ} (hfuel : K + 1 ≤ fuel) {δ : ℝ}
    (hδ : δ = min ((K + 1) * (g.s * mult)) (minDist + g.s * mult / 1000 - (q a - m * g.s))) :
    (q a + δ < axisCells g.dims a * g.s →
      g.project length3 fuel (point4 p) minDist mult = some (.pos (point4 fun b => p b + g.pose.R b a * δ))) ∧
    (axisCells g.dims a * g.s ≤ q a + δ → g.project length3 fuel (point4 p) minDist mult = some .throws) := by
  have hs := h.pos
  have hsm : 0 < g.s * mult := mul_pos hs hmult
  have hin : inGrid g.dims (g.indexOf (point4 p)) = true := (indexOf_worldIn hs h.pose).2 ⟨q, hfr, hbox⟩
  have hm : minDist + g.s * mult * (1 / 1000) = minDist + g.s * mult / 1000 := by ring
  unfold SDFGrid.project
  rw [if_pos hin, wall_estimate h hw hfr hbox]
  dsimp only
  rw [hm, hδ]
  exact wall_loop_exact h hw hs4 (minDist := minDist) (margin := minDist + g.s * mult / 1000) (maxStep := g.s * mult)
    (by linarith) hsm K hfr hbox (by linarith) (by linarith) fuel hfuel

/-- C63: such a number of steps exists for every point without the requested clearance. -/
theorem C63_steps_exist {missing step : ℝ} (h0 : 0 ≤ missing) (hs : 0 < step) :
    ∃ K : ℕ, K * step ≤ missing ∧ missing < (K + 1) * step :=
  ⟨⌊missing / step⌋₊, (le_div_iff₀ hs).1 (Nat.floor_le (div_nonneg h0 hs.le)), (div_lt_iff₀ hs).1 (Nat.lt_floor_add_one _)⟩

/-! ### Corridors -/

/-- Two walls across the x axis, with `2 k` free layers between them and nothing behind them. -/
structure Spec.IsCorridor (d : Dims) (k : ℕ) (filled : Idx → Bool) : Prop where
  pos : 0 < k
  width : d.nx = 2 * k + 2
  cells : ∀ i, d.In i → (filled i = true ↔ i.1 = 0 ∨ i.1 = 2 * k + 1)

variable {k : ℕ}

theorem corridor_data (h : Generated filled false g) (hc : IsCorridor g.dims k filled) {i : Idx} (hi : g.dims.In i) :
    (1 ≤ i.1 → i.1 ≤ k → g.data i = i.1 * g.s) ∧
    (k + 1 ≤ i.1 → i.1 ≤ 2 * k → g.data i = (2 * k + 1 - i.1 : ℝ) * g.s) ∧
    (i.1 = 0 ∨ i.1 = 2 * k + 1 → g.data i = -g.s) := by
  have hw := hc.width
  have hk := hc.pos
  have hin : ∀ j, j < 2 * k + 2 → g.dims.In (cellWith i 0 j) := fun j hj => cellWith_in hi (by
    show j < g.dims.nx; omega)
  have co : cellCoord i 0 = i.1 := rfl
  have free : 1 ≤ i.1 → i.1 ≤ 2 * k → filled i = false := by
    intro h1 h2
    rw [Bool.eq_false_iff]
    intro hx
    have := (hc.cells i hi).1 hx
    omega
  have far : ∀ p' : Idx, sqd i.1 p'.1 ≤ sq3 i p' := fun p' => sqd_le_sq3 i p' 0
  refine ⟨fun h1 h2 => ?_, fun h1 h2 => ?_, fun h0 => ?_⟩
  · rw [h.value (p := cellWith i 0 0) hi (free h1 (by omega)) (hin 0 (by omega)) ((hc.cells _ (hin 0 (by omega))).2 (Or.inl rfl))
      (by
        intro p' hp' fp'
        rw [cellWith_sq3, co]
        refine le_trans ?_ (far p')
        unfold sqd
        exact Nat.pow_le_pow_left (by rcases (hc.cells p' hp').1 fp' with e | e <;> omega) 2)]
    rw [cellWith_sq3, sqrt_sqd, co]
    simp
  · rw [h.value (p := cellWith i 0 (2 * k + 1)) hi (free (by omega) h2) (hin _ (by omega))
      ((hc.cells _ (hin _ (by omega))).2 (Or.inr rfl))
      (by
        intro p' hp' fp'
        rw [cellWith_sq3, co]
        refine le_trans ?_ (far p')
        unfold sqd
        exact Nat.pow_le_pow_left (by rcases (hc.cells p' hp').1 fp' with e | e <;> omega) 2)]
    rw [cellWith_sq3, sqrt_sqd, co, abs_of_nonpos]
    · push_cast; ring
    · push_cast
      have : (i.1 : ℝ) ≤ 2 * k := by exact_mod_cast h2
      linarith
  · have hj : ∃ j, (1 ≤ j ∧ j ≤ 2 * k) ∧ sqd i.1 j = 1 := by
      rcases h0 with h0 | h0
      · exact ⟨1, ⟨by omega, by omega⟩, by rw [h0]; rfl⟩
      · refine ⟨2 * k, ⟨by omega, by omega⟩, ?_⟩
        rw [h0]
        unfold sqd
        have : ((2 * k + 1 : ℕ) : ℤ) - ((2 * k : ℕ) : ℤ) = 1 := by omega
        rw [this]; rfl
    obtain ⟨j, ⟨hj1, hj2⟩, hsq⟩ := hj
    rw [h.value_filled (p := cellWith i 0 j) hi ((hc.cells i hi).2 h0) (hin _ (by omega))
      (by
        rw [Bool.eq_false_iff]
        intro hx
        have := (hc.cells _ (hin j (by omega))).1 hx
        change j = 0 ∨ j = 2 * k + 1 at this
        omega)
      (by
        intro p' _ fp'
        rw [cellWith_sq3, co, hsq]
        apply sq3_pos
        rintro rfl
        rw [(hc.cells i hi).2 h0] at fp'
        cases fp')]
    rw [cellWith_sq3, co, hsq]
    simp

theorem along_x {R : Fin 3 → Fin 3 → ℝ} (hR : Orthogonal R) {v w : Vec ℝ} (h : IsRotated R v w) (h1 : v 1 = 0) (h2 : v 2 = 0) :
    length3 w = |v 0| ∧ (0 < v 0 → normalized length3 w = fun b => R b 0) ∧
    (v 0 < 0 → normalized length3 w = fun b => -R b 0) := by
  have hlen : length3 w = |v 0| := by
    rw [length3_rotated hR h]
    unfold length3
    rw [h1, h2]
    simp [Real.sqrt_sq_eq_abs]
  refine ⟨hlen, fun hp => ?_, fun hn => ?_⟩
  · unfold normalized
    rw [hlen, abs_of_pos hp, if_pos hp]
    funext b
    rw [h b, h1, h2]
    simp only [mul_zero, add_zero]
    exact mul_div_cancel_right₀ _ hp.ne'
  · unfold normalized
    rw [hlen, abs_of_neg hn, if_pos (by linarith)]
    funext b
    rw [h b, h1, h2]
    simp only [mul_zero, add_zero]
    rw [div_neg, mul_div_cancel_right₀ _ hn.ne]

theorem half_le {x s c : ℝ} (hs : 0 < s) (h : x * (2 * s) = c * s) (hc : 1 ≤ c) : 1 / 2 ≤ x := by
  have : (2 * x) * s = c * s := by linarith
  have := mul_right_cancel₀ hs.ne' this
  linarith

set_option maxHeartbeats 800000 in
/-- The gradients of the two middle layers point at each other. -/
theorem corridor_gradient (h : Generated filled false g) (hc : IsCorridor g.dims k filled) {i : IVec} {w : Vec ℝ}
    (hw : g.coarse i true = some (some w)) :
    (i 0 = k → 1 / 2 ≤ length3 w ∧ normalized length3 w = fun b => g.pose.R b 0) ∧
    (i 0 = k + 1 → 1 / 2 ≤ length3 w ∧ normalized length3 w = fun b => -g.pose.R b 0) := by
  obtain ⟨v, hrot, hi, hv⟩ := C60_formula h.pos hw
  have hs := h.pos
  have hk := hc.pos
  have hwd := hc.width
  have hn0 : axisCells g.dims 0 = 2 * k + 2 := hwd
  have hv0 := (hv 0).2 (by omega)
  have ea : after (axisCells g.dims) i 0 0 = min ((axisCells g.dims 0 : ℤ) - 1) (i 0 + 1) := by
    unfold after; rw [if_pos rfl]
  have eb : before i 0 0 = max 0 (i 0 - 1) := by
    unfold before; rw [if_pos rfl]
  have hB := cellIdx_in (before_in hi 0)
  have hA := cellIdx_in (after_in hi 0)
  have hvb : (i 0 = k ∨ i 0 = k + 1) → ∀ b, b ≠ 0 → v b = 0 := by
    intro hmid b hb
    by_cases h1 : axisCells g.dims b = 1
    · exact (hv b).1 h1
    · have hf := (hv b).2 h1
      have hA' := cellIdx_in (after_in hi b)
      have hB' := cellIdx_in (before_in hi b)
      have e1 : (cellIdx (after (axisCells g.dims) i b)).1 = (i 0).toNat := by
        show (after (axisCells g.dims) i b 0).toNat = _
        unfold after; rw [if_neg (Ne.symm hb)]
      have e2 : (cellIdx (before i b)).1 = (i 0).toNat := by
        show (before i b 0).toNat = _
        unfold before; rw [if_neg (Ne.symm hb)]
      have heq : g.data (cellIdx (after (axisCells g.dims) i b)) = g.data (cellIdx (before i b)) := by
        have dA := corridor_data h hc hA'
        have dB := corridor_data h hc hB'
        rw [e1] at dA
        rw [e2] at dB
        rcases hmid with hm | hm
        · have hx : (i 0).toNat = k := by omega
          rw [dA.1 (by omega) (by omega), dB.1 (by omega) (by omega)]
        · have hx : (i 0).toNat = k + 1 := by omega
          rw [dA.2.1 (by omega) (by omega), dB.2.1 (by omega) (by omega)]
      change v b * _ = g.data (cellIdx (after (axisCells g.dims) i b)) - g.data (cellIdx (before i b)) at hf
      rw [heq, sub_self] at hf
      have ea' : after (axisCells g.dims) i b b = min ((axisCells g.dims b : ℤ) - 1) (i b + 1) := by
        unfold after; rw [if_pos rfl]
      have eb' : before i b b = max 0 (i b - 1) := by
        unfold before; rw [if_pos rfl]
      have hib := hi b
      have hAB : (0 : ℝ) < ((after (axisCells g.dims) i b b - before i b b : ℤ) : ℝ) := by
        have : 0 < after (axisCells g.dims) i b b - before i b b := by rw [ea', eb']; omega
        exact_mod_cast this
      rcases mul_eq_zero.1 hf with h0 | h0
      · exact h0
      · have := mul_pos hAB hs; linarith
  change v 0 * _ = g.data (cellIdx (after (axisCells g.dims) i 0)) - g.data (cellIdx (before i 0)) at hv0
  have a1 : (cellIdx (after (axisCells g.dims) i 0)).1 = (after (axisCells g.dims) i 0 0).toNat := rfl
  have b1 : (cellIdx (before i 0)).1 = (before i 0 0).toNat := rfl
  rw [ea] at a1
  rw [eb] at b1
  have dA := corridor_data h hc hA
  have dB := corridor_data h hc hB
  rw [ea, eb] at hv0
  rw [a1] at dA
  rw [b1] at dB
  constructor
  · intro hm
    have xA : (min ((axisCells g.dims 0 : ℤ) - 1) (i 0 + 1)).toNat = k + 1 := by omega
    have xB : (max 0 (i 0 - 1)).toNat = k - 1 := by omega
    have xd : min ((axisCells g.dims 0 : ℤ) - 1) (i 0 + 1) - max 0 (i 0 - 1) = 2 := by omega
    rw [xA] at dA
    rw [xB] at dB
    rw [xd, dA.2.1 le_rfl (by omega)] at hv0
    have hge : 1 / 2 ≤ v 0 := by
      by_cases hk1 : k = 1
      · rw [dB.2.2 (Or.inl (by omega)), hk1] at hv0
        exact half_le hs (c := 2) (by push_cast at hv0; linarith) (by norm_num)
      · rw [dB.1 (by omega) (by omega), Nat.cast_sub hk] at hv0
        exact half_le hs (c := 1) (by push_cast at hv0; linarith) le_rfl
    obtain ⟨n1, n2, _⟩ := along_x h.pose hrot (hvb (Or.inl hm) 1 (by decide)) (hvb (Or.inl hm) 2 (by decide))
    rw [abs_of_pos (by linarith)] at n1
    exact ⟨n1 ▸ hge, n2 (by linarith)⟩
  · intro hm
    have xA : (min ((axisCells g.dims 0 : ℤ) - 1) (i 0 + 1)).toNat = k + 2 := by omega
    have xB : (max 0 (i 0 - 1)).toNat = k := by omega
    have xd : min ((axisCells g.dims 0 : ℤ) - 1) (i 0 + 1) - max 0 (i 0 - 1) = 2 := by omega
    rw [xA] at dA
    rw [xB] at dB
    rw [xd, dB.1 (by omega) le_rfl] at hv0
    have hge : v 0 ≤ -(1 / 2) := by
      have : 1 / 2 ≤ -v 0 := by
        by_cases hk1 : k = 1
        · rw [dA.2.2 (Or.inr (by omega)), hk1] at hv0
          exact half_le hs (c := 2) (by push_cast at hv0; linarith) (by norm_num)
        · rw [dA.2.1 (by omega) (by omega)] at hv0
          exact half_le hs (c := 1) (by push_cast at hv0; linarith) le_rfl
      linarith
    obtain ⟨n1, _, n3⟩ := along_x h.pose hrot (hvb (Or.inr hm) 1 (by decide)) (hvb (Or.inr hm) 2 (by decide))
    rw [abs_of_neg (by linarith)] at n1
    exact ⟨by rw [n1]; linarith, n3 (by linarith)⟩

theorem corridor_estimate (h : Generated filled false g) (hc : IsCorridor g.dims k filled) {q p : Vec ℝ}
    (hfr : InFrame g.pose.R g.pose.t q p) (hbox : InGridBox (axisCells g.dims) g.s q)
    (hmid : |q 0 - (k + 1) * g.s| < g.s / 2)
    (hyz : ∀ a, a ≠ 0 → axisCells g.dims a = 1 ∨ (g.s / 2 ≤ q a ∧ q a ≤ (axisCells g.dims a : ℝ) * g.s - g.s / 2)) :
    g.estimate (point4 p) = some (some ((k - 1 / 2) * g.s)) := by
  have hs := h.pos
  have hk := hc.pos
  have hn0 : axisCells g.dims 0 = 2 * k + 2 := hc.width
  rw [abs_lt] at hmid
  have hkr : (1 : ℝ) ≤ k := by exact_mod_cast hk
  obtain ⟨v, hv, h1, h2⟩ := C15_between_neighbours_partial hs h.pose hfr hbox (lo := (k - 1 / 2) * g.s) (hi := (k - 1 / 2) * g.s)
    (by
      intro a
      by_cases ha : a = 0
      · subst ha
        right
        rw [hn0]
        push_cast
        constructor <;> nlinarith [hmid.1, hmid.2]
      · exact hyz a ha)
    (by
      intro c hcg hnear
      have hx := hnear 0
      unfold cellCentre at hx
      rw [abs_le] at hx
      have hc0 : c 0 = k ∨ c 0 = k + 1 := by
        have l : ((k : ℤ) - 1 : ℝ) < c 0 := by
          by_contra hn
          have := mul_le_mul_of_nonneg_right (not_lt.1 hn) hs.le
          push_cast at this
          nlinarith [hmid.1, hmid.2, hx.1, hx.2]
        have u : (c 0 : ℝ) < (k : ℤ) + 2 := by
          by_contra hn
          have := mul_le_mul_of_nonneg_right (not_lt.1 hn) hs.le
          push_cast at this
          nlinarith [hmid.1, hmid.2, hx.1, hx.2]
        have l' : (k : ℤ) - 1 < c 0 := by exact_mod_cast l
        have u' : c 0 < (k : ℤ) + 2 := by exact_mod_cast u
        omega
      have hd := corridor_data h hc (cellIdx_in hcg)
      have e0 : (cellIdx c).1 = (c 0).toNat := rfl
      rw [e0] at hd
      have hval : g.data (cellIdx c) = k * g.s := by
        rcases hc0 with h0 | h0
        · rw [hd.1 (by omega) (by omega)]
          congr 1
          have : (c 0).toNat = k := by omega
          rw [this]
        · have : (c 0).toNat = k + 1 := by omega
          rw [hd.2.1 (by omega) (by omega), this]
          push_cast
          ring
      change (k - 1 / 2) * g.s ≤ boundaryDist g.s (g.data (cellIdx c)) ∧ boundaryDist g.s (g.data (cellIdx c)) ≤ (k - 1 / 2) * g.s
      rw [hval]
      unfold boundaryDist
      rw [if_pos (by positivity)]
      constructor <;> apply le_of_eq <;> ring)
  rw [hv, le_antisymm h2 h1]

/-- C53, negative part, on generated fields: in every corridor that is an even number of cells wide (of an edge below 2), at any
place and in any direction, asking for at least the clearance that the estimate reaches in the middle makes the loop step
back and forth across the middle for ever. -/
theorem C53_corridors_loop_forever (h : Generated filled false g) (hc : IsCorridor g.dims k filled) (hs2 : g.s < 2)
    {minDist mult : ℝ} (hm0 : 0 < mult) (hm1 : mult < 1) (hmin : (k - 1 / 2) * g.s ≤ minDist) {y z : ℝ}
    (hy : g.dims.ny = 1 ∧ y = g.s / 2 ∨ (g.s / 2 ≤ y ∧ y ≤ (g.dims.ny : ℝ) * g.s - g.s / 2))
    (hz : g.dims.nz = 1 ∧ z = g.s / 2 ∨ (g.s / 2 ≤ z ∧ z ≤ (g.dims.nz : ℝ) * g.s - g.s / 2)) :
    ∃ q p : Vec ℝ, q 1 = y ∧ q 2 = z ∧ InFrame g.pose.R g.pose.t q p ∧ InGridBox (axisCells g.dims) g.s q ∧
      ∀ fuel, g.project length3 fuel (point4 p) minDist mult = none := by
  have hs := h.pos
  have hk := hc.pos
  have hn0 : axisCells g.dims 0 = 2 * k + 2 := hc.width
  have hkr : (1 : ℝ) ≤ k := by exact_mod_cast hk
  have hsm : 0 < g.s * mult := mul_pos hs hm0
  have hsm1 : g.s * mult < g.s := by nlinarith
  obtain ⟨σ, hσ⟩ : ∃ σ, σ = min (g.s * mult) (minDist + g.s * mult * (1 / 1000) - (k - 1 / 2) * g.s) := ⟨_, rfl⟩
  have hσ0 : 0 < σ := by rw [hσ]; exact lt_min hsm (by linarith)
  have hσ1 : σ < g.s := by
    have : σ ≤ g.s * mult := by rw [hσ]; exact min_le_left _ _
    linarith
  have hybox : 0 ≤ y ∧ y < (g.dims.ny : ℝ) * g.s := by
    rcases hy with ⟨e, rfl⟩ | ⟨h1, h2⟩
    · rw [e]; push_cast; constructor <;> linarith
    · constructor <;> linarith
  have hzbox : 0 ≤ z ∧ z < (g.dims.nz : ℝ) * g.s := by
    rcases hz with ⟨e, rfl⟩ | ⟨h1, h2⟩
    · rw [e]; push_cast; constructor <;> linarith
    · constructor <;> linarith
  obtain ⟨Q, hQ⟩ : ∃ Q : ℝ → Vec ℝ, Q = fun x => ![x, y, z] := ⟨_, rfl⟩
  have q0 : ∀ x, Q x 0 = x := fun x => by rw [hQ]; rfl
  have q1 : ∀ x, Q x 1 = y := fun x => by rw [hQ]; rfl
  have q2 : ∀ x, Q x 2 = z := fun x => by rw [hQ]; rfl
  obtain ⟨P, hP⟩ : ∃ P : ℝ → Vec ℝ, P = fun x a => g.pose.R a 0 * x + g.pose.R a 1 * y + g.pose.R a 2 * z + g.pose.t a := ⟨_, rfl⟩
  have fr : ∀ x, InFrame g.pose.R g.pose.t (Q x) (P x) := by
    intro x a
    rw [hP, q0, q1, q2]
  have box : ∀ x, |x - (k + 1) * g.s| < g.s / 2 → InGridBox (axisCells g.dims) g.s (Q x) := by
    intro x hx a
    rw [abs_lt] at hx
    fin_cases a
    · show 0 ≤ Q x 0 ∧ Q x 0 < (axisCells g.dims 0 : ℝ) * g.s
      rw [q0, hn0]
      push_cast
      constructor <;> nlinarith [hx.1, hx.2]
    · show 0 ≤ Q x 1 ∧ Q x 1 < (g.dims.ny : ℝ) * g.s
      rw [q1]; exact hybox
    · show 0 ≤ Q x 2 ∧ Q x 2 < (g.dims.nz : ℝ) * g.s
      rw [q2]; exact hzbox
  have est : ∀ x, |x - (k + 1) * g.s| < g.s / 2 → g.estimate (point4 (P x)) = some (some ((k - 1 / 2) * g.s)) := by
    intro x hx
    refine corridor_estimate h hc (fr x) (box x hx) (by rw [q0]; exact hx) ?_
    intro a ha
    fin_cases a
    · exact absurd rfl ha
    · show g.dims.ny = 1 ∨ (g.s / 2 ≤ Q x 1 ∧ Q x 1 ≤ (g.dims.ny : ℝ) * g.s - g.s / 2)
      rw [q1]
      rcases hy with ⟨e, _⟩ | hy
      · exact Or.inl e
      · exact Or.inr hy
    · show g.dims.nz = 1 ∨ (g.s / 2 ≤ Q x 2 ∧ Q x 2 ≤ (g.dims.nz : ℝ) * g.s - g.s / 2)
      rw [q2]
      rcases hz with ⟨e, _⟩ | hz
      · exact Or.inl e
      · exact Or.inr hz
  have inn : ∀ x, |x - (k + 1) * g.s| < g.s / 2 → inGrid g.dims (g.indexOf (point4 (P x))) = true := fun x hx =>
    (indexOf_worldIn hs h.pose).2 ⟨Q x, fr x, box x hx⟩
  have idx : ∀ x, g.indexOf (point4 (P x)) 0 = ⌊x / g.s⌋ := by
    intro x
    unfold SDFGrid.indexOf cellOf
    rw [applyInv_frame h.pose (fr x), q0]
  have xl : |((k + 1) * g.s - σ / 2) - (k + 1) * g.s| < g.s / 2 := by rw [abs_lt]; constructor <;> linarith
  have xr : |((k + 1) * g.s + σ / 2) - (k + 1) * g.s| < g.s / 2 := by rw [abs_lt]; constructor <;> linarith
  have il : g.indexOf (point4 (P ((k + 1) * g.s - σ / 2))) 0 = k := by
    rw [idx, Int.floor_eq_iff, le_div_iff₀ hs, div_lt_iff₀ hs]
    push_cast
    constructor <;> linarith
  have ir : g.indexOf (point4 (P ((k + 1) * g.s + σ / 2))) 0 = k + 1 := by
    rw [idx, Int.floor_eq_iff, le_div_iff₀ hs, div_lt_iff₀ hs]
    push_cast
    constructor <;> linarith
  have step : ∀ x x' : ℝ, |x - (k + 1) * g.s| < g.s / 2 → |x' - (k + 1) * g.s| < g.s / 2 →
      (∀ w, g.coarse (g.indexOf (point4 (P x))) true = some (some w) → 1 / 2 ≤ length3 w ∧
        (fun b => P x b + normalized length3 w b * σ) = P x') → ∀ fuel,
      g.projectLoop length3 minDist (minDist + g.s * mult * (1 / 1000)) (g.s * mult) (fuel + 1) (point4 (P x)) ((k - 1 / 2) * g.s) =
        g.projectLoop length3 minDist (minDist + g.s * mult * (1 / 1000)) (g.s * mult) fuel (point4 (P x')) ((k - 1 / 2) * g.s) := by
    intro x x' hx hx' hgrad fuel
    obtain ⟨w, hwc⟩ := (C17_availability hs (g.indexOf (point4 (P x))) true).1 ⟨inGrid_axis.1 (inn x hx), Or.inl rfl⟩
    obtain ⟨g1, g2⟩ := hgrad w hwc
    rw [SDFGrid.projectLoop]
    rw [if_pos hmin]
    unfold SDFGrid.coarseAt
    rw [if_pos (inn x hx), hwc]
    dsimp only
    rw [if_pos (by linarith), ← hσ]
    have e : (⟨fun b => (point4 (P x)).v b + normalized length3 w b * σ, (point4 (P x)).w⟩ : Vec4 ℝ) = point4 (P x') := by
      rw [← g2]; rfl
    rw [e, est x' hx']
  have both : ∀ fuel,
      g.projectLoop length3 minDist (minDist + g.s * mult * (1 / 1000)) (g.s * mult) fuel
        (point4 (P ((k + 1) * g.s - σ / 2))) ((k - 1 / 2) * g.s) = none ∧
      g.projectLoop length3 minDist (minDist + g.s * mult * (1 / 1000)) (g.s * mult) fuel
        (point4 (P ((k + 1) * g.s + σ / 2))) ((k - 1 / 2) * g.s) = none := by
    intro fuel
    induction fuel with
    | zero =>
      constructor <;> (unfold SDFGrid.projectLoop; rw [if_pos hmin])
    | succ fuel ih =>
      constructor
      · rw [step _ ((k + 1) * g.s + σ / 2) xl xr ?_ fuel]
        · exact ih.2
        · intro w hw
          obtain ⟨g1, g2⟩ := (corridor_gradient h hc hw).1 il
          refine ⟨g1, ?_⟩
          rw [g2, hP]
          funext b
          ring
      · rw [step _ ((k + 1) * g.s - σ / 2) xr xl ?_ fuel]
        · exact ih.1
        · intro w hw
          obtain ⟨g1, g2⟩ := (corridor_gradient h hc hw).2 ir
          refine ⟨g1, ?_⟩
          rw [g2, hP]
          funext b
          ring
  refine ⟨Q ((k + 1) * g.s - σ / 2), P ((k + 1) * g.s - σ / 2), q1 _, q2 _, fr _, box _ xl, fun fuel => ?_⟩
  unfold SDFGrid.project
  rw [if_pos (inn _ xl), est _ xl]
  exact (both fuel).1

/-! ### C62 on generated fields -/

variable {border : Bool} {g' : SDFGrid ℝ}

/-- C62. Two fields generated from the same layout, with or without a virtual border, differ by the unit only: their distances
are in the proportion of their resolutions. -/
theorem C62_generated {u : ℝ} (h : Generated filled border g) (h' : Generated filled border g') (hd : g'.dims = g.dims)
    (hs : g'.s = u * g.s) {i : Idx} (hi : g.dims.In i) : g'.data i = u * g.data i := by
  obtain ⟨ro, gi, isFilled, oob, out, hok, hr, hc, hdi, hsi, hf, hrun, hout⟩ := h.run
  obtain ⟨ro', gi', isFilled', oob', out', hok', hr', hc', hdi', hsi', hf', hrun', hout'⟩ := h'.run
  obtain ⟨_, e, _, hx⟩ := gridRuns_eq hok hf hrun
  cases e
  obtain ⟨_, e, _, hx'⟩ := gridRuns_eq hok' hf' hrun'
  cases e
  have a := hx i (hdi ▸ hi)
  have a' := hx' i (by rw [hdi', hd]; exact hi)
  rw [hout i (hdi ▸ hi), hr, hc, hsi, hdi] at a
  rw [hout' i (by rw [hdi', hd]; exact hi), hr', hc', hsi', hdi', hd, hs] at a'
  cases hb : filled i with
  | true =>
    rw [if_pos hb] at a a'
    generalize sqDistZ _ _ = D at a a'
    cases D with
    | top =>
      change Rl.fin _ = Rl.neg .pinf at a
      cases a
    | coe n =>
      simp only [scaled, Rl.neg, id, Rl.fin.injEq] at a a'
      rw [a, a']; ring
  | false =>
    rw [if_neg (by rw [hb]; decide)] at a a'
    generalize sqDistZ _ _ = D at a a'
    cases D with
    | top =>
      change Rl.fin _ = Rl.pinf at a
      cases a
    | coe n =>
      simp only [scaled, id, Rl.fin.injEq] at a a'
      rw [a, a']; ring

end

/-! ### Concrete cases -/

/-- The pose of the witnesses, in a unit `u` times smaller. -/
noncomputable def exTurnedIn (u : ℝ) : Pose ℝ := ⟨exTurned.R, fun a => u * exTurned.t a⟩

theorem exLone_wall : IsWall ⟨4, 1, 1⟩ 0 1 exLone := by
  refine ⟨by decide, by decide, ?_⟩
  rintro ⟨x, y, z⟩ hi
  simp only [Dims.In] at hi
  simp only [exLone, decide_eq_true_eq, Prod.mk.injEq, Matrix.cons_val_zero]
  omega

/-- A row of four cells of which the first is filled, at any resolution and placed anywhere. -/
theorem exRow_exists {s : ℝ} (hs : 0 < s) {P : Pose ℝ} (hP : Orthogonal P.R) :
    ∃ g : SDFGrid ℝ, Generated exLone false g ∧ g.dims = ⟨4, 1, 1⟩ ∧ g.s = s ∧ g.pose = P :=
  C58_generated_exists (d := ⟨4, 1, 1⟩) (by constructor <;> decide) hs hP (filled := exLone) (i := (1, 0, 0)) (j := (0, 0, 0))
    (by decide) (by decide) (by decide) (by decide)

/-- A request less than a thousandth of a step below the end of the grid (C63): one point is pushed off the grid, another is
answered. -/
example : ∃ g : SDFGrid ℝ, Generated exLone false g ∧ ∃ p p' : Vec ℝ,
    g.project length3 4 (point4 p) (29995 / 10000) 1 = some .throws ∧
    g.project length3 4 (point4 p') (29995 / 10000) 1 = some (.pos (point4 fun b => p' b + g.pose.R b 0 * 3)) := by
  obtain ⟨g, hg, hd, hs, hP⟩ := exRow_exists one_pos exTurned_orthogonal
  have hw : IsWall g.dims 0 1 exLone := by rw [hd]; exact exLone_wall
  have fr : ∀ x : ℝ, InFrame g.pose.R g.pose.t ![x, 1 / 2, 1 / 2]
      (fun b => g.pose.R b 0 * x + g.pose.R b 1 * (1 / 2) + g.pose.R b 2 * (1 / 2) + g.pose.t b) := by
    intro x a
    simp
  have hb : ∀ x : ℝ, 0 ≤ x → x < 4 → InGridBox (axisCells g.dims) g.s ![x, 1 / 2, 1 / 2] := by
    intro x h0 h1
    rw [hd, hs]
    intro a
    fin_cases a <;> simp [axisCells] <;> (try constructor) <;> linarith
  have hend : (axisCells g.dims 0 : ℝ) * g.s = 4 := by rw [hd, hs]; simp [axisCells]
  refine ⟨g, hg, _, _, (C63_wall_exact hg hw (by rw [hs]; norm_num) (fr (3 / 4)) (hb _ (by norm_num) (by norm_num)) one_pos (K := 3)
      (by rw [hs]; simp; norm_num) (by rw [hs]; simp; norm_num) (fuel := 4) le_rfl (δ := 32505 / 10000) ?_).2 ?_,
    (C63_wall_exact hg hw (by rw [hs]; norm_num) (fr (9997 / 10000)) (hb _ (by norm_num) (by norm_num)) one_pos (K := 2)
      (by rw [hs]; simp; norm_num) (by rw [hs]; simp; norm_num) (fuel := 4) (by norm_num) (δ := 3) ?_).1 ?_⟩
  · rw [hs]
    simp
    rw [min_eq_right] <;> norm_num
  · rw [hend]
    simp
    norm_num
  · rw [hs]
    simp
    rw [min_eq_left] <;> norm_num
  · rw [hend]
    simp
    norm_num

/-- C62, negative part: the same layout in metres and in millimetres (cells of 1 m). A point 1/4 m inside the wall is pushed
out in metres; in millimetres the same question has no answer. -/
theorem C62_projection_depends_on_unit : ∃ (g g' : SDFGrid ℝ) (p p' : Vec ℝ), Generated exLone false g ∧
    Generated exLone false g' ∧ InUnit 1000 g g' ∧
    g.project length3 1 (point4 p) 0 1 = some (.pos (point4 p')) ∧
    g'.project length3 1 (point4 (inUnit 1000 p)) (1000 * 0) 1 = some .empty := by
  obtain ⟨g, hg, hd, hs, hP⟩ := exRow_exists one_pos exTurned_orthogonal
  obtain ⟨g', hg', hd', hs', hP'⟩ := exRow_exists (s := 1000) (P := exTurnedIn 1000) (by norm_num) exTurned_orthogonal
  have hu : InUnit 1000 g g' := by
    refine ⟨by rw [hd, hd'], by rw [hs, hs', mul_one], by rw [hP, hP']; rfl, by rw [hP, hP']; intro a; rfl, ?_⟩
    intro i hi
    exact C62_generated hg hg' (by rw [hd, hd']) (by rw [hs, hs', mul_one]) hi
  have hfr : InFrame g.pose.R g.pose.t ![3 / 4, 1 / 2, 1 / 2] ![9 / 2, 31 / 4, 1 / 2] := by
    rw [hP]; intro a; fin_cases a <;> simp [exTurned] <;> norm_num
  have hbox : InGridBox (axisCells g.dims) g.s ![3 / 4, 1 / 2, 1 / 2] := by
    rw [hd, hs]; intro a; fin_cases a <;> simp [axisCells] <;> norm_num
  have hw : IsWall g.dims 0 1 exLone := by rw [hd]; exact exLone_wall
  obtain ⟨δ, _, hres, _, _⟩ := C63_wall_projection hg hw (by rw [hs]; norm_num) hfr hbox (minDist := 0) (mult := 1) one_pos
    (by rw [hs, hd]; simp [axisCells]; norm_num) (by rw [hs]; norm_num) (N := 1) (by rw [hs]; norm_num) le_rfl
  have hest := wall_estimate hg hw hfr hbox
  have hest' := ((C62_estimate (by norm_num) hu ![9 / 2, 31 / 4, 1 / 2]).1 _).1 hest
  refine ⟨g, g', _, _, hg, hg', hu, hres, ?_⟩
  refine C62_large_numbers_never_project hg' (by rw [hs']; norm_num) hest' ?_ 1 0
  rw [hs]
  simp
  norm_num

/-- C62, negative part: the same for local extrema. With cells of edge 1 the last cell of the row leads off the grid, with cells
of edge 1000 it is its own extremum. -/
theorem C62_extrema_depend_on_unit : ∃ (g g' : SDFGrid ℝ) (m m' : ExtMap ℝ) (c : IVec), Generated exLone false g ∧
    Generated exLone false g' ∧ InUnit 1000 g g' ∧ g.extrema 4 = some m ∧ g'.extrema 4 = some m' ∧
    m c = some .off ∧ m' c = some (.at (cellCentre g'.s c)) := by
  obtain ⟨g, hg, hd, hs, hP⟩ := exRow_exists one_pos (P := ⟨![![1, 0, 0], ![0, 1, 0], ![0, 0, 1]], ![0, 0, 0]⟩)
    (by constructor <;> intro a b <;> fin_cases a <;> fin_cases b <;> simp)
  obtain ⟨g', hg', hd', hs', hP'⟩ := exRow_exists (s := 1000) (P := ⟨![![1, 0, 0], ![0, 1, 0], ![0, 0, 1]], ![0, 0, 0]⟩)
    (by norm_num) (by constructor <;> intro a b <;> fin_cases a <;> fin_cases b <;> simp)
  have hu : InUnit 1000 g g' := by
    refine ⟨by rw [hd, hd'], by rw [hs, hs', mul_one], by rw [hP, hP'], ?_, ?_⟩
    · rw [hP, hP']; intro a; fin_cases a <;> simp
    · intro i hi
      exact C62_generated hg hg' (by rw [hd, hd']) (by rw [hs, hs', mul_one]) hi
  have hw : IsWall g.dims 0 1 exLone := by rw [hd]; exact exLone_wall
  have hcell : CellInGrid (axisCells g.dims) ![3, 0, 0] := by
    rw [hd]; intro a; fin_cases a <;> simp [axisCells]
  obtain ⟨m', hm', hc'⟩ := C62_large_numbers_all_extrema hg' (by rw [hs']; norm_num) (fuel := 4) (by rw [hd']; decide)
  obtain ⟨flat, next, hfl, m, hm, hmc⟩ := C20_extrema_map_complete hg.pos (fuel := 4) (by rw [hd]; decide)
  refine ⟨g, g', m, m', ![3, 0, 0], hg, hg', hu, hm, hm', ?_, hc' _ (by rw [hd', ← hd]; exact hcell)⟩
  obtain ⟨v, hv, hf, hn⟩ := hfl _ hcell
  obtain ⟨hlen, hdir⟩ := wall_gradient hg hw hv
  have hv0 : v 0 = length3 v := by
    have := congrFun hdir 0
    unfold normalized at this
    rw [if_pos (by linarith), hP] at this
    simp at this
    rw [div_eq_one_iff_eq (by linarith)] at this
    exact this
  have hval : 0 < storedAt g.data ![3, 0, 0] := by
    have := (hg.sign (i := cellIdx ![3, 0, 0]) (cellIdx_in hcell)).1 (by decide)
    rw [hs] at this
    exact lt_of_lt_of_le one_pos this
  have hnext : ¬ CellInGrid (axisCells g.dims) (next ![3, 0, 0]) := by
    intro hin
    rw [if_neg (not_lt.2 hval.le)] at hn
    have h4 := (hn 0).1 (by rw [hs, hv0]; linarith)
    have := (hin 0).2
    rw [h4, hd] at this
    simp [axisCells] at this
  have hnf : ¬ flat ![3, 0, 0] := by
    rw [hf]
    intro hflat
    have := hflat 0
    rw [hv0, hs, abs_of_pos (by linarith)] at this
    linarith
  rcases hmc _ hcell with ⟨h1, _⟩ | ⟨e, _, hE⟩
  · exact h1
  · exfalso
    have stuck : ∀ b, StepTo (CellInGrid (axisCells g.dims)) flat next ![3, 0, 0] b → ∀ e,
        LeadsTo (CellInGrid (axisCells g.dims)) flat next b e → ¬ CellInGrid (axisCells g.dims) e := by
      rintro b ⟨_, _, rfl⟩ e he
      rcases Relation.ReflTransGen.cases_head he with rfl | ⟨b', hb', _⟩
      · exact hnext
      · exact absurd hb'.1 hnext
    rcases Relation.ReflTransGen.cases_head hE.1 with rfl | ⟨b, hb, hbe⟩
    · rcases hE.2.2 with hx | hx
      · exact hnf hx
      · obtain ⟨b, hb, hbe⟩ := Relation.TransGen.head'_iff.1 hx
        exact stuck b hb _ hbe hcell
    · exact stuck b hb e hbe hE.2.1

/-- Concrete case of the wall theorems: the same row, cells of edge 1/10; a point 1/40 inside the wall is to have a clearance of
1/10 (13 steps of a tenth of a cell are enough), or of 1 (throws). -/
example : ∃ (g : SDFGrid ℝ) (q p : Vec ℝ), Generated exLone false g ∧ IsWall g.dims 0 1 exLone ∧ g.s < 4 ∧
    InFrame g.pose.R g.pose.t q p ∧ InGridBox (axisCells g.dims) g.s q ∧ q 0 - (1 : ℕ) * g.s ≤ 1 / 10 ∧
    ((1 : ℕ) : ℝ) * g.s + (1 / 10 + g.s * (1 / 10) / 1000) < axisCells g.dims 0 * g.s ∧
    1 / 10 - (q 0 - (1 : ℕ) * g.s) < (13 : ℕ) * (g.s * (1 / 10)) ∧
    axisCells g.dims 0 * g.s ≤ ((1 : ℕ) : ℝ) * g.s + 1 := by
  obtain ⟨g, hg, hd, hs, hP⟩ := exRow_exists (s := 1 / 10) (by norm_num) exTurned_orthogonal
  refine ⟨g, ![3 / 40, 1 / 20, 1 / 20], ![5 - 1 / 20, 7 + 3 / 40, 1 / 20], hg, by rw [hd]; exact exLone_wall, by rw [hs]; norm_num, ?_, ?_, ?_, ?_,
    ?_, ?_⟩
  · rw [hP]; intro a; fin_cases a <;> simp [exTurned] <;> norm_num
  · rw [hd, hs]; intro a; fin_cases a <;> simp [axisCells] <;> norm_num
  · rw [hs]; simp; norm_num
  · rw [hs, hd]; simp [axisCells]; norm_num
  · rw [hs]; simp; norm_num
  · rw [hs, hd]; simp [axisCells]; norm_num

/-- A corridor two cells wide between two filled cells. -/
def exCorridor : Idx → Bool := fun i => decide (i.1 = 0 ∨ i.1 = 3)

/-- Concrete case of the corridor theorem: cells of edge 1/10, clearance 1/20, steps of a tenth of a cell. -/
example : ∃ (g : SDFGrid ℝ) (q p : Vec ℝ), Generated exCorridor false g ∧ IsCorridor g.dims 1 exCorridor ∧
    InFrame g.pose.R g.pose.t q p ∧ InGridBox (axisCells g.dims) g.s q ∧
    ∀ fuel, g.project length3 fuel (point4 p) (1 / 20) (1 / 10) = none := by
  obtain ⟨g, hg, hd, hs, hP⟩ := C58_generated_exists (d := ⟨4, 1, 1⟩) (by constructor <;> decide) (s := 1 / 10) (by norm_num)
    exTurned_orthogonal (filled := exCorridor) (i := (1, 0, 0)) (j := (0, 0, 0)) (by decide) (by decide) (by decide) (by decide)
  have hc : IsCorridor g.dims 1 exCorridor := by
    rw [hd]
    exact ⟨by decide, rfl, fun i _ => by simp [exCorridor]⟩
  obtain ⟨q, p, _, _, h3, h4, h5⟩ := C53_corridors_loop_forever hg hc (by rw [hs]; norm_num) (minDist := 1 / 20) (mult := 1 / 10)
    (by norm_num) (by norm_num) (by rw [hs]; norm_num) (y := 1 / 20) (z := 1 / 20)
    (Or.inl ⟨by rw [hd], by rw [hs]; norm_num⟩) (Or.inl ⟨by rw [hd], by rw [hs]; norm_num⟩)
  exact ⟨g, q, p, hg, hc, h3, h4, h5⟩

end VGT
