import Verif.Lemmas.Lipschitz
import Verif.Props.Clearance
import Verif.Props.Gradient

/-!
C59: how fast the interpolated distance of a generated field can change, and what that means for fine gradients.
-/
set_option autoImplicit false

namespace VGT
open VGT.EDT VGT.Spec

section
variable {filled : Idx → Bool} {border : Bool} {g : SDFGrid ℝ}

/-- C59. Between the outermost centres the estimate changes by at most the sum of the coordinate differences in grid frame. -/
theorem C59_lipschitz_axes (h : Generated filled border g) {q p q' p' : Vec ℝ} (hfr : InFrame g.pose.R g.pose.t q p)
    (hfr' : InFrame g.pose.R g.pose.t q' p') (hin : BetweenCentres (axisCells g.dims) g.s q)
    (hin' : BetweenCentres (axisCells g.dims) g.s q') {e e' : ℝ} (he : g.estimate (point4 p) = some (some e))
    (he' : g.estimate (point4 p') = some (some e')) :
    |e - e'| ≤ |q 0 - q' 0| + |q 1 - q' 1| + |q 2 - q' 2| := by
  obtain ⟨hfl, rfl⟩ := h.estimate_eq hfr he
  obtain ⟨hfl', rfl⟩ := h.estimate_eq hfr' he'
  obtain ⟨hx, hy, hz⟩ := h.cval_step
  have := interp3_lipschitz h.pos hfl hfl' zero_le_one (enlarges_inner h.pos hfl hin) (enlarges_inner h.pos hfl' hin') hx hy hz
  simpa using this

/-- C59. Between the outermost centres the estimate is Lipschitz with constant `√3` in world distance. -/
theorem C59_lipschitz (h : Generated filled border g) {q p q' p' : Vec ℝ} (hfr : InFrame g.pose.R g.pose.t q p)
    (hfr' : InFrame g.pose.R g.pose.t q' p') (hin : BetweenCentres (axisCells g.dims) g.s q)
    (hin' : BetweenCentres (axisCells g.dims) g.s q') {e e' : ℝ} (he : g.estimate (point4 p) = some (some e))
    (he' : g.estimate (point4 p') = some (some e')) : |e - e'| ≤ Real.sqrt 3 * dist3 p p' := by
  rw [dist3_frame h.pose hfr hfr']
  exact (C59_lipschitz_axes h hfr hfr' hin hin' he he').trans (sum_abs_le q q')

/-- C59. At any two locations of the grid, extrapolated or not, the constant is `4 √3`. -/
theorem C59_lipschitz_everywhere (h : Generated filled border g) {p p' : Vec ℝ} {e e' : ℝ}
    (he : g.estimate (point4 p) = some (some e)) (he' : g.estimate (point4 p') = some (some e')) :
    |e - e'| ≤ 4 * Real.sqrt 3 * dist3 p p' := by
  obtain ⟨q, hfr⟩ := exists_frame h.pose p
  obtain ⟨q', hfr'⟩ := exists_frame h.pose p'
  rw [dist3_frame h.pose hfr hfr']
  obtain ⟨hfl, rfl⟩ := h.estimate_eq hfr he
  obtain ⟨hfl', rfl⟩ := h.estimate_eq hfr' he'
  obtain ⟨hx, hy, hz⟩ := h.cval_step
  have := interp3_lipschitz h.pos hfl hfl' zero_le_two (enlarges_any h.pos hfl) (enlarges_any h.pos hfl') hx hy hz
  have h3 := sum_abs_le q q'
  refine this.trans ?_
  nlinarith

theorem dist3_moved (p : Vec ℝ) (a : Fin 3) (x y : ℝ) :
    dist3 (Function.update p a x) (Function.update p a y) = |x - y| := by
  unfold dist3
  rw [← Real.sqrt_sq_eq_abs]
  congr 1
  fin_cases a <;> simp [Function.update]

/-- C59. No component of a fine gradient of a generated field exceeds `4 √3`, whatever the window. -/
theorem C59_fine_gradient_bounded (h : Generated filled border g) {p v : Vec ℝ} {window : ℝ}
    (hv : g.fine p window = .value v) (a : Fin 3) : |v a| ≤ 4 * Real.sqrt 3 := by
  have hs := h.pos
  have hax : ∀ a x, g.fineAxis p |window| a = .value x → |x| ≤ 4 * Real.sqrt 3 := by
    intro a x hx
    obtain ⟨c, m, q, hc, hm, hq, he⟩ := fineAxis_cases g hs h.pose p |window| a
    rw [he] at hx
    have bound : ∀ {u w u' w' : ℝ}, g.estimate (point4 (Function.update p a u)) = some (some u') →
        g.estimate (point4 (Function.update p a w)) = some (some w') → fineDiv (u' - w') (u - w) = .value x →
        |x| ≤ 4 * Real.sqrt 3 := by
      intro u w u' w' hu hw hd
      unfold fineDiv at hd
      split_ifs at hd with h0
      cases hd
      have := C59_lipschitz_everywhere h hu hw
      rw [dist3_moved] at this
      rw [abs_div, div_le_iff₀ (abs_pos.2 h0)]
      exact this
    unfold SDFGrid.estimateMoved at hm hq
    rw [show p a + -|window| = p a - |window| by ring] at hm
    have hc' : g.estimate (point4 (Function.update p a (p a))) = some c := by rw [Function.update_eq_self]; exact hc
    cases c with
    | none => simp [axisFine] at hx
    | some c =>
      cases m with
      | none =>
        cases q with
        | none => simp [axisFine] at hx
        | some q => exact bound hq hc' hx
      | some m =>
        cases q with
        | none => exact bound hc' hm hx
        | some q => exact bound hq hm hx
  unfold SDFGrid.fine at hv
  split_ifs at hv
  cases h0 : g.fineAxis p |window| 0 <;> cases h1 : g.fineAxis p |window| 1 <;> cases h2 : g.fineAxis p |window| 2 <;>
    rw [h0, h1, h2] at hv <;> simp only [fine3, reduceCtorEq, Fine.value.injEq] at hv
  subst hv
  fin_cases a
  · exact hax 0 _ h0
  · exact hax 1 _ h1
  · exact hax 2 _ h2

end

/-- Two by two cells of which one is free. -/
def exNotch : Idx → Bool := fun i => decide (i ≠ (1, 1, 0))

/-- C59. The estimate is not Lipschitz with constant 1, as a distance would be: in a free cell between filled ones it falls by
`1/2 + √2/4` over half a cell diagonal. -/
theorem C59_not_one_lipschitz : ∃ g : SDFGrid ℝ, Generated exNotch false g ∧ ∃ (p p' : Vec ℝ) (e e' : ℝ),
    g.estimate (point4 p) = some (some e) ∧ g.estimate (point4 p') = some (some e') ∧
    e - e' = (1 / 2 + Real.sqrt 2 / 4) * g.s ∧ dist3 p p' = Real.sqrt 2 / 2 * g.s ∧ 6 / 5 * dist3 p p' < |e - e'| := by
  obtain ⟨g, hg, hd, hs, hP⟩ := C58_generated_exists (d := ⟨2, 2, 1⟩) (by constructor <;> decide) (s := 1) one_pos
    exTurned_orthogonal (filled := exNotch) (i := (1, 1, 0)) (j := (0, 0, 0)) (by decide) (by decide) (by decide) (by decide)
  have one : ∀ p', exNotch p' = false → p' = (1, 1, 0) := by
    intro p' hp'
    by_contra hne
    simp [exNotch, hne] at hp'
  have v11 : g.data (1, 1, 0) = 1 := by
    rw [hg.value (p := (0, 1, 0)) (by rw [hd]; decide) (by decide) (by rw [hd]; decide) (by decide), hs, mul_one]
    · norm_num [sq3, sqd]
    · intro p' _ hp'
      apply sq3_pos
      rintro rfl
      exact absurd hp' (by decide)
  have fval : ∀ {i : Idx} {m : ℕ}, Dims.In ⟨2, 2, 1⟩ i → exNotch i = true → sq3 i (1, 1, 0) = m →
      g.data i = -Real.sqrt m := by
    intro i m hi fi hm
    rw [hg.value_filled (p := (1, 1, 0)) (by rw [hd]; exact hi) fi (by rw [hd]; decide) (by decide), hs, mul_one, hm]
    intro p' _ hp'
    rw [one p' hp']
  have v01 : g.data (0, 1, 0) = -1 := by
    rw [fval (m := 1) (by decide) (by decide) (by decide)]; simp
  have v10 : g.data (1, 0, 0) = -1 := by
    rw [fval (m := 1) (by decide) (by decide) (by decide)]; simp
  have v00 : g.data (0, 0, 0) = -Real.sqrt 2 := by
    rw [fval (m := 2) (by decide) (by decide) (by decide)]; simp
  have h2 : (1.41 : ℝ) < Real.sqrt 2 := by
    rw [Real.lt_sqrt (by norm_num)]; norm_num
  have h2' : Real.sqrt 2 < (1.42 : ℝ) := by
    rw [Real.sqrt_lt (by norm_num) (by norm_num)]; norm_num
  have he := C15_centre_value (g := g) (c := ![1, 1, 0]) (p := ![7 / 2, 17 / 2, 1 / 2]) hg.pos hg.pose
    (by rw [hd]; intro a; fin_cases a <;> simp [axisCells])
    (by rw [hP, hs]; intro a; fin_cases a <;> simp [exTurned, cellCentre] <;> norm_num)
  rw [show ((![1, 1, 0] : IVec) 0).toNat = 1 from rfl, show ((![1, 1, 0] : IVec) 1).toNat = 1 from rfl,
    show ((![1, 1, 0] : IVec) 2).toNat = 0 from rfl, v11] at he
  have he' := estimate_in (g := g) (q := ![1, 1, 1 / 2]) (p := ![4, 8, 1 / 2]) hg.pos hg.pose
    (by rw [hP]; intro a; fin_cases a <;> simp [exTurned] <;> norm_num)
    (by rw [hd, hs]; intro a; fin_cases a <;> simp [axisCells] <;> norm_num)
  have c11 : g.cval 1 1 0 = 1 / 2 := by
    show boundaryDist g.s (g.data (1, 1, 0)) = _
    unfold boundaryDist; rw [v11, hs, if_pos (by norm_num)]; norm_num
  have c01 : g.cval 0 1 0 = -(1 / 2) := by
    show boundaryDist g.s (g.data (0, 1, 0)) = _
    unfold boundaryDist; rw [v01, hs, if_neg (by norm_num)]; norm_num
  have c10 : g.cval 1 0 0 = -(1 / 2) := by
    show boundaryDist g.s (g.data (1, 0, 0)) = _
    unfold boundaryDist; rw [v10, hs, if_neg (by norm_num)]; norm_num
  have c00 : g.cval 0 0 0 = -Real.sqrt 2 + 1 / 2 := by
    show boundaryDist g.s (g.data (0, 0, 0)) = _
    unfold boundaryDist; rw [v00, hs, if_neg (by linarith)]
  have f1 : ⌊(1 : ℝ) / 1⌋ = 1 := by norm_num
  have f2 : ⌊(1 / 2 : ℝ) / 1⌋ = 0 := by
    rw [Int.floor_eq_iff]; norm_num
  have a1 : axisIndices (K := ℝ) 1 2 (1 - (1 + 1 / 2) * 1) = (0, 1) := by
    unfold axisIndices; rw [if_neg (by norm_num)]; simp
  have a2 : axisIndices (K := ℝ) 0 1 (1 / 2 - (0 + 1 / 2) * 1) = (0, 0) := by
    unfold axisIndices; rw [if_pos (by norm_num)]; simp
  have hval : (interp1 g.s ((![1, 1, 1 / 2] : Vec ℝ) 2) g.dims.nz fun z => interp1 g.s ((![1, 1, 1 / 2] : Vec ℝ) 1) g.dims.ny
      fun y => interp1 g.s ((![1, 1, 1 / 2] : Vec ℝ) 0) g.dims.nx fun x => g.cval x y z) = -Real.sqrt 2 / 4 := by
    rw [hs, hd]
    show (interp1 1 (1 / 2) 1 fun z => interp1 1 1 2 fun y => interp1 1 1 2 fun x => g.cval x y z) = _
    unfold interp1
    rw [f1, f2]
    simp only [Int.cast_one, Int.cast_zero, Nat.cast_one, Nat.cast_ofNat, a1, a2, c11, c01, c10, c00]
    ring
  rw [hval] at he'
  have hdist : dist3 ![7 / 2, 17 / 2, 1 / 2] ![4, 8, 1 / 2] = Real.sqrt 2 / 2 * g.s := by
    rw [hs, mul_one]
    unfold dist3
    rw [show Real.sqrt 2 / 2 = Real.sqrt (1 / 2) by
      rw [eq_comm, Real.sqrt_eq_iff_mul_self_eq (by norm_num) (by positivity)]
      rw [div_mul_div_comm, Real.mul_self_sqrt (by norm_num)]; norm_num]
    congr 1
    simp
    norm_num
  have hdiff : boundaryDist g.s 1 - -Real.sqrt 2 / 4 = (1 / 2 + Real.sqrt 2 / 4) * g.s := by
    unfold boundaryDist; rw [hs, if_pos (by norm_num)]; ring
  refine ⟨g, hg, ![7 / 2, 17 / 2, 1 / 2], ![4, 8, 1 / 2], _, _, he, he', hdiff, hdist, ?_⟩
  rw [hdist, hdiff, hs, abs_of_pos (by linarith)]
  linarith

/-- Concrete case of the Lipschitz theorems and of the gradient bound: around the same notch, two locations between the cell
centres, and a fine gradient with window 1/4. -/
example : ∃ g : SDFGrid ℝ, Generated exNotch false g ∧
    InFrame g.pose.R g.pose.t ![1, 1, 1 / 2] ![4, 8, 1 / 2] ∧ InFrame g.pose.R g.pose.t ![3 / 2, 3 / 2, 1 / 2] ![7 / 2, 17 / 2, 1 / 2] ∧
    BetweenCentres (axisCells g.dims) g.s ![1, 1, 1 / 2] ∧ BetweenCentres (axisCells g.dims) g.s ![3 / 2, 3 / 2, 1 / 2] ∧
    (∃ e, g.estimate (point4 ![4, 8, 1 / 2]) = some (some e)) ∧
    (∃ e, g.estimate (point4 ![7 / 2, 17 / 2, 1 / 2]) = some (some e)) ∧
    ∃ v, g.fine ![4, 8, 1 / 2] (1 / 4) = .value v := by
  obtain ⟨g, hg, hd, hs, hP⟩ := C58_generated_exists (d := ⟨2, 2, 1⟩) (by constructor <;> decide) (s := 1) one_pos
    exTurned_orthogonal (filled := exNotch) (i := (1, 1, 0)) (j := (0, 0, 0)) (by decide) (by decide) (by decide) (by decide)
  have fr : ∀ x y z : ℝ, InFrame g.pose.R g.pose.t ![x, y, z] ![5 - y, 7 + x, z] := by
    intro x y z
    rw [hP]; intro a; fin_cases a <;> simp [exTurned] <;> ring
  have box : ∀ x y z : ℝ, 0 ≤ x → x < 2 → 0 ≤ y → y < 2 → 0 ≤ z → z < 1 →
      InGridBox (axisCells g.dims) g.s ![x, y, z] := by
    intro x y z h1 h2 h3 h4 h5 h6
    rw [hd, hs]; intro a; fin_cases a
    · simpa [axisCells] using ⟨h1, h2⟩
    · simpa [axisCells] using ⟨h3, h4⟩
    · simpa [axisCells] using ⟨h5, h6⟩
  have est : ∀ x y z : ℝ, 0 ≤ x → x < 2 → 0 ≤ y → y < 2 → 0 ≤ z → z < 1 →
      ∃ e, g.estimate (point4 ![5 - y, 7 + x, z]) = some (some e) := fun x y z h1 h2 h3 h4 h5 h6 =>
    ⟨_, estimate_in hg.pos hg.pose (fr x y z) (box x y z h1 h2 h3 h4 h5 h6)⟩
  have f1 := fr 1 1 (1 / 2)
  have f2 := fr (3 / 2) (3 / 2) (1 / 2)
  have e1 := est 1 1 (1 / 2) (by norm_num) (by norm_num) (by norm_num) (by norm_num) (by norm_num) (by norm_num)
  have e2 := est (3 / 2) (3 / 2) (1 / 2) (by norm_num) (by norm_num) (by norm_num) (by norm_num) (by norm_num) (by norm_num)
  norm_num at f1 f2 e1 e2
  refine ⟨g, hg, by simpa using f1, by simpa using f2, ?_, ?_, by simpa using e1, by simpa using e2, ?_⟩
  · rw [hd, hs]; intro a; fin_cases a <;> simp [axisCells] <;> norm_num
  · rw [hd, hs]; intro a; fin_cases a <;> simp [axisCells] <;> norm_num
  · have hin : WorldIn (axisCells g.dims) g.s g.pose.R g.pose.t ![4, 8, 1 / 2] :=
      ⟨![1, 1, 1 / 2], by simpa using f1, box 1 1 (1 / 2) (by norm_num) (by norm_num) (by norm_num) (by norm_num) (by norm_num) (by norm_num)⟩
    unfold SDFGrid.fine
    rw [if_pos ((indexOf_worldIn hg.pos hg.pose).2 hin)]
    have ax : ∀ a, ∃ x, g.fineAxis ![4, 8, 1 / 2] |1 / 4| a = .value x := by
      intro a
      obtain ⟨c, m, q, hc, hm, hq, he⟩ := fineAxis_cases g hg.pos hg.pose ![4, 8, 1 / 2] |1 / 4| a
      rw [abs_of_pos (by norm_num : (0 : ℝ) < 1 / 4)] at *
      have c' := (estimate_isSome hg.pos hg.pose hc).2 hin
      have m' := (estimate_isSome hg.pos hg.pose hm).2 (by
        refine ⟨![1 - (if a = 1 then 1 / 4 else 0), 1 + (if a = 0 then 1 / 4 else 0), 1 / 2 - (if a = 2 then 1 / 4 else 0)], ?_, ?_⟩
        · have := fr (1 - (if a = 1 then 1 / 4 else 0)) (1 + (if a = 0 then 1 / 4 else 0)) (1 / 2 - (if a = 2 then 1 / 4 else 0))
          intro b
          rw [← this b]
          fin_cases a <;> fin_cases b <;> simp [Function.update] <;> norm_num
        · apply box <;> split_ifs <;> norm_num)
      have q' := (estimate_isSome hg.pos hg.pose hq).2 (by
        refine ⟨![1 + (if a = 1 then 1 / 4 else 0), 1 - (if a = 0 then 1 / 4 else 0), 1 / 2 + (if a = 2 then 1 / 4 else 0)], ?_, ?_⟩
        · have := fr (1 + (if a = 1 then 1 / 4 else 0)) (1 - (if a = 0 then 1 / 4 else 0)) (1 / 2 + (if a = 2 then 1 / 4 else 0))
          intro b
          rw [← this b]
          fin_cases a <;> fin_cases b <;> simp [Function.update] <;> norm_num
        · apply box <;> split_ifs <;> norm_num)
      obtain ⟨c, rfl⟩ := Option.isSome_iff_exists.1 c'
      obtain ⟨m, rfl⟩ := Option.isSome_iff_exists.1 m'
      obtain ⟨q, rfl⟩ := Option.isSome_iff_exists.1 q'
      rw [he]
      refine ⟨(q - m) / (1 / 2), ?_⟩
      simp only [axisFine, fineDiv]
      rw [if_neg (by linarith)]
      congr 2
      ring
    obtain ⟨x, hx⟩ := ax 0
    obtain ⟨y, hy⟩ := ax 1
    obtain ⟨z, hz⟩ := ax 2
    rw [hx, hy, hz]
    exact ⟨_, rfl⟩

end VGT
