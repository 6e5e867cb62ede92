import Verif.Lemmas.FairEstimate
import Verif.Model.FusedQuery
import Verif.Props.Machine

/-!
C86: distances of queries in any accurate arithmetic, for example with fused products and sums.
-/
set_option autoImplicit false

namespace VGT
open VGT.EDT VGT.Spec

section
variable {F : Type} {A : QueryArith F} {val kept : F → ℝ} {u η N : ℝ} {ro : Rounding} {filled : Idx → Bool} {border : Bool} {g : SDFGrid ℝ}
  {fg : FlSDF F}

/-- The answer of a query against the estimate of a field next to it whose values at the cell boundaries differ by little. -/
theorem fair_near {g₀ : SDFGrid ℝ} (hpose : Orthogonal g₀.pose.R) (hd : g₀.dims = g.dims) (hs0 : g₀.s = g.s)
    {ε : ℝ} (hε1 : ε ≤ 1 / 4)
    (hbd : ∀ i, g.dims.In i → |boundaryDist g.s (g.data i) - boundaryDist g.s (g₀.data i)| ≤ ε * (2 * N * g.s))
    (hb0 : ∀ i, g.dims.In i → |boundaryDist g.s (g₀.data i)| ≤ 2 * N * g.s)
    (h : FairQuery A val kept u η) (hr : FairRoom u η g.s N) (hf : FairField val kept u g fg) (hint : FormulaInterp A)
    (hN : ∀ a, (axisCells g.dims a : ℝ) ≤ N) {loc : Vec4 F} {e' : F} (he' : flEstimate A fg loc = .value e') :
    ∃ (q' p' : Fin 3 → ℝ) (e : ℝ), InGridBox (axisCells g.dims) g.s q' ∧ (∀ a, |q' a - val (fg.toGrid loc a)| ≤ 60 * (u * N) * g.s) ∧
      InFrame g₀.pose.R g₀.pose.t q' p' ∧ g₀.estimate (point4 p') = some (some e) ∧
      |kept e' - e| ≤ (174000 * (u * N) + 54 * ε) * (N * g.s) := by
  have hspos := hr.s0
  have hNs : g.s ≤ N * g.s := by nlinarith [hr.one_le]
  have hM : ∀ c, CellInGrid (axisCells g.dims) c → |boundaryDist g.s (stored g.data c)| ≤ 3 * (N * g.s) := by
    intro c hcell
    have hi := cellIdx_in hcell
    have h1 := hbd _ hi
    have h2 := hb0 _ hi
    have h3 := abs_add_le (boundaryDist g.s (g.data (cellIdx c)) - boundaryDist g.s (g₀.data (cellIdx c))) (boundaryDist g.s (g₀.data (cellIdx c)))
    rw [sub_add_cancel] at h3
    have h4 : ε * (2 * N * g.s) ≤ 1 / 4 * (2 * N * g.s) := mul_le_mul_of_nonneg_right hε1 (by linarith)
    have h5 : |boundaryDist g.s (g.data (cellIdx c))| ≤ 3 * (N * g.s) := by linarith
    exact h5
  obtain ⟨q', hbox, hq', hacc'⟩ := fair_estimate h hr hf hint hN (M := 3 * (N * g.s)) (by linarith) hM he'
  obtain ⟨p', hp'⟩ : ∃ p' : Fin 3 → ℝ, InFrame g₀.pose.R g₀.pose.t q' p' := ⟨fun a => _, fun a => rfl⟩
  refine ⟨q', p', interp3 g.s q' g.dims g₀.cval, hbox, hq', hp', ?_, ?_⟩
  · have := estimate_in (hs0 ▸ hspos) hpose hp' (by rw [hd, hs0]; exact hbox)
    rw [hs0, hd] at this
    exact this
  · have hi := interp3_near hspos hbox (v := g.cval) (w := g₀.cval) (τ := ε * (2 * N * g.s)) (by
      intro x y z hcell
      have := hbd _ (cellIdx_in hcell)
      rw [cval_boundaryDist, cval_boundaryDist, hs0]
      exact this)
    have ht := abs_sub_le (kept e') (interp3 g.s q' g.dims g.cval) (interp3 g.s q' g.dims g₀.cval)
    linarith

/-- The values at the cell boundaries of a field next to an exactly generated one. -/
theorem twin_boundary {g₀ : SDFGrid ℝ} (hg0 : Generated filled border g₀) (hd : g₀.dims = g.dims) (hs0 : g₀.s = g.s) (hspos : 0 < g.s)
    (h1N : 1 ≤ N) {ε : ℝ} (hε0 : 0 ≤ ε) (hε1 : ε ≤ 1 / 4)
    (hnear : ∀ i, g.dims.In i → |g.data i - g₀.data i| ≤ ε * |g₀.data i| ∧ |g₀.data i| ≤ 2 * N * g.s) :
    (∀ i, g.dims.In i → |boundaryDist g.s (g.data i) - boundaryDist g.s (g₀.data i)| ≤ ε * (2 * N * g.s)) ∧
    ∀ i, g.dims.In i → |boundaryDist g.s (g₀.data i)| ≤ 2 * N * g.s := by
  have hNs : g.s ≤ N * g.s := by nlinarith
  refine ⟨fun i hi => ?_, fun i hi => ?_⟩
  · obtain ⟨h1, h2⟩ := hnear i hi
    have hne : g₀.data i ≠ 0 := by
      have := hg0.sign (i := i) (by rw [hd]; exact hi)
      rw [hs0] at this
      cases hb : filled i
      · have := this.1 hb; intro h0; linarith
      · have := this.2 hb; intro h0; linarith
    exact (boundaryDist_near hne (by linarith) h1).trans (mul_le_mul_of_nonneg_left h2 hε0)
  · have h2 := abs_le.1 (hnear i hi).2
    have hsg := hg0.sign (i := i) (by rw [hd]; exact hi)
    rw [hs0] at hsg
    unfold boundaryDist
    cases hb : filled i
    · have h3 := hsg.1 hb
      rw [if_pos (by linarith), abs_le]
      constructor <;> linarith
    · have h3 := hsg.2 hb
      rw [if_neg (by linarith), abs_le]
      constructor <;> linarith

/-- The answer of a query against the estimate of the exactly generated field next to it. -/
theorem fair_machine (hg : GeneratedBy ro filled border g) (hrr : ro.rr = roundDouble) {k : ℕ} {emin : ℤ}
    (hc : ro.cast = rne k emin) {v : ℝ} (hv : (2 : ℝ) ^ (-(k : ℤ)) = v) (hv2 : v ≤ 2 ^ (-24 : ℤ)) (hemin : emin + k ≤ -100)
    (hs : (2 : ℝ) ^ (-100 : ℤ) ≤ g.s) (h : FairQuery A val kept u η) (hr : FairRoom u η g.s N) (hf : FairField val kept u g fg)
    (hint : FormulaInterp A) (hN : ∀ a, (axisCells g.dims a : ℝ) ≤ N) {loc : Vec4 F} {e' : F} (he' : flEstimate A fg loc = .value e') :
    ∃ (g₀ : SDFGrid ℝ) (q' p' : Fin 3 → ℝ) (e : ℝ), Generated filled border g₀ ∧ g₀.dims = g.dims ∧ g₀.s = g.s ∧
      g₀.pose = g.pose ∧ InGridBox (axisCells g.dims) g.s q' ∧ (∀ a, |q' a - val (fg.toGrid loc a)| ≤ 60 * (u * N) * g.s) ∧
      InFrame g₀.pose.R g₀.pose.t q' p' ∧ g₀.estimate (point4 p') = some (some e) ∧
      |kept e' - e| ≤ (174000 * (u * N) + 54 * (v + 2 ^ (-51 : ℤ))) * (N * g.s) := by
  obtain ⟨g₀, hg0, hd, hs0, hP, hnear⟩ := hg.exact_twin hrr hc hv hv2 hemin hs hN
  have hvpos : 0 < v := by rw [← hv]; positivity
  have hv4 : v + 2 ^ (-51 : ℤ) ≤ 1 / 4 := by norm_num at hv2 ⊢; linarith
  obtain ⟨hbd, hb0⟩ := twin_boundary hg0 hd hs0 hr.s0 hr.one_le (ε := v + 2 ^ (-51 : ℤ)) (by positivity) hv4 hnear
  obtain ⟨q', p', e, h1, h2, h3, h4, h5⟩ := fair_near hg0.pose hd hs0 hv4 hbd hb0 h hr hf hint hN he'
  exact ⟨g₀, q', p', e, hg0, hd, hs0, hP, h1, h2, h3, h4, h5⟩

/-- The share of rounding. -/
theorem fair_margin {s v c : ℝ} (hs : 0 ≤ s) (h1 : 1 ≤ N) (hu : 0 ≤ u) (hv : 54 * (v + 2 ^ (-51 : ℤ)) ≤ c) :
    (174000 * (u * N) + 54 * (v + 2 ^ (-51 : ℤ))) * (N * s) + 120 * (u * N) * s ≤ (N * c + 174120 * u * N ^ 2) * s := by
  have hNs : 0 ≤ N * s := mul_nonneg (by linarith) hs
  have h2 := mul_le_mul_of_nonneg_right hv hNs
  have h3 : u * (N * s) ≤ u * (N * (N * s)) := mul_le_mul_of_nonneg_left (by nlinarith) hu
  linarith

theorem fair_clear_ball (hg : GeneratedBy ro filled border g) (hrr : ro.rr = roundDouble) {k : ℕ} {emin : ℤ}
    (hc : ro.cast = rne k emin) {v : ℝ} (hv : (2 : ℝ) ^ (-(k : ℤ)) = v) (hv2 : v ≤ 2 ^ (-24 : ℤ)) (hemin : emin + k ≤ -100)
    {c : ℝ} (hvc : 54 * (v + 2 ^ (-51 : ℤ)) ≤ c)
    (hs : (2 : ℝ) ^ (-100 : ℤ) ≤ g.s) (h : FairQuery A val kept u η) (hr : FairRoom u η g.s N) (hf : FairField val kept u g fg)
    (hint : FormulaInterp A) (hN : ∀ a, (axisCells g.dims a : ℝ) ≤ N) {loc : Vec4 F} {e' : F} (he' : flEstimate A fg loc = .value e')
    {p p' : Fin 3 → ℝ} (hfr : InFrame g.pose.R g.pose.t (fun a => val (fg.toGrid loc a)) p)
    {o : Fin 3 → ℤ} (ho : CellInGrid (axisCells g.dims) o) {x y : Vec ℝ} (hxy : InFrame g.pose.R g.pose.t x y)
    (hx : InClosedCell g.s o x) {m : ℝ}
    (hm : m = Real.sqrt 3 + 3 ∨ (m = Real.sqrt 3 - 1 / 2 ∧ ∀ a, axisCells g.dims a = 1 ∨ (g.s / 2 + 60 * (u * N) * g.s ≤ val (fg.toGrid loc a) ∧
      val (fg.toGrid loc a) ≤ ((axisCells g.dims a : ℝ) - 1 / 2) * g.s - 60 * (u * N) * g.s))) :
    (filled (cellIdx o) = true → kept e' - (m + N * c + 174120 * u * N ^ 2) * g.s - dist3 p p' ≤ dist3 p' y) ∧
    (filled (cellIdx o) = false → -kept e' - (m + N * c + 174120 * u * N ^ 2) * g.s - dist3 p p' ≤ dist3 p' y) := by
  obtain ⟨g₀, q', p₀, e, hg0, hd, hs0, hP, hbox, hq', hp₀, he, hb⟩ := fair_machine hg hrr hc hv hv2 hemin hs h hr hf hint hN he'
  have hball : (filled (cellIdx o) = true → e - m * g.s ≤ dist3 p₀ y) ∧ (filled (cellIdx o) = false → -e - m * g.s ≤ dist3 p₀ y) := by
    rcases hm with rfl | ⟨rfl, hmid⟩
    · have hball := C58_clear_ball_everywhere hg0 hp₀ he (o := o) (x := x) (y := y) (by rw [hd]; exact ho) (by rw [hP]; exact hxy)
        (by rw [hs0]; exact hx)
      rwa [hs0] at hball
    · have hbc : BetweenCentres (axisCells g₀.dims) g₀.s q' := by
        rw [hd, hs0]
        intro a
        have hqa := abs_le.1 (hq' a)
        exact (hmid a).imp id fun hm => ⟨by linarith [hm.1], by linarith [hm.2]⟩
      have hball := C58_clear_ball hg0 hp₀ hbc he (o := o) (x := x) (y := y) (by rw [hd]; exact ho) (by rw [hP]; exact hxy)
        (by rw [hs0]; exact hx)
      rwa [hs0] at hball
  have h1 : dist3 p₀ p ≤ 2 * (60 * (u * N) * g.s) := by
    rw [dist3_frame hg0.pose hp₀ (by rw [hP]; exact hfr)]
    exact dist3_le_of_coords hq'
  have t1 := dist3_triangle p₀ p y
  have t2 := dist3_triangle p p' y
  have hb := abs_le.1 hb
  have hmar := fair_margin (v := v) (c := c) hr.s0.le hr.one_le hr.u0 hvc
  constructor <;> intro hfo
  · have := hball.1 hfo; linarith
  · have := hball.2 hfo; linarith

/-- C86, clear ball, `SignedDistanceField<float>`, for any arithmetic of queries that is right up to the relative error `u`: let `e'` be the answer at a
location `p'`, and `p` the place of its computed grid-frame coordinates.  No point of a filled cell is nearer to `p'` than `e'`, less
`√3 + 3 + N/2¹⁸ + 174120 u N²` cell edges, less `dist3 p p'`.  No point of a free cell is nearer than `-e'` less the same.  `N` bounds the cells along
an axis. -/
theorem C86_clear_ball_float (hg : GeneratedBy floatSDF filled border g) (hs : (2 : ℝ) ^ (-100 : ℤ) ≤ g.s)
    (h : FairQuery A val kept u η) (hr : FairRoom u η g.s N) (hf : FairField val kept u g fg) (hint : FormulaInterp A)
    (hN : ∀ a, (axisCells g.dims a : ℝ) ≤ N) {loc : Vec4 F} {e' : F} (he' : flEstimate A fg loc = .value e')
    {p p' : Fin 3 → ℝ} (hfr : InFrame g.pose.R g.pose.t (fun a => val (fg.toGrid loc a)) p)
    {o : Fin 3 → ℤ} (ho : CellInGrid (axisCells g.dims) o) {x y : Vec ℝ} (hxy : InFrame g.pose.R g.pose.t x y)
    (hx : InClosedCell g.s o x) :
    (filled (cellIdx o) = true → kept e' - (Real.sqrt 3 + 3 + N / 2 ^ 18 + 174120 * u * N ^ 2) * g.s - dist3 p p' ≤ dist3 p' y) ∧
    (filled (cellIdx o) = false → -kept e' - (Real.sqrt 3 + 3 + N / 2 ^ 18 + 174120 * u * N ^ 2) * g.s - dist3 p p' ≤ dist3 p' y) := by
  have := fair_clear_ball hg rfl (k := 24) (emin := -149) rfl rfl (by norm_num) (by norm_num) (c := 1 / 2 ^ 18) (by norm_num) hs h hr hf hint hN he' hfr
    (p' := p') ho hxy hx (.inl rfl)
  rwa [mul_one_div] at this

/-- C86. Away from the outer half of the outer cells the margin is `√3 - 1/2 + N/2¹⁸ + 174120 u N²` cell edges. -/
theorem C86_clear_ball_inside_float (hg : GeneratedBy floatSDF filled border g) (hs : (2 : ℝ) ^ (-100 : ℤ) ≤ g.s)
    (h : FairQuery A val kept u η) (hr : FairRoom u η g.s N) (hf : FairField val kept u g fg) (hint : FormulaInterp A)
    (hN : ∀ a, (axisCells g.dims a : ℝ) ≤ N) {loc : Vec4 F} {e' : F} (he' : flEstimate A fg loc = .value e')
    {p p' : Fin 3 → ℝ} (hfr : InFrame g.pose.R g.pose.t (fun a => val (fg.toGrid loc a)) p)
    (hmid : ∀ a, axisCells g.dims a = 1 ∨ (g.s / 2 + 60 * (u * N) * g.s ≤ val (fg.toGrid loc a) ∧
      val (fg.toGrid loc a) ≤ ((axisCells g.dims a : ℝ) - 1 / 2) * g.s - 60 * (u * N) * g.s))
    {o : Fin 3 → ℤ} (ho : CellInGrid (axisCells g.dims) o) {x y : Vec ℝ} (hxy : InFrame g.pose.R g.pose.t x y)
    (hx : InClosedCell g.s o x) :
    (filled (cellIdx o) = true → kept e' - (Real.sqrt 3 - 1 / 2 + N / 2 ^ 18 + 174120 * u * N ^ 2) * g.s - dist3 p p' ≤ dist3 p' y) ∧
    (filled (cellIdx o) = false → -kept e' - (Real.sqrt 3 - 1 / 2 + N / 2 ^ 18 + 174120 * u * N ^ 2) * g.s - dist3 p p' ≤ dist3 p' y) := by
  have := fair_clear_ball hg rfl (k := 24) (emin := -149) rfl rfl (by norm_num) (by norm_num) (c := 1 / 2 ^ 18) (by norm_num) hs h hr hf hint hN he' hfr
    (p' := p') ho hxy hx (.inr ⟨rfl, hmid⟩)
  rwa [mul_one_div] at this

/-- C86. `SignedDistanceField<double>`: `√3 + 3 + N/2⁴⁴ + 174120 u N²` cell edges. -/
theorem C86_clear_ball_double (hg : GeneratedBy doubleSDF filled border g) (hs : (2 : ℝ) ^ (-100 : ℤ) ≤ g.s)
    (h : FairQuery A val kept u η) (hr : FairRoom u η g.s N) (hf : FairField val kept u g fg) (hint : FormulaInterp A)
    (hN : ∀ a, (axisCells g.dims a : ℝ) ≤ N) {loc : Vec4 F} {e' : F} (he' : flEstimate A fg loc = .value e')
    {p p' : Fin 3 → ℝ} (hfr : InFrame g.pose.R g.pose.t (fun a => val (fg.toGrid loc a)) p)
    {o : Fin 3 → ℤ} (ho : CellInGrid (axisCells g.dims) o) {x y : Vec ℝ} (hxy : InFrame g.pose.R g.pose.t x y)
    (hx : InClosedCell g.s o x) :
    (filled (cellIdx o) = true → kept e' - (Real.sqrt 3 + 3 + N / 2 ^ 44 + 174120 * u * N ^ 2) * g.s - dist3 p p' ≤ dist3 p' y) ∧
    (filled (cellIdx o) = false → -kept e' - (Real.sqrt 3 + 3 + N / 2 ^ 44 + 174120 * u * N ^ 2) * g.s - dist3 p p' ≤ dist3 p' y) := by
  have := fair_clear_ball hg rfl (k := 53) (emin := -1074) rfl rfl (by norm_num) (by norm_num) (c := 1 / 2 ^ 44) (by norm_num) hs h hr hf hint hN he' hfr
    (p' := p') ho hxy hx (.inl rfl)
  rwa [mul_one_div] at this

/-- C86. Projection: a location in the grid returned by `ProjectOutOfCollisionToMinimumDistance` is farther from every filled cell than the requested
distance less the same margin. `p` is the place of the computed grid-frame coordinates of the returned location `p'`. -/
theorem C86_projection_clear_float (hg : GeneratedBy floatSDF filled border g) (hs : (2 : ℝ) ^ (-100 : ℤ) ≤ g.s)
    (h : FairQuery A val kept u η) (hr : FairRoom u η g.s N) (hf : FairField val kept u g fg) (hint : FormulaInterp A)
    (hN : ∀ a, (axisCells g.dims a : ℝ) ≤ N) {fuel : ℕ} {loc ret : Vec4 F} {minDist mult : F}
    (hret : flProject A fg fuel loc minDist mult = some (.value ret)) (hin : flEstimate A fg loc ≠ .empty)
    {p p' : Fin 3 → ℝ} (hfr : InFrame g.pose.R g.pose.t (fun a => val (fg.toGrid ret a)) p)
    {o : Fin 3 → ℤ} (ho : CellInGrid (axisCells g.dims) o) (hfo : filled (cellIdx o) = true) {x y : Vec ℝ}
    (hxy : InFrame g.pose.R g.pose.t x y) (hx : InClosedCell g.s o x) :
    kept minDist - (Real.sqrt 3 + 3 + N / 2 ^ 18 + 174120 * u * N ^ 2) * g.s - dist3 p p' < dist3 p' y := by
  obtain ⟨_, hc | ⟨d, hd, hlt⟩⟩ := C65_project _ _ hret
  · exact absurd hc.2 hin
  · have := (C86_clear_ball_float hg hs h hr hf hint hN hd hfr (p' := p') ho hxy hx).1 hfo
    rw [h.le] at hlt
    have hlt : kept minDist < kept d := by simpa using hlt
    linarith

end

/-! ### Arithmetic with fused products and sums -/

section
variable {r : ℝ → ℝ} {u η : ℝ}

theorem fused_real_sum (hu : 0 ≤ u) (hu' : 200 * u ≤ 1) (hη : 0 ≤ η) {a b k z : ℝ} (hk : |k - a| ≤ u * |a| + η)
    (hz : |z - (k + b)| ≤ u * |k + b| + η) : |z - (a + b)| ≤ 3 * u * (|a| + |b|) + 3 * η := by
  have h1 : |z - (a + b)| ≤ |z - (k + b)| + |k - a| := by
    have := abs_add_le (z - (k + b)) (k - a)
    rwa [show z - (k + b) + (k - a) = z - (a + b) by ring] at this
  have h2 : |k + b| ≤ |a| + |b| + (u * |a| + η) := by
    have e1 := abs_add_le (k - a) (a + b)
    rw [show k - a + (a + b) = k + b by ring] at e1
    have e2 := abs_add_le a b
    linarith
  have h3 := mul_le_mul_of_nonneg_left h2 hu
  have ha := abs_nonneg a
  have hb := abs_nonneg b
  have h4 : u * (u * |a| + η) ≤ 1 * (u * |a| + η) := mul_le_mul_of_nonneg_right (by linarith) (by positivity)
  have h5 : 0 ≤ u * |b| := by positivity
  nlinarith

/-- Fused arithmetic is right up to three times the rounding error. -/
theorem fusedQuery_fair (hr : ∀ x, |r x - x| ≤ u * |x| + η) (hu : 0 ≤ u) (hu' : 200 * u ≤ 1) (hη : 0 ≤ η) (left : Bool)
    (norm : (Fin 3 → FusedReal) → FusedReal)
    (interp : (Fin 3 → FusedReal) → (Fin 3 → FusedReal) → (Bool → Bool → Bool → FusedReal) → (Fin 3 → FusedReal) → FusedReal) :
    FairQuery (fusedQuery r left norm interp) Prod.fst (FusedReal.kept r) (3 * u) (3 * η) := by
  have store : ∀ x : FusedReal, |FusedReal.kept r x - x.1| ≤ u * |x.1| + η := by
    intro x
    unfold FusedReal.kept
    split_ifs
    · exact hr x.1
    · rw [sub_self, abs_zero]
      positivity
  have more : ∀ {a b : ℝ}, |a| ≤ u * |b| + η → |a| ≤ 3 * u * |b| + 3 * η := by
    intro a b h
    have := mul_nonneg hu (abs_nonneg b)
    linarith
  refine ⟨fun x => more (store x), fun _ _ => rfl, fun x i h => Option.some.inj h, ?_, rfl, rfl, fun i => more (hr i), ?_, ?_, ?_, ?_⟩
  · show FusedReal.kept r (0, false) = 0
    unfold FusedReal.kept
    rw [if_neg (by decide)]
  · intro x y
    cases left with
    | true =>
      have := fused_real_sum hu hu' hη (store y) (b := x.1) (hr _)
      show |r (x.1 + FusedReal.kept r y) - (x.1 + y.1)| ≤ _
      rw [add_comm x.1, add_comm x.1, add_comm |x.1|]
      exact this
    | false => exact fused_real_sum hu hu' hη (store x) (hr _)
  · intro x y
    cases left with
    | true =>
      have := fused_real_sum hu hu' hη (a := -y.1) (k := -FusedReal.kept r y) (b := x.1) (z := r (x.1 - FusedReal.kept r y))
        (by rw [abs_neg, show -FusedReal.kept r y - -y.1 = -(FusedReal.kept r y - y.1) by ring, abs_neg]; exact store y)
        (by rw [neg_add_eq_sub]; exact hr _)
      show |r (x.1 - FusedReal.kept r y) - (x.1 - y.1)| ≤ _
      rw [abs_neg, neg_add_eq_sub] at this
      linarith
    | false =>
      have := fused_real_sum hu hu' hη (store x) (b := -y.1) (z := r (FusedReal.kept r x - y.1)) (by rw [← sub_eq_add_neg]; exact hr _)
      show |r (FusedReal.kept r x - y.1) - (x.1 - y.1)| ≤ _
      rw [abs_neg, ← sub_eq_add_neg] at this
      exact this
  · intro x y
    show |FusedReal.kept r x * FusedReal.kept r y - FusedReal.kept r x * FusedReal.kept r y| ≤ _
    rw [sub_self, abs_zero]
    positivity
  · intro x y _
    exact more (hr _)

/-- IEEE arithmetic is such an arithmetic. -/
theorem roundedQuery_fair (hr : ∀ x, |r x - x| ≤ u * |x| + η) (hu : 0 ≤ u) (hη : 0 ≤ η) (norm : (Fin 3 → ℝ) → ℝ)
    (interp : (Fin 3 → ℝ) → (Fin 3 → ℝ) → (Bool → Bool → Bool → ℝ) → (Fin 3 → ℝ) → ℝ) : FairQuery (roundedQuery r norm interp) id id u η where
  store := fun x => by rw [sub_self, abs_zero]; positivity
  le := fun _ _ => rfl
  toInt := fun x i h => Option.some.inj h
  zero := rfl
  one := rfl
  half := rfl
  ofInt := fun i => hr i
  add := fun x y => (hr (x + y)).trans (by have := mul_le_mul_of_nonneg_left (abs_add_le x y) hu; simp only [id]; linarith)
  sub := fun x y => (hr (x - y)).trans (by have := mul_le_mul_of_nonneg_left (abs_sub x y) hu; simp only [id]; linarith)
  mul := fun x y => hr (x * y)
  div := fun x y _ => hr (x / y)

end

end VGT
